import Verif.Props.C53
import Verif.Model.Repaired5

/-!
# C124: a repaired consistency check

C53 is false for `pammedsil_swap`, `pammedsil` and `dynmsc`: with two medoids the check itself panics. Proved here: if the third nearest
medoid is checked only if there are three medoids, C53 holds for all functions with that check and any number of medoids, and the check
still notices everything the old one does. On what it lets pass see `C124_check`.
-/

set_option linter.unusedSectionVars false

namespace KMedoids

section checks
variable {N : Type} [LinearOrder N] [Zero N] [RDist N] [LawfulDist N]

/-- **C124, what is checked:** the nearest and second nearest medoid exist, their distances are right and in order; if there are three
medoids, the same for the third. -/
theorem C124_check {mat : Mat N} {n : Nat} {d : Nat → Nat → N} (hm : IsMatrix mat n d) {med : List Nat}
    (hr : ∀ m ∈ med, m < n) (data : List (Reco N)) :
    fixAssertAssignmentTh mat med data = .ok () ↔
      ∀ o < n, ∃ r, data[o]? = some r ∧ DistTo d med o r.near.i r.near.d ∧ DistTo d med o r.seco.i r.seco.d ∧
        r.near.d ≤ r.seco.d ∧ (3 ≤ med.length → DistTo d med o r.third.i r.third.d ∧ r.seco.d ≤ r.third.d) := by
  unfold fixAssertAssignmentTh
  rw [foldRes_unit_iff, hm.len]
  simp only [List.mem_range]
  refine forall_congr' fun o => imp_congr_right fun ho => ?_
  unfold fixAssertRecTh
  by_cases h3 : 3 ≤ med.length
  · simp only [if_pos (show 2 < med.length from h3), bind_eq_ok, idx_ok, rassert_ok_iff, reqN, rleN, decide_eq_true_eq, exists_const]
    refine exists_congr fun r => and_congr_right fun _ => ?_
    rw [← lookup_iff hm hr ho (i := r.near.i), ← lookup_iff hm hr ho (i := r.seco.i), ← lookup_iff hm hr ho (i := r.third.i)]
    constructor
    · rintro ⟨c, h1, y, h2, h3, c', h4, y', h5, h6, h6', c'', h7, y'', h8, h9, h10⟩
      exact ⟨⟨c, h1, y, h2, h3⟩, ⟨c', h4, y', h5, h6⟩, h6', fun _ => ⟨⟨c'', h7, y'', h8, h9⟩, h10⟩⟩
    · rintro ⟨⟨c, h1, y, h2, h3'⟩, ⟨c', h4, y', h5, h6⟩, h6', h⟩
      obtain ⟨⟨c'', h7, y'', h8, h9⟩, h10⟩ := h h3
      exact ⟨c, h1, y, h2, h3', c', h4, y', h5, h6, h6', c'', h7, y'', h8, h9, h10⟩
  · simp only [if_neg (show ¬ 2 < med.length by omega), bind_eq_ok, idx_ok, rassert_ok_iff, reqN, rleN, decide_eq_true_eq,
      exists_const]
    refine exists_congr fun r => and_congr_right fun _ => ?_
    rw [← lookup_iff hm hr ho (i := r.near.i), ← lookup_iff hm hr ho (i := r.seco.i)]
    constructor
    · rintro ⟨c, h1, y, h2, h3', c', h4, y', h5, h6, h6', -⟩
      exact ⟨⟨c, h1, y, h2, h3'⟩, ⟨c', h4, y', h5, h6⟩, h6', fun h => absurd h h3⟩
    · rintro ⟨⟨c, h1, y, h2, h3'⟩, ⟨c', h4, y', h5, h6⟩, h6', -⟩
      exact ⟨c, h1, y, h2, h3', c', h4, y', h5, h6, h6', trivial⟩

/-- **C124, nothing is lost:** with three or more medoids the repaired check accepts exactly what the check of the code accepts. -/
theorem C124_same {mat : Mat N} {n : Nat} {d : Nat → Nat → N} (hm : IsMatrix mat n d) {med : List Nat}
    (hr : ∀ m ∈ med, m < n) (h3 : 3 ≤ med.length) (data : List (Reco N)) :
    fixAssertAssignmentTh mat med data = .ok () ↔ debugAssertAssignmentTh mat med data = .ok () := by
  rw [C124_check hm hr, C53_check_th hm hr]
  refine forall_congr' fun o => imp_congr_right fun _ => exists_congr fun r => and_congr_right fun _ => ?_
  constructor
  · rintro ⟨h1, h2, h4, h⟩; exact ⟨h1, h2, (h h3).1, h4, (h h3).2⟩
  · rintro ⟨h1, h2, h4, h5, h6⟩; exact ⟨h1, h2, h5, fun _ => ⟨h4, h6⟩⟩

theorem fixAssertAssignmentTh_ok {mat : Mat N} {n : Nat} {d : Nat → Nat → N} (hm : IsMatrix mat n d)
    (hd : Dissim n d) {med : List Nat} (hv : ValidMeds n med) (hk : 2 ≤ med.length) :
    fixAssertAssignmentTh mat med (mscInitDataP d n med) = .ok () := by
  rw [C124_check hm hv.range]
  intro o ho
  have h := mscInitRecP_top3 hd hv hk ho
  have key : ∀ {i : Nat} {x : N}, i < med.length → medDist d med o i = x → DistTo d med o i x := by
    intro i x hi hx
    refine ⟨med[i], List.getElem?_eq_getElem hi, ?_⟩
    rw [← hx]
    simp [medDist, hi]
  refine ⟨mscInitRecP d med o, by simp [mscInitDataP, ho], key h.near_lt h.near_d, key h.seco_lt h.seco_d, h.le, fun h3 => ?_⟩
  obtain ⟨t1, t2, -, -, t3, -⟩ : _ := h.third.resolve_right (by omega)
  exact ⟨key t1 t2, t3⟩

end checks

section
variable {N L : Type} [LinearOrder N] [Zero N] [RDist N] [LawfulDist N] [RLoss L] [RFrom N L]
variable {mat : Mat N} {n : Nat} {d : Nat → Nat → N}

theorem C124_fastermsc (hm : IsMatrix mat n d) (hd : Dissim n d) {med : List Nat} (hv : ValidMeds n med) (maxiter : Nat) :
    fastermscAFixed L mat med maxiter = fastermsc L mat med maxiter := by
  unfold fastermscAFixed fastermsc
  split
  · rfl
  · split
    · rfl
    · have hk : 2 ≤ med.length := by have := hv.sizes.pos; omega
      simp only [mscInitialAssignment_eq hm hv, ok_bind, fixAssertAssignmentTh_ok hm hd hv hk]

theorem C124_fastmsc (hm : IsMatrix mat n d) (hd : Dissim n d) {med : List Nat} (hv : ValidMeds n med) (maxiter : Nat) :
    fastmscAFixed L mat med maxiter = fastmsc L mat med maxiter := by
  unfold fastmscAFixed fastmsc
  split
  · rfl
  · split
    · rfl
    · have hk : 2 ≤ med.length := by have := hv.sizes.pos; omega
      simp only [mscInitialAssignment_eq hm hv, ok_bind, fixAssertAssignmentTh_ok hm hd hv hk]

theorem pammedsilOptimizeAFixed_eq (hm : IsMatrix mat n d) (hd : Dissim n d) {med : List Nat}
    (hv : ValidMeds n med) (maxiter : Nat) (loss : L) :
    pammedsilOptimizeAFixed mat med (mscInitDataP d n med) maxiter loss =
      pammedsilOptimize mat med (mscInitDataP d n med) maxiter loss := by
  unfold pammedsilOptimizeAFixed pammedsilOptimize
  split
  · rfl
  · have hk : 2 ≤ med.length := by have := hv.sizes.pos; omega
    simp only [ok_bind, fixAssertAssignmentTh_ok hm hd hv hk]

/-- **C124, pammedsil_swap:** the full C53, for any number of medoids. -/
theorem C124_pammedsil_swap (hm : IsMatrix mat n d) (hd : Dissim n d) {med : List Nat} (hv : ValidMeds n med) (maxiter : Nat) :
    pammedsilSwapAFixed L mat med maxiter = pammedsilSwap L mat med maxiter := by
  unfold pammedsilSwapAFixed pammedsilSwap
  simp only [mscInitialAssignment_eq hm hv, ok_bind, pammedsilOptimizeAFixed_eq hm hd hv]

/-- **C124, pammedsil.** -/
theorem C124_pammedsil [SaneZero L] (hm : IsMatrix mat n d) (hd : Dissim n d) {k : Nat} (hs : Sizes n k) (maxiter : Nat) :
    pammedsilAFixed L mat k maxiter = pammedsil L mat k maxiter := by
  have h1 := (pmsBuild_eq (L := L) hm hs).1
  unfold pammedsilAFixed pammedsil
  simp only [assertSizes_ok hm hs, ok_bind, h1, pmsBuildP_data hd, pammedsilOptimizeAFixed_eq hm hd (pmsBuildP_valid hm hs)]

/-- **C124, dynmsc.** -/
theorem C124_dynmsc (hm : IsMatrix mat n d) (hd : Dissim n d) {med : List Nat} (hv : ValidMeds n med) (mink maxiter : Nat) :
    dynmscAFixed L mat med mink maxiter = dynmsc L mat med mink maxiter := by
  unfold dynmscAFixed dynmsc
  dsimp only
  split
  · rfl
  · have hk : 2 ≤ med.length := by have := hv.sizes.pos; omega
    simp only [mscInitialAssignment_eq hm hv, ok_bind, fixAssertAssignmentTh_ok hm hd hv hk]

end

/-- The calls that panic in C53. -/
example : pammedsilSwapAFixed ℚ exMatQ [0, 3] 100 = pammedsilSwap ℚ exMatQ [0, 3] 100 ∧
    pammedsilAFixed ℚ exMatQ 2 100 = pammedsil ℚ exMatQ 2 100 ∧
    dynmscAFixed ℚ exMatQ [0, 3] 1 100 = dynmsc ℚ exMatQ [0, 3] 1 100 ∧
    pammedsilSwapA ℚ exMatQ [0, 3] 100 = .error .index ∧ (∃ r, pammedsilSwap ℚ exMatQ [0, 3] 100 = .ok r) :=
  have hv : ValidMeds 6 [0, 3] := ex_valid (by decide) (by decide) (by decide)
  ⟨C124_pammedsil_swap exMatQ_isMatrix exDQ_dissim hv 100, C124_pammedsil exMatQ_isMatrix exDQ_dissim (ex_sizes (by decide) (by decide)) 100,
    C124_dynmsc exMatQ_isMatrix exDQ_dissim hv 1 100, C53_pammedsil_swap_panics exMatQ_isMatrix exDQ_dissim hv rfl 100⟩

/-- The check is not empty: with two medoids it notices a wrong distance, and medoids that are the wrong way round. -/
example : fixAssertAssignmentTh (ofRows [[0, 1], [1, 0]] : Mat ℕ) [0, 1]
      [⟨⟨0, 0⟩, ⟨1, 1⟩, ⟨u32Max, 0⟩⟩, ⟨⟨1, 0⟩, ⟨0, 7⟩, ⟨u32Max, 0⟩⟩] = .error (.assertion "secondary assignment inconsistent") ∧
    fixAssertAssignmentTh (ofRows [[0, 1], [1, 0]] : Mat ℕ) [0, 1]
      [⟨⟨0, 0⟩, ⟨1, 1⟩, ⟨u32Max, 0⟩⟩, ⟨⟨0, 1⟩, ⟨1, 0⟩, ⟨u32Max, 0⟩⟩] =
      .error (.assertion "nearest is farther than second nearest") := by decide +kernel

/-- The hypotheses of `C124_same`, for a cache that passes and one that does not. -/
example : (fixAssertAssignmentTh exMatQ [1, 3, 2] (mscInitDataP exDQ 6 [1, 3, 2]) = .ok () ↔
      debugAssertAssignmentTh exMatQ [1, 3, 2] (mscInitDataP exDQ 6 [1, 3, 2]) = .ok ()) ∧
    fixAssertAssignmentTh exMatQ [1, 3, 2] (mscInitDataP exDQ 6 [1, 3, 2]) = .ok () ∧
    fixAssertAssignmentTh exMatQ [1, 3, 2] (mscInitDataP exDQ 6 [1, 2, 3]) ≠ .ok () :=
  have hv : ValidMeds 6 [1, 3, 2] := ex_valid (by decide) (by decide) (by decide)
  ⟨C124_same exMatQ_isMatrix hv.range (by decide) _, fixAssertAssignmentTh_ok exMatQ_isMatrix exDQ_dissim hv (by decide),
    by decide +kernel⟩

end KMedoids
