import Verif.Examples
import Verif.Proofs.Assertions

/-!
# C53: the checks of the feature `assertions`

Compiled with the feature `assertions`, each optimiser checks its cache before the search. Stated: on a
matrix with zero diagonal and non-negative entries and for medoids in range, the check passes, so that the
function with the check equals the function without it. The loss type is arbitrary (rounding or not) and the
medoids may even be listed twice.

The claim is true for the PAM family, `fastermsc` and `fastmsc`. It is false for `pammedsil_swap`,
`pammedsil` and `dynmsc` with two medoids: there the check itself reads `med[u32::MAX]` and panics. Proved
for those: equality unless there are two medoids, and the panic whenever there are two.
-/

set_option linter.unusedSectionVars false

namespace KMedoids

section checks

variable {N : Type} [LinearOrder N] [Zero N] [RDist N] [LawfulDist N]

/-- Medoid number `m` exists and its distance to object `o` is `x`. -/
def DistTo (d : Nat → Nat → N) (med : List Nat) (o m : Nat) (x : N) : Prop :=
  ∃ c, med[m]? = some c ∧ d o c = x

theorem foldRes_unit_iff {α : Type} (f : α → Res Unit) (xs : List α) :
    foldRes (fun (_ : Unit) x => f x) () xs = .ok () ↔ ∀ x ∈ xs, f x = .ok () := by
  induction xs with
  | nil => simp
  | cons x xs ih =>
    simp only [foldRes_cons, bind_eq_ok, ih, List.forall_mem_cons]
    exact ⟨fun ⟨_, h⟩ => h, fun h => ⟨(), h⟩⟩

theorem rassert_ok_iff {b : Bool} {msg : String} {u : Unit} : rassert b msg = .ok u ↔ b = true := by
  cases b <;> simp

theorem lookup_iff {mat : Mat N} {n : Nat} {d : Nat → Nat → N} (hm : IsMatrix mat n d) {med : List Nat}
    (hr : ∀ m ∈ med, m < n) {o : Nat} (ho : o < n) {i : Nat} {x : N} :
    (∃ c, med[i]? = some c ∧ ∃ y, mat.get o c = .ok y ∧ y = x) ↔ DistTo d med o i x := by
  constructor
  · rintro ⟨c, h1, y, h2, h3⟩
    rw [hm.get o c ho (hr c (List.mem_of_getElem? h1))] at h2
    exact ⟨c, h1, by injection h2 with h2; rw [h2, h3]⟩
  · rintro ⟨c, h1, h2⟩
    exact ⟨c, h1, _, hm.get o c ho (hr c (List.mem_of_getElem? h1)), h2⟩

/-- **C53, what is checked.** The check passes exactly if for every object the cached nearest and second
nearest medoid exist at the cached distances, the nearest not being farther than the second nearest. -/
theorem C53_check {mat : Mat N} {n : Nat} {d : Nat → Nat → N} (hm : IsMatrix mat n d) {med : List Nat}
    (hr : ∀ m ∈ med, m < n) (data : List (Rec N)) :
    debugAssertAssignment mat med data = .ok () ↔
      ∀ o < n, ∃ r, data[o]? = some r ∧ DistTo d med o r.near.i r.near.d ∧
        DistTo d med o r.seco.i r.seco.d ∧ r.near.d ≤ r.seco.d := by
  unfold debugAssertAssignment
  rw [foldRes_unit_iff, hm.len]
  simp only [List.mem_range]
  refine forall_congr' fun o => imp_congr_right fun ho => ?_
  unfold debugAssertRec
  simp only [bind_eq_ok, idx_ok, rassert_ok_iff, reqN, rleN, decide_eq_true_eq, exists_const]
  refine exists_congr fun r => and_congr_right fun _ => ?_
  rw [← lookup_iff hm hr ho (i := r.near.i), ← lookup_iff hm hr ho (i := r.seco.i)]
  constructor
  · rintro ⟨c, h1, y, h2, h3, c', h4, y', h5, h6, h7⟩
    exact ⟨⟨c, h1, y, h2, h3⟩, ⟨c', h4, y', h5, h6⟩, h7⟩
  · rintro ⟨⟨c, h1, y, h2, h3⟩, ⟨c', h4, y', h5, h6⟩, h7⟩
    exact ⟨c, h1, y, h2, h3, c', h4, y', h5, h6, h7⟩

/-- **C53, what is checked of the medoid silhouette caches.** As `C53_check`, with the third nearest. -/
theorem C53_check_th {mat : Mat N} {n : Nat} {d : Nat → Nat → N} (hm : IsMatrix mat n d) {med : List Nat}
    (hr : ∀ m ∈ med, m < n) (data : List (Reco N)) :
    debugAssertAssignmentTh mat med data = .ok () ↔
      ∀ o < n, ∃ r, data[o]? = some r ∧ DistTo d med o r.near.i r.near.d ∧
        DistTo d med o r.seco.i r.seco.d ∧ DistTo d med o r.third.i r.third.d ∧
        r.near.d ≤ r.seco.d ∧ r.seco.d ≤ r.third.d := by
  unfold debugAssertAssignmentTh
  rw [foldRes_unit_iff, hm.len]
  simp only [List.mem_range]
  refine forall_congr' fun o => imp_congr_right fun ho => ?_
  unfold debugAssertRecTh
  simp only [bind_eq_ok, idx_ok, rassert_ok_iff, reqN, rleN, decide_eq_true_eq, exists_const]
  refine exists_congr fun r => and_congr_right fun _ => ?_
  rw [← lookup_iff hm hr ho (i := r.near.i), ← lookup_iff hm hr ho (i := r.seco.i),
    ← lookup_iff hm hr ho (i := r.third.i)]
  constructor
  · rintro ⟨c, h1, y, h2, h3, c', h4, y', h5, h6, c'', h7, y'', h8, h9, h10⟩
    exact ⟨⟨c, h1, y, h2, h3⟩, ⟨c', h4, y', h5, h6⟩, ⟨c'', h7, y'', h8, h9⟩, h10⟩
  · rintro ⟨⟨c, h1, y, h2, h3⟩, ⟨c', h4, y', h5, h6⟩, ⟨c'', h7, y'', h8, h9⟩, h10⟩
    exact ⟨c, h1, y, h2, h3, c', h4, y', h5, h6, c'', h7, y'', h8, h9, h10⟩

end checks

section
variable {N L : Type} [LinearOrder N] [Zero N] [RDist N] [LawfulDist N] [RLoss L] [RFrom N L]
variable {mat : Mat N} {n : Nat} {d : Nat → Nat → N}

/-- **C53, rand_fasterpam.** -/
theorem C53_rand_fasterpam (hm : IsMatrix mat n d) (hd : Dissim n d) {med : List Nat}
    (hv : ValidMeds n med) (maxiter : Nat) (seq : List Nat) :
    randFasterpamA L mat med maxiter seq = randFasterpam L mat med maxiter seq := by
  unfold randFasterpamA randFasterpam
  split
  · rfl
  · have hk : 2 ≤ med.length := by have := hv.sizes.pos; omega
    simp only [initialAssignment_eq hm hv, ok_bind, debugAssertAssignment_ok hm hd hv hk]

/-- **C53, fasterpam.** -/
theorem C53_fasterpam (hm : IsMatrix mat n d) (hd : Dissim n d) {med : List Nat}
    (hv : ValidMeds n med) (maxiter : Nat) :
    fasterpamA L mat med maxiter = fasterpam L mat med maxiter := by
  unfold fasterpamA fasterpam
  split
  · rfl
  · have hk : 2 ≤ med.length := by have := hv.sizes.pos; omega
    simp only [initialAssignment_eq hm hv, ok_bind, debugAssertAssignment_ok hm hd hv hk]

/-- **C53, par_fasterpam**, for every schedule. -/
theorem C53_par_fasterpam (sc0 : Sched) (scF scS : Nat → Nat → Sched) (hm : IsMatrix mat n d)
    (hd : Dissim n d) {med : List Nat} (hv : ValidMeds n med) (maxiter : Nat) (seq : List Nat) :
    parFasterpamA L sc0 scF scS mat med maxiter seq = parFasterpam L sc0 scF scS mat med maxiter seq := by
  unfold parFasterpamA parFasterpam
  split
  · rfl
  · have hk : 2 ≤ med.length := by have := hv.sizes.pos; omega
    simp only [parInitialAssignment_any sc0 hm hv, ok_bind, debugAssertAssignment_ok hm hd hv hk]

/-- **C53, fastpam1.** -/
theorem C53_fastpam1 (hm : IsMatrix mat n d) (hd : Dissim n d) {med : List Nat}
    (hv : ValidMeds n med) (maxiter : Nat) :
    fastpam1A L mat med maxiter = fastpam1 L mat med maxiter := by
  unfold fastpam1A fastpam1
  split
  · rfl
  · have hk : 2 ≤ med.length := by have := hv.sizes.pos; omega
    simp only [initialAssignment_eq hm hv, ok_bind, debugAssertAssignment_ok hm hd hv hk]

theorem pamOptimizeA_eq (hm : IsMatrix mat n d) (hd : Dissim n d) {med : List Nat}
    (hv : ValidMeds n med) (maxiter : Nat) (loss : L) :
    pamOptimizeA mat med (initDataP d n med) maxiter loss = pamOptimize mat med (initDataP d n med) maxiter loss := by
  unfold pamOptimizeA pamOptimize
  split
  · rfl
  · have hk : 2 ≤ med.length := by have := hv.sizes.pos; omega
    simp only [ok_bind, debugAssertAssignment_ok hm hd hv hk]

/-- **C53, pam_swap.** -/
theorem C53_pam_swap (hm : IsMatrix mat n d) (hd : Dissim n d) {med : List Nat}
    (hv : ValidMeds n med) (maxiter : Nat) :
    pamSwapA L mat med maxiter = pamSwap L mat med maxiter := by
  unfold pamSwapA pamSwap
  simp only [initialAssignment_eq hm hv, ok_bind, pamOptimizeA_eq hm hd hv]

/-- **C53, pam.** The cache made by BUILD passes the check, whatever the arithmetic of the loss. -/
theorem C53_pam (hm : IsMatrix mat n d) (hd : Dissim n d) {k : Nat} (hs : Sizes n k) (maxiter : Nat) :
    pamA L mat k maxiter = pam L mat k maxiter := by
  obtain ⟨h1, h2, h3⟩ := pamBuildInitialize_eq (L := L) hm hs
  have hv : ValidMeds n (buildP L d n k).1 :=
    ⟨⟨h2.pos, le_trans h3 hs.le, hs.n_le, lt_of_le_of_lt h3 hs.k_lt⟩, h2.medRange⟩
  unfold pamA pam
  simp only [assertSizes_ok hm hs, ok_bind, h1, buildP_data hd hs, pamOptimizeA_eq hm hd hv]

/-- **C53, fastermsc.** -/
theorem C53_fastermsc (hm : IsMatrix mat n d) (hd : Dissim n d) {med : List Nat}
    (hv : ValidMeds n med) (maxiter : Nat) :
    fastermscA L mat med maxiter = fastermsc L mat med maxiter := by
  unfold fastermscA fastermsc
  split
  · rfl
  · split
    · rfl
    · have hk : 3 ≤ med.length := by have := hv.sizes.pos; omega
      simp only [mscInitialAssignment_eq hm hv, ok_bind, debugAssertAssignmentTh_ok hm hd hv hk]

/-- **C53, fastmsc.** -/
theorem C53_fastmsc (hm : IsMatrix mat n d) (hd : Dissim n d) {med : List Nat}
    (hv : ValidMeds n med) (maxiter : Nat) :
    fastmscA L mat med maxiter = fastmsc L mat med maxiter := by
  unfold fastmscA fastmsc
  split
  · rfl
  · split
    · rfl
    · have hk : 3 ≤ med.length := by have := hv.sizes.pos; omega
      simp only [mscInitialAssignment_eq hm hv, ok_bind, debugAssertAssignmentTh_ok hm hd hv hk]

theorem pammedsilOptimizeA_eq (hm : IsMatrix mat n d) (hd : Dissim n d) {med : List Nat}
    (hv : ValidMeds n med) (h2 : med.length ≠ 2) (maxiter : Nat) (loss : L) :
    pammedsilOptimizeA mat med (mscInitDataP d n med) maxiter loss =
      pammedsilOptimize mat med (mscInitDataP d n med) maxiter loss := by
  unfold pammedsilOptimizeA pammedsilOptimize
  split
  · rfl
  · have hk : 3 ≤ med.length := by have := hv.sizes.pos; omega
    simp only [ok_bind, debugAssertAssignmentTh_ok hm hd hv hk]

theorem pammedsilOptimizeA_two (hm : IsMatrix mat n d) (hd : Dissim n d) {med : List Nat}
    (hv : ValidMeds n med) (h2 : med.length = 2) (maxiter : Nat) (loss : L) :
    pammedsilOptimizeA mat med (mscInitDataP d n med) maxiter loss = .error .index := by
  unfold pammedsilOptimizeA
  rw [if_neg (by omega), debugAssertAssignmentTh_two hm hd hv h2]
  rfl

/-- **C53, pammedsil_swap, partial.** The full claim, equality for every number of medoids, is false:
`C53_pammedsil_swap_panics`. -/
theorem C53_pammedsil_swap_partial (hm : IsMatrix mat n d) (hd : Dissim n d) {med : List Nat}
    (hv : ValidMeds n med) (h2 : med.length ≠ 2) (maxiter : Nat) :
    pammedsilSwapA L mat med maxiter = pammedsilSwap L mat med maxiter := by
  unfold pammedsilSwapA pammedsilSwap
  simp only [mscInitialAssignment_eq hm hv, ok_bind, pammedsilOptimizeA_eq hm hd hv h2]

/-- **C53, pammedsil_swap with two medoids** panics with the feature `assertions`, on every input, although
it returns without the feature. -/
theorem C53_pammedsil_swap_panics [SaneZero L] (hm : IsMatrix mat n d) (hd : Dissim n d) {med : List Nat}
    (hv : ValidMeds n med) (h2 : med.length = 2) (maxiter : Nat) :
    pammedsilSwapA L mat med maxiter = .error .index ∧ ∃ r, pammedsilSwap L mat med maxiter = .ok r := by
  refine ⟨?_, _, pammedsilSwap_eq hm hv maxiter⟩
  unfold pammedsilSwapA
  simp only [mscInitialAssignment_eq hm hv, ok_bind, pammedsilOptimizeA_two hm hd hv h2]

/-- **C53, pammedsil, partial.** Equality unless BUILD delivers two medoids (which may happen for `k > 2`
too, as BUILD stops when no object improves). -/
theorem C53_pammedsil_partial [SaneZero L] (hm : IsMatrix mat n d) (hd : Dissim n d) {k : Nat}
    (hs : Sizes n k)
    (h2 : ∀ meds data loss, pammedsilBuildInitialize L mat k = .ok (meds, data, loss) → meds.length ≠ 2)
    (maxiter : Nat) : pammedsilA L mat k maxiter = pammedsil L mat k maxiter := by
  have h1 := (pmsBuild_eq (L := L) hm hs).1
  unfold pammedsilA pammedsil
  simp only [assertSizes_ok hm hs, ok_bind, h1, pmsBuildP_data hd,
    pammedsilOptimizeA_eq hm hd (pmsBuildP_valid hm hs) (h2 _ _ _ h1)]

/-- **C53, pammedsil** panics with the feature whenever BUILD delivers two medoids. -/
theorem C53_pammedsil_panics [SaneZero L] (hm : IsMatrix mat n d) (hd : Dissim n d) {k : Nat}
    (hs : Sizes n k) {meds : List Nat} {data : List (Reco N)} {loss : L}
    (hb : pammedsilBuildInitialize L mat k = .ok (meds, data, loss)) (h2 : meds.length = 2) (maxiter : Nat) :
    pammedsilA L mat k maxiter = .error .index ∧ ∃ r, pammedsil L mat k maxiter = .ok r := by
  refine ⟨?_, _, pammedsil_eq hm hs maxiter⟩
  have h1 := (pmsBuild_eq (L := L) hm hs).1
  have e : pmsBuildP L d n k = (meds, data, loss) := by rw [h1] at hb; injection hb
  unfold pammedsilA
  simp only [assertSizes_ok hm hs, ok_bind, h1, pmsBuildP_data hd]
  exact pammedsilOptimizeA_two hm hd (pmsBuildP_valid hm hs) (by rw [e]; exact h2) maxiter _

/-- **C53, dynmsc, partial.** The full claim, equality for every number of medoids, is false:
`C53_dynmsc_panics`. -/
theorem C53_dynmsc_partial (hm : IsMatrix mat n d) (hd : Dissim n d) {med : List Nat}
    (hv : ValidMeds n med) (h2 : med.length ≠ 2) (mink maxiter : Nat) :
    dynmscA L mat med mink maxiter = dynmsc L mat med mink maxiter := by
  unfold dynmscA dynmsc
  dsimp only
  split
  · rfl
  · have hk : 3 ≤ med.length := by have := hv.sizes.pos; omega
    simp only [mscInitialAssignment_eq hm hv, ok_bind, debugAssertAssignmentTh_ok hm hd hv hk]

/-- **C53, dynmsc started with two medoids** panics with the feature `assertions`, on every input. -/
theorem C53_dynmsc_panics (hm : IsMatrix mat n d) (hd : Dissim n d) {med : List Nat}
    (hv : ValidMeds n med) (h2 : med.length = 2) (mink maxiter : Nat) :
    dynmscA L mat med mink maxiter = .error .index := by
  unfold dynmscA
  dsimp only
  rw [if_neg (by omega)]
  simp only [mscInitialAssignment_eq hm hv, ok_bind, debugAssertAssignmentTh_two hm hd hv h2]
  rfl

end

/-! ## concrete cases -/

section examples

/-- non-vacuity: three medoids, the searches do work and the checks pass -/
example : fasterpamA ℤ exMat [1, 3, 2] 100 = fasterpam ℤ exMat [1, 3, 2] 100 ∧
    (fasterpam ℤ exMat [1, 3, 2] 100).toOption.map (·.nSwap) ≠ some 0 ∧
    fastermscA ℚ exMatQ [1, 0, 2] 100 = fastermsc ℚ exMatQ [1, 0, 2] 100 :=
  ⟨C53_fasterpam exMat_isMatrix exD_dissim (ex_valid (by decide) (by decide) (by decide)) 100,
    by decide +kernel,
    C53_fastermsc exMatQ_isMatrix exDQ_dissim (ex_valid (by decide) (by decide) (by decide)) 100⟩

example : pamA ℤ exMat 3 100 = pam ℤ exMat 3 100 ∧ dynmscA ℚ exMatQ [1, 3, 2] 2 100 = dynmsc ℚ exMatQ [1, 3, 2] 2 100 :=
  ⟨C53_pam exMat_isMatrix exD_dissim (ex_sizes (by decide) (by decide)) 100,
    C53_dynmsc_partial exMatQ_isMatrix exDQ_dissim (ex_valid (by decide) (by decide) (by decide)) (by decide) 2 100⟩

/-- the panic on a concrete call -/
example : pammedsilSwapA ℚ exMatQ [0, 3] 100 = .error .index ∧ dynmscA ℚ exMatQ [0, 3] 1 100 = .error .index :=
  ⟨(C53_pammedsil_swap_panics exMatQ_isMatrix exDQ_dissim (ex_valid (by decide) (by decide) (by decide)) rfl 100).1,
    C53_dynmsc_panics exMatQ_isMatrix exDQ_dissim (ex_valid (by decide) (by decide) (by decide)) rfl 1 100⟩

/-- The claim for all numbers of medoids is false. -/
theorem C53_pammedsil_swap_false : ¬ ∀ (mat : Mat ℚ) (n : Nat) (d : Nat → Nat → ℚ), IsMatrix mat n d →
    Dissim n d → ∀ med, ValidMeds n med → med.Nodup → ∀ maxiter,
    pammedsilSwapA ℚ mat med maxiter = pammedsilSwap ℚ mat med maxiter := by
  intro h
  have hv : ValidMeds 6 [0, 3] := ex_valid (by decide) (by decide) (by decide)
  have := h exMatQ 6 exDQ exMatQ_isMatrix exDQ_dissim [0, 3] hv (by decide) 100
  obtain ⟨h1, r, h2⟩ := C53_pammedsil_swap_panics (L := ℚ) exMatQ_isMatrix exDQ_dissim hv rfl 100
  rw [h1, h2] at this
  cases this

/-- The same for `pammedsil` with `k = 2`. -/
theorem C53_pammedsil_false : ¬ ∀ (mat : Mat ℚ) (n : Nat) (d : Nat → Nat → ℚ), IsMatrix mat n d →
    Dissim n d → ∀ k, Sizes n k → ∀ maxiter, pammedsilA ℚ mat k maxiter = pammedsil ℚ mat k maxiter := by
  intro h
  have hs : Sizes 6 2 := ex_sizes (by decide) (by decide)
  have := h exMatQ 6 exDQ exMatQ_isMatrix exDQ_dissim 2 hs 100
  have e : ((pammedsilBuildInitialize ℚ exMatQ 2).toOption.map fun x => x.1.length) = some 2 := by decide +kernel
  obtain ⟨r, hr⟩ : ∃ r, pammedsilBuildInitialize ℚ exMatQ 2 = .ok r :=
    ⟨_, (pmsBuild_eq (L := ℚ) exMatQ_isMatrix hs).1⟩
  rw [hr] at e
  obtain ⟨meds, data, loss⟩ := r
  obtain ⟨h1, r, h2⟩ := C53_pammedsil_panics (L := ℚ) exMatQ_isMatrix exDQ_dissim hs hr
    (by simpa [Except.toOption] using e) 100
  rw [h1, h2] at this
  cases this

/-- A matrix with a non-zero diagonal makes the check fire: the hypothesis `Dissim` is needed. -/
theorem C53_diagonal_needed :
    fasterpamA ℤ (ofRows [[0, 1], [1, 5]] : Mat ℕ) [0, 1] 10 =
      .error (.assertion "nearest is farther than second nearest") := by decide +kernel

end examples

end KMedoids
