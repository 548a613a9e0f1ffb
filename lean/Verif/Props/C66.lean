import Verif.Proofs.FloatLoss
import Verif.Props.C58

/-!
# C66: the reported loss is accurate in floating point

Floating point with unit roundoff `u` (`StdModel`; IEEE 754 arithmetic satisfies it, `Ieee.stdModel`). The loss reported by
FasterPAM, its parallel version and the alternating algorithm differs from the exact total deviation of the returned
medoids by a relative error of at most `(1 + u) ^ (n - 1) - 1`, however many exchanges were made.
-/

set_option linter.unusedSectionVars false
set_option linter.overlappingInstances false

namespace KMedoids

variable {N L K : Type} [LinearOrder N] [Zero N] [RDist N] [LawfulDist N] [RLoss L] [RFrom N L]
  [Field K] [LinearOrder K] [IsStrictOrderedRing K]
open RFrom (conv)

variable {fin : L → Prop} {val : L → K} {u B : K}

theorem devs_val (n : Nat) (d : Nat → Nat → N) (med : List Nat) :
    ((devs L n d med).map val).sum = exactDev N val n d med := by
  rw [devs, List.map_map]; rfl

/-- Any way to add up the deviations. -/
theorem appr_devs (M : FloatLoss N fin val u B) {n : Nat} {d : Nat → Nat → N} (hd : Dissim n d) {med : List Nat}
    (hne : med ≠ []) (hr : ∀ c ∈ med, c < n) {v : L} (h : BracketSum (devs L n d med) v)
    (hB : (1 + u) ^ (n - 1) * exactDev N val n d med ≤ B) :
    Appr fin val u (n - 1) (exactDev N val n d med) (exactDev N val n d med) v := by
  have hl : (devs L n d med).length = n := by simp [devs]
  have := h.appr M.std (fun x hx => ?_) (by rw [devs_val, hl]; exact hB)
  · rwa [devs_val, hl] at this
  · obtain ⟨o, ho, rfl⟩ := List.mem_map.mp hx
    exact ⟨M.conv_fin _, M.val_nonneg (minDist_nonneg hd hne hr (List.mem_range.mp ho))⟩

/-- The sum for a single medoid. -/
theorem appr_rowSum (M : FloatLoss N fin val u B) {n : Nat} {d : Nat → Nat → N} (hd : Dissim n d) (hs : Symm n d)
    {c : Nat} (hc : c < n) (hB : (1 + u) ^ (n - 1) * exactDev N val n d [c] ≤ B) :
    Appr fin val u (n - 1) (exactDev N val n d [c]) (exactDev N val n d [c]) (rowSum L n d c) := by
  have hx : ∀ o, o < n → 0 ≤ val (conv (d c o) : L) := fun o ho => M.val_nonneg (hd.nonneg c o hc ho)
  have hsum : ((((List.range n).filter (· ≠ c)).map fun o => val (conv (d c o) : L))).sum = exactDev N val n d [c] := by
    have h1 : ∀ l : List Nat, (∀ o ∈ l, o < n) →
        (((l.filter (· ≠ c)).map fun o => val (conv (d c o) : L))).sum =
          (l.map fun o => val (conv (minDist d o [c]) : L)).sum := by
      intro l
      induction l with
      | nil => intro _; rfl
      | cons o l ih =>
        intro hl
        have ho := hl o (by simp)
        have hmd : minDist d o [c] = d o c := rfl
        rw [List.map_cons, List.sum_cons, ← ih fun o h => hl o (by simp [h]), hmd]
        by_cases h : o = c
        · subst h
          rw [List.filter_cons_of_neg (by simp), hd.diag o hc, M.conv_zero, M.std.zero, zero_add]
        · rw [List.filter_cons_of_pos (by simpa using h), List.map_cons, List.sum_cons, hs c o hc ho]
    exact h1 _ fun o ho => List.mem_range.mp ho
  have hlen : ((List.range n).filter (· ≠ c)).length = n - 1 := by
    have h1 : (List.range n).filter (· ≠ c) = (List.range n).erase c := by
      rw [List.nodup_range.erase_eq_filter]
      exact List.filter_congr fun x _ => by by_cases h : x = c <;> simp [h]
    rw [h1, List.length_erase_of_mem (List.mem_range.mpr hc), List.length_range]
  have hb : BracketSum ((RLoss.zero : L) :: ((List.range n).filter (· ≠ c)).map fun o => (conv (d c o) : L))
      (rowSum L n d c) := by
    have := leftSum_bracket (L := L)
      (xs := RLoss.zero :: ((List.range n).filter (· ≠ c)).map fun o => (conv (d c o) : L)) (by simp)
    rwa [leftSum, List.foldl_map] at this
  have hval : ((RLoss.zero : L) :: ((List.range n).filter (· ≠ c)).map fun o => (conv (d c o) : L)).map val =
      0 :: ((List.range n).filter (· ≠ c)).map fun o => val (conv (d c o) : L) := by
    rw [List.map_cons, M.std.zero, List.map_map]; rfl
  have := hb.appr M.std (fun x hx' => ?_) (by
    rw [hval, List.sum_cons, zero_add, hsum, List.length_cons, List.length_map, hlen, Nat.add_sub_cancel]; exact hB)
  · rwa [hval, List.sum_cons, zero_add, hsum, List.length_cons, List.length_map, hlen, Nat.add_sub_cancel] at this
  · rcases List.mem_cons.mp hx' with rfl | hx'
    · exact ⟨M.std.zero_fin, M.std.zero.ge⟩
    · obtain ⟨o, ho, rfl⟩ := List.mem_map.mp hx'
      exact ⟨M.conv_fin _, hx o (List.mem_range.mp (List.mem_filter.mp ho).1)⟩

/-- The reported number `loss` is finite and within relative error `(1 + u) ^ (n - 1) - 1` of the exact total deviation. -/
def Accurate (fin : L → Prop) (val : L → K) (u : K) (n : Nat) (d : Nat → Nat → N) (med : List Nat) (loss : L) : Prop :=
  fin loss ∧ |val loss - exactDev N val n d med| ≤ ((1 + u) ^ (n - 1) - 1) * exactDev N val n d med

theorem accurate_recomputed (M : FloatLoss N fin val u B) {n : Nat} {d : Nat → Nat → N} (hd : Dissim n d)
    {med : List Nat} (hne : med ≠ []) (hr : ∀ c ∈ med, c < n) (hs : med.length = 1 → Symm n d)
    (hB : (1 + u) ^ (n - 1) * exactDev N val n d med ≤ B) :
    Accurate fin val u n d med (recomputed L n d med) := by
  match med, hne, hr, hs, hB with
  | [c], _, hr, hs, hB =>
    have h := appr_rowSum M hd (hs rfl) (hr c (by simp)) hB
    exact ⟨h.fin, h.err⟩
  | a :: b :: t, hne, hr, _, hB =>
    have hn : devs L n d (a :: b :: t) ≠ [] := by
      have : a < n := hr a (by simp)
      apply List.ne_nil_of_length_pos
      simp only [devs, List.length_map, List.length_range]; omega
    have h := appr_devs M hd hne hr (leftSum_bracket hn) hB
    exact ⟨h.fin, h.err⟩

/-- **C66, rand_fasterpam**, for every visiting order and iteration limit. -/
theorem C66_rand_fasterpam (M : FloatLoss N fin val u B) {mat : Mat N} {n : Nat} {d : Nat → Nat → N}
    (hm : IsMatrix mat n d) (hd : Dissim n d) {med : List Nat} (hv : ValidMeds n med) (hnd : med.Nodup)
    (hs : med.length = 1 → Symm n d) (maxiter : Nat) {seq : List Nat} (hseq : ∀ j ∈ seq, j < n) {r : SwapResult L}
    (hr : randFasterpam L mat med maxiter seq = .ok r) (hB : (1 + u) ^ (n - 1) * exactDev N val n d r.med ≤ B) :
    Accurate fin val u n d r.med r.loss := by
  rw [C58_rand_fasterpam M.conv_zero hm hd hv hnd maxiter hseq hr]
  obtain ⟨r', hr', hw⟩ := C04_rand_fasterpam (L := L) hm hv maxiter hseq
  rw [hr] at hr'; cases hr'
  have hl : r.med.length = med.length := hw.medLen
  exact accurate_recomputed M hd (List.ne_nil_of_length_pos (by rw [hl]; exact hv.sizes.pos)) hw.medRange
    (fun h => hs (hl ▸ h)) hB

/-- **C66, fasterpam.** -/
theorem C66_fasterpam (M : FloatLoss N fin val u B) {mat : Mat N} {n : Nat} {d : Nat → Nat → N}
    (hm : IsMatrix mat n d) (hd : Dissim n d) {med : List Nat} (hv : ValidMeds n med) (hnd : med.Nodup)
    (hs : med.length = 1 → Symm n d) (maxiter : Nat) {r : SwapResult L}
    (hr : fasterpam L mat med maxiter = .ok r) (hB : (1 + u) ^ (n - 1) * exactDev N val n d r.med ≤ B) :
    Accurate fin val u n d r.med r.loss := by
  rw [fasterpam_eq_rand, hm.len] at hr
  exact C66_rand_fasterpam M hm hd hv hnd hs maxiter (fun j hj => List.mem_range.mp hj) hr hB

/-- **C66, par_fasterpam**, for every schedule of the workers and shape of the reductions. -/
theorem C66_par_fasterpam (M : FloatLoss N fin val u B) (sc0 : Sched) (scF scS : Nat → Nat → Sched) {mat : Mat N}
    {n : Nat} {d : Nat → Nat → N} (hm : IsMatrix mat n d) (hd : Dissim n d) {med : List Nat} (hv : ValidMeds n med)
    (hnd : med.Nodup) (hk : 2 ≤ med.length) (maxiter : Nat) {seq : List Nat} (hseq : ∀ j ∈ seq, j < n)
    {r : SwapResult L} (hr : parFasterpam L sc0 scF scS mat med maxiter seq = .ok r)
    (hB : (1 + u) ^ (n - 1) * exactDev N val n d r.med ≤ B) : Accurate fin val u n d r.med r.loss := by
  have hb := C58_par_fasterpam M.conv_zero sc0 scF scS hm hd hv hnd hk maxiter hseq hr
  obtain ⟨h1, h2, h3⟩ := parFasterpam_any (L := L) sc0 scF scS hm hv maxiter hseq
  have hsh := (h2 hk).shape
  rw [h1, h3 hk] at hr
  cases hr
  have h := appr_devs M hd (List.ne_nil_of_length_pos (by
    show 0 < List.length _
    rw [hsh.medLen]; exact hv.sizes.pos)) hsh.medRange hb hB
  exact ⟨h.fin, h.err⟩

/-- **C66, alternating.** -/
theorem C66_alternating (M : FloatLoss N fin val u B) {mat : Mat N} {n : Nat} {d : Nat → Nat → N}
    (hm : IsMatrix mat n d) (hd : Dissim n d) {med : List Nat} (hv : ValidMeds n med) (hnd : med.Nodup) (maxiter : Nat)
    {r : AltResult L} (hr : alternating L mat med maxiter = .ok r)
    (hB : (1 + u) ^ (n - 1) * exactDev N val n d r.med ≤ B) : Accurate fin val u n d r.med r.loss := by
  rw [C58_alternating hm hd hv hnd maxiter hr]
  obtain ⟨r', hr', hw⟩ := C04_alternating (L := L) hm hv maxiter
  rw [hr] at hr'; cases hr'
  have hl : r.med.length = med.length := hw.medLen
  have hne : r.med ≠ [] := List.ne_nil_of_length_pos (by rw [hl]; exact hv.sizes.pos)
  have hn : devs L n d r.med ≠ [] := by
    apply List.ne_nil_of_length_pos
    have := hv.sizes.le; have := hv.sizes.pos
    simp only [devs, List.length_map, List.length_range]; omega
  have h := appr_devs M hd hne hw.medRange (leftSum_bracket hn) hB
  exact ⟨h.fin, h.err⟩

/-! ## Non-vacuity: `f64` -/

instance : Inhabited (Finite binary64) := ⟨0⟩

/-- Tenths, as `f64`. -/
def tenths (rows : List (List ℕ)) : List (List (Finite binary64)) := rows.map (·.map fun x => .ofRat binary64 (x / 10))

def tenthRows : List (List ℕ) :=
  [[0, 3, 7, 12, 23], [3, 0, 4, 9, 20], [7, 4, 0, 5, 16], [12, 9, 5, 0, 11], [23, 20, 16, 11, 0]]

def tenthD (x y : Nat) : Finite binary64 := .ofRat binary64 (((tenthRows.getD x []).getD y 0 : ℕ) / 10)

theorem tenth_isMatrix : IsMatrix (ofRows (tenths tenthRows)) 5 tenthD := by
  refine ⟨rfl, rfl, fun x y hx hy => ?_⟩
  match x, hx, y, hy with
  | 0, _, 0, _ | 0, _, 1, _ | 0, _, 2, _ | 0, _, 3, _ | 0, _, 4, _ => rfl
  | 1, _, 0, _ | 1, _, 1, _ | 1, _, 2, _ | 1, _, 3, _ | 1, _, 4, _ => rfl
  | 2, _, 0, _ | 2, _, 1, _ | 2, _, 2, _ | 2, _, 3, _ | 2, _, 4, _ => rfl
  | 3, _, 0, _ | 3, _, 1, _ | 3, _, 2, _ | 3, _, 3, _ | 3, _, 4, _ => rfl
  | 4, _, 0, _ | 4, _, 1, _ | 4, _, 2, _ | 4, _, 3, _ | 4, _, 4, _ => rfl

theorem tenth_dissim : Dissim 5 tenthD := by
  refine ⟨fun x hx => ?_, fun x y hx hy => ?_⟩
  · have : ∀ x < 5, tenthD x x = 0 := by decide +kernel
    exact this x hx
  · have : ∀ x < 5, ∀ y < 5, 0 ≤ tenthD x y := by decide +kernel
    exact this x hx y hy

/-- A run of `fasterpam` in `f64` whose loss is rounded, and the theorem applied to it. -/
example : ∃ r, fasterpam (Ieee binary64) (ofRows (tenths tenthRows)) [0, 1] 9 = .ok r ∧ r.med = [4, 1] ∧
    Ieee.val r.loss ≠ exactDev (L := Ieee binary64) (Finite binary64) Ieee.val 5 tenthD r.med ∧
    Accurate Ieee.Fin Ieee.val (1 / 2 ^ 53) 5 tenthD r.med r.loss := by
  have hr : fasterpam (Ieee binary64) (ofRows (tenths tenthRows)) [0, 1] 9 =
      .ok ⟨.num (3602879701896397 / 2251799813685248), [1, 1, 1, 1, 0], 2, 3, [4, 1]⟩ := by decide +kernel
  exact ⟨_, hr, rfl, by decide +kernel, C66_fasterpam (ieee_floatLoss binary64) tenth_isMatrix tenth_dissim
    ⟨⟨by decide, by decide, by decide, by decide⟩, by decide⟩ (by decide) (fun h => by cases h) 9 hr (by decide +kernel)⟩

/-- Likewise for `alternating`. -/
example : ∃ r, alternating (Ieee binary64) (ofRows (tenths tenthRows)) [0, 1] 9 = .ok r ∧ r.med = [0, 3] ∧
    Accurate Ieee.Fin Ieee.val (1 / 2 ^ 53) 5 tenthD r.med r.loss := by
  have hr : alternating (Ieee binary64) (ofRows (tenths tenthRows)) [0, 1] 9 =
      .ok ⟨.num (8556839292003943 / 4503599627370496), [0, 0, 1, 1, 1], 3, [0, 3]⟩ := by decide +kernel
  exact ⟨_, hr, rfl, C66_alternating (ieee_floatLoss binary64) tenth_isMatrix tenth_dissim
    ⟨⟨by decide, by decide, by decide, by decide⟩, by decide⟩ (by decide) 9 hr (by decide +kernel)⟩

/-- With `u = 0` the statement is false for `f64`: the error is real. -/
example : ∃ r, fasterpam (Ieee binary64) (ofRows (tenths tenthRows)) [0, 1] 9 = .ok r ∧
    ¬ Accurate Ieee.Fin Ieee.val 0 5 tenthD r.med r.loss := by
  have hr : fasterpam (Ieee binary64) (ofRows (tenths tenthRows)) [0, 1] 9 =
      .ok ⟨.num (3602879701896397 / 2251799813685248), [1, 1, 1, 1, 0], 2, 3, [4, 1]⟩ := by decide +kernel
  refine ⟨_, hr, fun h => ?_⟩
  have h2 := h.2
  revert h2
  decide +kernel

/-- Without the bound against overflow the statement is false: three distances of `2 ^ 1023` add up to infinity. -/
example : ∃ r, fasterpam (Ieee binary64) (ofRows (([[0, 1, 1, 1], [1, 0, 1, 1], [1, 1, 0, 1], [1, 1, 1, 0]] :
    List (List ℕ)).map (·.map fun x => Finite.ofRat binary64 (x * 2 ^ 1023)))) [0, 1] 9 = .ok r ∧ ¬ Ieee.Fin r.loss := by
  have hr : fasterpam (Ieee binary64) (ofRows (([[0, 1, 1, 1], [1, 0, 1, 1], [1, 1, 0, 1], [1, 1, 1, 0]] :
    List (List ℕ)).map (·.map fun x => Finite.ofRat binary64 (x * 2 ^ 1023)))) [0, 1] 9 =
      .ok ⟨.inf, [0, 1, 0, 0], 1, 0, [0, 1]⟩ := by decide +kernel
  exact ⟨_, hr, fun ⟨_, h, _⟩ => by cases h⟩

end KMedoids
