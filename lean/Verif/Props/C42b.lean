import Verif.Proofs.PamSilDup
import Verif.Props.C39_C43

/-!
# C42, continued: which medoids of PAMSIL can be repeated

`C42_pamsil_swap_negation` shows that PAMSIL can return the same medoid twice. Here: this concerns only the objects
`0, …, k-1`. Every other object occurs at most once, however many exchanges were made. The bound is sharp. And there is no
repetition at all as long as object 0 is no medoid.
-/

set_option linter.unusedSectionVars false

namespace KMedoids

open RFrom (conv)

section dist
variable {N L : Type} [LinearOrder N] [Zero N] [RDist N] [LawfulDist N] [RLoss L] [RFrom N L]

/-- **C42, `pamsil_swap`, part:** with `k` medoids, an object with number `k` or larger occurs at most once among the returned
medoids. Any arithmetic of the losses, any number of exchanges. -/
theorem C42_pamsil_swap_high_partial {mat : Mat N} {n : Nat} {d : Nat → Nat → N} (hm : IsMatrix mat n d)
    (hd : Dissim n d) {med : List Nat} (hv : ValidMeds n med) (hnd : med.Nodup) {maxiter : Nat}
    {r : SwapResult L} (hr : pamsilSwap L mat med maxiter = .ok r) {c : Nat} (hc : med.length ≤ c) :
    r.med.count c ≤ 1 := by
  rw [pamsilSwap_eq hm hv] at hr
  by_cases hk : 2 ≤ med.length
  · obtain ⟨g1, -⟩ := pamsilOptP_loop hk hr
    exact psLoopP_high hd hv rfl (nearAssiP_length _ _ _) (nearAssiP_label d hv.sizes.pos) hc
      (List.nodup_iff_count.mp hnd c) g1
  · have h1 : med.length = 1 := by have := hv.sizes.pos; omega
    unfold pamsilOptP at hr
    rw [if_pos h1] at hr
    cases hr
    exact List.nodup_iff_count.mp (by simp) c

/-- **C42, `pamsil_swap`, part:** if no run with a smaller iteration limit ends with object 0 as a medoid, the medoids are
distinct. -/
theorem C42_pamsil_swap_zero_partial {mat : Mat N} {n : Nat} {d : Nat → Nat → N} (hm : IsMatrix mat n d)
    (hd : Dissim n d) {med : List Nat} (hv : ValidMeds n med) (hnd : med.Nodup) {maxiter : Nat}
    (h0 : ∀ t < maxiter, ∀ r : SwapResult L, pamsilSwap L mat med t = .ok r → 0 ∉ r.med)
    {r : SwapResult L} (hr : pamsilSwap L mat med maxiter = .ok r) : r.med.Nodup := by
  rw [pamsilSwap_eq hm hv] at hr
  by_cases hk : 2 ≤ med.length
  · obtain ⟨g1, -⟩ := pamsilOptP_loop hk hr
    refine psLoopP_zero hd hv rfl (nearAssiP_length _ _ _) (nearAssiP_label d hv.sizes.pos) hnd (fun t ht q hq => ?_) g1
    refine h0 t ht ⟨q.1, nearAssiP d n q.2.1, q.2.2.1, q.2.2.2, q.2.1⟩ ?_
    rw [pamsilSwap_eq hm hv, pamsilOptP, if_neg (by omega), hq]
    rfl
  · have h1 : med.length = 1 := by have := hv.sizes.pos; omega
    unfold pamsilOptP at hr
    rw [if_pos h1] at hr
    cases hr; simp

end dist

section exactLoss
variable {N L : Type} [LinearOrder N] [Zero N] [RDist N] [LawfulDist N]
variable [AddCommGroup L] [LinearOrder L] [IsOrderedAddMonoid L] [RLoss L] [LawfulLoss L]
variable [RFrom N L] [LawfulFrom N L]

/-- **C42, `pamsil`, part:** an object with number `k` or larger occurs at most once among the medoids that `pamsil` returns. -/
theorem C42_pamsil_high_partial {mat : Mat N} {n k : Nat} {d : Nat → Nat → N} (hm : IsMatrix mat n d)
    (hd : Dissim n d) (hs : Sizes n k) {maxiter : Nat} {r : SwapResult L} (hr : pamsil L mat k maxiter = .ok r)
    {c : Nat} (hc : k ≤ c) : r.med.count c ≤ 1 := by
  obtain ⟨meds, -, hv, hl, e, he⟩ := pamsil_run (L := L) hm hd hs maxiter
  rw [he] at hr
  by_cases hk : 2 ≤ k
  · obtain ⟨g1, -⟩ := pamsilOptP_loop (by omega) hr
    refine psLoopP_high hd hv rfl (by simp) (fun a ha => by rw [List.eq_of_mem_replicate ha]; omega)
      (hl ▸ hc) ?_ g1
    have hb := (C19_pam_build (L := L) hm hd hs (pamBuild_eq hm hs)).2.2.1
    have hz : (List.replicate (k - (buildP L d n k).1.length) 0).count c = 0 := by
      rw [List.count_eq_zero]
      intro h
      have := List.eq_of_mem_replicate h
      omega
    rw [e, List.count_append, hz]
    exact List.nodup_iff_count.mp hb c
  · have h1 : meds.length = 1 := by have := hs.pos; omega
    unfold pamsilOptP at hr
    rw [if_pos h1] at hr
    cases hr
    exact List.nodup_iff_count.mp (by simp) c

/-- **C42, `pamsil`, part:** if no run with a smaller iteration limit ends with object 0 as a medoid (in particular BUILD does
not select it), the medoids are distinct. -/
theorem C42_pamsil_zero_partial {mat : Mat N} {n k : Nat} {d : Nat → Nat → N} (hm : IsMatrix mat n d)
    (hd : Dissim n d) (hs : Sizes n k) (hk : 2 ≤ k) {maxiter : Nat} (h1 : 0 < maxiter)
    (h0 : ∀ t < maxiter, ∀ r : SwapResult L, pamsil L mat k t = .ok r → 0 ∉ r.med)
    {r : SwapResult L} (hr : pamsil L mat k maxiter = .ok r) : r.med.Nodup := by
  obtain ⟨meds, hb', hv, hl, e, he⟩ := pamsil_run (L := L) hm hd hs maxiter
  have hrun : ∀ t, pamsil L mat k t = pamsilOptP L d n meds (List.replicate n 0) t := by
    intro t
    obtain ⟨meds', hb'', -, -, -, he'⟩ := pamsil_run (L := L) hm hd hs t
    rw [hb'] at hb''; cases hb''; exact he'
  have hzero : ∀ t < maxiter, ∀ q : L × List Nat × Nat × Nat,
      psLoopP d n meds.length t 0 (silhouetteP L d (List.replicate n 0) false).1 meds (List.replicate n 0) 0 = .ok q →
      0 ∉ q.2.1 := by
    intro t ht q hq
    refine h0 t ht ⟨q.1, nearAssiP d n q.2.1, q.2.2.1, q.2.2.2, q.2.1⟩ ?_
    rw [hrun, pamsilOptP, if_neg (by omega), hq]
    rfl
  have hnd : meds.Nodup := by
    have hz : 0 ∉ meds := hzero 0 h1 _ rfl
    have hb := (C19_pam_build (L := L) hm hd hs (pamBuild_eq hm hs)).2.2.1
    have hrep : List.replicate (k - (buildP L d n k).1.length) 0 = [] := by
      cases hx : k - (buildP L d n k).1.length with
      | zero => rfl
      | succ x => exact absurd (by rw [e, hx]; simp [List.replicate_succ]) hz
    rw [e, hrep, List.append_nil]
    exact hb
  rw [he] at hr
  obtain ⟨g1, -⟩ := pamsilOptP_loop (by omega) hr
  exact psLoopP_zero hd hv rfl (by simp) (fun a ha => by rw [List.eq_of_mem_replicate ha]; omega) hnd hzero g1

end exactLoss

/-! ## The bound is sharp; examples -/

def exDup3 : List (List ℕ) := [[0, 4, 4, 2, 8], [4, 0, 6, 5, 2], [4, 6, 0, 2, 6], [2, 5, 2, 0, 4], [8, 2, 6, 4, 0]]

theorem exDup3_isMatrix : IsMatrix (ofRows exDup3 : Mat ℕ) 5 (rowsD exDup3) :=
  ⟨rfl, rfl, fun x y hx hy => by
    have : ∀ x < 5, ∀ y < 5, (ofRows exDup3 : Mat ℕ).get x y = .ok (rowsD exDup3 x y) := by decide +kernel
    exact this x hx y hy⟩

theorem exDup3_dissim : Dissim 5 (rowsD exDup3) := ⟨by decide +kernel, fun _ _ _ _ => Nat.zero_le _⟩

/-- **C42, limit:** object `k - 1` can occur twice: three medoids, five objects with positive distances, medoids `[2, 2, 1]`. -/
theorem C42_bound_sharp : ∃ (mat : Mat ℕ) (n : Nat) (d : Nat → Nat → ℕ) (med : List Nat) (r : SwapResult ℚ),
    IsMatrix mat n d ∧ Dissim n d ∧ Symm n d ∧ (∀ x y, x < n → y < n → x ≠ y → 0 < d x y) ∧ ValidMeds n med ∧ med.Nodup ∧
    pamsilSwap ℚ mat med 9 = .ok r ∧ r.med.count (med.length - 1) = 2 := by
  refine ⟨ofRows exDup3, 5, rowsD exDup3, [2, 0, 1], ⟨31 / 90, [0, 2, 1, 0, 2], 2, 1, [2, 2, 1]⟩, exDup3_isMatrix,
    exDup3_dissim, ?_, ?_, ⟨⟨by decide, by decide, by decide, by decide⟩, by decide⟩, by decide, by decide +kernel, by decide⟩
  · have : ∀ x < 5, ∀ y < 5, rowsD exDup3 x y = rowsD exDup3 y x := by decide +kernel
    exact fun x y hx hy => this x hx y hy
  · have : ∀ x < 5, ∀ y < 5, x ≠ y → 0 < rowsD exDup3 x y := by decide +kernel
    exact fun x y hx hy => this x hx y hy

/-- Two exchanges; all medoids except number 2 are covered. -/
theorem exPs_run : pamsilSwap ℚ exMat [0, 1, 2] 9 = .ok ⟨11453/16632, [2, 2, 2, 0, 0, 1], 3, 2, [3, 5, 2]⟩ := by
  decide +kernel

example : [3, 5, 2].count 5 ≤ 1 :=
  C42_pamsil_swap_high_partial exMat_isMatrix exD_dissim (ex_valid (by decide) (by decide) (by decide)) (by decide) exPs_run
    (by decide)

example (r : SwapResult ℚ) (hr : pamsil ℚ exMat 3 9 = .ok r) : r.med.count 4 ≤ 1 :=
  C42_pamsil_high_partial exMat_isMatrix exD_dissim (ex_sizes (by decide) (by decide)) hr (by decide)

/-- A run with an exchange that never has object 0 as a medoid. -/
example : [3, 2].Nodup := by
  have h : ∀ t < 9, ∀ r : SwapResult ℚ, pamsilSwap ℚ exMat [1, 2] t = .ok r → 0 ∉ r.med := by
    intro t ht r hr
    have : ∀ t < 9, (match pamsilSwap ℚ exMat [1, 2] t with | .ok r => decide (0 ∉ r.med) | .error _ => true) = true := by
      decide +kernel
    have := this t ht
    rw [hr] at this
    simpa using this
  exact C42_pamsil_swap_zero_partial exMat_isMatrix exD_dissim (med := [1, 2]) (ex_valid (by decide) (by decide) (by decide))
    (by decide) h (r := ⟨42871 / 62118, [1, 1, 1, 0, 0, 0], 2, 1, [3, 2]⟩) (by decide +kernel)

/-- BUILD takes objects 2, 4 and 5. -/
example : [0, 4, 5].Nodup := by
  have h : ∀ t < 1, ∀ r : SwapResult ℚ, pamsil ℚ exMat 3 t = .ok r → 0 ∉ r.med := by
    intro t ht r hr
    have : ∀ t < 1, (match pamsil ℚ exMat 3 t with | .ok r => decide (0 ∉ r.med) | .error _ => true) = true := by
      decide +kernel
    have := this t ht
    rw [hr] at this
    simpa using this
  exact C42_pamsil_zero_partial exMat_isMatrix exD_dissim (ex_sizes (by decide) (by decide)) (by decide) (by decide) h
    (r := ⟨11453/16632, [0, 0, 0, 1, 1, 2], 1, 1, [0, 4, 5]⟩) (by decide +kernel)

end KMedoids
