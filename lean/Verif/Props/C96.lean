import Verif.Props.C94
import Verif.Props.C52
import Verif.Props.C55
import Mathlib.Algebra.Module.BigOperators

/-!
# C96: the number of swaps is bounded by the improvement divided by the resolution of the data

If all distances are multiples of `δ > 0` (integers: `δ = 1`; prices in cents: `δ = 0.01`), every swap improves the loss
by at least `δ`. So `n_swap δ ≤ start - loss`, whatever the distances are: for integers the number of iterations is at most
the loss of the initial medoids plus one, and FasterPAM reaches a local optimum with pseudo-polynomial work.
-/

set_option linter.unusedSectionVars false
set_option linter.overlappingInstances false

namespace KMedoids

open RFrom (conv)

section
variable {N L : Type} [LinearOrder N] [Zero N] [RDist N] [LawfulDist N]
variable [AddCommGroup L] [LinearOrder L] [IsOrderedAddMonoid L] [RLoss L] [LawfulLoss L]
variable [RFrom N L] [LawfulFrom N L]

/-- All distances between the `n` objects are integer multiples of `δ > 0`. -/
structure Resolution (n : Nat) (d : Nat → Nat → N) (δ : L) : Prop where
  pos : 0 < δ
  multiple : ∀ x y, x < n → y < n → ∃ z : ℤ, (conv (d x y) : L) = z • δ

theorem Resolution.totalDev {n : Nat} {d : Nat → Nat → N} {δ : L} (h : Resolution n d δ) {med : List Nat}
    (hne : med ≠ []) (hr : ∀ c ∈ med, c < n) : ∃ z : ℤ, totalDev (conv : N → L) n d med = z • δ := by
  have : ∀ i, i < n → ∃ z : ℤ, (conv (minDist d i med) : L) = z • δ := by
    intro i hi
    obtain ⟨⟨c, hc, e⟩, -⟩ := minDist_spec d i med hne
    rw [e]
    exact h.multiple i c hi (hr c hc)
  choose! f hf using this
  refine ⟨∑ i ∈ Finset.range n, f i, ?_⟩
  rw [totalDev_eq_sum, Finset.sum_smul]
  exact Finset.sum_congr rfl fun i hi => hf i (Finset.mem_range.mp hi)

/-- Two different multiples of `δ` are at least `δ` apart. -/
theorem gap_of_multiples {δ x y : L} (hδ : 0 < δ) {z w : ℤ} (hx : x = z • δ) (hy : y = w • δ) (h : x < y) :
    x + δ ≤ y := by
  subst hx hy
  have : z < w := by
    by_contra hc
    exact absurd h (not_lt.mpr (zsmul_le_zsmul_left hδ.le (by omega)))
  calc z • δ + δ = (z + 1) • δ := by rw [add_zsmul, one_zsmul]
    _ ≤ w • δ := zsmul_le_zsmul_left hδ.le (by omega)

theorem SwapChain.resolution {n : Nat} {d : Nat → Nat → N} {δ : L} (h : Resolution n d δ) {c : Nat}
    {med med' : List Nat} (hne : med ≠ []) (hr : ∀ c ∈ med, c < n)
    (hc : SwapChain (KMedoids.totalDev (conv : N → L) n d) n c med med') :
    KMedoids.totalDev (conv : N → L) n d med' + c • δ ≤ KMedoids.totalDev (conv : N → L) n d med := by
  induction hc with
  | refl => simp
  | @step c _ med' h1 b j hb hj hjm hT ih =>
    have ih := ih hne hr
    have hl : med' ≠ [] := List.ne_nil_of_length_pos (by omega)
    have hr' := h1.range hr
    obtain ⟨w, hw⟩ := h.totalDev hl hr'
    obtain ⟨z, hz⟩ := h.totalDev (med := med'.set b j) (by simpa using hl) fun x hx => by
      rcases List.mem_or_eq_of_mem_set hx with hx | rfl
      · exact hr' x hx
      · exact hj
    have := gap_of_multiples h.pos hz hw hT
    calc _ = KMedoids.totalDev (conv : N → L) n d (med'.set b j) + δ + c • δ := by
          rw [add_nsmul, one_nsmul]; abel
      _ ≤ KMedoids.totalDev (conv : N → L) n d med' + c • δ := by gcongr
      _ ≤ _ := ih

theorem Descent.resolution {n k : Nat} {d : Nat → Nat → N} {δ : L} (h : Resolution n d δ) {c : Nat}
    {med med' : List Nat} (hk : 0 < k) (hs : IsSel n k med)
    (hc : Descent (KMedoids.totalDev (conv : N → L) n d) (IsSel n k) c med med') :
    IsSel n k med' ∧
    KMedoids.totalDev (conv : N → L) n d med' + c • δ ≤ KMedoids.totalDev (conv : N → L) n d med := by
  induction hc with
  | refl => exact ⟨hs, by simp⟩
  | @step c _ med' h1 e he hT ih =>
    obtain ⟨hs', ih⟩ := ih hs
    have hne : ∀ {m : List Nat}, IsSel n k m → m ≠ [] := fun h => List.ne_nil_of_length_pos (h.1.symm ▸ hk)
    obtain ⟨w, hw⟩ := h.totalDev (hne hs') hs'.2.2
    obtain ⟨z, hz⟩ := h.totalDev (hne he) he.2.2
    have := gap_of_multiples h.pos hz hw hT
    refine ⟨he, ?_⟩
    calc _ = KMedoids.totalDev (conv : N → L) n d e + δ + c • δ := by
          rw [add_nsmul, one_nsmul]; abel
      _ ≤ KMedoids.totalDev (conv : N → L) n d med' + c • δ := by gcongr
      _ ≤ _ := ih

/-- **C96**, for fasterpam, rand_fasterpam with any order, pam_swap and fastpam1: `loss + n_swap δ ≤ start`, and there is
at most one iteration more than swaps. -/
theorem C96_swaps {mat : Mat N} {n : Nat} {d : Nat → Nat → N} (hm : IsMatrix mat n d) (hd : Dissim n d)
    {δ : L} (hδ : Resolution n d δ) {med : List Nat} (hv : ValidMeds n med) (hnd : med.Nodup)
    (hsym : med.length = 1 → Symm n d) {maxiter : Nat} {r : SwapResult L} (hr : IsPamRun mat n med maxiter r) :
    r.loss + r.nSwap • δ ≤ totalDev (conv : N → L) n d med ∧ r.nIter ≤ r.nSwap + 1 := by
  have ho := IsPamRun.outcome hm hd hv hnd hsym hr
  exact ⟨ho.loss ▸ ho.chain.resolution hδ (List.ne_nil_of_length_pos hv.sizes.pos) hv.range, ho.iter⟩

/-- **C96, par_fasterpam**, for every number of threads, split and order of merging. -/
theorem C96_par_fasterpam (sc0 : Sched) {scF scS : Nat → Nat → Sched} (hF : ∀ i j, (scF i j).Ok) {mat : Mat N}
    {n : Nat} {d : Nat → Nat → N} (hm : IsMatrix mat n d) (hd : Dissim n d) {δ : L} (hδ : Resolution n d δ)
    {med : List Nat} (hv : ValidMeds n med) (hnd : med.Nodup) (hsym : med.length = 1 → Symm n d) (maxiter : Nat)
    {seq : List Nat} (hseq : seq.Perm (List.range n)) {r : SwapResult L}
    (hr : parFasterpam L sc0 scF scS mat med maxiter seq = .ok r) :
    r.loss + r.nSwap • δ ≤ totalDev (conv : N → L) n d med ∧ r.nIter ≤ r.nSwap + 1 := by
  have hlt : ∀ j ∈ seq, j < n := fun j hj => List.mem_range.mp (hseq.mem_iff.mp hj)
  rw [parFasterpam_eq (L := L) sc0 (scS := scS) hF hm hd hv hnd maxiter hlt,
    ← randFasterpam_eq hm hv maxiter hlt] at hr
  have ho := rand_fasterpam_outcome hm hd hv hnd hsym maxiter hseq hr
  exact ⟨ho.loss ▸ ho.chain.resolution hδ (List.ne_nil_of_length_pos hv.sizes.pos) hv.range, ho.iter⟩

/-- **C96, alternating** on symmetric matrices: `loss + (n_iter - 1) δ ≤ start`. -/
theorem C96_alternating {mat : Mat N} {n : Nat} {d : Nat → Nat → N} (hm : IsMatrix mat n d)
    (hd : Dissim n d) (hs : Symm n d) {δ : L} (hδ : Resolution n d δ) {med : List Nat} (hv : ValidMeds n med)
    (hnd : med.Nodup) (maxiter : Nat) {r : AltResult L} (hr : alternating L mat med maxiter = .ok r) :
    r.loss + (r.nIter - 1) • δ ≤ totalDev (conv : N → L) n d med := by
  rw [C08_alternating hm hd hv hnd maxiter hr]
  rw [(alternating_eq (L := L) hm hv maxiter).1] at hr
  cases hr
  obtain ⟨c, h1, h2, h3⟩ := altLoopP_descent (L := L) hd hs (fuel := maxiter) (iter := 0)
    (loss := nearAssiLossP L d n med) hv hnd (nearAssiP_ok hd hv hnd)
  refine le_trans ?_ (h1.resolution hδ hv.sizes.pos ⟨rfl, hnd, hv.range⟩).2
  unfold altP
  gcongr
  · exact hδ.pos.le
  · omega

end

/-! ## Integers -/

section
variable {N : Type} [LinearOrder N] [Zero N] [RDist N] [LawfulDist N] [RLoss ℤ] [LawfulLoss ℤ] [RFrom N ℤ] [LawfulFrom N ℤ]

/-- Integers are multiples of one. -/
theorem resolution_int (n : Nat) (d : Nat → Nat → N) : Resolution n d (1 : ℤ) :=
  ⟨by decide, fun x y _ _ => ⟨conv (d x y), by simp⟩⟩

/-- **C96, integers:** at most `start - loss` swaps; a limit above the loss of the initial medoids plus one is never
reached, and the result is a local optimum. -/
theorem C96_integers {mat : Mat N} {n : Nat} {d : Nat → Nat → N} (hm : IsMatrix mat n d) (hd : Dissim n d)
    {med : List Nat} (hv : ValidMeds n med) (hnd : med.Nodup) (hsym : med.length = 1 → Symm n d) {maxiter : Nat}
    {r : SwapResult ℤ} (hr : IsPamRun mat n med maxiter r) :
    r.loss + r.nSwap ≤ totalDev (conv : N → ℤ) n d med ∧ 0 ≤ r.loss ∧
    (totalDev (conv : N → ℤ) n d med + 1 < maxiter →
      r.nIter < maxiter ∧ SwapOptimal (conv : N → ℤ) n d r.med) := by
  obtain ⟨h1, h2⟩ := C96_swaps hm hd (resolution_int n d) hv hnd hsym hr
  have ho := IsPamRun.outcome hm hd hv hnd hsym hr
  have h0 : 0 ≤ r.loss := by
    rw [ho.loss]
    exact totalDev_nonneg_int hd (List.ne_nil_of_length_pos (by rw [ho.chain.length]; exact hv.sizes.pos))
      (ho.chain.range hv.range)
  rw [nsmul_one] at h1
  refine ⟨by simpa using h1, h0, fun h => ?_⟩
  have : r.nIter < maxiter := by omega
  exact ⟨this, ho.opt this⟩

/-- **C96, pseudo-polynomial work:** FasterPAM on integers, with a limit above the loss `start` of the initial medoids plus
one, ends in a local optimum with at most `n (k + (start + 1) n + start (k + 1))` reads and five times as many steps. -/
theorem C96_fasterpam_work (w : Weights) {mat : Mat N} {n : Nat} {d : Nat → Nat → N} (hm : IsMatrix mat n d)
    (hd : Dissim n d) {med : List Nat} (hv : ValidMeds n med) (hnd : med.Nodup) (h2 : 2 ≤ med.length)
    {start maxiter : Nat} (hstart : totalDev (conv : N → ℤ) n d med = start) (hmax : start + 1 < maxiter) :
    ∃ (r : SwapResult ℤ) (t : Nat), (fasterpamC ℤ w (mat.counted w) med maxiter).run = .ok (r, t) ∧
      fasterpam ℤ mat med maxiter = .ok r ∧ SwapOptimal (conv : N → ℤ) n d r.med ∧
      t ≤ (w.read + 5 * w.step) * (n * (med.length + (start + 1) * n + start * (med.length + 1))) := by
  obtain ⟨r, hr, -⟩ := C04_fasterpam (L := ℤ) hm hv maxiter
  obtain ⟨t, h1, h3⟩ := C85_fasterpam w mat (by omega) maxiter hr
  obtain ⟨a1, a2, a3⟩ := C96_integers hm hd hv hnd (by omega) (.inl hr)
  have ho := fasterpam_outcome hm hd hv hnd (by omega) maxiter hr
  have hi := ho.iter
  refine ⟨r, t, h1, hr, (a3 (by omega)).2, h3.trans (Nat.mul_le_mul_left _ ?_)⟩
  rw [hm.len]
  refine Nat.mul_le_mul_left _ ?_
  have e1 : r.nIter * n ≤ (start + 1) * n := Nat.mul_le_mul_right _ (by omega)
  have e2 : r.nSwap * (med.length + 1) ≤ start * (med.length + 1) := Nat.mul_le_mul_right _ (by omega)
  omega

end

/-! ## Examples -/

/-- Distances that are multiples of five. From the two ends the bounds hold with equality: `15 + 1 · 5 = 20`. -/
example : IsMatrix (lineMat [0, 5, 10, 15, 20]) 5 (lineD [0, 5, 10, 15, 20]) ∧
    Dissim 5 (lineD [0, 5, 10, 15, 20]) ∧ Symm 5 (lineD [0, 5, 10, 15, 20]) ∧
    Resolution 5 (lineD [0, 5, 10, 15, 20]) (5 : ℤ) ∧ ValidMeds 5 [0, 4] ∧
    totalDev (conv : ℕ → ℤ) 5 (lineD [0, 5, 10, 15, 20]) [0, 4] = 20 ∧
    fasterpam ℤ (lineMat [0, 5, 10, 15, 20]) [0, 4] 100 = .ok ⟨15, [0, 0, 0, 1, 1], 2, 1, [1, 4]⟩ ∧
    alternating ℤ (lineMat [0, 5, 10, 15, 20]) [0, 4] 100 = .ok ⟨15, [0, 0, 0, 1, 1], 2, [1, 4]⟩ := by
  refine ⟨lineMat_isMatrix _, lineD_dissim _ _, (lineD_metric _ _).symm, ⟨by decide, fun x y hx hy => ?_⟩,
    ⟨⟨by decide, by decide, by decide, by decide⟩, by decide⟩, by decide +kernel, by decide +kernel, by decide +kernel⟩
  have : ∀ x ∈ List.range 5, ∀ y ∈ List.range 5,
      (conv (lineD [0, 5, 10, 15, 20] x y) : ℤ) = (conv (lineD [0, 5, 10, 15, 20] x y) / 5 : ℤ) • 5 := by
    decide +kernel
  exact ⟨_, this x (List.mem_range.mpr hx) y (List.mem_range.mpr hy)⟩

/-- Integers: from `[0, 1]` with loss 6 two swaps lead to loss 3; a limit of 8 is enough. -/
example : totalDev (conv : ℕ → ℤ) 5 (lineD [0, 1, 2, 3, 4]) [0, 1] = 6 ∧
    fasterpam ℤ (lineMat [0, 1, 2, 3, 4]) [0, 1] 8 = .ok ⟨3, [1, 1, 1, 0, 0], 2, 2, [3, 1]⟩ := by
  refine ⟨by decide +kernel, by decide +kernel⟩

end KMedoids
