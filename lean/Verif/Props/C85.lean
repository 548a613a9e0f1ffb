import Verif.Proofs.CostTotals
import Verif.Props.C08_C16

/-!
# C85: The work done by the PAM family

The README promises that FasterPAM improves "O(k)" over PAM. The copy of the code in `Model/Cost.lean` counts
the accesses to the matrix (`read`) and the executions of loop bodies (`step`); first it is shown that this
copy computes the same results and panics in the same cases. Then the costs are bounded for all inputs, in
terms of the returned numbers of iterations `n_iter` and swaps `n_swap`. No assumption on distances or
arithmetic; even the matrix may be anything. Only the comparison of the two totals uses exact arithmetic,
since there FastPAM1 and PAM make the same swaps (C14).
-/

namespace KMedoids

open RFrom (conv)

variable {N L : Type} [RDist N] [RLoss L] [RFrom N L] (w : Weights) (mat : Mat N)

/-! ## The counted copies are the same functions -/

/-- **C85:** forgetting the costs gives the results of the model functions, panics included. -/
theorem C85_same (med : List Nat) (maxiter k : Nat) (seq : List Nat) :
    (fasterpamC L w (mat.counted w) med maxiter).erase = fasterpam L mat med maxiter ∧
    (randFasterpamC L w (mat.counted w) med maxiter seq).erase = randFasterpam L mat med maxiter seq ∧
    (fastpam1C L w (mat.counted w) med maxiter).erase = fastpam1 L mat med maxiter ∧
    (pamSwapC L w (mat.counted w) med maxiter).erase = pamSwap L mat med maxiter ∧
    (pamBuildC L w (mat.counted w) k).erase = pamBuild L mat k ∧
    (pamC L w (mat.counted w) k maxiter).erase = pam L mat k maxiter ∧
    (alternatingC L w (mat.counted w) med maxiter).erase = alternating L mat med maxiter :=
  ⟨erase_fasterpamC w mat med maxiter, erase_randFasterpamC w mat med maxiter seq,
    erase_fastpam1C w mat med maxiter, erase_pamSwapC w mat med maxiter, erase_pamBuildC w mat k,
    erase_pamC w mat k maxiter, erase_alternatingC w mat med maxiter⟩

/-! ## One candidate -/

/-- **C85, find_best_swap:** all `k` exchanges of one candidate are evaluated with exactly `n` reads. -/
theorem C85_find_best_swap (rem : List L) (data : List (Rec N)) (j : Nat) {r : L × Nat}
    (hr : findBestSwap mat rem data j = .ok r) :
    ∃ t, (findBestSwapC w (mat.counted w) rem data j).run = .ok (r, t) ∧
      t = data.length * (w.read + w.step) + 2 * (rem.length * w.step) :=
  (cost_findBestSwapC w mat rem data j).of_erase ((erase_findBestSwapC w mat rem data j).trans hr)

/-- **C85, find_best_swap_pam:** PAM needs exactly `k (n - 1)` reads for the same. -/
theorem C85_find_best_swap_pam (med : List Nat) (data : List (Rec N)) (j : Nat) {r : L × Nat}
    (hr : findBestSwapPam L mat med data j = .ok r) :
    ∃ t, (findBestSwapPamC L w (mat.counted w) med data j).run = .ok (r, t) ∧
      t = med.length * (w.step + (data.length * w.step + (data.length - 1) * w.read)) :=
  (cost_findBestSwapPamC w mat med data j).of_erase ((erase_findBestSwapPamC w mat med data j).trans hr)

/-- **C85, do_swap:** at most `n (k + 1)` reads. -/
theorem C85_do_swap (med : List Nat) (data : List (Rec N)) (b j : Nat) {r : L × List Nat × List (Rec N)}
    (hr : doSwap L mat med data b j = .ok r) :
    ∃ t, (doSwapC L w (mat.counted w) med data b j).run = .ok (r, t) ∧
      t ≤ data.length * ((med.length + 1) * (w.read + w.step)) := by
  obtain ⟨t, h1, h2⟩ := (cost_doSwapC w mat med data b j).of_erase ((erase_doSwapC w mat med data b j).trans hr)
  exact ⟨t, h1, h2.2.2⟩

/-! ## Whole runs -/

/-- **C85, rand_fasterpam:** `n (k + n_iter n + n_swap (k + 1))` reads and five times that many steps. -/
theorem C85_rand_fasterpam {med : List Nat} (hk : med.length ≠ 1) (maxiter : Nat) {seq : List Nat}
    (hs : seq.length ≤ mat.len) {r : SwapResult L} (hr : randFasterpam L mat med maxiter seq = .ok r) :
    ∃ t, (randFasterpamC L w (mat.counted w) med maxiter seq).run = .ok (r, t) ∧
      t ≤ (w.read + 5 * w.step) *
        (mat.len * (med.length + r.nIter * mat.len + r.nSwap * (med.length + 1))) :=
  (cost_randFasterpamC w mat hk maxiter hs).of_erase ((erase_randFasterpamC w mat med maxiter seq).trans hr)

/-- **C85, fasterpam.** -/
theorem C85_fasterpam {med : List Nat} (hk : med.length ≠ 1) (maxiter : Nat) {r : SwapResult L}
    (hr : fasterpam L mat med maxiter = .ok r) :
    ∃ t, (fasterpamC L w (mat.counted w) med maxiter).run = .ok (r, t) ∧
      t ≤ (w.read + 5 * w.step) *
        (mat.len * (med.length + r.nIter * mat.len + r.nSwap * (med.length + 1))) :=
  (cost_fasterpamC w mat hk maxiter).of_erase ((erase_fasterpamC w mat med maxiter).trans hr)

/-- **C85, fastpam1.** -/
theorem C85_fastpam1 {med : List Nat} (hk : med.length ≠ 1) (maxiter : Nat) {r : SwapResult L}
    (hr : fastpam1 L mat med maxiter = .ok r) :
    ∃ t, (fastpam1C L w (mat.counted w) med maxiter).run = .ok (r, t) ∧
      t ≤ (w.read + 7 * w.step) *
        (mat.len * (med.length + r.nIter * mat.len + r.nSwap * (med.length + 1))) := by
  obtain ⟨t, h1, h2⟩ :=
    (cost_fastpam1C w mat hk maxiter).of_erase ((erase_fastpam1C w mat med maxiter).trans hr)
  exact ⟨t, h1, h2.2⟩

/-- **C85, pam_swap:** an iteration takes at least `(n - k) k (n - 1)` reads, so the factor `k` is there. -/
theorem C85_pam_swap {med : List Nat} (hk : med.length ≠ 1) (maxiter : Nat) {r : SwapResult L}
    (hr : pamSwap L mat med maxiter = .ok r) :
    ∃ t, (pamSwapC L w (mat.counted w) med maxiter).run = .ok (r, t) ∧
      r.nIter * ((mat.len - med.length) * (med.length * ((mat.len - 1) * (w.read + w.step)))) ≤ t ∧
      t ≤ (w.read + 4 * w.step) * (mat.len * (med.length + r.nIter * ((med.length + 1) * mat.len) +
        r.nSwap * (med.length + 1))) := by
  obtain ⟨t, h1, h2⟩ :=
    (cost_pamSwapC w mat hk maxiter).of_erase ((erase_pamSwapC w mat med maxiter).trans hr)
  exact ⟨t, h1, h2.2⟩

/-- **C85, pam_build:** BUILD takes `k n²` reads. -/
theorem C85_pam_build (k : Nat) {r : BuildResult L} (hr : pamBuild L mat k = .ok r) :
    ∃ t, (pamBuildC L w (mat.counted w) k).run = .ok (r, t) ∧
      t ≤ (w.read + 5 * w.step) * (k * (mat.len * mat.len)) :=
  (cost_pamBuildC w mat k).of_erase ((erase_pamBuildC w mat k).trans hr)

/-- **C85, pam.** -/
theorem C85_pam (k maxiter : Nat) {r : SwapResult L} (hr : pam L mat k maxiter = .ok r) :
    ∃ t, (pamC L w (mat.counted w) k maxiter).run = .ok (r, t) ∧
      t ≤ (w.read + 8 * w.step) *
        (mat.len * (k * mat.len + r.nIter * ((k + 1) * mat.len) + r.nSwap * (k + 1))) :=
  (cost_pamC w mat k maxiter).of_erase ((erase_pamC w mat k maxiter).trans hr)

/-- **C85, alternating:** an iteration takes `n (n + 2 k)` reads: the clusters do not overlap. -/
theorem C85_alternating (med : List Nat) (maxiter : Nat) {r : AltResult L}
    (hr : alternating L mat med maxiter = .ok r) :
    ∃ t, (alternatingC L w (mat.counted w) med maxiter).run = .ok (r, t) ∧
      t ≤ (w.read + 3 * w.step) * (mat.len * (med.length + r.nIter * (mat.len + 2 * med.length))) :=
  (cost_alternatingC w mat med maxiter).of_erase ((erase_alternatingC w mat med maxiter).trans hr)

/-- **C85, one medoid:** `n (n + 1)` reads, in all four functions. -/
theorem C85_single {med : List Nat} (hk : med.length = 1) (maxiter : Nat) (seq : List Nat) {r : SwapResult L}
    {t : Nat} (hr : (fasterpamC L w (mat.counted w) med maxiter).run = .ok (r, t) ∨
      (randFasterpamC L w (mat.counted w) med maxiter seq).run = .ok (r, t) ∨
      (fastpam1C L w (mat.counted w) med maxiter).run = .ok (r, t)) :
    t ≤ mat.len * (mat.len + 1) * w.read + mat.len * (mat.len + 3) * w.step := by
  simp only [fasterpamC, randFasterpamC, fastpam1C, hk, if_true, or_self] at hr
  exact ((cost_singleClusterC w mat med) _ _ hr).2

end KMedoids

namespace KMedoids

/-! ## The factor -/

section
variable {N L : Type} [LinearOrder N] [Zero N] [RDist N] [LawfulDist N]
variable [AddCommGroup L] [LinearOrder L] [IsOrderedAddMonoid L] [RLoss L] [LawfulLoss L]
variable [RFrom N L] [LawfulFrom N L]

/-- The costs of FastPAM1 and PAM from the same start compare like `1 : k`. -/
theorem speedup_aux {mat : Mat N} {n : Nat} {d : Nat → Nat → N} (hm : IsMatrix mat n d)
    (hd : Dissim n d) {med : List Nat} (hv : ValidMeds n med) (hnd : med.Nodup) (hk : 2 ≤ med.length)
    (hn : 2 * med.length ≤ n) {maxiter : Nat} (hi : 0 < maxiter) (w : Weights) :
    ∃ (r : SwapResult L) (t t' : Nat), (fastpam1C L w (mat.counted w) med maxiter).run = .ok (r, t) ∧
      (pamSwapC L w (mat.counted w) med maxiter).run = .ok (r, t') ∧
      (w.read + w.step) * (med.length * t) ≤ 8 * ((w.read + 7 * w.step) * t') := by
  obtain ⟨e, r, hr⟩ := C14_fastpam1_eq_pam_swap (L := L) hm hd hv hnd maxiter
  have hk1 : med.length ≠ 1 := by omega
  obtain ⟨t, h1, h2, h3⟩ := (cost_fastpam1C (L := L) w mat hk1 maxiter).of_erase
    ((erase_fastpam1C w mat med maxiter).trans (e.trans hr))
  obtain ⟨t', g1, -, g3, -⟩ := (cost_pamSwapC (L := L) w mat hk1 maxiter).of_erase
    ((erase_pamSwapC w mat med maxiter).trans hr)
  have hI := pamSwapC_iter (L := L) w mat hk1 hi _ _ g1
  refine ⟨r, t, t', h1, g1, ?_⟩
  rw [hm.len] at h3 g3
  generalize r.nIter = I at *
  generalize r.nSwap = W at *
  generalize med.length = k at *
  generalize w.read = R at *
  generalize w.step = S at *
  have a1 : k + I * n + W * (k + 1) ≤ 3 * (I * n) := by
    have b1 : k ≤ I * k := Nat.le_mul_of_pos_left _ (by omega)
    have b2 : W * (k + 1) ≤ I * (k + 1) := Nat.mul_le_mul_right _ h2
    have b3 : I * (2 * k + 1) ≤ I * (2 * n) := Nat.mul_le_mul_left _ (by omega)
    nlinarith
  have a2 : 3 * (n * n) ≤ 8 * ((n - k) * (n - 1)) := by
    have b1 : n ≤ 2 * (n - k) := by omega
    have b2 : 3 * n ≤ 4 * (n - 1) := by omega
    have := Nat.mul_le_mul b1 b2
    nlinarith
  calc (R + S) * (k * t) ≤ (R + S) * (k * ((R + 7 * S) * (n * (3 * (I * n))))) :=
        Nat.mul_le_mul_left _ (Nat.mul_le_mul_left _ (h3.trans
          (Nat.mul_le_mul_left _ (Nat.mul_le_mul_left _ a1))))
    _ = (R + S) * k * (R + 7 * S) * I * (3 * (n * n)) := by ring
    _ ≤ (R + S) * k * (R + 7 * S) * I * (8 * ((n - k) * (n - 1))) := Nat.mul_le_mul_left _ a2
    _ = 8 * ((R + 7 * S) * (I * ((n - k) * (k * ((n - 1) * (R + S)))))) := by ring
    _ ≤ _ := Nat.mul_le_mul_left _ (Nat.mul_le_mul_left _ g3)

/-- **C85, the factor `k`, reads:** FastPAM1 returns the same as PAM with at most `8 / k` times the reads.
`k ≥ 2`, `2 k ≤ n`, at least one iteration. -/
theorem C85_speedup_reads {mat : Mat N} {n : Nat} {d : Nat → Nat → N} (hm : IsMatrix mat n d)
    (hd : Dissim n d) {med : List Nat} (hv : ValidMeds n med) (hnd : med.Nodup) (hk : 2 ≤ med.length)
    (hn : 2 * med.length ≤ n) {maxiter : Nat} (hi : 0 < maxiter) :
    ∃ (r : SwapResult L) (t t' : Nat), (fastpam1C L ⟨1, 0⟩ (mat.counted ⟨1, 0⟩) med maxiter).run = .ok (r, t) ∧
      (pamSwapC L ⟨1, 0⟩ (mat.counted ⟨1, 0⟩) med maxiter).run = .ok (r, t') ∧ med.length * t ≤ 8 * t' := by
  obtain ⟨r, t, t', h1, h2, h3⟩ := speedup_aux (L := L) hm hd hv hnd hk hn hi ⟨1, 0⟩
  exact ⟨r, t, t', h1, h2, by simpa using h3⟩

/-- **C85, the factor `k`, all weights:** the total cost of FastPAM1 is at most `56 / k` times that of PAM,
whatever a read and a step cost. -/
theorem C85_speedup {mat : Mat N} {n : Nat} {d : Nat → Nat → N} (hm : IsMatrix mat n d)
    (hd : Dissim n d) {med : List Nat} (hv : ValidMeds n med) (hnd : med.Nodup) (hk : 2 ≤ med.length)
    (hn : 2 * med.length ≤ n) {maxiter : Nat} (hi : 0 < maxiter) (w : Weights) (hw : 0 < w.read + w.step) :
    ∃ (r : SwapResult L) (t t' : Nat), (fastpam1C L w (mat.counted w) med maxiter).run = .ok (r, t) ∧
      (pamSwapC L w (mat.counted w) med maxiter).run = .ok (r, t') ∧ med.length * t ≤ 56 * t' := by
  obtain ⟨r, t, t', h1, h2, h3⟩ := speedup_aux (L := L) hm hd hv hnd hk hn hi w
  refine ⟨r, t, t', h1, h2, Nat.le_of_mul_le_mul_left ?_ hw⟩
  have : (w.read + 7 * w.step) * t' ≤ 7 * (w.read + w.step) * t' := Nat.mul_le_mul_right _ (by omega)
  nlinarith

end

/-! ## Examples -/

/-- The hypotheses of the theorems are met, and these are the numbers of reads in real runs. FastPAM1 and PAM
find the same (`C14`), with 89 and 170 reads. -/
example : IsMatrix exMat 6 exD ∧ Dissim 6 exD ∧ ValidMeds 6 [0, 1, 2] ∧ [0, 1, 2].Nodup ∧
    (fasterpamC ℤ ⟨1, 0⟩ (exMat.counted ⟨1, 0⟩) [0, 1, 2] 9).run
      = .ok (⟨2, [1, 1, 1, 0, 0, 2], 2, 3, [4, 1, 5]⟩, 76) ∧
    (randFasterpamC ℤ ⟨1, 0⟩ (exMat.counted ⟨1, 0⟩) [0, 1, 2] 9 [5, 3, 1, 0, 2, 4]).run
      = .ok (⟨2, [1, 1, 1, 2, 2, 0], 2, 2, [5, 1, 3]⟩, 65) ∧
    (fastpam1C ℤ ⟨1, 0⟩ (exMat.counted ⟨1, 0⟩) [0, 1, 2] 9).run
      = .ok (⟨2, [1, 1, 1, 0, 0, 2], 3, 2, [4, 1, 5]⟩, 89) ∧
    (pamSwapC ℤ ⟨1, 0⟩ (exMat.counted ⟨1, 0⟩) [0, 1, 2] 9).run
      = .ok (⟨2, [1, 1, 1, 0, 0, 2], 3, 2, [4, 1, 5]⟩, 170) ∧
    (pamC ℤ ⟨1, 0⟩ (exMat.counted ⟨1, 0⟩) 3 9).run = .ok (⟨2, [0, 0, 0, 1, 1, 2], 2, 1, [0, 4, 5]⟩, 202) ∧
    (pamBuildC ℤ ⟨1, 0⟩ (exMat.counted ⟨1, 0⟩) 3).run.map (·.2) = .ok 106 ∧
    (alternatingC ℤ ⟨1, 0⟩ (exMat.counted ⟨1, 0⟩) [0, 1, 2] 9).run
      = .ok (⟨6, [0, 1, 0, 2, 2, 2], 3, [0, 1, 4]⟩, 82) ∧
    (fasterpamC ℤ ⟨1, 0⟩ (exMat.counted ⟨1, 0⟩) [0] 9).run.map (·.2) = .ok 30 :=
  ⟨exMat_isMatrix, exD_dissim, ex_valid (by decide) (by decide) (by decide), by decide,
    by decide +kernel, by decide +kernel, by decide +kernel, by decide +kernel, by decide +kernel,
    by decide +kernel, by decide +kernel, by decide +kernel⟩

end KMedoids
