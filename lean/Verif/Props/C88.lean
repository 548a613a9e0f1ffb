import Verif.Proofs.CostSil
import Verif.Proofs.CostMsc
import Verif.Props.C29_C35

/-!
# C88: The work done by the silhouette family

The counted copy in `Model/CostMsc.lean` charges `read` for an access to the matrix and `step` for the execution
of a loop body, as in C85. It computes the same as the model functions (`C88_same`). The bounds need no
assumption on distances, arithmetic or matrix; for PAMSIL the medoids have to be objects. The documentation of
`medoid_silhouette` promises a reduction "from O(N²) to O(Nk)": `C88_silhouette_reads` and
`C88_medoid_silhouette_reads` give the exact numbers, `n (n - 1)` and `n k`.
-/

namespace KMedoids

open RFrom (conv)

variable {N L : Type} [RDist N] [RLoss L] [RFrom N L] (w : Weights) (mat : Mat N)

/-! ## The counted copies are the same functions -/

/-- **C88:** forgetting the costs gives the results of the model functions, panics included. -/
theorem C88_same (med assi : List Nat) (mink maxiter k : Nat) (samples : Bool) :
    (fastermscC L w (mat.counted w) med maxiter).erase = fastermsc L mat med maxiter ∧
    (fastmscC L w (mat.counted w) med maxiter).erase = fastmsc L mat med maxiter ∧
    (pammedsilSwapC L w (mat.counted w) med maxiter).erase = pammedsilSwap L mat med maxiter ∧
    (pammedsilC L w (mat.counted w) k maxiter).erase = pammedsil L mat k maxiter ∧
    (dynmscC L w (mat.counted w) med mink maxiter).erase = dynmsc L mat med mink maxiter ∧
    (silhouetteC L w (mat.counted w) assi samples).erase = silhouette L mat assi samples ∧
    (medoidSilhouetteC L w (mat.counted w) med samples).erase = medoidSilhouette L mat med samples ∧
    (pamsilSwapC L w (mat.counted w) med maxiter).erase = pamsilSwap L mat med maxiter ∧
    (pamsilC L w (mat.counted w) k maxiter).erase = pamsil L mat k maxiter :=
  ⟨erase_fastermscC w mat med maxiter, erase_fastmscC w mat med maxiter, erase_pammedsilSwapC w mat med maxiter,
    erase_pammedsilC w mat k maxiter, erase_dynmscC w mat med mink maxiter, erase_silhouetteC w mat assi samples,
    erase_medoidSilhouetteC w mat med samples, erase_pamsilSwapC w mat med maxiter, erase_pamsilC w mat k maxiter⟩

/-! ## One candidate -/

/-- **C88, find_best_swap:** all `k` exchanges of one candidate are evaluated with exactly `n` reads. -/
theorem C88_find_best_swap (rem : List L) (data : List (Reco N)) (j : Nat) {r : L × Nat}
    (hr : mscFindBestSwap mat rem data j = .ok r) :
    ∃ t, (mscFindBestSwapC w (mat.counted w) rem data j).run = .ok (r, t) ∧
      t = data.length * (w.read + w.step) + 2 * (rem.length * w.step) :=
  (cost_mscFindBestSwapC w mat rem data j).of_erase ((erase_mscFindBestSwapC w mat rem data j).trans hr)

/-- **C88, find_best_swap of PAMMEDSIL:** exactly `k (n - 1)` reads for the same. -/
theorem C88_find_best_swap_pammedsil (med : List Nat) (data : List (Reco N)) (j : Nat) {r : L × Nat}
    (hr : pmsFindBestSwap L pmsStep mat med data j = .ok r) :
    ∃ t, (pmsFindBestSwapC L w pmsStepC (mat.counted w) med data j).run = .ok (r, t) ∧
      t = med.length * (w.step + (data.length * w.step + (data.length - 1) * w.read)) :=
  (cost_pmsFindBestSwapC w mat (cost_pmsStepC w mat) med data j).of_erase
    ((erase_pmsFindBestSwapC w mat (erase_pmsStepC w mat) med data j).trans hr)

/-! ## Whole runs -/

/-- **C88, fastermsc:** `n (k + n_iter n + n_swap (k + 1))` reads and five times that many steps. -/
theorem C88_fastermsc {med : List Nat} (hk : med.length ≠ 1) (maxiter : Nat) {r : SwapResult L}
    (hr : fastermsc L mat med maxiter = .ok r) :
    ∃ t, (fastermscC L w (mat.counted w) med maxiter).run = .ok (r, t) ∧
      t ≤ (w.read + 5 * w.step) *
        (mat.len * (med.length + r.nIter * mat.len + r.nSwap * (med.length + 1))) :=
  (cost_fastermscC w mat hk maxiter).of_erase ((erase_fastermscC w mat med maxiter).trans hr)

/-- **C88, fastmsc.** -/
theorem C88_fastmsc {med : List Nat} (hk : med.length ≠ 1) (maxiter : Nat) {r : SwapResult L}
    (hr : fastmsc L mat med maxiter = .ok r) :
    ∃ t, (fastmscC L w (mat.counted w) med maxiter).run = .ok (r, t) ∧
      t ≤ (w.read + 7 * w.step) *
        (mat.len * (med.length + r.nIter * mat.len + r.nSwap * (med.length + 1))) := by
  obtain ⟨t, h1, h2⟩ := (cost_fastmscC w mat hk maxiter).of_erase ((erase_fastmscC w mat med maxiter).trans hr)
  exact ⟨t, h1, h2.2⟩

/-- **C88, pammedsil_swap:** an iteration takes at least `(n - k) k (n - 1)` reads. -/
theorem C88_pammedsil_swap {med : List Nat} (hk : med.length ≠ 1) (maxiter : Nat) {r : SwapResult L}
    (hr : pammedsilSwap L mat med maxiter = .ok r) :
    ∃ t, (pammedsilSwapC L w (mat.counted w) med maxiter).run = .ok (r, t) ∧
      r.nIter * ((mat.len - med.length) * (med.length * ((mat.len - 1) * (w.read + w.step)))) ≤ t ∧
      t ≤ (w.read + 4 * w.step) * (mat.len * (med.length + r.nIter * ((med.length + 1) * mat.len) +
        r.nSwap * (med.length + 1))) := by
  obtain ⟨t, h1, h2⟩ :=
    (cost_pammedsilSwapC w mat hk maxiter).of_erase ((erase_pammedsilSwapC w mat med maxiter).trans hr)
  exact ⟨t, h1, h2.2⟩

/-- **C88, pammedsil**, BUILD included. -/
theorem C88_pammedsil (k maxiter : Nat) {r : SwapResult L} (hr : pammedsil L mat k maxiter = .ok r) :
    ∃ t, (pammedsilC L w (mat.counted w) k maxiter).run = .ok (r, t) ∧
      t ≤ (w.read + 8 * w.step) *
        (mat.len * (k * mat.len + r.nIter * ((k + 1) * mat.len) + r.nSwap * (k + 1))) :=
  (cost_pammedsilC w mat k maxiter).of_erase ((erase_pammedsilC w mat k maxiter).trans hr)

/-- **C88, dynmsc:** all numbers of clusters together cost what one run costs, plus `k² n` for the removal of
medoids: the iterations and swaps counted are those of all rounds. -/
theorem C88_dynmsc {med : List Nat} (hk : med.length ≠ 1) (mink maxiter : Nat) {r : DynResult L}
    (hr : dynmsc L mat med mink maxiter = .ok r) :
    ∃ t, (dynmscC L w (mat.counted w) med mink maxiter).run = .ok (r, t) ∧
      t ≤ (w.read + 10 * w.step) * (mat.len * (med.length * (med.length + 2) + r.nIter * mat.len
        + r.nSwap * (med.length + 1))) :=
  (cost_dynmscC w mat hk mink maxiter).of_erase ((erase_dynmscC w mat med mink maxiter).trans hr)

/-- **C88, one medoid:** `n (n + 1)` reads. -/
theorem C88_single {med : List Nat} (hk : med.length = 1) (maxiter : Nat) {r : SwapResult L} {t : Nat}
    (hr : (fastermscC L w (mat.counted w) med maxiter).run = .ok (r, t) ∨
      (fastmscC L w (mat.counted w) med maxiter).run = .ok (r, t)) :
    t ≤ mat.len * (mat.len + 1) * w.read + mat.len * (mat.len + 3) * w.step := by
  simp only [fastermscC, fastmscC, hk, if_true, or_self] at hr
  exact ((cost_singleClusterC w mat med) _ _ hr).2

/-! ## The silhouettes -/

/-- **C88, silhouette:** with labels below `k`, at most `n (n - 1)` reads and `n (n + 2 k + 1)` steps, and as
many reads are needed, unless all labels are zero. The last term is the vector of the samples. -/
theorem C88_silhouette {assi : List Nat} {k : Nat} (hk : ∀ a ∈ assi, a < k) (samples : Bool) {r : L × List L}
    (hr : silhouette L mat assi samples = .ok r) :
    ∃ t, (silhouetteC L w (mat.counted w) assi samples).run = .ok (r, t) ∧
      t ≤ assi.length * (assi.length - 1) * w.read + assi.length * (assi.length + 2 * k + 1) * w.step
        + (if samples then assi.length else 0) * w.step ∧
      ((∃ a ∈ assi, a ≠ 0) → assi.length * ((assi.length - 1) * w.read + (assi.length + 1) * w.step) ≤ t) := by
  obtain ⟨t, h1, h2⟩ :=
    (cost_silhouetteC w mat assi samples).of_erase ((erase_silhouetteC w mat assi samples).trans hr)
  exact ⟨t, h1, h2.1 k hk, h2.2.1⟩

/-- **C88, silhouette, reads:** exactly `n (n - 1)`, or at most `n - 1` if all labels are zero. -/
theorem C88_silhouette_reads (assi : List Nat) (samples : Bool) {r : L × List L}
    (hr : silhouette L mat assi samples = .ok r) :
    ∃ t, (silhouetteC L ⟨1, 0⟩ (mat.counted ⟨1, 0⟩) assi samples).run = .ok (r, t) ∧
      ((∃ a ∈ assi, a ≠ 0) → t = assi.length * (assi.length - 1)) ∧
      ((∀ a ∈ assi, a = 0) → t ≤ assi.length - 1) := by
  obtain ⟨t, h1, h2⟩ :=
    (cost_silhouetteC ⟨1, 0⟩ mat assi samples).of_erase ((erase_silhouetteC ⟨1, 0⟩ mat assi samples).trans hr)
  obtain ⟨h2, h3, h4⟩ := h2
  simp only [Nat.mul_one, Nat.mul_zero, Nat.add_zero] at h2 h3 h4
  refine ⟨t, h1, fun ha => le_antisymm (h2 (assi.sum + 1) fun a h => ?_) (h3 ha), h4⟩
  exact Nat.lt_succ_of_le (List.le_sum_of_mem h)

/-- **C88, medoid_silhouette:** exactly `n k` reads and `n (k - 1)` steps. -/
theorem C88_medoid_silhouette {meds : List Nat} (hk : meds.length ≠ 1) (samples : Bool) {r : L × List L}
    (hr : medoidSilhouette L mat meds samples = .ok r) :
    ∃ t, (medoidSilhouetteC L w (mat.counted w) meds samples).run = .ok (r, t) ∧
      t = mat.len * (meds.length * w.read + (meds.length - 1) * w.step)
        + (if samples then mat.len else 0) * w.step := by
  obtain ⟨t, h1, h2⟩ := (cost_medoidSilhouetteC w mat meds hk samples).of_erase
    ((erase_medoidSilhouetteC w mat meds samples).trans hr)
  exact ⟨t, h1, h2.2⟩

/-- **C88, medoid_silhouette, reads.** -/
theorem C88_medoid_silhouette_reads {meds : List Nat} (hk : meds.length ≠ 1) (samples : Bool) {r : L × List L}
    (hr : medoidSilhouette L mat meds samples = .ok r) :
    (medoidSilhouetteC L ⟨1, 0⟩ (mat.counted ⟨1, 0⟩) meds samples).run = .ok (r, mat.len * meds.length) := by
  obtain ⟨t, h1, h2⟩ := C88_medoid_silhouette ⟨1, 0⟩ mat hk samples hr
  rw [h1, h2]
  simp

/-! ## PAMSIL -/

/-- **C88, pamsil_swap:** every iteration takes between `k (n - k) n (n - 1 + k)` and `k n² (n + 2 k)` reads,
so PAMSIL needs a factor of about `n` more than PAMMEDSIL. -/
theorem C88_pamsil_swap {med : List Nat} (hk : med.length ≠ 1) (hm : ∀ x ∈ med, x < mat.len) (maxiter : Nat)
    {r : SwapResult L} (hr : pamsilSwap L mat med maxiter = .ok r) :
    ∃ t, (pamsilSwapC L w (mat.counted w) med maxiter).run = .ok (r, t) ∧
      r.nIter * (med.length * ((mat.len - med.length) *
        (mat.len * ((mat.len - 1 + med.length) * (w.read + w.step))))) ≤ t ∧
      t ≤ (w.read + 6 * w.step) *
        (mat.len * (mat.len + 2 * med.length) * (1 + r.nIter * (med.length * mat.len))) := by
  obtain ⟨t, h1, h2⟩ :=
    (cost_pamsilSwapC w mat hk hm maxiter).of_erase ((erase_pamsilSwapC w mat med maxiter).trans hr)
  exact ⟨t, h1, h2.2⟩

/-- **C88, pamsil**, BUILD included. -/
theorem C88_pamsil {k : Nat} (hk : k ≠ 1) (maxiter : Nat) {r : SwapResult L}
    (hr : pamsil L mat k maxiter = .ok r) :
    ∃ t, (pamsilC L w (mat.counted w) k maxiter).run = .ok (r, t) ∧
      r.nIter * (k * ((mat.len - k) * (mat.len * ((mat.len - 1 + k) * (w.read + w.step))))) ≤ t ∧
      t ≤ (w.read + 6 * w.step) *
        (mat.len * (k * mat.len) + mat.len * (mat.len + k) * (1 + r.nIter * (k * mat.len))) := by
  obtain ⟨t, h1, h2⟩ := (cost_pamsilC w mat hk maxiter).of_erase ((erase_pamsilC w mat k maxiter).trans hr)
  exact ⟨t, h1, h2.2⟩

end KMedoids

namespace KMedoids

/-! ## The factor between FastMSC and PAMMEDSIL -/

section
variable {N L : Type} [LinearOrder N] [Zero N] [RDist N] [LawfulDist N]
variable [Field L] [LinearOrder L] [IsStrictOrderedRing L] [RLoss L] [LawfulField L]
variable [RFrom N L] [LawfulFrom N L] [LawfulAdd N L]

theorem msc_speedup_aux {mat : Mat N} {n : Nat} {d : Nat → Nat → N} (hm : IsMatrix mat n d)
    (hd : Dissim n d) {med : List Nat} (hv : ValidMeds n med) (hnd : med.Nodup) (hk : 3 ≤ med.length)
    (hn : 2 * med.length ≤ n) {maxiter : Nat} (hi : 0 < maxiter) (w : Weights) :
    ∃ (r : SwapResult L) (t t' : Nat), (fastmscC L w (mat.counted w) med maxiter).run = .ok (r, t) ∧
      (pammedsilSwapC L w (mat.counted w) med maxiter).run = .ok (r, t') ∧
      (w.read + w.step) * (med.length * t) ≤ 8 * ((w.read + 7 * w.step) * t') := by
  have e := C34_fastmsc_partial (L := L) hm hd hv hnd (by omega) maxiter
  have hr := pammedsilSwap_eq (L := L) hm hv maxiter
  generalize pammedsilSwapP L d n med maxiter = r at hr
  have hk1 : med.length ≠ 1 := by omega
  obtain ⟨t, h1, h2, h3⟩ := (cost_fastmscC (L := L) w mat hk1 maxiter).of_erase
    ((erase_fastmscC w mat med maxiter).trans (e.trans hr))
  obtain ⟨t', g1, -, g3, -⟩ := (cost_pammedsilSwapC (L := L) w mat hk1 maxiter).of_erase
    ((erase_pammedsilSwapC w mat med maxiter).trans hr)
  have hI := pammedsilSwapC_iter (L := L) w mat hk1 hi _ _ g1
  refine ⟨r, t, t', h1, g1, ?_⟩
  rw [hm.len] at h3 g3
  generalize r.nIter = I at *
  generalize r.nSwap = W at *
  generalize med.length = k at *
  generalize w.read = R at *
  generalize w.step = S at *
  have a1 : k + I * n + W * (k + 1) ≤ 3 * (I * n) := by
    have b1 : k ≤ I * k := Nat.le_mul_of_pos_left _ (by omega)
    have b2 : W * (k + 1) ≤ I * (k + 1) := Nat.mul_le_mul_right _ h2
    have b3 : I * (2 * k + 1) ≤ I * (2 * n) := Nat.mul_le_mul_left _ (by omega)
    nlinarith
  have a2 : 3 * (n * n) ≤ 8 * ((n - k) * (n - 1)) := by
    have b1 : n ≤ 2 * (n - k) := by omega
    have b2 : 3 * n ≤ 4 * (n - 1) := by omega
    have := Nat.mul_le_mul b1 b2
    nlinarith
  calc (R + S) * (k * t) ≤ (R + S) * (k * ((R + 7 * S) * (n * (3 * (I * n))))) :=
        Nat.mul_le_mul_left _ (Nat.mul_le_mul_left _ (h3.trans
          (Nat.mul_le_mul_left _ (Nat.mul_le_mul_left _ a1))))
    _ = (R + S) * k * (R + 7 * S) * I * (3 * (n * n)) := by ring
    _ ≤ (R + S) * k * (R + 7 * S) * I * (8 * ((n - k) * (n - 1))) := Nat.mul_le_mul_left _ a2
    _ = 8 * ((R + 7 * S) * (I * ((n - k) * (k * ((n - 1) * (R + S)))))) := by ring
    _ ≤ _ := Nat.mul_le_mul_left _ (Nat.mul_le_mul_left _ g3)

/-- **C88, the factor `k`, reads:** FastMSC returns the same as PAMMEDSIL with at most `8 / k` times the reads.
`k ≥ 3`, `2 k ≤ n`, at least one iteration. -/
theorem C88_speedup_reads {mat : Mat N} {n : Nat} {d : Nat → Nat → N} (hm : IsMatrix mat n d)
    (hd : Dissim n d) {med : List Nat} (hv : ValidMeds n med) (hnd : med.Nodup) (hk : 3 ≤ med.length)
    (hn : 2 * med.length ≤ n) {maxiter : Nat} (hi : 0 < maxiter) :
    ∃ (r : SwapResult L) (t t' : Nat), (fastmscC L ⟨1, 0⟩ (mat.counted ⟨1, 0⟩) med maxiter).run = .ok (r, t) ∧
      (pammedsilSwapC L ⟨1, 0⟩ (mat.counted ⟨1, 0⟩) med maxiter).run = .ok (r, t') ∧ med.length * t ≤ 8 * t' := by
  obtain ⟨r, t, t', h1, h2, h3⟩ := msc_speedup_aux (L := L) hm hd hv hnd hk hn hi ⟨1, 0⟩
  exact ⟨r, t, t', h1, h2, by simpa using h3⟩

/-- **C88, the factor `k`, all weights:** the total cost of FastMSC is at most `56 / k` times that of
PAMMEDSIL, whatever a read and a step cost. -/
theorem C88_speedup {mat : Mat N} {n : Nat} {d : Nat → Nat → N} (hm : IsMatrix mat n d)
    (hd : Dissim n d) {med : List Nat} (hv : ValidMeds n med) (hnd : med.Nodup) (hk : 3 ≤ med.length)
    (hn : 2 * med.length ≤ n) {maxiter : Nat} (hi : 0 < maxiter) (w : Weights) (hw : 0 < w.read + w.step) :
    ∃ (r : SwapResult L) (t t' : Nat), (fastmscC L w (mat.counted w) med maxiter).run = .ok (r, t) ∧
      (pammedsilSwapC L w (mat.counted w) med maxiter).run = .ok (r, t') ∧ med.length * t ≤ 56 * t' := by
  obtain ⟨r, t, t', h1, h2, h3⟩ := msc_speedup_aux (L := L) hm hd hv hnd hk hn hi w
  refine ⟨r, t, t', h1, h2, Nat.le_of_mul_le_mul_left ?_ hw⟩
  have : (w.read + 7 * w.step) * t' ≤ 7 * (w.read + w.step) * t' := Nat.mul_le_mul_right _ (by omega)
  nlinarith

end

/-! ## Examples -/

/-- The hypotheses of the theorems are met, and these are the numbers of reads in real runs: FastMSC and
PAMMEDSIL find the same (`C34`) with 82 and 163 reads, and PAMSIL reads 1458 entries. -/
example : IsMatrix exMat 6 exD ∧ Dissim 6 exD ∧ ValidMeds 6 [0, 1, 2] ∧ [0, 1, 2].Nodup ∧
    (fastermscC ℚ ⟨1, 0⟩ (exMat.counted ⟨1, 0⟩) [0, 1, 2] 9).run
      = .ok (⟨14 / 15, [1, 1, 1, 0, 0, 2], 2, 3, [4, 1, 5]⟩, 69) ∧
    (fastmscC ℚ ⟨1, 0⟩ (exMat.counted ⟨1, 0⟩) [0, 1, 2] 9).run
      = .ok (⟨14 / 15, [1, 1, 1, 0, 0, 2], 3, 2, [4, 1, 5]⟩, 82) ∧
    (pammedsilSwapC ℚ ⟨1, 0⟩ (exMat.counted ⟨1, 0⟩) [0, 1, 2] 9).run
      = .ok (⟨14 / 15, [1, 1, 1, 0, 0, 2], 3, 2, [4, 1, 5]⟩, 163) ∧
    (pammedsilC ℚ ⟨1, 0⟩ (exMat.counted ⟨1, 0⟩) 3 9).run
      = .ok (⟨14 / 15, [0, 0, 0, 1, 1, 2], 2, 1, [0, 4, 5]⟩, 191) ∧
    (dynmscC ℚ ⟨1, 0⟩ (exMat.counted ⟨1, 0⟩) [0, 1, 2] 1 9).run
      = .ok (⟨14 / 15, [1, 1, 1, 0, 0, 2], 4, 4, [4, 1, 5], [0, 13 / 15, 14 / 15]⟩, 116) ∧
    (pamsilSwapC ℚ ⟨1, 0⟩ (exMat.counted ⟨1, 0⟩) [0, 1, 2] 9).run
      = .ok (⟨11453 / 16632, [2, 2, 2, 0, 0, 1], 3, 2, [3, 5, 2]⟩, 1458) ∧
    (pamsilC ℚ ⟨1, 0⟩ (exMat.counted ⟨1, 0⟩) 3 9).run
      = .ok (⟨11453 / 16632, [0, 0, 0, 1, 1, 2], 2, 1, [0, 4, 5]⟩, 993) ∧
    (silhouetteC ℚ ⟨1, 0⟩ (exMat.counted ⟨1, 0⟩) [1, 1, 1, 0, 0, 2] false).run = .ok ((11453 / 16632, []), 30) ∧
    (silhouetteC ℚ ⟨1, 0⟩ (exMat.counted ⟨1, 0⟩) [0, 0, 0, 0, 0, 0] false).run = .ok ((0, []), 5) ∧
    (medoidSilhouetteC ℚ ⟨1, 0⟩ (exMat.counted ⟨1, 0⟩) [4, 1, 5] false).run = .ok ((14 / 15, []), 18) ∧
    (fastmscC ℚ ⟨1, 0⟩ (exMat.counted ⟨1, 0⟩) [0, 1] 9).run
      = .ok (⟨13 / 15, [1, 1, 1, 0, 0, 0], 2, 1, [4, 1]⟩, 71) :=
  ⟨exMat_isMatrix, exD_dissim, ex_valid (by decide) (by decide) (by decide), by decide,
    by decide +kernel, by decide +kernel, by decide +kernel, by decide +kernel, by decide +kernel,
    by decide +kernel, by decide +kernel, by decide +kernel, by decide +kernel, by decide +kernel,
    by decide +kernel⟩

end KMedoids
