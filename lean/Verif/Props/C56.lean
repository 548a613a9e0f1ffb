import Verif.Proofs.Descent
import Verif.Props.C39_C43

/-!
# C56: PAMSIL converges

Losses are ordered and added exactly, division and conversion of distances to losses may be anything. The matrix
is arbitrary for `pamsil_swap`.
-/

set_option linter.unusedSectionVars false

namespace KMedoids

open RFrom (conv)

variable {N L : Type} [LinearOrder N] [Zero N] [RDist N] [LawfulDist N]
variable [AddCommGroup L] [LinearOrder L] [IsOrderedAddMonoid L] [RLoss L] [LawfulLoss L] [RFrom N L]

/-- From the second swap on, every swap increases the silhouette of the medoids. -/
theorem psLoopP_descent {d : Nat → Nat → N} {n k : Nat} {med assi : List Nat} (hv : ValidMeds n med)
    (hk : med.length = k) (hl : assi.length = n) (hlab : ∀ a ∈ assi, a < k)
    {fuel iter : Nat} {sil : L} {nSwaps : Nat} {r : L × List Nat × Nat × Nat} (hs : sil = silM L d n med)
    (hr : psLoopP d n k fuel iter sil med assi nSwaps = .ok r) :
    ∃ c, Descent (fun m => OrderDual.toDual (silM L d n m)) (fun a => a.length = k ∧ ∀ m ∈ a, m < n) c med r.2.1 ∧
      r.2.2.2 = nSwaps + c ∧ r.2.2.1 ≤ iter + c + 1 := by
  induction fuel generalizing iter sil med assi nSwaps with
  | zero => cases hr; exact ⟨0, .refl _, rfl, by simp⟩
  | succ fuel ih =>
    obtain ⟨h1, -⟩ := psScanP_cover (L := L) (d := d) hv hk hl hlab
    unfold psLoopP at hr
    dsimp only at hr
    rw [rleL'] at hr
    split at hr
    · cases hr; exact ⟨0, .refl _, rfl, by simp⟩
    · rename_i hle
      rw [decide_eq_true_eq, not_le] at hle
      obtain ⟨-, h6⟩ := psScanP_spec (L := L) (d := d) (n := n) hk assi
      rcases h6 with e | ⟨b1, b2, b3⟩
      · rw [e] at hr
        have : setIdx med k usizeMax = .error .index := by simp [setIdx, hk]
        rw [this] at hr; cases hr
      · rw [setIdx_lt (hk ▸ b1), ok_bind] at hr
        obtain ⟨c, i1, i2, i3⟩ := ih (hv.set _ b2) (by simp [hk]) h1.assiLen h1.label b3 hr
        rw [b3, hs] at hle
        have hst : Descent (fun m => OrderDual.toDual (silM L d n m)) (fun a => a.length = k ∧ ∀ m ∈ a, m < n) 1 med
            (med.set (psScanP (L := L) d n k med assi).best.2.1 (psScanP (L := L) d n k med assi).best.2.2) :=
          .step (.refl med) _ ⟨by simp [hk], (hv.set _ b2).range⟩ (OrderDual.toDual_lt_toDual.mpr hle)
        exact ⟨1 + c, hst.trans i1, by omega, by omega⟩

/-- Whatever the silhouette at the start. -/
theorem psLoopP_bound {d : Nat → Nat → N} {n k : Nat} {med assi : List Nat} (hv : ValidMeds n med)
    (hk : med.length = k) (hl : assi.length = n) (hlab : ∀ a ∈ assi, a < k)
    {fuel iter : Nat} {sil : L} {nSwaps : Nat} {r : L × List Nat × Nat × Nat}
    (hr : psLoopP d n k fuel iter sil med assi nSwaps = .ok r) :
    r.2.2.2 ≤ nSwaps + n ^ k ∧ r.2.2.1 ≤ iter + n ^ k + 1 := by
  cases fuel with
  | zero => cases hr; exact ⟨by simp, by dsimp only; omega⟩
  | succ fuel =>
    obtain ⟨h1, -⟩ := psScanP_cover (L := L) (d := d) hv hk hl hlab
    unfold psLoopP at hr
    dsimp only at hr
    split at hr
    · cases hr; exact ⟨by simp, by dsimp only; omega⟩
    · obtain ⟨-, h6⟩ := psScanP_spec (L := L) (d := d) (n := n) hk assi
      rcases h6 with e | ⟨b1, b2, b3⟩
      · rw [e] at hr
        have : setIdx med k usizeMax = .error .index := by simp [setIdx, hk]
        rw [this] at hr; cases hr
      · rw [setIdx_lt (hk ▸ b1), ok_bind] at hr
        obtain ⟨c, i1, i2, i3⟩ := psLoopP_descent (hv.set _ b2) (by simp [hk]) h1.assiLen h1.label b3 hr
        have hc := i1.count_list ⟨by simp [hk], (hv.set _ b2).range⟩
        omega

/-- **C56, pamsil_swap.** There are fewer swaps than lists of `k` objects; with `maxiter` above that number
`pamsil_swap` ends by itself (if it does not panic, see C41). -/
theorem C56_pamsil_swap {mat : Mat N} {n : Nat} {d : Nat → Nat → N} (hm : IsMatrix mat n d)
    {med : List Nat} (hv : ValidMeds n med) (hk : 2 ≤ med.length) {maxiter : Nat} {r : SwapResult L}
    (hr : pamsilSwap L mat med maxiter = .ok r) :
    r.nSwap < n ^ med.length ∧ r.nIter ≤ n ^ med.length ∧ (n ^ med.length < maxiter → r.nIter < maxiter) := by
  rw [pamsilSwap_eq hm hv] at hr
  obtain ⟨h1, h2⟩ := pamsilOptP_loop hk hr
  obtain ⟨c, g1, g2, g3⟩ := psLoopP_descent hv rfl (nearAssiP_length _ _ _) (nearAssiP_label d hv.sizes.pos) rfl h1
  have hc := g1.count_list ⟨rfl, hv.range⟩
  dsimp only at g2 g3
  omega

/-- **C56, pamsil.** -/
theorem C56_pamsil [LawfulFrom N L] {mat : Mat N} {n k : Nat} {d : Nat → Nat → N} (hm : IsMatrix mat n d)
    (hd : Dissim n d) (hs : Sizes n k) (hk : 2 ≤ k) {maxiter : Nat} {r : SwapResult L}
    (hr : pamsil L mat k maxiter = .ok r) :
    r.nSwap ≤ n ^ k ∧ r.nIter ≤ n ^ k + 1 ∧ (n ^ k + 1 < maxiter → r.nIter < maxiter) := by
  obtain ⟨meds, -, hv, hl, -, he⟩ := pamsil_run (L := L) hm hd hs maxiter
  rw [he] at hr
  obtain ⟨h1, h2⟩ := pamsilOptP_loop (by omega) hr
  obtain ⟨g1, g2⟩ := psLoopP_bound hv rfl (by simp) (fun a ha => by
    rw [List.eq_of_mem_replicate ha]; omega) h1
  rw [hl] at g1 g2
  dsimp only at g1 g2
  omega

/-- One swap, the bound is 36. -/
example : IsMatrix exMat 6 exD ∧ Dissim 6 exD ∧ ValidMeds 6 [0, 1] ∧
    pamsilSwap ℚ exMat [0, 1] 37 = .ok ⟨42871 / 62118, [1, 1, 1, 0, 0, 0], 2, 1, [3, 1]⟩ ∧ pamsil ℚ exMat 2 38 = .ok ⟨42871 / 62118, [0, 0, 0, 1, 1, 1], 2, 1, [0, 4]⟩ :=
  ⟨exMat_isMatrix, exD_dissim, ex_valid (by decide) (by decide) (by decide), by decide +kernel, by decide +kernel⟩

end KMedoids
