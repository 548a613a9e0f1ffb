import Verif.Examples
import Verif.Proofs.CacheLoops

/-!
# C06 (medoids stay distinct) and C07 (nearest assignment)

Distances are linearly ordered, the diagonal is zero and no entry is negative. Nothing is assumed about
the arithmetic of the loss (it may round, saturate or produce NaN), about symmetry, or about the triangle
inequality.
-/

set_option linter.unusedSectionVars false

namespace KMedoids

variable {N L : Type} [LinearOrder N] [Zero N] [RDist N] [LawfulDist N] [RLoss L] [RFrom N L]

/-- Distinct medoids together with a nearest-medoid assignment. -/
def GoodAnswer (n : Nat) (d : Nat → Nat → N) (med assi : List Nat) : Prop :=
  med.Nodup ∧ NearestAssignment n d med assi

theorem CacheOk.good {n : Nat} {d : Nat → Nat → N} {med : List Nat} {data : List (Rec N)}
    (h : CacheOk n d med data) : GoodAnswer n d med (data.map (·.near.i)) := ⟨h.nodup, h.assignment⟩

theorem singleP_good {n : Nat} {mat : Mat N} {d : Nat → Nat → N} (hm : IsMatrix mat n d) {c : Nat}
    (hc : c < n) : GoodAnswer n d (singleP L d n c).med (singleP L d n c).assi :=
  ⟨by simp [singleP], single_assignment d (singleCluster_eq (L := L) hm hc).2⟩

theorem fpP_good {mat : Mat N} {n : Nat} {d : Nat → Nat → N} (hm : IsMatrix mat n d) (hd : Dissim n d)
    {med : List Nat} (hv : ValidMeds n med) (hnd : med.Nodup) (maxiter : Nat) {seq : List Nat}
    (hseq : ∀ j ∈ seq, j < n) :
    GoodAnswer n d (fpP L d n med maxiter seq).med (fpP L d n med maxiter seq).assi := by
  by_cases h1 : med.length = 1
  · obtain ⟨c, rfl⟩ := List.length_eq_one_iff.mp h1
    exact singleP_good hm (hv.range c (by simp))
  · have hk : 2 ≤ med.length := by have := hv.sizes.pos; omega
    rw [fpP_many d n hk]
    exact (fpLoopP_ok hd (by omega) hseq (fpInitP_ok hd hv hk hnd)).cache.good

theorem pOptP_good {mat : Mat N} {n : Nat} {d : Nat → Nat → N} (hm : IsMatrix mat n d)
    (hd : Dissim n d) {med : List Nat} (hv : ValidMeds n med)
    {data : List (Rec N)} (hc : 2 ≤ med.length → CacheOk n d med data)
    (scan : Nat → Nat → List Nat → List (Rec N) → L × Nat × Nat)
    (hscan : ScanSound n med.length d (scan n med.length)) (maxiter : Nat) (loss : L) :
    GoodAnswer n d (pOptP d n scan med data maxiter loss).med
      (pOptP d n scan med data maxiter loss).assi := by
  by_cases h1 : med.length = 1
  · obtain ⟨c, rfl⟩ := List.length_eq_one_iff.mp h1
    exact singleP_good hm (hv.range c (by simp))
  · have hk : 2 ≤ med.length := by have := hv.sizes.pos; omega
    rw [pOptP_many d n _ hk]
    exact (pLoopP_ok hd hscan (hc hk) rfl).1.good

theorem rand_fasterpam_good {mat : Mat N} {n : Nat} {d : Nat → Nat → N} (hm : IsMatrix mat n d)
    (hd : Dissim n d) {med : List Nat} (hv : ValidMeds n med) (hnd : med.Nodup) (maxiter : Nat)
    {seq : List Nat} (hseq : ∀ j ∈ seq, j < n) {r : SwapResult L}
    (hr : randFasterpam L mat med maxiter seq = .ok r) : GoodAnswer n d r.med r.assi := by
  rw [randFasterpam_eq hm hv maxiter hseq] at hr; cases hr
  exact fpP_good hm hd hv hnd maxiter hseq

theorem fasterpam_good {mat : Mat N} {n : Nat} {d : Nat → Nat → N} (hm : IsMatrix mat n d)
    (hd : Dissim n d) {med : List Nat} (hv : ValidMeds n med) (hnd : med.Nodup) (maxiter : Nat)
    {r : SwapResult L} (hr : fasterpam L mat med maxiter = .ok r) : GoodAnswer n d r.med r.assi := by
  rw [fasterpam_eq_rand, hm.len] at hr
  exact rand_fasterpam_good hm hd hv hnd maxiter (fun j hj => List.mem_range.mp hj) hr

theorem pam_swap_good [SaneZero L] {mat : Mat N} {n : Nat} {d : Nat → Nat → N} (hm : IsMatrix mat n d)
    (hd : Dissim n d) {med : List Nat} (hv : ValidMeds n med) (hnd : med.Nodup) (maxiter : Nat)
    {r : SwapResult L} (hr : pamSwap L mat med maxiter = .ok r) : GoodAnswer n d r.med r.assi := by
  rw [pamSwap_eq hm hv maxiter] at hr; cases hr
  exact pOptP_good hm hd hv (fun hk => initDataP_ok hd hk hv hnd) _ (pamScanP_sound _ _ _) _ _

theorem fastpam1_good [SaneZero L] {mat : Mat N} {n : Nat} {d : Nat → Nat → N} (hm : IsMatrix mat n d)
    (hd : Dissim n d) {med : List Nat} (hv : ValidMeds n med) (hnd : med.Nodup) (maxiter : Nat)
    {r : SwapResult L} (hr : fastpam1 L mat med maxiter = .ok r) : GoodAnswer n d r.med r.assi := by
  rw [fastpam1_eq hm hv maxiter] at hr; cases hr
  exact pOptP_good hm hd hv (fun hk => initDataP_ok hd hk hv hnd) _
    (fastScanP_sound hv.sizes.pos _) _ _

theorem alternating_good {mat : Mat N} {n : Nat} {d : Nat → Nat → N} (hm : IsMatrix mat n d)
    (hd : Dissim n d) {med : List Nat} (hv : ValidMeds n med) (hnd : med.Nodup) (maxiter : Nat)
    {r : AltResult L} (hr : alternating L mat med maxiter = .ok r) : GoodAnswer n d r.med r.assi := by
  rw [(alternating_eq (L := L) hm hv maxiter).1] at hr; cases hr
  exact altLoopP_ok hd hv hnd (nearAssiP_ok hd hv hnd)

/-! ## C06 -/

/-- **C06, rand_fasterpam**, for every visiting order. -/
theorem C06_rand_fasterpam {mat : Mat N} {n : Nat} {d : Nat → Nat → N} (hm : IsMatrix mat n d)
    (hd : Dissim n d) {med : List Nat} (hv : ValidMeds n med) (hnd : med.Nodup) (maxiter : Nat)
    {seq : List Nat} (hseq : ∀ j ∈ seq, j < n) {r : SwapResult L}
    (hr : randFasterpam L mat med maxiter seq = .ok r) : r.med.Nodup :=
  (rand_fasterpam_good hm hd hv hnd maxiter hseq hr).1

/-- **C06, fasterpam.** -/
theorem C06_fasterpam {mat : Mat N} {n : Nat} {d : Nat → Nat → N} (hm : IsMatrix mat n d)
    (hd : Dissim n d) {med : List Nat} (hv : ValidMeds n med) (hnd : med.Nodup) (maxiter : Nat)
    {r : SwapResult L} (hr : fasterpam L mat med maxiter = .ok r) : r.med.Nodup :=
  (fasterpam_good hm hd hv hnd maxiter hr).1

/-- **C06, pam_swap.** -/
theorem C06_pam_swap [SaneZero L] {mat : Mat N} {n : Nat} {d : Nat → Nat → N} (hm : IsMatrix mat n d)
    (hd : Dissim n d) {med : List Nat} (hv : ValidMeds n med) (hnd : med.Nodup) (maxiter : Nat)
    {r : SwapResult L} (hr : pamSwap L mat med maxiter = .ok r) : r.med.Nodup :=
  (pam_swap_good hm hd hv hnd maxiter hr).1

/-- **C06, fastpam1.** -/
theorem C06_fastpam1 [SaneZero L] {mat : Mat N} {n : Nat} {d : Nat → Nat → N} (hm : IsMatrix mat n d)
    (hd : Dissim n d) {med : List Nat} (hv : ValidMeds n med) (hnd : med.Nodup) (maxiter : Nat)
    {r : SwapResult L} (hr : fastpam1 L mat med maxiter = .ok r) : r.med.Nodup :=
  (fastpam1_good hm hd hv hnd maxiter hr).1

/-- **C06, alternating.** -/
theorem C06_alternating {mat : Mat N} {n : Nat} {d : Nat → Nat → N} (hm : IsMatrix mat n d)
    (hd : Dissim n d) {med : List Nat} (hv : ValidMeds n med) (hnd : med.Nodup) (maxiter : Nat)
    {r : AltResult L} (hr : alternating L mat med maxiter = .ok r) : r.med.Nodup :=
  (alternating_good hm hd hv hnd maxiter hr).1

/-! ## C07 -/

/-- **C07, rand_fasterpam**, for every visiting order. -/
theorem C07_rand_fasterpam {mat : Mat N} {n : Nat} {d : Nat → Nat → N} (hm : IsMatrix mat n d)
    (hd : Dissim n d) {med : List Nat} (hv : ValidMeds n med) (hnd : med.Nodup) (maxiter : Nat)
    {seq : List Nat} (hseq : ∀ j ∈ seq, j < n) {r : SwapResult L}
    (hr : randFasterpam L mat med maxiter seq = .ok r) : NearestAssignment n d r.med r.assi :=
  (rand_fasterpam_good hm hd hv hnd maxiter hseq hr).2

/-- **C07, fasterpam.** -/
theorem C07_fasterpam {mat : Mat N} {n : Nat} {d : Nat → Nat → N} (hm : IsMatrix mat n d)
    (hd : Dissim n d) {med : List Nat} (hv : ValidMeds n med) (hnd : med.Nodup) (maxiter : Nat)
    {r : SwapResult L} (hr : fasterpam L mat med maxiter = .ok r) :
    NearestAssignment n d r.med r.assi :=
  (fasterpam_good hm hd hv hnd maxiter hr).2

/-- **C07, pam_swap.** -/
theorem C07_pam_swap [SaneZero L] {mat : Mat N} {n : Nat} {d : Nat → Nat → N} (hm : IsMatrix mat n d)
    (hd : Dissim n d) {med : List Nat} (hv : ValidMeds n med) (hnd : med.Nodup) (maxiter : Nat)
    {r : SwapResult L} (hr : pamSwap L mat med maxiter = .ok r) :
    NearestAssignment n d r.med r.assi :=
  (pam_swap_good hm hd hv hnd maxiter hr).2

/-- **C07, fastpam1.** -/
theorem C07_fastpam1 [SaneZero L] {mat : Mat N} {n : Nat} {d : Nat → Nat → N} (hm : IsMatrix mat n d)
    (hd : Dissim n d) {med : List Nat} (hv : ValidMeds n med) (hnd : med.Nodup) (maxiter : Nat)
    {r : SwapResult L} (hr : fastpam1 L mat med maxiter = .ok r) :
    NearestAssignment n d r.med r.assi :=
  (fastpam1_good hm hd hv hnd maxiter hr).2

/-- **C07, alternating.** -/
theorem C07_alternating {mat : Mat N} {n : Nat} {d : Nat → Nat → N} (hm : IsMatrix mat n d)
    (hd : Dissim n d) {med : List Nat} (hv : ValidMeds n med) (hnd : med.Nodup) (maxiter : Nat)
    {r : AltResult L} (hr : alternating L mat med maxiter = .ok r) :
    NearestAssignment n d r.med r.assi :=
  (alternating_good hm hd hv hnd maxiter hr).2

/-- The hypotheses of C06 and C07 are met by six objects with two duplicates, and swaps happen. -/
example : IsMatrix exMat 6 exD ∧ Dissim 6 exD ∧ ValidMeds 6 [0, 1, 2] ∧ [0, 1, 2].Nodup ∧
    fasterpam ℤ exMat [0, 1, 2] 9 = .ok ⟨2, [1, 1, 1, 0, 0, 2], 2, 3, [4, 1, 5]⟩ ∧
    pamSwap ℤ exMat [0, 1, 2] 9 = .ok ⟨2, [1, 1, 1, 0, 0, 2], 3, 2, [4, 1, 5]⟩ ∧
    fastpam1 ℤ exMat [0, 1, 2] 9 = .ok ⟨2, [1, 1, 1, 0, 0, 2], 3, 2, [4, 1, 5]⟩ ∧
    alternating ℤ exMat [0, 1, 2] 9 = .ok ⟨6, [0, 1, 0, 2, 2, 2], 3, [0, 1, 4]⟩ :=
  ⟨exMat_isMatrix, exD_dissim, ex_valid (by decide) (by decide) (by decide), by decide,
    by decide +kernel, by decide +kernel, by decide +kernel, by decide +kernel⟩

end KMedoids
