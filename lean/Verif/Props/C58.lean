import Verif.Proofs.BitLoss
import Verif.Props.C06_C07
import Verif.Props.C04_C05_C10
import Verif.Examples
import Verif.Fl

/-!
# C58: the reported loss is the loss of the returned medoids, under any arithmetic

Distances are linearly ordered, the diagonal is zero and no entry is negative; the arithmetic of the loss is
arbitrary (it may round, saturate, produce NaN, not be associative), except that the distance `0` is converted to
the loss `0` where stated. The loss returned by FasterPAM and the alternating algorithm is, operation by
operation, the sum from left to right of the distances to the nearest returned medoid, so no error accumulates
over the exchanges; that of the parallel version the sum in some bracketing. For PAM and FastPAM1 this is false:
when the last exchange does not lower the computed loss they return the medoids after the exchange with the loss
before it.

C06 and C07 for the parallel version, with rounding and for every schedule, are at the end.
-/

set_option linter.unusedSectionVars false
set_option linter.overlappingInstances false

namespace KMedoids

variable {N L : Type} [LinearOrder N] [Zero N] [RDist N] [LawfulDist N] [RLoss L] [RFrom N L]
open RFrom (conv)

/-- The total deviation as one computes it: over the objects from left to right; for a single medoid the sum
over the other objects, starting with zero. -/
def recomputed (L : Type) [RLoss L] [RFrom N L] (n : Nat) (d : Nat → Nat → N) : List Nat → L
  | [c] => rowSum L n d c
  | med => leftSum (devs L n d med)

theorem recomputed_many (n : Nat) (d : Nat → Nat → N) {med : List Nat} (h : 2 ≤ med.length) :
    recomputed L n d med = leftSum (devs L n d med) := by
  match med, h with
  | a :: b :: t, _ => rfl

theorem singleP_recomputed (n : Nat) (d : Nat → Nat → N) (c : Nat) :
    (singleP L d n c).loss = recomputed L n d (singleP L d n c).med := by
  obtain ⟨c', h1, h2⟩ := singleP_rowSum (L := L) n d c
  rw [h1, h2]; rfl

/-! ## FasterPAM -/

/-- **C58, rand_fasterpam**, for every visiting order. -/
theorem C58_rand_fasterpam (hz : (conv (0 : N) : L) = RLoss.zero) {mat : Mat N} {n : Nat}
    {d : Nat → Nat → N} (hm : IsMatrix mat n d) (hd : Dissim n d) {med : List Nat} (hv : ValidMeds n med)
    (hnd : med.Nodup) (maxiter : Nat) {seq : List Nat} (hseq : ∀ j ∈ seq, j < n) {r : SwapResult L}
    (hr : randFasterpam L mat med maxiter seq = .ok r) : r.loss = recomputed L n d r.med := by
  rw [randFasterpam_eq hm hv maxiter hseq] at hr; cases hr
  by_cases h1 : med.length = 1
  · obtain ⟨c, rfl⟩ := List.length_eq_one_iff.mp h1
    exact singleP_recomputed n d c
  · have hk : 2 ≤ med.length := by have := hv.sizes.pos; omega
    have h := fpInitP_ok (L := L) hd hv hk hnd
    have hok := fpLoopP_ok hd (by omega) hseq (fuel := maxiter) (iter := 0) h
    have hl := fpLoopP_loss hz hd (by omega) hseq (fuel := maxiter) (iter := 0) h (nearLossP_leftSum h.cache)
    rw [fpP_many d n hk, recomputed_many n d (by show 2 ≤ List.length _; rw [hok.medLen]; exact hk)]
    exact hl

/-- **C58, fasterpam.** -/
theorem C58_fasterpam (hz : (conv (0 : N) : L) = RLoss.zero) {mat : Mat N} {n : Nat} {d : Nat → Nat → N}
    (hm : IsMatrix mat n d) (hd : Dissim n d) {med : List Nat} (hv : ValidMeds n med) (hnd : med.Nodup)
    (maxiter : Nat) {r : SwapResult L} (hr : fasterpam L mat med maxiter = .ok r) :
    r.loss = recomputed L n d r.med := by
  rw [fasterpam_eq_rand, hm.len] at hr
  exact C58_rand_fasterpam hz hm hd hv hnd maxiter (fun j hj => List.mem_range.mp hj) hr

/-- `C58_fasterpam` put to use: the loss is the one the code itself computes for the returned medoids. -/
theorem C58_fasterpam_recompute (hz : (conv (0 : N) : L) = RLoss.zero) {mat : Mat N} {n : Nat}
    {d : Nat → Nat → N} (hm : IsMatrix mat n d) (hd : Dissim n d) {med : List Nat} (hv : ValidMeds n med)
    (hnd : med.Nodup) (hk : 2 ≤ med.length) (maxiter : Nat) {r : SwapResult L}
    (hr : fasterpam L mat med maxiter = .ok r) :
    ∃ assi, assignNearest L mat r.med = .ok (r.loss, assi) := by
  have hl := C58_fasterpam hz hm hd hv hnd maxiter hr
  have hg := fasterpam_good hm hd hv hnd maxiter hr
  obtain ⟨r', hr', hw⟩ := C04_fasterpam (L := L) hm hv maxiter
  rw [hr] at hr'; cases hr'
  have hlen : r.med.length = med.length := hw.medLen
  have hv' : ValidMeds n r.med := ⟨by rw [hlen]; exact hv.sizes, hw.medRange⟩
  refine ⟨nearAssiP d n r.med, ?_⟩
  rw [assignNearest_eq hm hv', nearAssiLossP_leftSum hd hv' hg.1, hl,
    recomputed_many n d (by rw [hlen]; exact hk)]

/-! ## the alternating algorithm -/

/-- **C58, alternating**, any number of medoids. -/
theorem C58_alternating {mat : Mat N} {n : Nat} {d : Nat → Nat → N} (hm : IsMatrix mat n d)
    (hd : Dissim n d) {med : List Nat} (hv : ValidMeds n med) (hnd : med.Nodup) (maxiter : Nat)
    {r : AltResult L} (hr : alternating L mat med maxiter = .ok r) : r.loss = leftSum (devs L n d r.med) := by
  rw [(alternating_eq (L := L) hm hv maxiter).1] at hr; cases hr
  exact altLoopP_loss hd hv hnd (nearAssiP_ok hd hv hnd) (nearAssiLossP_leftSum hd hv hnd)

/-! ## the parallel version -/

/-- **C58, par_fasterpam**, for every schedule and visiting order. -/
theorem C58_par_fasterpam (hz : (conv (0 : N) : L) = RLoss.zero) (sc0 : Sched) (scF scS : Nat → Nat → Sched)
    {mat : Mat N} {n : Nat} {d : Nat → Nat → N} (hm : IsMatrix mat n d) (hd : Dissim n d) {med : List Nat}
    (hv : ValidMeds n med) (hnd : med.Nodup) (hk : 2 ≤ med.length) (maxiter : Nat) {seq : List Nat}
    (hseq : ∀ j ∈ seq, j < n) {r : SwapResult L}
    (hr : parFasterpam L sc0 scF scS mat med maxiter seq = .ok r) : BracketSum (devs L n d r.med) r.loss := by
  obtain ⟨h1, -, h3⟩ := parFasterpam_any (L := L) sc0 scF scS hm hv maxiter hseq
  rw [h1, h3 hk] at hr; cases hr
  exact (parLoopP_any scF scS hd (by omega) hseq (parInitP_ok sc0 hd hv hk hnd)).loss hz

theorem par_fasterpam_good (sc0 : Sched) (scF scS : Nat → Nat → Sched) {mat : Mat N} {n : Nat}
    {d : Nat → Nat → N} (hm : IsMatrix mat n d) (hd : Dissim n d) {med : List Nat} (hv : ValidMeds n med)
    (hnd : med.Nodup) (maxiter : Nat) {seq : List Nat} (hseq : ∀ j ∈ seq, j < n) {r : SwapResult L}
    (hr : parFasterpam L sc0 scF scS mat med maxiter seq = .ok r) : GoodAnswer n d r.med r.assi := by
  obtain ⟨h1, -, h3⟩ := parFasterpam_any (L := L) sc0 scF scS hm hv maxiter hseq
  rw [h1] at hr; cases hr
  by_cases h : med.length = 1
  · obtain ⟨c, rfl⟩ := List.length_eq_one_iff.mp h
    exact singleP_good hm (hv.range c (by simp))
  · have hk : 2 ≤ med.length := by have := hv.sizes.pos; omega
    rw [h3 hk]
    exact (parLoopP_any scF scS hd (by omega) hseq (parInitP_ok sc0 hd hv hk hnd)).cache.good

/-- **C06, par_fasterpam**, for every schedule, complete or not, and visiting order. -/
theorem C06_par_fasterpam (sc0 : Sched) (scF scS : Nat → Nat → Sched) {mat : Mat N} {n : Nat}
    {d : Nat → Nat → N} (hm : IsMatrix mat n d) (hd : Dissim n d) {med : List Nat} (hv : ValidMeds n med)
    (hnd : med.Nodup) (maxiter : Nat) {seq : List Nat} (hseq : ∀ j ∈ seq, j < n) {r : SwapResult L}
    (hr : parFasterpam L sc0 scF scS mat med maxiter seq = .ok r) : r.med.Nodup :=
  (par_fasterpam_good sc0 scF scS hm hd hv hnd maxiter hseq hr).1

/-- **C07, par_fasterpam**, for every schedule, complete or not, and visiting order. -/
theorem C07_par_fasterpam (sc0 : Sched) (scF scS : Nat → Nat → Sched) {mat : Mat N} {n : Nat}
    {d : Nat → Nat → N} (hm : IsMatrix mat n d) (hd : Dissim n d) {med : List Nat} (hv : ValidMeds n med)
    (hnd : med.Nodup) (maxiter : Nat) {seq : List Nat} (hseq : ∀ j ∈ seq, j < n) {r : SwapResult L}
    (hr : parFasterpam L sc0 scF scS mat med maxiter seq = .ok r) : NearestAssignment n d r.med r.assi :=
  (par_fasterpam_good sc0 scF scS hm hd hv hnd maxiter hseq hr).2

/-! ## PAM and FastPAM1 -/

/-- The claim of C58 for `pam_swap` and `fastpam1`. It is false: `C58_negation`. -/
def C58_full : Prop :=
  ∀ (L : Type) [RLoss L] [SaneZero L] [RFrom ℕ L], (conv (0 : ℕ) : L) = RLoss.zero →
    ∀ (mat : Mat ℕ) (n : Nat) (d : Nat → Nat → ℕ), IsMatrix mat n d → Dissim n d →
    ∀ (med : List Nat), ValidMeds n med → med.Nodup → ∀ (maxiter : Nat) (r : SwapResult L),
      pamSwap L mat med maxiter = .ok r ∨ fastpam1 L mat med maxiter = .ok r →
      r.loss = recomputed L n d r.med

theorem pOptP_upToLast [SaneZero L] (hz : (conv (0 : N) : L) = RLoss.zero) {n : Nat} {d : Nat → Nat → N}
    (hd : Dissim n d) {med : List Nat} (hv : ValidMeds n med) (hnd : med.Nodup) (hk : 2 ≤ med.length)
    (scan : Nat → Nat → List Nat → List (Rec N) → L × Nat × Nat)
    (hscan : ScanSound n med.length d (scan n med.length)) (maxiter : Nat) :
    LossUpToLast n d (pOptP d n scan med (initDataP d n med) maxiter (nearLossP L (initDataP d n med))).med
      (pOptP d n scan med (initDataP d n med) maxiter (nearLossP L (initDataP d n med))).loss := by
  have hc := initDataP_ok hd hk hv hnd
  rw [pOptP_many d n _ hk]
  exact pLoopP_loss hz hd hscan (s := ⟨med, initDataP d n med, _, 0⟩) hc rfl (nearLossP_leftSum hc)

/-- **C58, pam_swap.** Partial: up to the last exchange. The reported loss belongs to the returned medoids, or
to the medoids before the last exchange, and then the last exchange did not lower the loss. (One medoid:
`C58_pam_swap_single`.) -/
theorem C58_pam_swap_partial [SaneZero L] (hz : (conv (0 : N) : L) = RLoss.zero) {mat : Mat N} {n : Nat}
    {d : Nat → Nat → N} (hm : IsMatrix mat n d) (hd : Dissim n d) {med : List Nat} (hv : ValidMeds n med)
    (hnd : med.Nodup) (hk : 2 ≤ med.length) (maxiter : Nat) {r : SwapResult L}
    (hr : pamSwap L mat med maxiter = .ok r) : LossUpToLast n d r.med r.loss := by
  rw [pamSwap_eq hm hv maxiter] at hr; cases hr
  exact pOptP_upToLast hz hd hv hnd hk _ (pamScanP_sound _ _ _) maxiter

/-- **C58, fastpam1.** Partial: up to the last exchange, as `C58_pam_swap_partial`. -/
theorem C58_fastpam1_partial [SaneZero L] (hz : (conv (0 : N) : L) = RLoss.zero) {mat : Mat N} {n : Nat}
    {d : Nat → Nat → N} (hm : IsMatrix mat n d) (hd : Dissim n d) {med : List Nat} (hv : ValidMeds n med)
    (hnd : med.Nodup) (hk : 2 ≤ med.length) (maxiter : Nat) {r : SwapResult L}
    (hr : fastpam1 L mat med maxiter = .ok r) : LossUpToLast n d r.med r.loss := by
  rw [fastpam1_eq hm hv maxiter] at hr; cases hr
  exact pOptP_upToLast hz hd hv hnd hk _ (fastScanP_sound hv.sizes.pos _) maxiter

/-- One medoid: the claim holds for PAM and FastPAM1, too. -/
theorem C58_pam_swap_single [SaneZero L] {mat : Mat N} {n : Nat} {d : Nat → Nat → N} (hm : IsMatrix mat n d)
    {c : Nat} (hv : ValidMeds n [c]) (maxiter : Nat) {r : SwapResult L}
    (hr : pamSwap L mat [c] maxiter = .ok r ∨ fastpam1 L mat [c] maxiter = .ok r) :
    r.loss = recomputed L n d r.med := by
  rcases hr with hr | hr
  · rw [pamSwap_eq hm hv maxiter] at hr; cases hr
    exact singleP_recomputed n d c
  · rw [fastpam1_eq hm hv maxiter] at hr; cases hr
    exact singleP_recomputed n d c

/-! ## the counterexample -/

def staleRows : List (List ℕ) :=
  [[0, 7, 3, 8, 5, 2], [7, 0, 7, 7, 6, 6], [3, 7, 0, 6, 8, 2], [8, 7, 6, 0, 1, 6], [5, 6, 8, 1, 0, 2],
    [2, 6, 2, 6, 2, 0]]

def staleD (x y : Nat) : ℕ := (staleRows.getD x []).getD y 0

theorem stale_isMatrix : IsMatrix (ofRows staleRows) 6 staleD :=
  ⟨rfl, rfl, fun x y hx hy => by
    have : ∀ x < 6, ∀ y < 6, (ofRows staleRows).get x y = .ok (staleD x y) := by decide +kernel
    exact this x hx y hy⟩

theorem stale_dissim : Dissim 6 staleD := ⟨by decide +kernel, fun _ _ _ _ => Nat.zero_le _⟩

/-- With a significand of three bits PAM and FastPAM1 return medoids 5 and 4 and report a loss of 10. -/
theorem stale_run :
    pamSwap Fl (ofRows staleRows) [0, 1] 20 = .ok ⟨⟨10⟩, [0, 1, 0, 1, 1, 0], 2, 2, [5, 4]⟩ ∧
      fastpam1 Fl (ofRows staleRows) [0, 1] 20 = .ok ⟨⟨10⟩, [0, 1, 0, 1, 1, 0], 2, 2, [5, 4]⟩ := by
  decide +kernel

/-- The loss of these medoids is 12 in this arithmetic (11 without rounding). -/
theorem stale_loss : recomputed Fl 6 staleD [5, 4] = ⟨12⟩ ∧ recomputed ℤ 6 staleD [5, 4] = 11 := by
  decide +kernel

/-- The claim of C58 is false for PAM and FastPAM1. -/
theorem C58_negation : ¬ C58_full := by
  intro h
  have := h Fl (by decide +kernel) _ 6 staleD stale_isMatrix stale_dissim [0, 1]
    (ex_valid (by decide) (by decide) (by decide)) (by decide) 20 _ (Or.inl stale_run.1)
  rw [stale_loss.1] at this
  exact absurd this (by decide +kernel)

/-! ## Non-vacuity -/

/-- The hypotheses of the FasterPAM theorems are met with rounding and three exchanges. -/
example : ∃ r : SwapResult Fl, fasterpam Fl (ofRows staleRows) [0, 1] 20 = .ok r ∧ r.nSwap = 3 ∧
    r.loss = recomputed Fl 6 staleD r.med ∧ r.loss = ⟨12⟩ := by
  have hr : fasterpam Fl (ofRows staleRows) [0, 1] 20 = .ok ⟨⟨12⟩, [0, 1, 0, 1, 1, 0], 2, 3, [5, 4]⟩ := by
    decide +kernel
  exact ⟨_, hr, rfl, C58_fasterpam (by decide +kernel) stale_isMatrix stale_dissim
    (ex_valid (by decide) (by decide) (by decide)) (by decide) 20 hr, rfl⟩

/-- Bracketing matters: the same numbers, 8 from left to right and 10 from right to left. -/
example : leftSum [(⟨7⟩ : Fl), ⟨1⟩, ⟨1⟩, ⟨1⟩] = ⟨8⟩ ∧ BracketSum [(⟨7⟩ : Fl), ⟨1⟩, ⟨1⟩, ⟨1⟩] ⟨10⟩ := by
  refine ⟨by decide +kernel, ?_⟩
  have h : RLoss.add (⟨7⟩ : Fl) (RLoss.add ⟨1⟩ (RLoss.add ⟨1⟩ ⟨1⟩)) = ⟨10⟩ := by decide +kernel
  exact h ▸ .join (.one _) (.join (.one _) (.join (.one _) (.one _)))

/-- The second alternative of `LossUpToLast` occurs. -/
example : LossUpToLast 6 staleD [5, 4] (⟨10⟩ : Fl) ∧ (⟨10⟩ : Fl) ≠ leftSum (devs Fl 6 staleD [5, 4]) :=
  ⟨C58_pam_swap_partial (by decide +kernel) stale_isMatrix stale_dissim
    (ex_valid (by decide) (by decide) (by decide)) (by decide) (by decide) 20 stale_run.1, by decide +kernel⟩

end KMedoids
