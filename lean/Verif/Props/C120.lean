import Verif.Proofs.LossFixed
import Verif.Props.C59

/-!
# C120: the loss of the last exchange

C58 and C59 found that `pam_swap`, `fastpam1`, `fastmsc` and `pammedsil_swap` can return the medoids after the last exchange with the
loss before it. Here: storing the loss before the loop is left is all that is needed. `pamSwapFixed` and so on are the models with this
place changed (`Model/Repaired2.lean`); they are **not** the code. Medoids, labels and counters stay the same, for any matrix and
any arithmetic, and the reported loss is, operation by operation, that of the returned medoids.

`fastmscFixed` also stops when there is no candidate; with this the full C29 holds.
-/

set_option linter.unusedSectionVars false
set_option linter.overlappingInstances false

namespace KMedoids

open RFrom (conv)

/-! ## Nothing else changes -/

section any
variable {N L : Type} [RDist N] [RLoss L] [RFrom N L]

/-- **C120, pam_swap:** everything but the loss is as in the code, for any matrix, medoids and arithmetic. -/
theorem C120_pam_swap_same {mat : Mat N} {med : List Nat} {maxiter : Nat} {r : SwapResult L}
    (h : pamSwap L mat med maxiter = .ok r) : ∃ l, pamSwapFixed L mat med maxiter = .ok { r with loss := l } := by
  unfold pamSwap pamOptimize at h
  unfold pamSwapFixed
  cases hi : initialAssignment L mat med with
  | error e => rw [hi] at h; cases h
  | ok t =>
    simp only [hi, ok_bind] at h ⊢
    split at h
    · rename_i h1; rw [if_pos h1]; exact ⟨r.loss, h⟩
    · rename_i h1
      rw [if_neg h1]
      cases hl : pamLoop mat med.length maxiter 0 ⟨med, t.2, t.1, 0⟩ with
      | error e => rw [hl] at h; cases h
      | ok u =>
        obtain ⟨l, hl'⟩ := fixPamLoop_same hl
        simp only [hl, hl', ok_bind] at h ⊢
        cases h
        exact ⟨l, rfl⟩

/-- **C120, fastpam1:** everything but the loss is as in the code. -/
theorem C120_fastpam1_same {mat : Mat N} {med : List Nat} {maxiter : Nat} {r : SwapResult L}
    (h : fastpam1 L mat med maxiter = .ok r) : ∃ l, fastpam1Fixed L mat med maxiter = .ok { r with loss := l } := by
  unfold fastpam1 at h
  unfold fastpam1Fixed
  split at h
  · rename_i h1; rw [if_pos h1]; exact ⟨r.loss, h⟩
  · rename_i h1
    rw [if_neg h1]
    cases hi : initialAssignment L mat med with
    | error e => rw [hi] at h; cases h
    | ok t =>
      simp only [hi, ok_bind] at h ⊢
      cases hl : fastpam1Loop mat med.length maxiter 0 ⟨med, t.2, t.1, 0⟩ with
      | error e => rw [hl] at h; cases h
      | ok u =>
        obtain ⟨l, hl'⟩ := fixFastpam1Loop_same hl
        simp only [hl, hl', ok_bind] at h ⊢
        cases h
        exact ⟨l, rfl⟩

/-- **C120, fastmsc:** everything but the loss is as in the code. -/
theorem C120_fastmsc_same {mat : Mat N} {med : List Nat} {maxiter : Nat} {r : SwapResult L}
    (h : fastmsc L mat med maxiter = .ok r) : ∃ l, fastmscFixed L mat med maxiter = .ok { r with loss := l } := by
  unfold fastmsc at h
  unfold fastmscFixed
  split at h
  · rename_i h1; rw [if_pos h1]; exact ⟨r.loss, h⟩
  · rename_i h1
    rw [if_neg h1]
    split at h
    · rename_i h2
      rw [if_pos h2]
      unfold fastmscK2 at h
      simp only [h2, beq_self_eq_true, rassert_true, ok_bind] at h ⊢
      cases hi : k2InitialAssignment L mat med with
      | error e => rw [hi] at h; cases h
      | ok t =>
        simp only [hi, ok_bind] at h ⊢
        cases hl : fastmscK2Loop mat 2 maxiter 0 (⟨med, t.2.1, t.2.2, t.1, 0, 0⟩ : K2State N L) with
        | error e => rw [hl] at h; cases h
        | ok u =>
          obtain ⟨l, hl'⟩ := fixFastmscK2Loop_same h2 hl
          simp only [hl, hl', ok_bind] at h ⊢
          cases h
          exact ⟨_, rfl⟩
    · rename_i h2
      rw [if_neg h2]
      cases hi : mscInitialAssignment L mat med with
      | error e => rw [hi] at h; cases h
      | ok t =>
        simp only [hi, ok_bind] at h ⊢
        cases hl : fastmscLoop mat med.length maxiter 0 ⟨med, t.2, t.1, 0⟩ with
        | error e => rw [hl] at h; cases h
        | ok u =>
          obtain ⟨l, hl'⟩ := fixFastmscLoop_same hl
          simp only [hl, hl', ok_bind] at h ⊢
          cases h
          exact ⟨_, rfl⟩

/-- **C120, pammedsil_swap:** everything but the loss is as in the code. -/
theorem C120_pammedsil_swap_same {mat : Mat N} {med : List Nat} {maxiter : Nat} {r : SwapResult L}
    (h : pammedsilSwap L mat med maxiter = .ok r) : ∃ l, pammedsilSwapFixed L mat med maxiter = .ok { r with loss := l } := by
  unfold pammedsilSwap pammedsilOptimize at h
  unfold pammedsilSwapFixed
  cases hi : mscInitialAssignment L mat med with
  | error e => rw [hi] at h; cases h
  | ok t =>
    simp only [hi, ok_bind] at h ⊢
    split at h
    · rename_i h1; rw [if_pos h1]; exact ⟨r.loss, h⟩
    · rename_i h1
      rw [if_neg h1]
      cases hl : pmsLoop mat med.length maxiter 0 ⟨med, t.2, t.1, 0⟩ with
      | error e => rw [hl] at h; cases h
      | ok u =>
        obtain ⟨l, hl'⟩ := fixPmsLoop_same hl
        simp only [hl, hl', ok_bind] at h ⊢
        cases h
        exact ⟨_, rfl⟩

/-- **C120, the full C29 for fastmsc after the repair:** no panic and a well-formed answer, for any distances, any arithmetic and any
number of medoids and objects. -/
theorem C120_fastmsc_no_panic [SaneZero L] {mat : Mat N} {n : Nat} {d : Nat → Nat → N} (hm : IsMatrix mat n d)
    {med : List Nat} (hv : ValidMeds n med) (hk : 2 ≤ med.length) (maxiter : Nat) :
    ∃ r : SwapResult L, fastmscFixed L mat med maxiter = .ok r ∧ WellFormed n med.length r.med r.assi ∧ r.nIter ≤ maxiter := by
  by_cases h2 : med.length = 2
  · obtain ⟨m0, m1, rfl⟩ := List.length_eq_two.mp h2
    have g0 := hv.range m0 (by simp)
    have g1 := hv.range m1 (by simp)
    obtain ⟨t, ht, he, hi⟩ := fixFastmscK2Loop_ok (L := L) hm (fuel := maxiter) (iter := 0) (k2InitP_shape d g0 g1 0)
    unfold fastmscFixed
    rw [if_neg (by omega), if_pos h2, k2InitialAssignment_eq (L := L) hm hv.sizes.n_le g0 g1 0]
    simp only [ok_bind, h2]
    rw [show (⟨[m0, m1], (k2InitP L d n m0 m1 0).assi, (k2InitP L d n m0 m1 0).data,
      (k2InitP L d n m0 m1 0).loss, 0, 0⟩ : K2State N L) = k2InitP L d n m0 m1 0 from rfl, ht]
    exact ⟨_, rfl, he.wf, by simpa using hi⟩
  · obtain ⟨r, hr, hw, hi⟩ := C29_fastmsc_partial (L := L) hm hv hk (fun h => h2 h.1) maxiter
    obtain ⟨l, hl⟩ := C120_fastmsc_same hr
    exact ⟨_, hl, hw, hi⟩

end any

/-! ## The loss -/

variable {N L : Type} [LinearOrder N] [Zero N] [RDist N] [LawfulDist N] [RLoss L] [RFrom N L]

theorem pExact_init {n : Nat} {d : Nat → Nat → N} (hd : Dissim n d) {med : List Nat} (hv : ValidMeds n med) (hnd : med.Nodup)
    (hk : 2 ≤ med.length) :
    PExact n med.length d (⟨med, initDataP d n med, nearLossP L (initDataP d n med), 0⟩ : PState N L) :=
  ⟨initDataP_shape d hv hk, initDataP_ok hd hk hv hnd, nearLossP_leftSum (initDataP_ok hd hk hv hnd)⟩

/-- **C120, the full C58 for pam_swap after the repair:** in any arithmetic it returns, and the loss is that of the returned
medoids. -/
theorem C120_pam_swap [SaneZero L] (hz : (conv (0 : N) : L) = RLoss.zero) {mat : Mat N} {n : Nat} {d : Nat → Nat → N}
    (hm : IsMatrix mat n d) (hd : Dissim n d) {med : List Nat} (hv : ValidMeds n med) (hnd : med.Nodup) (maxiter : Nat) :
    ∃ r : SwapResult L, pamSwapFixed L mat med maxiter = .ok r ∧ r.loss = recomputed L n d r.med := by
  unfold pamSwapFixed
  by_cases h1 : med.length = 1
  · obtain ⟨c, rfl⟩ := List.length_eq_one_iff.mp h1
    simp only [initialAssignment_eq (L := L) hm hv, ok_bind, h1, if_true, (singleCluster_eq hm (hv.range c (by simp))).1]
    exact ⟨_, rfl, singleP_recomputed n d c⟩
  · have hk : 2 ≤ med.length := by have := hv.sizes.pos; omega
    obtain ⟨t, ht, he⟩ := fixPamLoop_loss hz hd hm hv.sizes.k_lt (fuel := maxiter) (iter := 0) (pExact_init (L := L) hd hv hnd hk)
    simp only [initialAssignment_eq (L := L) hm hv, ok_bind, h1, if_false, ht]
    exact ⟨_, rfl, by rw [recomputed_many n d (by show 2 ≤ List.length _; rw [he.shape.medLen]; exact hk)]; exact he.loss⟩

/-- **C120, the full C58 for fastpam1 after the repair.** -/
theorem C120_fastpam1 [SaneZero L] (hz : (conv (0 : N) : L) = RLoss.zero) {mat : Mat N} {n : Nat} {d : Nat → Nat → N}
    (hm : IsMatrix mat n d) (hd : Dissim n d) {med : List Nat} (hv : ValidMeds n med) (hnd : med.Nodup) (maxiter : Nat) :
    ∃ r : SwapResult L, fastpam1Fixed L mat med maxiter = .ok r ∧ r.loss = recomputed L n d r.med := by
  unfold fastpam1Fixed
  by_cases h1 : med.length = 1
  · obtain ⟨c, rfl⟩ := List.length_eq_one_iff.mp h1
    simp only [h1, if_true, (singleCluster_eq hm (hv.range c (by simp))).1]
    exact ⟨_, rfl, singleP_recomputed n d c⟩
  · have hk : 2 ≤ med.length := by have := hv.sizes.pos; omega
    obtain ⟨t, ht, he⟩ := fixFastpam1Loop_loss hz hd hm hv.sizes.k_lt (by omega) (fuel := maxiter) (iter := 0)
      (pExact_init (L := L) hd hv hnd hk)
    simp only [initialAssignment_eq (L := L) hm hv, ok_bind, h1, if_false, ht]
    exact ⟨_, rfl, by rw [recomputed_many n d (by show 2 ≤ List.length _; rw [he.shape.medLen]; exact hk)]; exact he.loss⟩

theorem mExact_init {n : Nat} {d : Nat → Nat → N} (hd : Dissim n d) {med : List Nat} (hv : ValidMeds n med) (hnd : med.Nodup)
    (hk : 2 ≤ med.length) :
    MExact n med.length d (⟨med, mscInitDataP d n med, mscLossP L (mscInitDataP d n med), 0⟩ : MPState N L) :=
  ⟨mscInitDataP_shape d hv hk, MInvA.init hd hv hnd hk⟩

theorem MExact.result {n k : Nat} {d : Nat → Nat → N} {t : MPState N L} (h : MExact n k d t) (hn : n ≤ u32Max) {it : Nat} :
    let r : SwapResult L := ⟨toSilhouette t.loss n, t.data.map (·.near.i), it, t.nSwaps, t.med⟩
    SilAnswer n k d r ∧ r.loss = recomputedSil L n d r.med := by
  refine ⟨mcache_answer h.inv.medLen h.inv.medRange h.inv.cache, ?_⟩
  show toSilhouette t.loss n = _
  rw [toSil_eq hn, h.inv.loss]
  rfl

/-- **C120, the full C59 for fastmsc after the repair:** in any arithmetic it returns, also for two medoids on two objects, the
labels are nearest medoids, and the silhouette is that of the returned medoids. -/
theorem C120_fastmsc [SaneZero L] {mat : Mat N} {n : Nat} {d : Nat → Nat → N}
    (hm : IsMatrix mat n d) (hd : Dissim n d) {med : List Nat} (hv : ValidMeds n med) (hnd : med.Nodup) (hk : 2 ≤ med.length)
    (maxiter : Nat) :
    ∃ r : SwapResult L, fastmscFixed L mat med maxiter = .ok r ∧ SilAnswer n med.length d r ∧ r.loss = recomputedSil L n d r.med := by
  unfold fastmscFixed
  rw [if_neg (by omega)]
  by_cases h2 : med.length = 2
  · obtain ⟨m0, m1, rfl⟩ := List.length_eq_two.mp h2
    obtain ⟨t, ht, he⟩ := fixFastmscK2Loop_loss hd hm (fuel := maxiter) (iter := 0)
      (s := k2InitP L d n m0 m1 0) ⟨m0, m1, k2InitP_A hd (hv.range m0 (by simp)) (hv.range m1 (by simp)) 0⟩
    rw [if_pos h2, k2InitialAssignment_eq (L := L) hm hv.sizes.n_le (hv.range m0 (by simp)) (hv.range m1 (by simp)) 0]
    simp only [ok_bind, h2]
    rw [show (⟨[m0, m1], (k2InitP L d n m0 m1 0).assi, (k2InitP L d n m0 m1 0).data,
      (k2InitP L d n m0 m1 0).loss, 0, 0⟩ : K2State N L) = k2InitP L d n m0 m1 0 from rfl, ht]
    simp only [ok_bind, hm.len]
    refine ⟨_, rfl, ⟨he.shape.medLen, he.shape.medRange, he.shape.assiLen, he.nearest⟩, ?_⟩
    show toSilhouette t.1.loss n = _
    rw [toSil_eq hv.sizes.n_le, he.loss]
    rfl
  · obtain ⟨t, ht, he⟩ := fixFastmscLoop_loss hd hm hv.sizes.k_lt (by omega) (fuel := maxiter) (iter := 0)
      (mExact_init (L := L) hd hv hnd hk)
    simp only [if_neg h2, mscInitialAssignment_eq (L := L) hm hv, ok_bind, ht, hm.len]
    exact ⟨_, rfl, he.result hv.sizes.n_le⟩

/-- **C120, the full C59 for pammedsil_swap after the repair.** -/
theorem C120_pammedsil_swap [SaneZero L] {mat : Mat N} {n : Nat} {d : Nat → Nat → N}
    (hm : IsMatrix mat n d) (hd : Dissim n d) {med : List Nat} (hv : ValidMeds n med) (hnd : med.Nodup) (hk : 2 ≤ med.length)
    (maxiter : Nat) :
    ∃ r : SwapResult L, pammedsilSwapFixed L mat med maxiter = .ok r ∧ SilAnswer n med.length d r ∧
      r.loss = recomputedSil L n d r.med := by
  unfold pammedsilSwapFixed
  obtain ⟨t, ht, he⟩ := fixPmsLoop_loss hd hm hv.sizes.k_lt (fuel := maxiter) (iter := 0) (mExact_init (L := L) hd hv hnd hk)
  simp only [if_neg (show ¬ med.length = 1 by omega), mscInitialAssignment_eq (L := L) hm hv, ok_bind, ht, hm.len]
  exact ⟨_, rfl, he.result hv.sizes.n_le⟩

/-! ## Non-vacuity: the counterexamples of C58, C59 and C29 -/

/-- With a significand of three bits the code reports 10 (`stale_run`); now it is 12, with the same medoids, labels and counters. -/
example : pamSwapFixed Fl (ofRows staleRows) [0, 1] 20 = .ok ⟨⟨12⟩, [0, 1, 0, 1, 1, 0], 2, 2, [5, 4]⟩ ∧
    fastpam1Fixed Fl (ofRows staleRows) [0, 1] 20 = .ok ⟨⟨12⟩, [0, 1, 0, 1, 1, 0], 2, 2, [5, 4]⟩ ∧
    recomputed Fl 6 staleD [5, 4] = ⟨12⟩ := by
  decide +kernel

/-- The hypotheses are met. -/
example : ∃ r : SwapResult Fl, pamSwapFixed Fl (ofRows staleRows) [0, 1] 20 = .ok r ∧ r.loss = recomputed Fl 6 staleD r.med :=
  C120_pam_swap (by decide +kernel) stale_isMatrix stale_dissim (ex_valid (by decide) (by decide) (by decide)) (by decide) 20

/-- FastMSC: 3/4 instead of 7/8 (`stale3_run`). PAMMEDSIL: 1/2 instead of 3/4 (`stale2_run`). -/
example : fastmscFixed Fl (ofRows staleRows3) [0, 1, 2] 20 = .ok ⟨⟨3 / 4⟩, [0, 1, 2, 1, 2, 1], 2, 2, [0, 1, 4]⟩ ∧
    pammedsilSwapFixed Fl (ofRows staleRows2) [0, 1] 20 = .ok ⟨⟨1 / 2⟩, [0, 0, 0, 1, 1, 0], 1, 1, [0, 4]⟩ := by
  decide +kernel

example : ∃ r : SwapResult Fl, fastmscFixed Fl (ofRows staleRows3) [0, 1, 2] 20 = .ok r ∧ SilAnswer 6 3 staleD3 r ∧
    r.loss = recomputedSil Fl 6 staleD3 r.med :=
  C120_fastmsc stale3_isMatrix stale3_dissim (ex_valid (by decide) (by decide) (by decide)) (by decide) (by decide) 20

/-- The matrix on which `fastmsc` panics (`C29_negation`). -/
example : fastmscFixed ℚ (ofRows [[1, 2], [2, 1]] : Mat ℕ) [0, 1] 5 = .ok ⟨1 - 1 / 2, [0, 1], 1, 0, [0, 1]⟩ ∧
    (fastmsc ℚ (ofRows [[1, 2], [2, 1]] : Mat ℕ) [0, 1] 5).toOption = none := by
  decide +kernel

end KMedoids
