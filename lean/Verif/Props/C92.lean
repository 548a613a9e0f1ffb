import Verif.Proofs.DynRun
import Verif.Props.C36_C38

/-!
# C92: DynMSC is the textbook algorithm, for at most four initial medoids

Exact arithmetic, zero diagonal, no negative distances; the matrix need not be symmetric.
-/

set_option linter.unusedSectionVars false

namespace KMedoids

open RFrom (conv)

section exact
variable {N L : Type} [LinearOrder N] [Zero N] [RDist N] [LawfulDist N]
variable [Field L] [LinearOrder L] [IsStrictOrderedRing L] [RLoss L] [LawfulField L]
variable [RFrom N L] [LawfulFrom N L]

theorem fastermscK2P_eager {n : Nat} {d : Nat → Nat → N} (hd : Dissim n d) {m0 m1 : Nat} (h0 : m0 < n) (h1 : m1 < n)
    (hne : m0 ≠ m1) (maxiter : Nat) :
    ((fastermscK2P L d n m0 m1 maxiter).med, (fastermscK2P L d n m0 m1 maxiter).nIter,
        (fastermscK2P L d n m0 m1 maxiter).nSwap) =
      eagerRun (fun m => - medSil (conv : N → L) n d m) (List.range n) maxiter [m0, m1] := by
  have hseq : ∀ j ∈ List.range n, j < n := fun j hj => List.mem_range.mp hj
  show _ = eagerRun (negSil L n d) (List.range n) maxiter [m0, m1]
  rw [← eagerRun_negSil (by omega) d hseq maxiter (by simp [h0, h1])]
  have hinit : K2Ex n d (k2InitP L d n m0 m1 n) := ⟨m0, m1, k2InitP_ok d h0 h1 hne n⟩
  obtain ⟨h1, h2, h3⟩ := loopG_eager (k2_eagerSpec (L := L) hd) hseq List.nodup_range
    (fuel := maxiter) (iter := 0) hinit (Or.inl (by simp [k2InitP]))
  have hmed : (k2InitP L d n m0 m1 n).med = [m0, m1] := rfl
  have h0 : (k2InitP L d n m0 m1 n).nSwaps = 0 := rfl
  simp only [hmed, h0, Nat.zero_add] at h1 h2 h3
  exact Prod.ext h1 (Prod.ext h2 h3)

/-- The end of `dynmsc`: two medoids, and the results. -/
theorem dynFinishP_track {n k0 minK : Nat} {d : Nat → Nat → N} (hd : Dissim n d) (hn : n ≤ u32Max)
    (maxiter : Nat) {F : L} {s : DynState N L} (h : DynInv n d k0 minK F s)
    (hend : ¬ (3 ≤ s.med.length ∧ minK ≤ s.med.length)) (h1 : 1 ≤ minK)
    {hist : List (List Nat × Nat × Nat)} (ht : DynTrack n d minK hist s) (hlow : minK ≤ s.med.length + 1)
    {steps : List (List Nat × Nat × Nat)}
    (hsteps : steps = hist ++ dynSteps (medSil (conv : N → L) n d) n maxiter minK s.med.length s.med)
    (hne : steps ≠ []) :
    (dynFinishP d n maxiter minK s).med = bestSol (medSil (conv : N → L) n d) (steps.map (·.1)) ∧
      (dynFinishP d n maxiter minK s).loss = medSil (conv : N → L) n d (dynFinishP d n maxiter minK s).med ∧
      (dynFinishP d n maxiter minK s).nIter = (steps.map (·.2.1)).sum ∧
      (dynFinishP d n maxiter minK s).nSwap = (steps.map (·.2.2)).sum ∧
      (dynFinishP d n maxiter minK s).losses = (if minK ≤ 1 then [0] else []) ++
        (steps.map fun e => medSil (conv : N → L) n d e.1).reverse := by
  have h2 := h.shape.two
  by_cases hm2 : minK ≤ 2
  · have hl : s.med.length = 2 := by omega
    have e := list_two hl
    have hr0 : s.med.getD 0 0 < n := h.shape.medRange _ (by rw [e]; simp)
    have hr1 : s.med.getD 1 0 < n := h.shape.medRange _ (by rw [e]; simp)
    have hne : s.med.getD 0 0 ≠ s.med.getD 1 0 := by
      have := h.own.nodup; rw [e] at this; simpa using this
    have ho := fastermscK2P_outcome (L := L) hd hr0 hr1 hne hn maxiter
    have he := fastermscK2P_eager (L := L) hd hr0 hr1 hne maxiter
    have hrange : ∀ m ∈ (fastermscK2P L d n (s.med.getD 0 0) (s.med.getD 1 0) maxiter).med, m < n := by
      refine ho.chain.range ?_
      intro m hm; simp only [List.mem_cons, List.not_mem_nil, or_false] at hm
      rcases hm with rfl | rfl
      · exact hr0
      · exact hr1
    have hpos : 0 < medSil (conv : N → L) n d (fastermscK2P L d n (s.med.getD 0 0) (s.med.getD 1 0) maxiter).med :=
      medSil_pos hd hrange (by rw [ho.chain.length]; simp)
    rw [← e] at he
    have hsteps : steps = hist ++ [((fastermscK2P L d n (s.med.getD 0 0) (s.med.getD 1 0) maxiter).med,
        (fastermscK2P L d n (s.med.getD 0 0) (s.med.getD 1 0) maxiter).nIter,
        (fastermscK2P L d n (s.med.getD 0 0) (s.med.getD 1 0) maxiter).nSwap)] := by
      rw [hsteps, hl, he, dynSteps_more _ _ _ (by omega) hm2, dynSteps_done _ _ _ (by omega)]
    have hloss := ho.loss
    generalize hK : fastermscK2P L d n (s.med.getD 0 0) (s.med.getD 1 0) maxiter = K at *
    have hb := best_step (e := (K.med, K.nIter, K.nSwap)) ht hpos hloss
    have hfin : dynFinishP d n maxiter minK s =
        ⟨if s.bestLoss < K.loss then K.loss else s.bestLoss,
         if s.bestLoss < K.loss then K.assi else s.retAssi, s.retIter + K.nIter, s.retSwaps + K.nSwap,
         if s.bestLoss < K.loss then K.med else s.retMeds,
         if minK ≤ 1 then (s.retLoss.set (2 - minK) K.loss).set 0 0 else s.retLoss.set (2 - minK) K.loss⟩ := by
      simp only [dynFinishP, hm2, if_true, dynTwoP, hK, rgtL, decide_eq_true_eq, zeroL]
    rw [hfin, hsteps]
    refine ⟨hb.1, hb.2, by rw [ht.iter]; simp, by rw [ht.swaps]; simp, ?_⟩
    dsimp only
    rw [ht.losses, hl, show 2 + 1 - minK = (2 - minK) + 1 by omega, set_replicate_append, hloss]
    split
    · rw [show 2 - minK = 1 by omega]; simp
    · rw [show 2 - minK = 0 by omega]; simp
  · have hm1 : ¬ minK ≤ 1 := by omega
    have hfin : dynFinishP d n maxiter minK s =
        ⟨s.bestLoss, s.retAssi, s.retIter, s.retSwaps, s.retMeds, s.retLoss⟩ := by
      simp only [dynFinishP, hm2, hm1, if_false]
    have h0 : dynSteps (medSil (conv : N → L) n d) n maxiter minK s.med.length s.med = [] := by
      obtain ⟨k, hk⟩ : ∃ k, s.med.length = k + 1 := ⟨s.med.length - 1, by omega⟩
      rw [hk]
      show (if _ then _ else _) = _
      rw [if_neg (by omega)]
    rw [h0, List.append_nil] at hsteps
    subst hsteps
    rw [hfin]
    refine ⟨(ht.best hne).1, (ht.best hne).2, ht.iter, ht.swaps, ?_⟩
    dsimp only
    rw [ht.losses, show s.med.length + 1 - minK = 0 by omega, if_neg hm1]
    simp

/-- **C92.** Started with two, three or four medoids, `dynmsc` returns the first of the best of the textbook
solutions, its medoid silhouette, the total numbers of passes and swaps, and the silhouettes of all solutions by
number of medoids. -/
theorem C92_dynmsc [LawfulAdd N L] {mat : Mat N} {n : Nat} {d : Nat → Nat → N} (hm : IsMatrix mat n d)
    (hd : Dissim n d) {med : List Nat} (hv : ValidMeds n med) (hnd : med.Nodup) (hk : 2 ≤ med.length)
    (hk4 : med.length ≤ 4) (mink maxiter : Nat) {r : DynResult L} (hr : dynmsc L mat med mink maxiter = .ok r) :
    let S := medSil (conv : N → L) n d
    let steps := dynSteps S n maxiter (min mink med.length) med.length med
    r.med = bestSol S (steps.map (·.1)) ∧ r.loss = S r.med ∧
      r.nIter = (steps.map (·.2.1)).sum ∧ r.nSwap = (steps.map (·.2.2)).sum ∧
      r.losses = (if mink ≤ 1 then [0] else []) ++ (steps.map fun e => S e.1).reverse := by
  dsimp only
  rw [dynmsc_eq hm hv hk] at hr
  cases hr
  have hn0 : 0 < n := lt_of_lt_of_le hv.sizes.pos hv.sizes.le
  have hsame : ∀ (k : Nat) (x : List Nat), dynSteps (medSil (conv : N → L) n d) n maxiter (min mink med.length) k x =
      dynSteps (medSil (conv : N → L) n d) n maxiter (min (max mink 1) med.length) k x := by
    intro k
    induction k with
    | zero => intro x; rfl
    | succ k ih =>
      intro x
      unfold dynSteps
      dsimp only
      rw [ih]
      by_cases h : 2 ≤ k + 1 ∧ min mink med.length ≤ k + 1
      · rw [if_pos h, if_pos (by omega)]
      · rw [if_neg h, if_neg (by omega)]
  rw [hsame]
  have h1 : (mink ≤ 1) ↔ (min (max mink 1) med.length ≤ 1) := by omega
  rw [show (if mink ≤ 1 then [(0 : L)] else []) = if min (max mink 1) med.length ≤ 1 then [(0 : L)] else [] by
    simp only [h1]]
  have hmk1 : 1 ≤ min (max mink 1) med.length := by omega
  have hmk2 : min (max mink 1) med.length ≤ med.length := by omega
  generalize min (max mink 1) med.length = minK at *
  have hi := dynInitP_inv (L := L) hd hv hnd hk minK
    (toSilhouette (dynSwapP d n maxiter (dynInitP L d n med minK)).1.loss n)
  have hl := dynLoopP_ok hd hv.sizes.n_le hn0 hv.sizes.k_lt hm maxiter (fuel := med.length) hi (fun _ => rfl)
  have he := (dynLoop_eq (L := L) hm hn0 hv.sizes.k_lt maxiter (fuel := med.length)
    (dynInitP_shape d hv hk minK) le_rfl).2.2
  have ht0 : DynTrack n d minK [] (dynInitP L d n med minK) :=
    ⟨fun _ => zeroL, fun h => absurd rfl h, rfl, rfl, by
      show List.replicate _ RLoss.zero = _
      rw [zeroL, show (dynInitP L d n med minK).med.length + 1 - minK = med.length - minK + 1 from by
        show med.length + 1 - minK = _
        omega]
      simp⟩
  obtain ⟨hist, ht, hst⟩ := dynLoopP_track hd hv.sizes.n_le hn0 hv.sizes.k_lt hk4 hm maxiter
    (fuel := med.length) hi (fun _ => rfl) ht0
  rw [List.nil_append] at hst
  have hlow := (dynLoopP_retShape (L := L) hm hn0 hv.sizes.k_lt maxiter (fuel := med.length)
    (dynInitP_shape d hv hk minK) ⟨hk, hmk2, le_rfl, hv.range, Nat.zero_le _, by
      show minK ≤ med.length + 1
      omega⟩).low
  refine dynFinishP_track hd hv.sizes.n_le maxiter hl he hmk1 ht hlow hst.symm ?_
  show dynSteps _ _ _ _ med.length med ≠ []
  obtain ⟨k, hk'⟩ : ∃ k, med.length = k + 1 := ⟨med.length - 1, by omega⟩
  rw [hk']
  show (if _ then _ else _) ≠ _
  rw [if_pos (by omega)]
  simp

end exact

/-- The statement without the bound on the number of medoids. False, see `C92_negation`. -/
def C92_full : Prop := ∀ (mat : Mat ℕ) (n : Nat) (d : Nat → Nat → ℕ), IsMatrix mat n d → Dissim n d →
  ∀ med : List Nat, ValidMeds n med → med.Nodup → 2 ≤ med.length → ∀ (mink maxiter : Nat) (r : DynResult ℚ),
    dynmsc ℚ mat med mink maxiter = .ok r →
      r.losses = (if mink ≤ 1 then [0] else []) ++ ((dynSteps (medSil (conv : ℕ → ℚ) n d) n maxiter
        (min mink med.length) med.length med).map fun e => medSil (conv : ℕ → ℚ) n d e.1).reverse

/-- Five medoids: the silhouettes reported for four and three medoids are not those of the textbook. -/
theorem C92_negation : ¬ C92_full := by
  intro h
  have := h exDynMat 7 exDynD exDynMat_isMatrix exDynD_dissim [4, 6, 1, 2, 5]
    ⟨⟨by decide, by decide, by decide, by decide⟩, by decide⟩ (by decide) (by decide) 3 10
    ⟨37 / 42, [1, 2, 3, 0, 1, 0, 1], 6, 3, [5, 6, 1, 2], [11 / 14, 37 / 42, 5 / 6]⟩ (by decide +kernel)
  revert this
  decide +kernel

/-- Four medoids down to one. -/
example : ValidMeds 6 [0, 1, 2, 3] ∧ ([0, 1, 2, 3] : List Nat).Nodup ∧
    dynmsc ℚ exMat [0, 1, 2, 3] 1 9 =
      .ok ⟨23 / 24, [1, 1, 2, 3, 3, 0], 6, 5, [5, 1, 2, 4], [0, 13 / 15, 14 / 15, 23 / 24]⟩ ∧
    dynSteps (medSil (conv : ℕ → ℚ) 6 exD) 6 9 1 4 [0, 1, 2, 3] =
      [([5, 1, 2, 4], 2, 2), ([5, 1, 4], 2, 2), ([0, 4], 2, 1)] :=
  ⟨ex_valid (by decide) (by decide) (by decide), by decide, by decide +kernel, by decide +kernel⟩

end KMedoids
