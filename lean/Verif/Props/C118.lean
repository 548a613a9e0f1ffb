import Verif.Proofs.DynFixed
import Verif.Props.C36_C38

/-!
# C118: two repairs make DynMSC the textbook algorithm, for any number of medoids

C37, C38, C92 and C106 found that `dynmsc` reports wrong losses for five or more initial medoids and drops the most useful medoid. Here:
the two places named there are the only reasons. `dynmscFixed` (`Model/Repaired.lean`) is the model of `dynmsc` with these two places
changed, nothing else. It is **not** the code.

Exact arithmetic, zero diagonal, no negative distances; the matrix need not be symmetric.
-/

set_option linter.unusedSectionVars false

namespace KMedoids

open RFrom (conv)

theorem eagerRun_le {L : Type} [LinearOrder L] (T : List Nat → L) (seq : List Nat) (fuel : Nat) (med : List Nat) :
    T (eagerRun T seq fuel med).1 ≤ T med ∧ (eagerRun T seq fuel med).1.length = med.length := by
  induction fuel generalizing med with
  | zero => exact ⟨le_refl _, rfl⟩
  | succ fuel ih =>
    by_cases h : (eagerPass T seq med).2 = 0
    · rw [eagerRun_done h]; exact ⟨le_refl _, rfl⟩
    · rw [eagerRun_more h]
      have h1 := ih (eagerPass T seq med).1
      have hl : (eagerPass T seq med).1.length = med.length := eager_length T seq (med, 0)
      refine ⟨le_trans h1.1 ?_, by rw [← hl]; exact h1.2⟩
      rcases eager_count T seq (med, 0) with ⟨e, -⟩ | ⟨-, e⟩
      · unfold eagerPass; rw [e]
      · exact le_of_lt e

section exact
variable {N L : Type} [LinearOrder N] [Zero N] [RDist N] [LawfulDist N]
variable [Field L] [LinearOrder L] [IsStrictOrderedRing L] [RLoss L] [LawfulField L]
variable [RFrom N L] [LawfulFrom N L]

/-- To drop the least useful medoid is at least as good as to drop any other. -/
theorem dropBest_ge {n : Nat} (hn : 0 < n) (d : Nat → Nat → N) {med : List Nat} (hk : 3 ≤ med.length) {b : Nat} (hb : b < med.length) :
    medSil (conv : N → L) n d (med.eraseIdx b) ≤ medSil (conv : N → L) n d (dropBest (medSil (conv : N → L) n d) med) := by
  obtain ⟨h1, h2, -⟩ := firstMin_spec (fun b => - medSil (conv : N → L) n d (med.eraseIdx b)) (k := med.length) (by omega)
  unfold dropBest
  rw [dropAt_eq, medSil_perm hn (removeListP_perm h1) (by rw [removeListP_length h1]; omega)]
  exact neg_le_neg_iff.mp (h2 b hb)

theorem dropBest_length (S : List Nat → L) {med : List Nat} (hk : 1 ≤ med.length) : (dropBest S med).length = med.length - 1 := by
  unfold dropBest
  rw [dropAt_eq, removeListP_length (firstMin_spec _ hk).1]

/-- Every solution of the textbook algorithm is at least as good as the previous one with any one medoid dropped. -/
theorem bestSteps_chain {n : Nat} (hn : 0 < n) (d : Nat → Nat → N) (maxiter minK : Nat) {k : Nat} {med : List Nat} (hl : med.length = k)
    {i : Nat} {e e' : List Nat × Nat × Nat}
    (h : (bestSteps (medSil (conv : N → L) n d) n maxiter minK k med)[i]? = some e)
    (h' : (bestSteps (medSil (conv : N → L) n d) n maxiter minK k med)[i + 1]? = some e') :
    e.1.length = k - i ∧ e'.1.length = k - i - 1 ∧
      ∀ b, b < e.1.length → medSil (conv : N → L) n d (e.1.eraseIdx b) ≤ medSil (conv : N → L) n d e'.1 := by
  induction k generalizing med i with
  | zero => simp [bestSteps] at h
  | succ k ih =>
    by_cases hc : 2 ≤ k + 1 ∧ minK ≤ k + 1
    · rw [bestSteps_more _ _ _ hc.1 hc.2] at h h'
      obtain ⟨g1, g2⟩ := eagerRun_le (fun m => - medSil (conv : N → L) n d m) (List.range n) maxiter med
      have hdl := dropBest_length (medSil (conv : N → L) n d)
        (med := (eagerRun (fun m => - medSil (conv : N → L) n d m) (List.range n) maxiter med).1) (by omega)
      generalize hE : eagerRun (fun m => - medSil (conv : N → L) n d m) (List.range n) maxiter med = E at *
      cases i with
      | zero =>
        rw [List.getElem?_cons_zero] at h
        cases h
        rw [List.getElem?_cons_succ] at h'
        by_cases hc' : 2 ≤ k ∧ minK ≤ k
        · obtain ⟨j, rfl⟩ : ∃ j, k = j + 1 := ⟨k - 1, by omega⟩
          rw [bestSteps_more _ _ _ hc'.1 hc'.2, List.getElem?_cons_zero] at h'
          cases h'
          obtain ⟨f1, f2⟩ := eagerRun_le (fun m => - medSil (conv : N → L) n d m) (List.range n) maxiter
            (dropBest (medSil (conv : N → L) n d) e.1)
          exact ⟨by omega, by omega, fun b hb => (dropBest_ge hn d (by omega) hb).trans (neg_le_neg_iff.mp f1)⟩
        · rw [bestSteps_done _ _ _ hc'] at h'
          simp at h'
      | succ i =>
        rw [List.getElem?_cons_succ] at h h'
        obtain ⟨f1, f2, f3⟩ := ih (by omega) h h'
        exact ⟨by omega, by omega, f3⟩
    · rw [bestSteps_done _ _ _ hc] at h
      simp at h

/-- What the repaired DynMSC computes, and that it does not panic. -/
theorem dynmscFixed_run [LawfulAdd N L] {mat : Mat N} {n : Nat} {d : Nat → Nat → N} (hm : IsMatrix mat n d)
    (hd : Dissim n d) {med : List Nat} (hv : ValidMeds n med) (hnd : med.Nodup) (hk : 2 ≤ med.length) (mink maxiter : Nat) :
    ∃ r : DynResult L, dynmscFixed L mat med mink maxiter = .ok r ∧
      (let S := medSil (conv : N → L) n d
       let steps := bestSteps S n maxiter (min mink med.length) med.length med
       r.med = bestSol S (steps.map (·.1)) ∧ r.loss = S r.med ∧
        r.nIter = (steps.map (·.2.1)).sum ∧ r.nSwap = (steps.map (·.2.2)).sum ∧
        r.losses = (if mink ≤ 1 then [0] else []) ++ (steps.map fun e => S e.1).reverse) ∧
      DynOk n d med.length (min (max mink 1) med.length) r ∧ ∀ o m : Nat, r.assi[o]? = some m → IsNearest d r.med o m := by
  have hn0 : 0 < n := lt_of_lt_of_le hv.sizes.pos hv.sizes.le
  have hsame : ∀ (k : Nat) (x : List Nat), bestSteps (medSil (conv : N → L) n d) n maxiter (min mink med.length) k x =
      bestSteps (medSil (conv : N → L) n d) n maxiter (min (max mink 1) med.length) k x := by
    intro k
    induction k with
    | zero => intro x; rfl
    | succ k ih =>
      intro x
      unfold bestSteps
      dsimp only
      rw [ih]
      by_cases h : 2 ≤ k + 1 ∧ min mink med.length ≤ k + 1
      · rw [if_pos h, if_pos (by omega)]
      · rw [if_neg h, if_neg (by omega)]
  dsimp only
  rw [hsame]
  have h1 : (mink ≤ 1) ↔ (min (max mink 1) med.length ≤ 1) := by omega
  rw [show (if mink ≤ 1 then [(0 : L)] else []) = if min (max mink 1) med.length ≤ 1 then [(0 : L)] else [] by
    simp only [h1]]
  have hmk1 : 1 ≤ min (max mink 1) med.length := by omega
  have hmk2 : min (max mink 1) med.length ≤ med.length := by omega
  unfold dynmscFixed
  dsimp only
  generalize min (max mink 1) med.length = minK at *
  have hi : FixInv n d med.length minK (toSilhouette (dynSwapP d n maxiter (dynInitP L d n med minK)).1.loss n)
      (dynInitP L d n med minK) :=
    ⟨dynInitP_inv hd hv hnd hk minK _, MInv.init hd hv hnd hk, fun h => absurd h (lt_irrefl _), by
      show minK ≤ med.length + 1
      omega⟩
  have ht0 : DynTrack n d minK [] (dynInitP L d n med minK) :=
    ⟨fun _ => zeroL, fun h => absurd rfl h, rfl, rfl, by
      show List.replicate _ RLoss.zero = _
      rw [zeroL, show (dynInitP L d n med minK).med.length + 1 - minK = med.length - minK + 1 from by
        show med.length + 1 - minK = _
        omega]
      simp⟩
  obtain ⟨g1, g2, g3, hist, g4, g5⟩ := fixLoop_eq hm hd hv.sizes.n_le hn0 hv.sizes.k_lt maxiter (fuel := med.length)
    (fun _ => rfl) hi ht0 le_rfl
  rw [List.nil_append, bestSteps_end _ _ _ g3] at g5
  have hfin := dynFinish_eq (L := L) hm hv.sizes.n_le maxiter g2.inv.shape g3 hmk2
  obtain ⟨hok, -⟩ := dynFinishP_ok hd hv.sizes.n_le maxiter g2.inv g3 hmk2 hmk1
  have htr := dynFinishP_track hd hv.sizes.n_le maxiter g2.inv g3 hmk1 g4 g2.low g5.symm (by
    show bestSteps _ _ _ _ med.length med ≠ []
    obtain ⟨k, hk'⟩ : ∃ k, med.length = k + 1 := ⟨med.length - 1, by omega⟩
    rw [hk', bestSteps_more _ _ _ (by omega) (by omega)]
    simp)
  refine ⟨_, ?_, htr, hok, ?_⟩
  · rw [if_neg (by omega)]
    simp only [mscInitialAssignment_eq hm hv, ok_bind, hm.len]
    have := g1
    unfold dynInitP at this
    rw [this, ok_bind]
    unfold dynInitP at hfin
    exact hfin
  · by_cases h2 : (dynFinishP d n maxiter minK (fixLoopP d n maxiter minK med.length (dynInitP L d n med minK))).med.length = 2
    · exact (hok.right (Or.inr (Or.inr h2))).2
    · generalize fixLoopP d n maxiter minK med.length (dynInitP L d n med minK) = s at *
      have hs2 := g2.inv.shape.two
      by_cases hm2 : minK ≤ 2
      · have hl : s.med.length = 2 := by omega
        have e := list_two hl
        have hr0 : s.med.getD 0 0 < n := g2.inv.shape.medRange _ (by rw [e]; simp)
        have hr1 : s.med.getD 1 0 < n := g2.inv.shape.medRange _ (by rw [e]; simp)
        have hne : s.med.getD 0 0 ≠ s.med.getD 1 0 := by
          have := g2.inv.own.nodup; rw [e] at this; simpa using this
        have ho := fastermscK2P_outcome (L := L) hd hr0 hr1 hne hv.sizes.n_le maxiter
        have hlen2 : (fastermscK2P L d n (s.med.getD 0 0) (s.med.getD 1 0) maxiter).med.length = 2 := by
          rw [ho.chain.length]; simp
        have hfm : (dynFinishP d n maxiter minK s).med = s.retMeds ∧ (dynFinishP d n maxiter minK s).assi = s.retAssi := by
          simp only [dynFinishP, hm2, if_true, dynTwoP] at h2 ⊢
          split
          · rename_i hc
            simp only [hc, if_true] at h2
            exact absurd hlen2 h2
          · exact ⟨rfl, rfl⟩
        rw [hfm.1] at h2
        rw [hfm.1, hfm.2]
        have hlt : s.med.length < med.length := by
          by_contra hge
          have hk2 : med.length = 2 := by have := g2.inv.shape.le; omega
          have h3 := hok.le
          have h4 := hok.two
          rw [hfm.1] at h3 h4
          omega
        exact (g2.right hlt).2.nearest
      · have hm1 : ¬ minK ≤ 1 := by omega
        have hlt : s.med.length < med.length := by omega
        simp only [dynFinishP, hm2, if_false]
        exact (g2.right hlt).2.nearest

/-- **C118, the repaired DynMSC is the textbook algorithm** for any number of initial medoids, including ties: eager search for the
medoid silhouette, then drop the medoid that leaves the largest silhouette, and so on; the first of the best solutions is returned, with
its silhouette, the total numbers of passes and swaps, and the silhouettes of all solutions. No panic. -/
theorem C118_dynmsc [LawfulAdd N L] {mat : Mat N} {n : Nat} {d : Nat → Nat → N} (hm : IsMatrix mat n d)
    (hd : Dissim n d) {med : List Nat} (hv : ValidMeds n med) (hnd : med.Nodup) (hk : 2 ≤ med.length) (mink maxiter : Nat) :
    ∃ r : DynResult L, dynmscFixed L mat med mink maxiter = .ok r ∧
      (let S := medSil (conv : N → L) n d
       let steps := bestSteps S n maxiter (min mink med.length) med.length med
       r.med = bestSol S (steps.map (·.1)) ∧ r.loss = S r.med ∧
        r.nIter = (steps.map (·.2.1)).sum ∧ r.nSwap = (steps.map (·.2.2)).sum ∧
        r.losses = (if mink ≤ 1 then [0] else []) ++ (steps.map fun e => S e.1).reverse) := by
  obtain ⟨r, h1, h2, -⟩ := dynmscFixed_run (L := L) hm hd hv hnd hk mink maxiter
  exact ⟨r, h1, h2⟩

/-- **C118, the full C37 holds after the repair:** the reported loss is the medoid silhouette of the returned medoids, and every object
is labelled with a nearest medoid. -/
theorem C118_loss [LawfulAdd N L] {mat : Mat N} {n : Nat} {d : Nat → Nat → N} (hm : IsMatrix mat n d)
    (hd : Dissim n d) {med : List Nat} (hv : ValidMeds n med) (hnd : med.Nodup) (hk : 2 ≤ med.length)
    {mink maxiter : Nat} {r : DynResult L} (hr : dynmscFixed L mat med mink maxiter = .ok r) :
    r.loss = medSil (conv : N → L) n d r.med ∧ medoidSilhouette L mat r.med false = .ok (r.loss, []) ∧
      WellFormed n r.med.length r.med r.assi ∧ r.med.Nodup ∧ (∀ o m : Nat, r.assi[o]? = some m → IsNearest d r.med o m) ∧
      r.loss ∈ r.losses ∧ ∀ x ∈ r.losses, x ≤ r.loss := by
  obtain ⟨r', h1, ⟨-, h2, -⟩, h3, h4⟩ := dynmscFixed_run (L := L) hm hd hv hnd hk mink maxiter
  rw [hr] at h1
  cases h1
  have hv' : ValidMeds n r.med := by
    have := h3.two; have := h3.le; have := hv.sizes
    exact ⟨⟨by omega, by have := this.le; omega, this.n_le, by have := this.k_lt; omega⟩, h3.range⟩
  exact ⟨h2, by rw [(C28_medoid_silhouette hm hd.nonneg hv' h3.two).2, h2], ⟨h3.assiLen, h3.label, rfl, h3.range⟩, h3.nodup, h4,
    h3.mem, h3.max⟩

/-- **C118, the full C38 holds after the repair:** the loss reported for a number `j` of medoids is at least the silhouette of the
solution with `j + 1` medoids, of which the loss is the next one reported, with any one medoid dropped. -/
theorem C118_drop [LawfulAdd N L] {mat : Mat N} {n : Nat} {d : Nat → Nat → N} (hm : IsMatrix mat n d)
    (hd : Dissim n d) {med : List Nat} (hv : ValidMeds n med) (hnd : med.Nodup) (hk : 3 ≤ med.length) {mink maxiter : Nat}
    {r : DynResult L} (hr : dynmscFixed L mat med mink maxiter = .ok r) {j : Nat} (hj2 : max 2 mink ≤ j) (hj : j < med.length) :
    ∃ (m : List Nat) (x y : L), m.length = j + 1 ∧ r.losses[j - max mink 1]? = some x ∧ r.losses[j + 1 - max mink 1]? = some y ∧
      y = medSil (conv : N → L) n d m ∧ ∀ b, b < m.length → medSil (conv : N → L) n d (m.eraseIdx b) ≤ x := by
  obtain ⟨r', h1, ⟨-, -, -, -, h2⟩, h3, -⟩ := dynmscFixed_run (L := L) hm hd hv hnd (by omega) mink maxiter
  rw [hr] at h1
  cases h1
  have hn0 : 0 < n := lt_of_lt_of_le hv.sizes.pos hv.sizes.le
  have hmk : min mink med.length = mink := by omega
  rw [hmk] at h2
  have hlen : ∀ (k : Nat) (x : List Nat), (bestSteps (medSil (conv : N → L) n d) n maxiter mink k x).length = k + 1 - max 2 mink := by
    intro k
    induction k with
    | zero => intro x; simp only [bestSteps, List.length_nil]; omega
    | succ k ih =>
      intro x
      by_cases hc : 2 ≤ k + 1 ∧ mink ≤ k + 1
      · rw [bestSteps_more _ _ _ hc.1 hc.2, List.length_cons, ih]; omega
      · rw [bestSteps_done _ _ _ hc, List.length_nil]; omega
  have hl := hlen med.length med
  have hchain := fun i e e' h h' => bestSteps_chain (L := L) hn0 d maxiter mink (k := med.length) (med := med) rfl (i := i) (e := e)
    (e' := e') h h'
  generalize bestSteps (medSil (conv : N → L) n d) n maxiter mink med.length med = steps at *
  have hi : med.length - (j + 1) < steps.length := by omega
  have hi' : med.length - (j + 1) + 1 < steps.length := by omega
  have e1 : steps[med.length - (j + 1)]? = some steps[med.length - (j + 1)] := List.getElem?_eq_getElem hi
  have e2 : steps[med.length - (j + 1) + 1]? = some steps[med.length - (j + 1) + 1] := List.getElem?_eq_getElem hi'
  have hlo : ∀ i (hi : i < steps.length), r.losses[med.length - i - max mink 1]? = some (medSil (conv : N → L) n d steps[i].1) := by
    intro i hi
    rw [h2]
    have hrev : ((steps.map fun e => medSil (conv : N → L) n d e.1).reverse)[steps.length - 1 - i]? =
        some (medSil (conv : N → L) n d steps[i].1) := by
      rw [List.getElem?_reverse (by simp; omega), List.length_map, show steps.length - 1 - (steps.length - 1 - i) = i by omega,
        List.getElem?_map, List.getElem?_eq_getElem hi, Option.map_some]
    by_cases hm1 : mink ≤ 1
    · rw [if_pos hm1, List.getElem?_append_right (by simp; omega)]
      rw [← hrev]; congr 1; simp; omega
    · rw [if_neg hm1, List.nil_append, ← hrev]; congr 1; omega
  obtain ⟨c1, -, c3⟩ := hchain _ _ _ e1 e2
  refine ⟨steps[med.length - (j + 1)].1, _, _, by omega, ?_, ?_, rfl, c3⟩
  · have := hlo _ hi'
    rw [show med.length - (med.length - (j + 1) + 1) - max mink 1 = j - max mink 1 by omega] at this
    exact this
  · have := hlo _ hi
    rw [show med.length - (med.length - (j + 1)) - max mink 1 = j + 1 - max mink 1 by omega] at this
    exact this

/-- **C118, the full C38 in the form of `C38_full`:** no swaps, one medoid is dropped, and no other choice would have been better. -/
theorem C118_drop_first [LawfulAdd N L] {mat : Mat N} {n : Nat} {d : Nat → Nat → N} (hm : IsMatrix mat n d)
    (hd : Dissim n d) {med : List Nat} (hv : ValidMeds n med) (hnd : med.Nodup) (hk : 3 ≤ med.length)
    {r : DynResult L} (hr : dynmscFixed L mat med (med.length - 1) 0 = .ok r) {b : Nat} (hb : b < med.length) {l : L}
    (hl : r.losses[0]? = some l) : medSil (conv : N → L) n d (med.eraseIdx b) ≤ l := by
  obtain ⟨r', h1, ⟨-, -, -, -, h2⟩, h3, -⟩ := dynmscFixed_run (L := L) hm hd hv hnd (by omega) (med.length - 1) 0
  rw [hr] at h1
  cases h1
  have hn0 : 0 < n := lt_of_lt_of_le hv.sizes.pos hv.sizes.le
  obtain ⟨k, hk'⟩ : ∃ k, med.length = k + 1 + 1 := ⟨med.length - 2, by omega⟩
  have hg := dropBest_ge (L := L) hn0 d hk hb
  rw [if_neg (by omega), List.nil_append, hk', bestSteps_more _ _ _ (by omega) (by omega), bestSteps_more _ _ _ (by omega) (by omega),
    bestSteps_done _ _ _ (by omega)] at h2
  rw [h2] at hl
  simp only [List.map_cons, List.map_nil, List.reverse_cons, List.reverse_nil, List.nil_append, List.cons_append,
    List.getElem?_cons_zero, Option.some.injEq] at hl
  rw [← hl]
  exact hg

end exact

/-! ## concrete cases -/

/-- The case in which the code reports 37/42 (`C37_negation`): the repaired version reports 71/84, the silhouette of its medoids. -/
example : ∃ r : DynResult ℚ, dynmscFixed ℚ exDynMat [4, 6, 1, 2, 5] 3 10 = .ok r ∧ r.loss = 71 / 84 ∧
    medSil (conv : ℕ → ℚ) 7 exDynD r.med = 71 / 84 ∧ r.losses = [3 / 4, 71 / 84, 5 / 6] := by
  obtain ⟨r, h1, -⟩ := C118_dynmsc (L := ℚ) exDynMat_isMatrix exDynD_dissim (med := [4, 6, 1, 2, 5])
    ⟨⟨by decide, by decide, by decide, by decide⟩, by decide⟩ (by decide) (by decide) 3 10
  have h2 := C118_loss (L := ℚ) exDynMat_isMatrix exDynD_dissim (med := [4, 6, 1, 2, 5])
    ⟨⟨by decide, by decide, by decide, by decide⟩, by decide⟩ (by decide) (by decide) h1
  have h3 : dynmscFixed ℚ exDynMat [4, 6, 1, 2, 5] 3 10 =
    .ok ⟨71 / 84, [3, 1, 1, 2, 0, 2, 1], 5, 3, [4, 6, 3, 0], [3 / 4, 71 / 84, 5 / 6]⟩ := by decide +kernel
  rw [h1] at h3
  cases h3
  exact ⟨_, h1, rfl, h2.1.symm, rfl⟩

/-- Every reported number of medoids of that run. -/
example : ∃ (m : List Nat) (x y : ℚ), m.length = 4 ∧
    ([0, 111 / 140, 3 / 4, 71 / 84, 5 / 6] : List ℚ)[3 - max 1 1]? = some x ∧
    ([0, 111 / 140, 3 / 4, 71 / 84, 5 / 6] : List ℚ)[3 + 1 - max 1 1]? = some y ∧
      y = medSil (conv : ℕ → ℚ) 7 exDynD m ∧ ∀ b, b < m.length → medSil (conv : ℕ → ℚ) 7 exDynD (m.eraseIdx b) ≤ x :=
  C118_drop (L := ℚ) (r := ⟨71 / 84, [3, 1, 1, 2, 0, 2, 1], 7, 5, [4, 6, 3, 0], [0, 111 / 140, 3 / 4, 71 / 84, 5 / 6]⟩)
    exDynMat_isMatrix exDynD_dissim (med := [4, 6, 1, 2, 5])
    ⟨⟨by decide, by decide, by decide, by decide⟩, by decide⟩ (by decide) (by decide) (mink := 1) (maxiter := 10)
    (by decide +kernel) (j := 3) (by decide) (by decide)

/-- The case in which the code drops the most useful medoid (`C38_negation`): the repaired version keeps it, 61/72 instead of 19/27. -/
example : dynmscFixed ℚ exMat [0, 3, 5] 2 0 = .ok ⟨11 / 12, [0, 0, 0, 1, 1, 2], 0, 0, [0, 3, 5], [61 / 72, 11 / 12]⟩ ∧
    ∀ b, b < 3 → medSil (conv : ℕ → ℚ) 6 exD ([0, 3, 5].eraseIdx b) ≤ 61 / 72 := by
  have h : dynmscFixed ℚ exMat [0, 3, 5] 2 0 = .ok ⟨11 / 12, [0, 0, 0, 1, 1, 2], 0, 0, [0, 3, 5], [61 / 72, 11 / 12]⟩ := by
    decide +kernel
  exact ⟨h, fun b hb => C118_drop_first (L := ℚ) exMat_isMatrix exD_dissim (med := [0, 3, 5])
    (ex_valid (by decide) (by decide) (by decide)) (by decide) (by decide) h hb rfl⟩

end KMedoids
