import Verif.Proofs.Repeat
import Verif.Proofs.Descent
import Verif.Props.C04_C05_C10
import Verif.Props.C97
import Verif.Props.C39_C43
import Mathlib.Algebra.Order.BigOperators.Group.List

/-!
# C131: starts that name a medoid several times

No function checks that the given medoids are different objects. The searches for swaps (`fasterpam`, `rand_fasterpam`, `par_fasterpam`,
`pam_swap`, `fastpam1`) cope with repetitions: all guarantees on labels, loss and local optimality hold, FastPAM1 agrees with PAM, and a
run that ends by itself returns different medoids unless the loss is zero. `alternating` and the optimisers of the medoid
silhouette do not repair them.
-/

set_option linter.unusedSectionVars false

namespace KMedoids

open RFrom (conv)

/-! ## Chains of improving exchanges with repetitions -/

section chain
variable {L : Type} [LinearOrder L] {T : List Nat → L} {n : Nat}

/-- The number of different medoids does not decrease. -/
theorem SwapChain.distinct_le {c : Nat} {a b : List Nat} (h : SwapChain T n c a b) : a.toFinset.card ≤ b.toFinset.card := by
  induction h with
  | refl _ => exact le_refl _
  | @step c a med h b j hb hj hjm hT ih =>
    refine ih.trans ?_
    have hsub : insert j (med.toFinset.erase med[b]) ⊆ (med.set b j).toFinset := by
      intro x hx
      rw [List.mem_toFinset]
      rcases Finset.mem_insert.mp hx with rfl | hx
      · exact List.mem_of_getElem? (i := b) (by simp [hb])
      · obtain ⟨h1, h2⟩ := Finset.mem_erase.mp hx
        obtain ⟨m, hm⟩ := List.mem_iff_getElem?.mp (List.mem_toFinset.mp h2)
        refine List.mem_of_getElem? (i := m) ?_
        rw [getElem?_set_lt hb, if_neg]
        · exact hm
        · rintro rfl
          rw [List.getElem?_eq_getElem hb] at hm
          exact h1 (Option.some.inj hm).symm
    have hj' : j ∉ med.toFinset.erase med[b] := fun h => hjm (List.mem_toFinset.mp (Finset.mem_of_mem_erase h))
    have h1 := Finset.card_le_card hsub
    rw [Finset.card_insert_of_notMem hj', Finset.card_erase_of_mem (List.mem_toFinset.mpr (List.getElem_mem hb))] at h1
    have : 0 < med.toFinset.card := Finset.card_pos.mpr ⟨med[b], List.mem_toFinset.mpr (List.getElem_mem hb)⟩
    omega

/-- No list of medoids is met twice. -/
theorem SwapChain.count_lists {c : Nat} {a b : List Nat} (h : SwapChain T n c a b) (ha : ∀ m ∈ a, m < n) : c + 1 ≤ n ^ a.length := by
  have : ∃ S : Finset (List Nat), S.card = c + 1 ∧ ∀ s ∈ S, s ∈ allLists n a.length ∧ T b ≤ T s := by
    induction h with
    | refl a => exact ⟨{a}, rfl, fun s hs => by rw [Finset.mem_singleton.mp hs]; exact ⟨mem_allLists ha, le_refl _⟩⟩
    | @step c a med h b j hb hj hjm hT ih =>
      obtain ⟨S, h1, h2⟩ := ih ha
      refine ⟨insert (med.set b j) S, ?_, fun s hs => ?_⟩
      · rw [Finset.card_insert_of_notMem fun hs => absurd (h2 _ hs).2 (not_le.mpr hT), h1]
      · rcases Finset.mem_insert.mp hs with rfl | hs
        · refine ⟨?_, le_refl _⟩
          have hl : a.length = (med.set b j).length := by rw [List.length_set]; exact h.length.symm
          rw [hl]
          refine mem_allLists fun m hm => ?_
          rcases List.mem_or_eq_of_mem_set hm with h' | h'
          · exact h.range ha m h'
          · omega
        · exact ⟨(h2 s hs).1, hT.le.trans (h2 s hs).2⟩
  obtain ⟨S, h1, h2⟩ := this
  rw [← h1]
  exact (Finset.card_le_card fun s hs => (h2 s hs).1).trans (allLists_card n a.length)

end chain

variable {N L : Type} [LinearOrder N] [Zero N] [RDist N] [LawfulDist N]
variable [AddCommGroup L] [LinearOrder L] [IsOrderedAddMonoid L] [RLoss L] [LawfulLoss L]
variable [RFrom N L] [LawfulFrom N L]
variable {n : Nat} {d : Nat → Nat → N} {mat : Mat N} {med : List Nat}

/-- Two equal medoids in a local optimum: one of them could be replaced by any object. -/
theorem repeated_loss_zero (hd : Dissim n d) (hr : ∀ m ∈ med, m < n) (ho : SwapOptimal (conv : N → L) n d med) (hn : ¬ med.Nodup) :
    totalDev (conv : N → L) n d med = 0 := by
  rw [List.nodup_iff_pairwise_ne, List.pairwise_iff_getElem] at hn
  simp only [not_forall, not_not] at hn
  obtain ⟨p, q, hp, hq, hpq, e⟩ := hn
  have hne : med ≠ [] := List.ne_nil_of_length_pos (by omega)
  have hmem : ∀ x, x < n → ∀ c ∈ x :: med, c ∈ med.set q x := by
    intro x hx c hc
    rcases List.mem_cons.mp hc with rfl | hc
    · exact List.mem_of_getElem? (i := q) (by simp [hq])
    · obtain ⟨m, hm⟩ := List.mem_iff_getElem?.mp hc
      by_cases hmq : m = q
      · subst hmq
        rw [List.getElem?_eq_getElem hq] at hm
        refine List.mem_of_getElem? (i := p) ?_
        rw [getElem?_set_lt hq, if_neg (by omega), List.getElem?_eq_getElem hp, e, hm]
      · exact List.mem_of_getElem? (i := m) (by rw [getElem?_set_lt hq, if_neg hmq]; exact hm)
  have hz : ∀ x, x < n → minDist d x med = 0 := by
    intro x hx
    obtain ⟨⟨c, hc, ec⟩, hle⟩ := minDist_spec d x med hne
    refine le_antisymm ?_ (ec ▸ hd.nonneg x c hx (hr c hc))
    by_cases hxm : x ∈ med
    · exact (hle x hxm).trans (le_of_eq (hd.diag x hx))
    · by_contra hpos
      have hpos := not_le.mp hpos
      refine absurd (ho q x hq hx hxm) (not_le.mpr ?_)
      have hset : med.set q x ≠ [] := List.ne_nil_of_mem (hmem x hx x (by simp))
      have hle' : ∀ o, minDist d o (med.set q x) ≤ minDist d o med := fun o => by
        obtain ⟨⟨c, hc, ec⟩, -⟩ := minDist_spec d o med hne
        rw [ec]
        exact (minDist_spec d o _ hset).2 c (hmem x hx c (by simp [hc]))
      unfold totalDev
      refine List.sum_lt_sum _ _ (fun o _ => LawfulFrom.strictMono.monotone (hle' o)) ⟨x, List.mem_range.mpr hx, LawfulFrom.strictMono ?_⟩
      refine lt_of_le_of_lt ?_ hpos
      exact ((minDist_spec d x _ hset).2 x (hmem x hx x (by simp))).trans (le_of_eq (hd.diag x hx))
  unfold totalDev
  refine List.sum_eq_zero fun y hy => ?_
  obtain ⟨o, ho, rfl⟩ := List.mem_map.mp hy
  rw [hz o (List.mem_range.mp ho), LawfulFrom.map_zero]

/-- What holds for a run from a start with possible repetitions. -/
structure RepeatOutcome (n : Nat) (d : Nat → Nat → N) (med : List Nat) (maxiter : Nat) (r : SwapResult L) : Prop where
  /-- every object is labelled with a nearest medoid -/
  nearest : r.assi.length = n ∧ ∀ o m : Nat, r.assi[o]? = some m → IsNearest d r.med o m
  /-- the loss is the total deviation -/
  loss : r.loss = totalDev (conv : N → L) n d r.med
  /-- the run is a chain of improving exchanges with objects that are not medoids -/
  chain : SwapChain (totalDev (conv : N → L) n d) n r.nSwap med r.med
  /-- the number of different medoids does not decrease -/
  distinct : med.toFinset.card ≤ r.med.toFinset.card
  /-- the run ends by itself if the limit is large -/
  ends : r.nIter ≤ n ^ med.length
  /-- a run that ended by itself is at a local optimum -/
  opt : r.nIter < maxiter → SwapOptimal (conv : N → L) n d r.med
  /-- and the medoids are different ones, unless the loss is zero -/
  repaired : r.nIter < maxiter → r.med.Nodup ∨ r.loss = 0

theorem RepeatOutcome.of (hd : Dissim n d) (hv : ValidMeds n med) {maxiter : Nat} {r : SwapResult L} (h : Outcome n d med maxiter r)
    (ha : r.assi.length = n ∧ ∀ o m : Nat, r.assi[o]? = some m → IsNearest d r.med o m) : RepeatOutcome n d med maxiter r := by
  refine ⟨ha, h.loss, h.chain, h.chain.distinct_le, h.iter.trans (h.chain.count_lists hv.range), h.opt, fun hc => ?_⟩
  by_cases hn : r.med.Nodup
  · exact Or.inl hn
  · exact Or.inr (h.loss.trans (repeated_loss_zero hd (h.chain.range hv.range) (h.opt hc) hn))

theorem fpP_repeat (hd : Dissim n d) (hv : ValidMeds n med) (hk : 2 ≤ med.length) (maxiter : Nat) {seq : List Nat}
    (hseq : seq.Perm (List.range n)) : RepeatOutcome n d med maxiter (fpP L d n med maxiter seq) := by
  have hlt : ∀ j ∈ seq, j < n := fun j hj => List.mem_range.mp (hseq.mem_iff.mp hj)
  have hinit := Repeated.fpInitP_ex (L := L) hd hv hk
  obtain ⟨h2, c, h3, h4, h5⟩ := Repeated.fpLoopP_ex hd (by omega) hlt (fuel := maxiter) (iter := 0) hinit
  have h0 : (fpInitP L d n med).nSwaps = 0 := rfl
  have hm0 : (fpInitP L d n med).med = med := rfl
  rw [h0, Nat.zero_add] at h3
  rw [hm0] at h4
  rw [fpP_many d n hk]
  refine RepeatOutcome.of hd hv ⟨h2.loss, h3 ▸ h4, by dsimp only; omega, fun hc => ?_⟩ ⟨by simp [h2.cache.len], h2.cache.nearest⟩
  have hh : Repeated.Hist n d seq (fpInitP L d n med) := by
    left; intro hmem; exact absurd (hlt _ hmem) (lt_irrefl n)
  have := Repeated.fpLoopP_converged hd (by omega) hlt (hseq.nodup_iff.mpr List.nodup_range) hinit hh
    (fuel := maxiter) (iter := 0) (by rw [Nat.zero_add]; exact hc)
  exact swapOptimal_of_settled fun x hx => this x (hseq.mem_iff.mpr (List.mem_range.mpr hx))

theorem pOptP_repeat (hd : Dissim n d) (hv : ValidMeds n med) (hk : 2 ≤ med.length)
    {scan : Nat → Nat → List Nat → List (Rec N) → L × Nat × Nat} (hscan : Repeated.GoodScan n med.length d (scan n med.length))
    (maxiter : Nat) : RepeatOutcome n d med maxiter (pOptP d n scan med (initDataP d n med) maxiter (nearLossP L (initDataP d n med))) := by
  have hc := Repeated.initDataP_ok hd hk hv
  obtain ⟨h2, ⟨c, h3, h4, h5⟩, h6⟩ := Repeated.pLoopP_ex hd hscan (fuel := maxiter) (iter := 0)
    (s := ⟨med, initDataP d n med, nearLossP L (initDataP d n med), 0⟩) ⟨hc, rfl, Repeated.nearLossP_eq hc⟩
  rw [pOptP_many d n _ hk]
  simp only [Nat.zero_add] at h3 h6 h5
  refine RepeatOutcome.of hd hv ⟨h2.loss, ?_, ?_, h6⟩ ⟨by simp [pResultP, h2.cache.len], h2.cache.nearest⟩
  · simp only [pResultP, h3]; exact h4
  · simp only [pResultP, h3]; exact h5

/-- **C131, rand_fasterpam.** -/
theorem C131_rand_fasterpam (hm : IsMatrix mat n d) (hd : Dissim n d) (hv : ValidMeds n med) (hk : 2 ≤ med.length) (maxiter : Nat)
    {seq : List Nat} (hseq : seq.Perm (List.range n)) :
    ∃ r, randFasterpam L mat med maxiter seq = .ok r ∧ RepeatOutcome n d med maxiter r := by
  rw [randFasterpam_eq hm hv maxiter fun j hj => List.mem_range.mp (hseq.mem_iff.mp hj)]
  exact ⟨_, rfl, fpP_repeat hd hv hk maxiter hseq⟩

/-- **C131, fasterpam.** -/
theorem C131_fasterpam (hm : IsMatrix mat n d) (hd : Dissim n d) (hv : ValidMeds n med) (hk : 2 ≤ med.length) (maxiter : Nat) :
    ∃ r, fasterpam L mat med maxiter = .ok r ∧ RepeatOutcome n d med maxiter r := by
  rw [fasterpam_eq_rand, hm.len]
  exact C131_rand_fasterpam hm hd hv hk maxiter (List.Perm.refl _)

/-- **C131, par_fasterpam,** for all schedules. -/
theorem C131_par_fasterpam (sc0 : Sched) {scF scS : Nat → Nat → Sched} (hF : ∀ i j, (scF i j).Ok) (hm : IsMatrix mat n d)
    (hd : Dissim n d) (hv : ValidMeds n med) (hk : 2 ≤ med.length) (maxiter : Nat) {seq : List Nat} (hseq : seq.Perm (List.range n)) :
    parFasterpam L sc0 scF scS mat med maxiter seq = randFasterpam L mat med maxiter seq ∧
    ∃ r, parFasterpam L sc0 scF scS mat med maxiter seq = .ok r ∧ RepeatOutcome n d med maxiter r := by
  have hlt : ∀ j ∈ seq, j < n := fun j hj => List.mem_range.mp (hseq.mem_iff.mp hj)
  rw [Repeated.parFasterpam_eq sc0 hF hm hd hv maxiter hlt, randFasterpam_eq hm hv maxiter hlt]
  exact ⟨rfl, _, rfl, fpP_repeat hd hv hk maxiter hseq⟩

/-- **C131, pam_swap and fastpam1,** which agree. -/
theorem C131_pam (hm : IsMatrix mat n d) (hd : Dissim n d) (hv : ValidMeds n med) (hk : 2 ≤ med.length) (maxiter : Nat) :
    fastpam1 L mat med maxiter = pamSwap L mat med maxiter ∧
    ∃ r, pamSwap L mat med maxiter = .ok r ∧ RepeatOutcome n d med maxiter r := by
  rw [pamSwap_eq hm hv maxiter, fastpam1_eq hm hv maxiter]
  have hc := Repeated.initDataP_ok hd hk hv
  refine ⟨?_, _, rfl, pOptP_repeat hd hv hk (Repeated.pamScanP_good hd) maxiter⟩
  unfold fastpam1P pamSwapP
  rw [pOptP_many d n _ hk, pOptP_many d n _ hk,
    Repeated.pLoopP_agree hd (k := med.length) (by omega) (s := ⟨med, initDataP d n med, nearLossP L (initDataP d n med), 0⟩)
      ⟨hc, rfl, Repeated.nearLossP_eq hc⟩]

/-! ## Examples -/

def repRows : List (List ℕ) := [[0, 3, 4, 3, 2], [3, 0, 4, 4, 3], [4, 4, 0, 4, 2], [3, 4, 4, 0, 3], [2, 3, 2, 3, 0]]

theorem repRows_dissim : Dissim 5 (rowsD repRows) := ⟨by decide, fun _ _ _ _ => Nat.zero_le _⟩

/-- Three times the same object is a valid start, and the searches exchange two of them. -/
example : ValidMeds 5 [1, 1, 1] ∧
    fasterpam ℤ (fnMat 5 (rowsD repRows)) [1, 1, 1] 100 = .ok ⟨5, [0, 2, 1, 0, 0], 2, 2, [0, 2, 1]⟩ ∧
    pamSwap ℤ (fnMat 5 (rowsD repRows)) [1, 1, 1] 100 = .ok ⟨4, [0, 2, 0, 1, 0], 3, 2, [4, 3, 1]⟩ :=
  ⟨⟨⟨by decide, by decide, by decide, by decide⟩, by decide⟩, by decide +kernel, by decide +kernel⟩

/-- With loss zero, repetitions remain: four objects, two pairs of equal ones. -/
theorem C131_zero_loss : fasterpam ℤ (fnMat 4 (rowsD [[0, 0, 1, 1], [0, 0, 1, 1], [1, 1, 0, 0], [1, 1, 0, 0]])) [0, 0, 2] 100 =
    .ok ⟨0, [1, 0, 2, 2], 1, 0, [0, 0, 2]⟩ := by decide +kernel

/-- With a limit that is reached, repetitions remain. -/
theorem C131_limit : fasterpam ℤ (fnMat 5 (rowsD repRows)) [1, 1, 1] 0 = .ok ⟨14, [0, 2, 0, 0, 0], 0, 0, [1, 1, 1]⟩ := by
  decide +kernel

/-- **C131, alternating does not repair repetitions:** it ends by itself with a loss that is not zero and a medoid named twice. -/
theorem C131_alternating_negation :
    ¬ ∀ (n maxiter : Nat) (d : Nat → Nat → ℕ) (med : List Nat) (r : AltResult ℤ), Dissim n d → Symm n d → ValidMeds n med →
      2 ≤ med.length → alternating ℤ (fnMat n d) med maxiter = .ok r → r.nIter < maxiter → r.med.Nodup ∨ r.loss = 0 := by
  intro h
  have hsym : ∀ x < 5, ∀ y < 5, rowsD repRows x y = rowsD repRows y x := by decide
  have := h 5 100 (rowsD repRows) [1, 1, 1] ⟨7, [0, 2, 0, 0, 0], 2, [4, 1, 1]⟩ repRows_dissim (fun x y hx hy => hsym x hx y hy)
    ⟨⟨by decide, by decide, by decide, by decide⟩, by decide⟩ (by decide) (by decide +kernel) (by decide)
  exact absurd this (by decide)

def mscRows : List (List ℕ) := [[0, 3, 1, 1, 1], [3, 0, 3, 3, 1], [1, 3, 0, 1, 1], [1, 3, 1, 0, 1], [1, 1, 1, 1, 0]]

/-- **C131, the optimisers of the medoid silhouette do not repair repetitions:** three of them end by themselves with a medoid named
twice and a medoid silhouette below 1. -/
theorem C131_msc :
    ∃ r : SwapResult ℚ, r.med = [1, 1, 4] ∧ r.loss = 4 / 5 ∧ r.nIter = 2 ∧
      fastermsc ℚ (fnMat 5 (rowsD mscRows)) [1, 1, 2] 100 = .ok r ∧ fastmsc ℚ (fnMat 5 (rowsD mscRows)) [1, 1, 2] 100 = .ok r ∧
      pammedsilSwap ℚ (fnMat 5 (rowsD mscRows)) [1, 1, 2] 100 = .ok r :=
  ⟨⟨4 / 5, [2, 1, 2, 2, 2], 2, 1, [1, 1, 4]⟩, rfl, rfl, rfl, by decide +kernel, by decide +kernel, by decide +kernel⟩

theorem C131_msc_negation :
    ¬ ∀ (n maxiter : Nat) (d : Nat → Nat → ℕ) (med : List Nat) (r : SwapResult ℚ), Dissim n d → Symm n d → ValidMeds n med →
      2 ≤ med.length → fastermsc ℚ (fnMat n d) med maxiter = .ok r → r.nIter < maxiter → r.med.Nodup ∨ r.loss = 1 := by
  intro h
  obtain ⟨r, h1, h2, h3, h4, -⟩ := C131_msc
  have hsym : ∀ x < 5, ∀ y < 5, rowsD mscRows x y = rowsD mscRows y x := by decide
  have := h 5 100 (rowsD mscRows) [1, 1, 2] r ⟨by decide, fun _ _ _ _ => Nat.zero_le _⟩ (fun x y hx hy => hsym x hx y hy)
    ⟨⟨by decide, by decide, by decide, by decide⟩, by decide⟩ (by decide) h4 (by rw [h3]; decide)
  rw [h1, h2] at this
  exact absurd this (by decide +kernel)

end KMedoids
