import Verif.Props.C106
import Verif.Props.C54
import Verif.Props.C97
import Verif.Props.C61

/-!
# C137: which solution DynMSC returns if several are equally good

The one with the largest number of medoids. So more medoids than needed at the start remain: started with all objects as
medoids, DynMSC always returns all objects.
-/

set_option linter.unusedSectionVars false

namespace KMedoids

open RFrom (conv)

section exact
variable {N L : Type} [LinearOrder N] [Zero N] [RDist N] [LawfulDist N]
variable [Field L] [LinearOrder L] [IsStrictOrderedRing L] [RLoss L] [LawfulField L]
variable [RFrom N L] [LawfulFrom N L]

/-- What was returned so far when all numbers of medoids above `k` are done; `F` and `A` are the medoids and the labels
for `k0` medoids. -/
structure TieInv (k0 minK k : Nat) (F A : List Nat) (best : L) (meds assi : List Nat) (ls : List L) : Prop where
  lt : k < meds.length
  le : meds.length ≤ k0
  entry : ls[meds.length - minK]? = some best
  above : ∀ j, meds.length < j → j ≤ k0 → ∃ x, ls[j - minK]? = some x ∧ x < best
  upto : ∀ j, k < j → j ≤ k0 → ∃ x, ls[j - minK]? = some x ∧ x ≤ best
  first : meds.length = k0 → meds = F ∧ assi = A

theorem TieInv.step {k0 minK k k' : Nat} {F A : List Nat} {best : L} {meds assi : List Nat} {ls : List L}
    (h : TieInv k0 minK k F A best meds assi ls) (hk : minK ≤ k) (hk' : k' + 1 = k) (hl : k - minK < ls.length) {x : L}
    {m a : List Nat} (hm : m.length = k) :
    TieInv k0 minK k' F A (if rgt x best = true then x else best) (if rgt x best = true then m else meds)
      (if rgt x best = true then a else assi) (ls.set (k - minK) x) := by
  obtain ⟨h1, h2, h3, h4, h5, h6⟩ := h
  have hne : ∀ j, k < j → (ls.set (k - minK) x)[j - minK]? = ls[j - minK]? := fun j hj => List.getElem?_set_ne (by omega)
  have heq : (ls.set (k - minK) x)[k - minK]? = some x := List.getElem?_set_self hl
  by_cases hx : best < x
  · have hg : rgt x best = true := by rw [rgtL, decide_eq_true_eq]; exact hx
    simp only [hg, if_true]
    refine ⟨by omega, by omega, by rw [hm]; exact heq, fun j hj hj0 => ?_, fun j hj hj0 => ?_, fun h => by omega⟩
    · obtain ⟨y, e, hy⟩ := h5 j (by omega) hj0
      exact ⟨y, by rw [hne j (by omega)]; exact e, lt_of_le_of_lt hy hx⟩
    · rcases Nat.lt_or_ge k j with g | g
      · obtain ⟨y, e, hy⟩ := h5 j g hj0
        exact ⟨y, by rw [hne j g]; exact e, hy.trans hx.le⟩
      · have : j = k := by omega
        exact ⟨x, by rw [this]; exact heq, le_rfl⟩
  · have hg : ¬ rgt x best = true := by rw [rgtL, decide_eq_true_eq]; exact hx
    simp only [hg, Bool.false_eq_true, if_false]
    refine ⟨by omega, h2, by rw [hne _ h1]; exact h3, fun j hj hj0 => ?_, fun j hj hj0 => ?_, h6⟩
    · obtain ⟨y, e, hy⟩ := h4 j hj hj0
      exact ⟨y, by rw [hne j (by omega)]; exact e, hy⟩
    · rcases Nat.lt_or_ge k j with g | g
      · obtain ⟨y, e, hy⟩ := h5 j g hj0
        exact ⟨y, by rw [hne j g]; exact e, hy⟩
      · have : j = k := by omega
        exact ⟨x, by rw [this]; exact heq, not_lt.mp hx⟩

/-- **C137.** The number of returned medoids is the largest one whose entry in the returned list is the returned loss, the
maximum (C36). If no medoid was removed, then medoids and labels are those of `fastermsc`. -/
theorem C137_ties [LawfulAdd N L] {mat : Mat N} {n : Nat} {d : Nat → Nat → N} (hm : IsMatrix mat n d)
    (hd : Dissim n d) {med : List Nat} (hv : ValidMeds n med) (hnd : med.Nodup) (hk : 2 ≤ med.length)
    {mink maxiter : Nat} {r : DynResult L} (hr : dynmsc L mat med mink maxiter = .ok r) {f : SwapResult L}
    (hf : fastermsc L mat med maxiter = .ok f) :
    r.losses[r.med.length - min (max mink 1) med.length]? = some r.loss ∧
    (∀ j, r.med.length < j → j ≤ med.length → ∃ x, r.losses[j - min (max mink 1) med.length]? = some x ∧ x < r.loss) ∧
    (r.med.length = med.length → r.med = f.med ∧ r.assi = f.assi) := by
  have hn : 0 < n := lt_of_lt_of_le hv.sizes.pos hv.sizes.le
  have hout := fastermsc_outcome hm hd hv hnd hk hf
  have hgt : rgt f.loss (RLoss.zero : L) = true := by
    rw [rgtL, zeroL, decide_eq_true_eq, hout.loss]
    exact medSil_pos hd (hout.chain.range hv.range) (by rw [hout.chain.length]; omega)
  have hfl : f.med.length = med.length := hout.chain.length
  rw [dynmsc_eq hm hv hk] at hr
  rw [fastermsc_eq hm hv] at hf
  simp only [Except.ok.injEq] at hr hf
  have hmk : min (max mink 1) med.length ≤ med.length := by omega
  have hmk1 : 1 ≤ min (max mink 1) med.length := by omega
  generalize min (max mink 1) med.length = minK at *
  by_cases h2 : med.length = 2
  · obtain ⟨m0, m1, rfl⟩ := List.length_eq_two.mp h2
    have hf : fastermscK2P L d n m0 m1 maxiter = f := hf
    have hmk2 : minK ≤ 2 := hmk
    have hlen : 2 - minK < (List.replicate (2 - minK + 1) (RLoss.zero : L)).length := by simp
    unfold dynmscP at hr
    rw [dynLoopP_stop (by simp [dynInitP])] at hr
    simp only [dynFinishP, hmk2, if_true, dynTwoP, dynInitP, List.getD_cons_zero, List.getD_cons_succ,
      List.length_cons, List.length_nil, Nat.zero_add, Nat.reduceAdd, hf, hgt] at hr
    rw [← hr]
    have hfl2 : f.med.length = 2 := hfl
    refine ⟨?_, fun j hj hj' => ?_, fun _ => ⟨rfl, rfl⟩⟩
    · show (if minK ≤ 1 then _ else _)[f.med.length - minK]? = some f.loss
      rw [hfl2]
      split
      · rw [List.getElem?_set_ne (by omega), List.getElem?_set_self hlen]
      · rw [List.getElem?_set_self hlen]
    · have hj : f.med.length < j := hj
      have hj' : j ≤ 2 := hj'
      omega
  · have h3 : 3 ≤ med.length := by omega
    rw [fastermscP_many d n (by omega)] at hf
    have hs0 := dynInitP_shape (L := L) d hv hk minK
    have hc0 : 3 ≤ (dynInitP L d n med minK).med.length ∧ minK ≤ (dynInitP L d n med minK).med.length := ⟨h3, hmk⟩
    obtain ⟨-, hs1, hl1, -, -⟩ := dynRound_eq hm hn hv.sizes.k_lt hs0 hc0.1 hc0.2 maxiter
    have hl1 : (dynRoundP d n maxiter minK (dynInitP L d n med minK)).med.length = med.length - 1 := hl1
    have hfs : toSilhouette (mscLoopP d n maxiter 0 (mscInitP L d n med)).1.loss n = f.loss := by rw [← hf]; rfl
    have hlen : med.length - minK < (List.replicate (med.length - minK + 1) (RLoss.zero : L)).length := by simp
    have hT1 : TieInv med.length minK (dynRoundP d n maxiter minK (dynInitP L d n med minK)).med.length f.med f.assi
        (dynRoundP d n maxiter minK (dynInitP L d n med minK)).bestLoss (dynRoundP d n maxiter minK (dynInitP L d n med minK)).retMeds
        (dynRoundP d n maxiter minK (dynInitP L d n med minK)).retAssi (dynRoundP d n maxiter minK (dynInitP L d n med minK)).retLoss := by
      rw [hl1]
      have e1 : (dynRoundP d n maxiter minK (dynInitP L d n med minK)).bestLoss = f.loss := by
        simp only [dynRoundP, dynSwapP_init, hfs]
        simp only [dynInitP, hgt, if_true]
      have e2 : (dynRoundP d n maxiter minK (dynInitP L d n med minK)).retMeds = f.med := by
        simp only [dynRoundP, dynSwapP_init, hfs]
        simp only [dynInitP, hgt, if_true]
        rw [← hf]; rfl
      have e3 : (dynRoundP d n maxiter minK (dynInitP L d n med minK)).retAssi = f.assi := by
        simp only [dynRoundP, dynSwapP_init, hfs]
        simp only [dynInitP, hgt, if_true]
        rw [← hf]; rfl
      have e4 : (dynRoundP d n maxiter minK (dynInitP L d n med minK)).retLoss =
          (List.replicate (med.length - minK + 1) (RLoss.zero : L)).set (med.length - minK) f.loss := by
        simp only [dynRoundP, dynSwapP_init, hfs]
        rfl
      rw [e1, e2, e3, e4]
      refine ⟨by omega, hfl.le, by rw [hfl]; exact List.getElem?_set_self hlen, fun j hj hj' => by omega, fun j hj hj' => ?_,
        fun _ => ⟨rfl, rfl⟩⟩
      have : j = med.length := by omega
      exact ⟨f.loss, by rw [this]; exact List.getElem?_set_self hlen, le_rfl⟩
    have hend := (dynLoop_eq hm hn hv.sizes.k_lt maxiter (fuel := med.length) hs0 le_rfl).2
    unfold dynmscP at hr
    have hinv := dynLoopP_inv (d := d) (n := n) (maxiter := maxiter) (minK := minK)
      (fun s : DynState N L => DynShape n med.length minK s ∧
        TieInv med.length minK s.med.length f.med f.assi s.bestLoss s.retMeds s.retAssi s.retLoss) (fun s hs h3 hmin => ?_)
      (fuel := med.length - 1) ⟨hs1, hT1⟩
    · rw [← dynLoopP_step hc0 (by omega)] at hinv
      generalize dynLoopP d n maxiter minK med.length (dynInitP L d n med minK) = s at *
      obtain ⟨hs, hT⟩ := hinv
      have h2' := hs.two
      by_cases hm2 : minK ≤ 2
      · have hl : s.med.length = 2 := by omega
        have e := list_two hl
        have hr0 : s.med.getD 0 0 < n := hs.medRange _ (by rw [e]; simp)
        have hr1 : s.med.getD 1 0 < n := hs.medRange _ (by rw [e]; simp)
        obtain ⟨-, g2, -⟩ := k2Loop_eq hm (fuel := maxiter) (iter := 0) (k2InitP_shape (L := L) d hr0 hr1 n)
        have gl : (fastermscK2P L d n (s.med.getD 0 0) (s.med.getD 1 0) maxiter).med.length = 2 := g2.medLen
        rw [hl] at hT
        have hT' := hT.step (k' := 1) hm2 rfl (by rw [hs.retLen]; omega)
          (x := (fastermscK2P L d n (s.med.getD 0 0) (s.med.getD 1 0) maxiter).loss)
          (a := (fastermscK2P L d n (s.med.getD 0 0) (s.med.getD 1 0) maxiter).assi) gl
        simp only [dynFinishP, hm2, if_true, dynTwoP] at hr
        rw [← hr]
        dsimp only
        have hset : ∀ (ls : List L) j, 1 < j → (if minK ≤ 1 then ls.set 0 RLoss.zero else ls)[j - minK]? = ls[j - minK]? := fun ls j hj => by
          split
          · exact List.getElem?_set_ne (by omega)
          · rfl
        refine ⟨?_, fun j hj hj' => ?_, hT'.first⟩
        · rw [hset _ _ hT'.lt]
          exact hT'.entry
        · rw [hset _ _ (hT'.lt.trans hj)]
          exact hT'.above j hj hj'
      · have hm1 : ¬ minK ≤ 1 := by omega
        simp only [dynFinishP, hm2, hm1, if_false] at hr
        rw [← hr]
        exact ⟨hT.entry, hT.above, hT.first⟩
    · obtain ⟨hs, hT⟩ := hs
      obtain ⟨-, g2, g3, g4, -⟩ := dynRound_eq hm hn hv.sizes.k_lt hs h3 hmin maxiter
      refine ⟨g2, ?_⟩
      have hle := hs.le
      exact hT.step (k' := (dynRoundP d n maxiter minK s).med.length) hmin (by omega) (by rw [hs.retLen]; omega)
        (x := toSilhouette (dynSwapP d n maxiter s).1.loss n) (a := (dynSwapP d n maxiter s).1.data.map (·.near.i)) g4.shape.medLen

theorem medSil_le_one {n : Nat} (hn : 0 < n) {d : Nat → Nat → N} (hd : Dissim n d) {med : List Nat} (hr : ∀ m ∈ med, m < n) (hk : 2 ≤ med.length) :
    medSil (conv : N → L) n d med ≤ 1 := by
  have h0 : (0 : L) < n := by exact_mod_cast hn
  have h := mean_one_sub hn (medSil1 (conv : N → L) d med)
  rw [medSil, ← h]
  have : 0 ≤ ((List.range n).map fun i => 1 - medSil1 (conv : N → L) d med i).sum := by
    refine List.sum_nonneg fun x hx => ?_
    obtain ⟨o, ho, rfl⟩ := List.mem_map.mp hx
    rw [List.mem_range] at ho
    have := (medSil1_range (L := L) (d := d) hk (o := o) fun m hm => hd.nonneg o m ho (hr m hm)).2
    linarith
  have := div_nonneg this h0.le
  linarith

/-- The silhouette of a perfect clustering. -/
theorem medSil_perfect {n : Nat} (hn : 0 < n) {d : Nat → Nat → N} (hd : Dissim n d) {med : List Nat} (hr : ∀ m ∈ med, m < n) (hk : 2 ≤ med.length)
    (hp : ∀ o, o < n → ∃ m ∈ med, d o m = 0) : medSil (conv : N → L) n d med = 1 := by
  have h := mean_one_sub hn (medSil1 (conv : N → L) d med)
  rw [medSil, ← h]
  have : ((List.range n).map fun i => 1 - medSil1 (conv : N → L) d med i).sum = 0 := by
    refine List.sum_eq_zero fun x hx => ?_
    obtain ⟨o, ho, rfl⟩ := List.mem_map.mp hx
    rw [List.mem_range] at ho
    obtain ⟨c, hc, e0⟩ := hp o ho
    have h := twoNearestP_twoMin d hk o
    rw [medSil1_of h]
    obtain ⟨ha, -, -⟩ := h.mem
    have hle : (twoNearestP d med o).1 ≤ d o c := by
      obtain ⟨rest, hp, hab, hrest⟩ := h
      have := hp.mem_iff.mp (List.mem_map.mpr ⟨c, hc, rfl⟩)
      rcases List.mem_cons.mp this with e | e
      · exact le_of_eq e.symm
      · rcases List.mem_cons.mp e with e | e
        · rw [e]; exact hab
        · exact le_trans hab (hrest _ e)
    obtain ⟨m, hm, e⟩ := List.mem_map.mp ha
    have hz : (twoNearestP d med o).1 = 0 := le_antisymm (hle.trans e0.le) (e ▸ hd.nonneg o m ho (hr m hm))
    rw [if_pos hz, sub_self]
  rw [this, zero_div, sub_zero]

/-- **C137, perfect clusterings.** If every object is at distance zero from a medoid, then DynMSC returns these medoids, all of
them, and 1, even if fewer would do; nearest medoids are those at distance zero. In particular if all objects are medoids. -/
theorem C137_perfect [LawfulAdd N L] {mat : Mat N} {n : Nat} {d : Nat → Nat → N} (hm : IsMatrix mat n d)
    (hd : Dissim n d) {med : List Nat} (hv : ValidMeds n med) (hnd : med.Nodup) (hk : 2 ≤ med.length)
    (hp : ∀ o, o < n → ∃ m ∈ med, d o m = 0)
    {mink maxiter : Nat} {r : DynResult L} (hr : dynmsc L mat med mink maxiter = .ok r) :
    r.loss = 1 ∧ r.med = med ∧ r.assi.length = n ∧ ∀ o m : Nat, r.assi[o]? = some m → IsNearest d med o m := by
  have hn : 0 < n := lt_of_lt_of_le hv.sizes.pos hv.sizes.le
  have hone := medSil_perfect (L := L) hn hd hv.range hk hp
  obtain ⟨h1, h2, h3⟩ := C137_ties hm hd hv hnd hk hr (fastermsc_eq (L := L) hm hv maxiter)
  have hf := fastermsc_eq (L := L) hm hv maxiter
  obtain ⟨h4, h5⟩ := C48_dynmsc_ge hm hd hv hnd hk hr hf
  generalize fastermscP L d n med maxiter = f at *
  obtain ⟨-, g2, g3⟩ := C54_msc_from_optimum hm hd hv hnd hk (.inl hf) fun i j hi hj hjm => by
    rw [hone]
    refine medSil_le_one hn hd (fun x hx => ?_) (by rw [List.length_set]; exact hk)
    rcases List.mem_or_eq_of_mem_set hx with g | g
    · exact hv.range x g
    · rw [g]; exact hj
  rw [hone] at g3
  obtain ⟨-, -, -, c4, c5, c6, c7⟩ := C36_dynmsc hm hd hv hnd hk hr
  have hle : r.loss ≤ 1 := by
    by_cases h3' : 3 ≤ r.med.length
    · exact (C106_value hm hd hv hnd hk hr h3').2.2.2
    · have hl2 : r.med.length = 2 := by omega
      rw [(C37_dynmsc_partial hm hd hv hnd hk hr (.inr (.inr hl2))).1]
      exact medSil_le_one hn hd c7.medRange (by omega)
  have hloss : r.loss = 1 := le_antisymm hle (by rw [← g3]; exact h5)
  have hl : r.med.length = med.length := by
    by_contra hc
    obtain ⟨x, e, hx⟩ := h2 med.length (by omega) le_rfl
    rw [h4, g3] at e
    cases e
    rw [hloss] at hx
    exact lt_irrefl _ hx
  obtain ⟨e1, e2⟩ := h3 hl
  have hq := (C37_dynmsc_partial hm hd hv hnd hk hr (.inr (.inl hl))).2.2
  rw [e1, g2] at hq
  exact ⟨hloss, by rw [e1, g2], c7.assiLen, hq⟩

/-- **C137, all objects.** Started with all objects as medoids, DynMSC returns them all. -/
theorem C137_all_objects [LawfulAdd N L] {mat : Mat N} {n : Nat} {d : Nat → Nat → N} (hm : IsMatrix mat n d)
    (hd : Dissim n d) {med : List Nat} (hv : ValidMeds n med) (hnd : med.Nodup) (hk : 2 ≤ med.length) (hl : med.length = n)
    {mink maxiter : Nat} {r : DynResult L} (hr : dynmsc L mat med mink maxiter = .ok r) : r.loss = 1 ∧ r.med = med := by
  have hp := (List.subperm_of_subset hnd (fun x hx => List.mem_range.mpr (hv.range x hx))).perm_of_length_le
    (l₂ := List.range n) (by simp [hl])
  obtain ⟨h1, h2, -⟩ := C137_perfect hm hd hv hnd hk (fun o ho => ⟨o, hp.mem_iff.mpr (List.mem_range.mpr ho), hd.diag o ho⟩) hr
  exact ⟨h1, h2⟩

end exact

/-! ## Examples -/

/-- Five objects at three places. Two of the three silhouettes are 1: three medoids are at all places, four are more than needed. -/
def placesD (i j : Nat) : ℕ := lineD [0, 0, 3, 3, 10] i j

theorem placesD_dissim : Dissim 5 placesD := ⟨by decide +kernel, fun _ _ _ _ => Nat.zero_le _⟩

/-- All hypotheses of `C137_perfect` hold; four medoids are returned although three have the same silhouette. -/
example : (dynmsc ℚ (fnMat 5 placesD) [0, 1, 2, 4] 2 9).map (fun r => (r.loss, r.med, r.losses)) = .ok (1, [0, 1, 2, 4], [22 / 25, 1, 1]) ∧
    (∀ o, o < 5 → ∃ m ∈ [0, 1, 2, 4], placesD o m = 0) ∧ Dissim 5 placesD := ⟨by decide +kernel, by decide +kernel, placesD_dissim⟩

/-- All hypotheses of `C137_all_objects` hold. -/
example : (dynmsc ℚ (fnMat 5 placesD) [4, 1, 2, 0, 3] 1 9).map (fun r => (r.loss, r.med, r.losses)) =
    .ok (1, [4, 1, 2, 0, 3], [0, 22 / 25, 1, 1, 1]) := by
  decide +kernel

/-- Two groups: two of three medoids are left, the entry for three medoids is smaller. -/
example : (dynmsc ℚ (fnMat 8 (lineD [0, 1, 2, 1, 100, 101, 102, 101])) [0, 1, 2] 2 9).map (fun r => (r.loss, r.med, r.losses)) =
    .ok (9949 / 9999, [5, 1], [9949 / 9999, 149585 / 159984]) := by
  decide +kernel

end KMedoids
