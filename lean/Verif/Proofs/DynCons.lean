import Verif.Proofs.DynAny

/-!
# What the cache of DynMSC says for any number of medoids

After a removal the third entry of a record need not be the third nearest medoid, and later swaps carry the error into the
other two entries (C37). What remains: the three labels are different, and each comes with the distance to its medoid.
-/

set_option linter.unusedSectionVars false

namespace KMedoids

open RFrom (conv)

variable {N L : Type} [LinearOrder N] [Zero N] [RDist N] [LawfulDist N] [RLoss L] [RFrom N L]

/-- The distances of a record belong to its labels. -/
structure RCons (f : Nat → N) (r : Reco N) : Prop where
  near : r.near.d = f r.near.i
  seco : r.seco.d = f r.seco.i
  third : r.third.d = f r.third.i

theorem mscSwapRecG_cons {k b : Nat} (hku : k < u32Max) {utn : Nat → Nat → DistancePair N} {f f' : Nat → N} {doj : N}
    (hb : f' b = doj) (hf : ∀ m, m ≠ b → f' m = f m) (hu : ∀ x y, (utn x y).d = f' (utn x y).i) {r : Reco N}
    (h : Reco3 k r) (hc : RCons f r) : RCons f' (mscSwapRecG utn b doj r) := by
  obtain ⟨g1, g2, g3, g4, g5, g6⟩ := h
  obtain ⟨c1, c2, c3⟩ := hc
  have hne : (r.third.i == u32Max) = false := by rw [beq_eq_false_iff_ne]; omega
  unfold mscSwapRecG
  simp only [hne, Bool.false_or]
  by_cases hn : r.near.i = b
  · rw [if_pos hn]
    have e2 := hf r.seco.i (by omega)
    have e3 := hf r.third.i (by omega)
    split
    · exact ⟨hb.symm, by rw [c2, e2], by rw [c3, e3]⟩
    · split
      · exact ⟨by rw [c2, e2], hb.symm, by rw [c3, e3]⟩
      · exact ⟨by rw [c2, e2], by rw [c3, e3], hu _ _⟩
  · rw [if_neg hn]
    have e1 := hf r.near.i hn
    by_cases hs : r.seco.i = b
    · rw [if_pos hs]
      have e3 := hf r.third.i (by omega)
      split
      · exact ⟨hb.symm, by rw [c1, e1], by rw [c3, e3]⟩
      · split
        · exact ⟨by rw [c1, e1], hb.symm, by rw [c3, e3]⟩
        · exact ⟨by rw [c1, e1], by rw [c3, e3], hu _ _⟩
    · rw [if_neg hs]
      have e2 := hf r.seco.i hs
      split
      · exact ⟨hb.symm, by rw [c1, e1], by rw [c2, e2]⟩
      · split
        · exact ⟨by rw [c1, e1], hb.symm, by rw [c2, e2]⟩
        · split
          · exact ⟨by rw [c1, e1], by rw [c2, e2], hb.symm⟩
          · split
            · exact ⟨by rw [c1, e1], by rw [c2, e2], hu _ _⟩
            · rename_i ht
              exact ⟨by rw [c1, e1], by rw [c2, e2], by rw [c3, hf _ ht]⟩

theorem mscSwapRecJ_cons {k b : Nat} {f f' : Nat → N} (hb : f' b = 0) (hf : ∀ m, m ≠ b → f' m = f m) {r : Reco N}
    (h : Reco3 k r) (hc : RCons f r) : RCons f' (mscSwapRecJ b r) := by
  obtain ⟨g1, g2, g3, g4, g5, g6⟩ := h
  obtain ⟨c1, c2, c3⟩ := hc
  unfold mscSwapRecJ
  by_cases hn : r.near.i = b
  · rw [if_pos hn]
    have e2 := hf r.seco.i (by omega)
    have e3 := hf r.third.i (by omega)
    exact ⟨by rw [hb, zeroN], by rw [c2, e2], by rw [c3, e3]⟩
  · rw [if_neg hn]
    by_cases hs : r.seco.i = b
    · rw [if_pos hs]
      have e3 := hf r.third.i (by omega)
      exact ⟨by rw [hb, zeroN], by rw [c1, hf _ hn], by rw [c3, e3]⟩
    · rw [if_neg hs]
      exact ⟨by rw [hb, zeroN], by rw [c1, hf _ hn], by rw [c2, hf _ hs]⟩

theorem utnP_dist (d : Nat → Nat → N) {med : List Nat} {x y b o : Nat} {doj : N} (hb : medDist d med o b = doj) :
    (utnP d med x y b o doj).d = medDist d med o (utnP d med x y b o doj).i := by
  unfold utnP
  have := foldl_zipIdx_prefix (fun _ (s : DistancePair N) => s.d = medDist d med o s.i)
    (g := fun (dist : DistancePair N) (p : Nat × Nat) =>
      if p.2 = x ∨ p.2 = b ∨ p.2 = y then dist
      else if rlt (d o p.1) dist.d then ⟨p.2, d o p.1⟩ else dist)
    (xs := med) (s := ⟨b, doj⟩) 0 (fun p c s _ hc hI => by
      dsimp only
      split
      · exact hI
      · split
        · exact (medDist_get hc).symm
        · exact hI) (by omega) hb.symm
  rwa [List.drop_zero] at this

theorem removeRecP_cons {d : Nat → Nat → N} {med : List Nat} {b o : Nat} (hb : b < med.length) (hk : 4 ≤ med.length)
    {r : Reco N} (h : Reco3 med.length r) (hc : RCons (medDist d med o) r) :
    RCons (medDist d (removeListP med b) o) (removeRecP d (removeListP med b) (med.length - 1) b (r, o)) := by
  obtain ⟨g1, g2, g3, g4, g5, g6⟩ := h
  obtain ⟨c1, c2, c3⟩ := hc
  have hrl : ∀ p : DistancePair N, p.i < med.length → p.i ≠ b → p.d = medDist d med o p.i →
      (relabelP (med.length - 1) b p).d = medDist d (removeListP med b) o (relabelP (med.length - 1) b p).i := by
    intro p hp hpb hpd
    rw [relabelP_d, relabelP_i, hpd]
    by_cases hl : p.i = med.length - 1
    · rw [if_pos hl, medDist, medDist, List.getD_eq_getElem?_getD, List.getD_eq_getElem?_getD,
        removeListP_get hb (by omega), if_pos rfl, hl]
    · rw [if_neg hl, medDist, medDist, List.getD_eq_getElem?_getD, List.getD_eq_getElem?_getD,
        removeListP_get hb (by omega), if_neg hpb]
  have hu : ∀ x y, (utnwP d (removeListP med b) x y b o).d =
      medDist d (removeListP med b) o (utnwP d (removeListP med b) x y b o).i :=
    fun x y => (utnwP_dist d (by rw [removeListP_length hb]; omega) x y b o).symm
  unfold removeRecP
  dsimp only
  by_cases hn : r.near.i = b
  · rw [if_pos hn]
    exact ⟨hrl _ g2 (by omega) c2, hrl _ g3 (by omega) c3, hu _ _⟩
  · rw [if_neg hn]
    by_cases hs : r.seco.i = b
    · rw [if_pos hs]
      exact ⟨hrl _ g1 hn c1, hrl _ g3 (by omega) c3, hu _ _⟩
    · rw [if_neg hs]
      by_cases ht : r.third.i = b
      · rw [if_pos ht]
        exact ⟨hrl _ g1 hn c1, hrl _ g2 hs c2, hu _ _⟩
      · rw [if_neg ht]
        exact ⟨hrl _ g1 hn c1, hrl _ g2 hs c2, hrl _ g3 ht c3⟩

/-! ## the swaps -/

/-- All records, and the sum. -/
structure MSCCons (n k : Nat) (d : Nat → Nat → N) (s : MSCState N L) : Prop where
  shape : MSCShape3 n k s
  cons : ∀ (o : Nat) (r : Reco N), s.data[o]? = some r → RCons (medDist d s.med o) r
  loss : s.loss = mscLossP L s.data

theorem mscSwapP_cons {n k : Nat} {d : Nat → Nat → N} (hd : Dissim n d) (hku : k < u32Max) {s : MSCState N L}
    (hs : MSCCons n k d s) {b j : Nat} (hb : b < k) (hj : j < n) : MSCCons n k d (mscSwapP d s b j) := by
  have hbl : b < s.med.length := by rw [hs.shape.shape.medLen]; exact hb
  have hf := fun o => medDist_set (d := d) (j := j) (o := o) hbl
  refine ⟨mscSwapP_shape3 d hs.shape hku hb hj, fun o r' hr' => ?_, ?_⟩
  · obtain ⟨r, hget, rfl⟩ := mscSwapDataP_get hr'
    have h3 := hs.shape.shape.recs r (List.mem_of_getElem? hget)
    have hc := hs.cons o r hget
    show RCons (medDist d (s.med.set b j) o) _
    unfold mscSwapRecP
    dsimp only
    split
    · rename_i e
      subst e
      exact mscSwapRecJ_cons (by rw [(hf o).1, hd.diag o hj]) (hf o).2 h3 hc
    · exact mscSwapRecG_cons hku (hf o).1 (hf o).2 (fun x y => utnP_dist d (hf o).1) h3 hc
  · show mscSwapSumP L j (mscSwapDataP d s.med s.data b j) = mscLossP L (mscSwapDataP d s.med s.data b j)
    rw [mscSwapSumP, mscLossP, ← map_zipIdx_fst (mscSwapDataP d s.med s.data b j) (fun r => mscLoss L r.near.d r.seco.d)]
    congr 1
    refine List.map_congr_left fun p hp => ?_
    unfold mscSwapLossP
    split
    · rename_i e
      have hget : (mscSwapDataP d s.med s.data b j)[p.2]? = some p.1 := (List.mem_zipIdx_iff_getElem?.mp hp)
      obtain ⟨r, -, er⟩ := mscSwapDataP_get hget
      rw [er]
      unfold mscSwapRecP
      dsimp only
      rw [if_pos e]
      have hz : (mscSwapRecJ b r).near.d = 0 := by
        unfold mscSwapRecJ
        rw [zeroN]
        split
        · rfl
        · split <;> rfl
      unfold mscLoss
      rw [hz, isZeroN]
      simp
    · rfl

theorem mscLoopP_cons {n k : Nat} {d : Nat → Nat → N} (hd : Dissim n d) (hku : k < u32Max) (hk : 1 ≤ k)
    {fuel iter : Nat} {s : MSCState N L} (hs : MSCCons n k d s) : MSCCons n k d (mscLoopP d n fuel iter s).1 := by
  unfold mscLoopP
  refine (loopG_inv (MSCCons n k d) (fun s hs => ?_) hs).1
  refine passG_inv (MSCCons n k d) (fun s j s' hj hs hc => ?_) hs
  have hj := List.mem_range.mp hj
  unfold mscCandP at hc
  split at hc
  · cases hc
  · dsimp only at hc
    split at hc
    · cases hc
    · cases hc
      have := mscFbsP_lt d (rem := s.rem) s.data j (by rw [hs.shape.remLen]; exact hk)
      rw [hs.shape.remLen] at this
      exact mscSwapP_cons hd hku hs this hj

/-! ## the rounds -/

/-- `loss` is computed from the distances to the medoids of the labels and to another medoid. -/
def Explains (n : Nat) (d : Nat → Nat → N) (med assi : List Nat) (loss : L) : Prop :=
  ∃ near other : Nat → Nat,
    (∀ o, o < n → ∃ m m' : Nat, assi[o]? = some m ∧ med[m]? = some (near o) ∧ med[m']? = some (other o) ∧ m ≠ m') ∧
    loss = toSilhouette (leftSum ((List.range n).map fun o => mscLoss L (d o (near o)) (d o (other o)))) n

theorem MSCCons.explains {n k : Nat} {d : Nat → Nat → N} {s : MSCState N L} (h : MSCCons n k d s) :
    Explains n d s.med (s.data.map (·.near.i)) (toSilhouette s.loss n) := by
  have hlen := h.shape.shape.dataLen
  have hml := h.shape.shape.medLen
  refine ⟨fun o => s.med.getD ((s.data.map (·.near.i)).getD o 0) 0,
    fun o => s.med.getD ((s.data.map (·.seco.i)).getD o 0) 0, fun o ho => ?_, ?_⟩
  · have hget : s.data[o]? = some (s.data[o]'(hlen ▸ ho)) := List.getElem?_eq_getElem _
    have h3 := h.shape.shape.recs _ (List.mem_of_getElem? hget)
    have e1 : (s.data.map (·.near.i)).getD o 0 = (s.data[o]'(hlen ▸ ho)).near.i := by
      simp [List.getD_eq_getElem?_getD, hget]
    have e2 : (s.data.map (·.seco.i)).getD o 0 = (s.data[o]'(hlen ▸ ho)).seco.i := by
      simp [List.getD_eq_getElem?_getD, hget]
    have hn : (s.data[o]'(hlen ▸ ho)).near.i < s.med.length := hml ▸ h3.near
    have hs : (s.data[o]'(hlen ▸ ho)).seco.i < s.med.length := hml ▸ h3.seco
    refine ⟨_, _, ?_, ?_, ?_, h3.ns⟩
    · rw [List.getElem?_map, hget]; rfl
    · dsimp only
      rw [e1, List.getD_eq_getElem?_getD, List.getElem?_eq_getElem hn]; rfl
    · dsimp only
      rw [e2, List.getD_eq_getElem?_getD, List.getElem?_eq_getElem hs]; rfl
  · congr 1
    rw [h.loss, mscLossP, sumP_leftSum]
    congr 1
    refine List.ext_getElem (by simp [hlen]) fun o h1 h2 => ?_
    have ho : o < s.data.length := by simpa using h1
    have hget : s.data[o]? = some s.data[o] := List.getElem?_eq_getElem ho
    have hc := h.cons o _ hget
    simp only [List.getElem_map, List.getElem_range]
    rw [hc.near, hc.seco]
    simp [medDist, List.getD_eq_getElem?_getD, hget]

/-- Invariant of the rounds. -/
structure DynConsS (n : Nat) (d : Nat → Nat → N) (k0 minK : Nat) (s : DynState N L) : Prop where
  shape : DynShape n k0 minK s
  cons : 3 ≤ s.med.length → ∀ (o : Nat) (r : Reco N), s.data[o]? = some r → RCons (medDist d s.med o) r
  loss : s.loss = mscLossP L s.data
  ret : s.bestLoss = RLoss.zero ∨ Explains n d s.retMeds s.retAssi s.bestLoss
  all : ∀ x ∈ s.retLoss, x = RLoss.zero ∨ ∃ med assi, Explains n d med assi x

theorem dynRoundP_cons {n k0 minK : Nat} {d : Nat → Nat → N} (hd : Dissim n d) (hn0 : 0 < n) (hku : k0 < u32Max)
    {mat : Mat N} (hm : IsMatrix mat n d) (maxiter : Nat) {s : DynState N L}
    (h : DynConsS n d k0 minK s) (h3 : 3 ≤ s.med.length) (hmin : minK ≤ s.med.length) :
    DynConsS n d k0 minK (dynRoundP d n maxiter minK s) := by
  obtain ⟨-, hshape, hlen, hsw, -⟩ := dynRound_eq hm hn0 hku h.shape h3 hmin maxiter
  have hk : s.med.length < u32Max := lt_of_le_of_lt h.shape.le hku
  have hb : (chooseRemoval (dynSwapP d n maxiter s).1.rem).2 < (dynSwapP d n maxiter s).1.med.length := by
    have := chooseRemoval_lt (rem := (dynSwapP d n maxiter s).1.rem) (by rw [hsw.remLen]; omega)
    rwa [hsw.remLen, ← hsw.shape.medLen] at this
  have hc : MSCCons n s.med.length d (dynSwapP d n maxiter s).1 :=
    mscLoopP_cons hd hk (by omega) ⟨h.shape.msc h3, h.cons h3, h.loss⟩
  refine ⟨hshape, fun h3' o r' hr' => ?_, rfl, ?_, ?_⟩
  · obtain ⟨r, hget, rfl⟩ := removeDataP_get (show (removeDataP d _ _ _)[o]? = some r' from hr')
    refine removeRecP_cons hb ?_ ?_ (hc.cons o r hget)
    · rw [hc.shape.shape.medLen]; omega
    · rw [hc.shape.shape.medLen]; exact hc.shape.shape.recs r (List.mem_of_getElem? hget)
  · show (if rgt (toSilhouette (dynSwapP d n maxiter s).1.loss n) s.bestLoss then
        toSilhouette (dynSwapP d n maxiter s).1.loss n else s.bestLoss) = RLoss.zero ∨
      Explains n d (if rgt (toSilhouette (dynSwapP d n maxiter s).1.loss n) s.bestLoss then
        (dynSwapP d n maxiter s).1.med else s.retMeds)
        (if rgt (toSilhouette (dynSwapP d n maxiter s).1.loss n) s.bestLoss then
        (dynSwapP d n maxiter s).1.data.map (·.near.i) else s.retAssi)
        (if rgt (toSilhouette (dynSwapP d n maxiter s).1.loss n) s.bestLoss then
        toSilhouette (dynSwapP d n maxiter s).1.loss n else s.bestLoss)
    split
    · exact .inr hc.explains
    · exact h.ret
  · intro x hx
    rcases List.mem_or_eq_of_mem_set (show x ∈ s.retLoss.set _ _ from hx) with hx | rfl
    · exact h.all x hx
    · exact .inr ⟨_, _, hc.explains⟩

theorem dynmscP_cons {n : Nat} {d : Nat → Nat → N} (hd : Dissim n d) {mat : Mat N} (hm : IsMatrix mat n d)
    {med : List Nat} (hv : ValidMeds n med) (hnd : med.Nodup) (hk : 2 ≤ med.length) (minK maxiter : Nat) :
    3 ≤ (dynmscP L d n med minK maxiter).med.length →
    (dynmscP L d n med minK maxiter).loss = RLoss.zero ∨
      Explains n d (dynmscP L d n med minK maxiter).med (dynmscP L d n med minK maxiter).assi
        (dynmscP L d n med minK maxiter).loss := by
  have hn0 : 0 < n := lt_of_lt_of_le hv.sizes.pos hv.sizes.le
  have h0 : DynConsS n d med.length minK (dynInitP L d n med minK) := by
    have hi := MInvA.init (L := L) hd hv hnd hk
    refine ⟨dynInitP_shape d hv hk minK, fun h3 o r hr => ?_, rfl, .inl rfl, fun x hx => ?_⟩
    · have h := hi.cache.reco o r hr
      refine ⟨h.near_d.symm, h.seco_d.symm, ?_⟩
      rcases h.third with h | h
      · exact h.2.1.symm
      · have h3 : 3 ≤ med.length := h3
        omega
    · exact .inl (List.eq_of_mem_replicate hx)
  have h := dynLoopP_inv (d := d) (n := n) (maxiter := maxiter) (minK := minK) (DynConsS n d med.length minK)
    (fun s hs h3 hmin => dynRoundP_cons hd hn0 hv.sizes.k_lt hm maxiter hs h3 hmin) (fuel := med.length) h0
  obtain ⟨-, -, hend⟩ := dynLoop_eq hm hn0 hv.sizes.k_lt maxiter (fuel := med.length) (dynInitP_shape (L := L) d hv hk minK)
    le_rfl
  unfold dynmscP
  generalize dynLoopP d n maxiter minK med.length (dynInitP L d n med minK) = s at h hend
  by_cases h2 : minK ≤ 2
  · simp only [dynFinishP, h2, if_true, dynTwoP]
    split
    · intro h3
      exfalso
      have hl : s.med.length = 2 := by have := h.shape.two; omega
      have e := list_two hl
      have hr0 : s.med.getD 0 0 < n := h.shape.medRange _ (by rw [e]; simp)
      have hr1 : s.med.getD 1 0 < n := h.shape.medRange _ (by rw [e]; simp)
      obtain ⟨-, g2, -⟩ := k2Loop_eq hm (fuel := maxiter) (iter := 0) (k2InitP_shape (L := L) d hr0 hr1 n)
      have gl : (fastermscK2P L d n (s.med.getD 0 0) (s.med.getD 1 0) maxiter).med.length = 2 := g2.medLen
      omega
    · exact fun _ => h.ret
  · simp only [dynFinishP, h2, if_false]
    exact fun _ => h.ret

end KMedoids
