import Verif.Model.Repaired
import Verif.Props.C92

/-! # The repaired DynMSC -/

set_option linter.unusedSectionVars false

namespace KMedoids

open RFrom (conv)

/-! ## Textbook description -/

section spec
variable {L : Type} [LinearOrder L] [Neg L]

/-- The first of the medoids that leave the largest silhouette when dropped is dropped. -/
def dropBest (S : List Nat → L) (med : List Nat) : List Nat :=
  dropAt med (firstMin (fun b => - S (med.eraseIdx b)) med.length)

/-- The solutions for `k`, `k - 1`, … medoids, down to two and to `minK`: medoids, passes, swaps. Always the least useful medoid is
dropped. -/
def bestSteps (S : List Nat → L) (n maxiter minK : Nat) : Nat → List Nat → List (List Nat × Nat × Nat)
  | 0, _ => []
  | k + 1, med =>
    if 2 ≤ k + 1 ∧ minK ≤ k + 1 then
      let e := eagerRun (fun m => - S m) (List.range n) maxiter med
      e :: bestSteps S n maxiter minK k (dropBest S e.1)
    else []

theorem bestSteps_more (S : List Nat → L) (n maxiter : Nat) {minK k : Nat} (h2 : 2 ≤ k + 1) (hm : minK ≤ k + 1)
    (med : List Nat) : bestSteps S n maxiter minK (k + 1) med =
      eagerRun (fun m => - S m) (List.range n) maxiter med :: bestSteps S n maxiter minK k
        (dropBest S (eagerRun (fun m => - S m) (List.range n) maxiter med).1) := by
  conv_lhs => unfold bestSteps
  rw [if_pos ⟨h2, hm⟩]

theorem bestSteps_done (S : List Nat → L) (n maxiter : Nat) {minK k : Nat} (h : ¬ (2 ≤ k ∧ minK ≤ k))
    (med : List Nat) : bestSteps S n maxiter minK k med = [] := by
  cases k with
  | zero => rfl
  | succ k => unfold bestSteps; rw [if_neg h]

/-- With at most two medoids left there is no difference. -/
theorem bestSteps_end (S : List Nat → L) (n maxiter : Nat) {minK k : Nat} (h : ¬ (3 ≤ k ∧ minK ≤ k)) (med : List Nat) :
    bestSteps S n maxiter minK k med = dynSteps S n maxiter minK k med := by
  by_cases h2 : 2 ≤ k ∧ minK ≤ k
  · have : k = 2 := by omega
    subst this
    rw [bestSteps_more _ _ _ (by omega) h2.2, dynSteps_more _ _ _ (by omega) h2.2, bestSteps_done _ _ _ (by omega),
      dynSteps_done _ _ _ (by omega)]
  · rw [bestSteps_done _ _ _ h2, dynSteps_done _ _ _ h2]

end spec

/-! ## Pure mirror -/

section any
variable {N L : Type} [RDist N] [RLoss L] [RFrom N L]

/-- pure `fixThird` -/
def fixThirdP (d : Nat → Nat → N) (med : List Nat) (n s o : Nat) : DistancePair N :=
  med.zipIdx.foldl (fun (dist : DistancePair N) (p : Nat × Nat) =>
    if p.2 = n ∨ p.2 = s then dist
    else if dist.i == u32Max || rlt (d o p.1) dist.d then ⟨p.2, d o p.1⟩ else dist) ⟨u32Max, RDist.zero⟩

theorem fixThird_eq {mat : Mat N} {n : Nat} {d : Nat → Nat → N} (hm : IsMatrix mat n d)
    {med : List Nat} (hk : med.length < u32Max) (hr : ∀ m ∈ med, m < n) {nn s o : Nat} (ho : o < n) :
    fixThird mat med nn s o = .ok (fixThirdP d med nn s o) := by
  unfold fixThird fixThirdP
  refine foldRes_eq' (fun s p hp => ?_) _
  have hpk : p.2 < u32Max := lt_trans (mem_zipIdx_lt hp) hk
  split
  · rfl
  · simp only [hm.get _ _ ho (hr _ (mem_zipIdx_mem hp)), ok_bind, DistancePair.new, asU32_lt hpk]

/-- pure record part of `fixRemoveMedRec` -/
def fixRecP (d : Nat → Nat → N) (med : List Nat) (l b : Nat) (p : Reco N × Nat) : Reco N :=
  let r := p.1
  let n := relabelP l b r.near
  let s := relabelP l b r.seco
  let t := relabelP l b r.third
  if r.near.i = b then ⟨s, t, fixThirdP d med s.i t.i p.2⟩
  else if r.seco.i = b then ⟨n, t, fixThirdP d med n.i t.i p.2⟩
  else if r.third.i = b then ⟨n, s, fixThirdP d med n.i s.i p.2⟩
  else ⟨n, s, t⟩

/-- The repair changes the third nearest medoid only. -/
theorem fixRecP_same (d : Nat → Nat → N) (med : List Nat) (l b : Nat) (p : Reco N × Nat) :
    (fixRecP d med l b p).near = (removeRecP d med l b p).near ∧ (fixRecP d med l b p).seco = (removeRecP d med l b p).seco := by
  unfold fixRecP removeRecP
  dsimp only
  split
  · exact ⟨rfl, rfl⟩
  · split
    · exact ⟨rfl, rfl⟩
    · split <;> exact ⟨rfl, rfl⟩

/-- pure data of `fixRemoveMed` -/
def fixDataP (d : Nat → Nat → N) (med : List Nat) (data : List (Reco N)) (b : Nat) : List (Reco N) :=
  data.zipIdx.map (fixRecP d (removeListP med b) (med.length - 1) b)

theorem fixDataP_loss (d : Nat → Nat → N) (med : List Nat) (data : List (Reco N)) (b : Nat) :
    mscLossP L (fixDataP d med data b) = mscLossP L (removeDataP d med data b) := by
  unfold mscLossP fixDataP removeDataP
  rw [List.map_map, List.map_map]
  congr 1
  refine List.map_congr_left fun p _ => ?_
  obtain ⟨h1, h2⟩ := fixRecP_same d (removeListP med b) (med.length - 1) b p
  simp only [Function.comp_apply, h1, h2]

theorem fixDataP_get {d : Nat → Nat → N} {med : List Nat} {data : List (Reco N)} {b o : Nat} {r' : Reco N}
    (h : (fixDataP d med data b)[o]? = some r') :
    ∃ r, data[o]? = some r ∧ r' = fixRecP d (removeListP med b) (med.length - 1) b (r, o) := by
  obtain ⟨h1, h2⟩ := List.getElem?_eq_some_iff.mp h
  simp [fixDataP] at h1 h2
  exact ⟨data[o], List.getElem?_eq_getElem h1, h2.symm⟩

theorem fixRemoveMed_eq {mat : Mat N} {n k : Nat} {d : Nat → Nat → N} (hm : IsMatrix mat n d) (hn : 0 < n)
    {med : List Nat} {data : List (Reco N)} (hl : med.length = k) (hr : ∀ m ∈ med, m < n)
    (hdl : data.length = n) (hk : k < u32Max) {b : Nat} (hb : b < k) :
    fixRemoveMed L mat med data b =
      .ok (mscLossP L (fixDataP d med data b), removeListP med b, fixDataP d med data b) := by
  subst hl
  have hlast : med.length - 1 < med.length := by omega
  have hget : med[med.length - 1]? = some (med.getD (med.length - 1) 0) := by
    rw [List.getD_eq_getElem?_getD, List.getElem?_eq_getElem hlast]; simp
  have hrl : ∀ p : DistancePair N, relabel (med.length - 1) b p = relabelP (med.length - 1) b p := by
    intro p
    unfold relabel relabelP
    rw [asU32_lt (lt_trans hlast hk), asU32_lt (lt_trans hb hk)]
  have hlen := removeListP_length hb
  have hrr : ∀ m ∈ removeListP med b, m < n := fun m hmem => hr m (removeListP_mem hb m hmem)
  have hu := fun (x y o : Nat) (ho : o < n) =>
    fixThird_eq hm (med := removeListP med b) (by omega) hrr (nn := x) (s := y) ho
  have hmap : mapRes (fixRemoveMedRec L mat (removeListP med b) (med.length - 1) b) data.zipIdx =
      .ok (data.zipIdx.map fun p => (fixRecP d (removeListP med b) (med.length - 1) b p,
        mscLoss L (fixRecP d (removeListP med b) (med.length - 1) b p).near.d
          (fixRecP d (removeListP med b) (med.length - 1) b p).seco.d)) := by
    refine mapRes_eq fun p hp => ?_
    have ho : p.2 < n := hdl ▸ mem_zipIdx_lt hp
    unfold fixRemoveMedRec fixRecP
    simp only [hrl, asU32_lt (lt_trans hb hk), hu _ _ _ ho, ok_bind]
    split
    · rfl
    · split
      · rfl
      · split <;> rfl
  have hne : (fixDataP d med data b).map (fun r => mscLoss L r.near.d r.seco.d) ≠ [] := by
    intro h; have := congrArg List.length h; simp [fixDataP] at this; subst this; simp at hdl; omega
  have hb0 : ¬ med.length = 0 := by omega
  have hmaps : ((data.zipIdx.map fun p => (fixRecP d (removeListP med b) (med.length - 1) b p,
        mscLoss L (fixRecP d (removeListP med b) (med.length - 1) b p).near.d
          (fixRecP d (removeListP med b) (med.length - 1) b p).seco.d)).map (·.2)) =
      (fixDataP d med data b).map (fun r => mscLoss L r.near.d r.seco.d) := by
    simp [fixDataP, Function.comp_def]
  have hmaps1 : ((data.zipIdx.map fun p => (fixRecP d (removeListP med b) (med.length - 1) b p,
        mscLoss L (fixRecP d (removeListP med b) (med.length - 1) b p).near.d
          (fixRecP d (removeListP med b) (med.length - 1) b p).seco.d)).map (·.1)) =
      fixDataP d med data b := by
    simp [fixDataP, Function.comp_def]
  unfold fixRemoveMed
  rw [if_neg hb0]
  simp only [decide_eq_true hb, rassert_true, ok_bind, idx_of_get hget, setIdx_lt hb]
  rw [show (med.set b (med.getD (med.length - 1) 0)).eraseIdx (med.length - 1) = removeListP med b from rfl]
  simp only [hmap, ok_bind, hmaps, hmaps1, unwrap_reduceAdd hne, mscLossP]

/-- pure `fixRound` -/
def fixRoundP (d : Nat → Nat → N) (n maxiter minK : Nat) (s : DynState N L) : DynState N L :=
  let m := dynSwapP d n maxiter s
  let b := (fixChoose m.1.rem).2
  { dynRoundP d n maxiter minK s with
    med := removeListP m.1.med b
    data := fixDataP d m.1.med m.1.data b
    rem := m.1.rem.eraseIdx b
    loss := mscLossP L (fixDataP d m.1.med m.1.data b) }

end any

/-! ## The records are right -/

section level2
variable {N : Type} [LinearOrder N] [Zero N] [RDist N] [LawfulDist N]

theorem fixThirdP_spec (d : Nat → Nat → N) {med : List Nat} (hu : med.length < u32Max) (x y o : Nat) :
    ((∀ m, m < med.length → m = x ∨ m = y) ∧ (fixThirdP d med x y o).i = u32Max) ∨
    ((fixThirdP d med x y o).i < med.length ∧ (fixThirdP d med x y o).i ≠ x ∧ (fixThirdP d med x y o).i ≠ y ∧
      medDist d med o (fixThirdP d med x y o).i = (fixThirdP d med x y o).d ∧
      ∀ m, m < med.length → m ≠ x → m ≠ y → (fixThirdP d med x y o).d ≤ medDist d med o m) := by
  have := foldl_zipIdx_prefix (fun p (s : DistancePair N) =>
      ((∀ m, m < p → m = x ∨ m = y) ∧ s.i = u32Max) ∨ (s.i < p ∧ s.i ≠ x ∧ s.i ≠ y ∧ medDist d med o s.i = s.d ∧
        ∀ m, m < p → m ≠ x → m ≠ y → s.d ≤ medDist d med o m))
    (g := fun (dist : DistancePair N) (p : Nat × Nat) =>
      if p.2 = x ∨ p.2 = y then dist
      else if dist.i == u32Max || rlt (d o p.1) dist.d then ⟨p.2, d o p.1⟩ else dist)
    (xs := med) (s := ⟨u32Max, RDist.zero⟩) 0 (fun p c s _ hc hI => by
      have hp : p < med.length := (List.getElem?_eq_some_iff.mp hc).1
      have hdc : medDist d med o p = d o c := medDist_get hc
      have hsplit : ∀ m, m < p + 1 → m < p ∨ m = p := fun m hm => by omega
      dsimp only
      split
      · rename_i hxy
        rcases hI with ⟨h1, h2⟩ | ⟨h1, h2, h3, h4, h5⟩
        · left
          refine ⟨fun m hm => ?_, h2⟩
          rcases hsplit m hm with h | rfl
          · exact h1 m h
          · exact hxy
        · right
          refine ⟨by omega, h2, h3, h4, fun m hm a b => ?_⟩
          rcases hsplit m hm with h | rfl
          · exact h5 m h a b
          · exact absurd hxy (by omega)
      · rename_i hxy
        right
        rcases hI with ⟨h1, h2⟩ | ⟨h1, h2, h3, h4, h5⟩
        · simp only [h2, beq_self_eq_true, Bool.true_or, if_true]
          refine ⟨by omega, by omega, by omega, hdc, fun m hm a b => ?_⟩
          rcases hsplit m hm with h | rfl
          · exact absurd (h1 m h) (by omega)
          · exact le_of_eq hdc.symm
        · have hne : ¬ s.i = u32Max := by omega
          simp only [beq_iff_eq, hne, Bool.or_eq_true, false_or, rltN, decide_eq_true_eq]
          split
          · rename_i hlt
            refine ⟨by dsimp only; omega, by dsimp only; omega, by dsimp only; omega, hdc, fun m hm a b => ?_⟩
            rcases hsplit m hm with h | rfl
            · exact le_trans (le_of_lt hlt) (h5 m h a b)
            · exact le_of_eq hdc.symm
          · rename_i hlt
            refine ⟨by omega, h2, h3, h4, fun m hm a b => ?_⟩
            rcases hsplit m hm with h | rfl
            · exact h5 m h a b
            · rw [hdc]; exact not_lt.mp hlt)
    (by omega) (Or.inl ⟨by omega, rfl⟩)
  rw [List.drop_zero] at this
  exact this

/-- After the removal of a medoid the record is right. -/
theorem fixRecP_top3 {d : Nat → Nat → N} {med' : List Nat} {k b : Nat} (hb : b < k) (hk : 3 ≤ k) (hu : k < u32Max)
    (hl : med'.length = k - 1) {f : Nat → N} {p : Reco N × Nat}
    (hfb : b < k - 1 → medDist d med' p.2 b = f (k - 1)) (hfm : ∀ m, m < k - 1 → m ≠ b → medDist d med' p.2 m = f m)
    (h : Top3 k f p.1) : Top3 (k - 1) (medDist d med' p.2) (fixRecP d med' (k - 1) b p) := by
  have h2 := removeRecP_top2 (d := d) (med' := med') hb hk hfb hfm h
  obtain ⟨e1, e2⟩ := fixRecP_same d med' (k - 1) b p
  rw [← hl] at h2 e1 e2 ⊢
  obtain ⟨g1, g2, g3, g4, g5, g6, g7⟩ := h2
  rw [← e1] at g1 g2
  rw [← e2] at g3 g4
  rw [← e1, ← e2] at g5 g6
  simp only [← e1, ← e2] at g7
  refine ⟨g1, g2, g3, g4, g5, g6, ?_⟩
  -- the third one, if it was searched
  have hsearch : (fixRecP d med' med'.length b p).third =
      fixThirdP d med' (fixRecP d med' med'.length b p).near.i (fixRecP d med' med'.length b p).seco.i p.2 →
      ((fixRecP d med' med'.length b p).third.i < med'.length ∧
        medDist d med' p.2 (fixRecP d med' med'.length b p).third.i = (fixRecP d med' med'.length b p).third.d ∧
        (fixRecP d med' med'.length b p).third.i ≠ (fixRecP d med' med'.length b p).near.i ∧
        (fixRecP d med' med'.length b p).third.i ≠ (fixRecP d med' med'.length b p).seco.i ∧
        (fixRecP d med' med'.length b p).seco.d ≤ (fixRecP d med' med'.length b p).third.d ∧
        ∀ m, m < med'.length → m ≠ (fixRecP d med' med'.length b p).near.i → m ≠ (fixRecP d med' med'.length b p).seco.i →
          (fixRecP d med' med'.length b p).third.d ≤ medDist d med' p.2 m) ∨
      (med'.length = 2 ∧ (fixRecP d med' med'.length b p).third.i = u32Max) := by
    intro e
    rcases fixThirdP_spec d (by omega : med'.length < u32Max) (fixRecP d med' med'.length b p).near.i
      (fixRecP d med' med'.length b p).seco.i p.2 with ⟨s1, s2⟩ | ⟨s1, s2, s3, s4, s5⟩
    · right
      rw [e]
      refine ⟨?_, s2⟩
      by_contra hne
      have t0 := s1 0 (by omega); have t1 := s1 1 (by omega); have t2 := s1 2 (by omega)
      omega
    · left
      rw [e]
      exact ⟨s1, s4, s2, s3, by rw [← s4]; exact g7 _ s1 s2, s5⟩
  by_cases h1 : p.1.near.i = b
  · exact hsearch (by unfold fixRecP; simp only [h1, if_true])
  · by_cases h2 : p.1.seco.i = b
    · exact hsearch (by unfold fixRecP; simp only [h1, h2, if_true, if_false])
    · by_cases h3 : p.1.third.i = b
      · exact hsearch (by unfold fixRecP; simp only [h1, h2, h3, if_true, if_false])
      · left
        obtain ⟨t1, t2, t3, t4, t5, t6⟩ := h.third_of hk
        have e : fixRecP d med' med'.length b p = ⟨relabelP med'.length b p.1.near, relabelP med'.length b p.1.seco,
            relabelP med'.length b p.1.third⟩ := by
          unfold fixRecP; simp only [h1, h2, h3, if_false]
        have hn := h.near_lt; have hs := h.seco_lt; have hne := h.ne
        rw [e]
        simp only [relabelP_i, relabelP_d]
        have hall : ∀ m, m < med'.length → ∃ i, i < k ∧ i ≠ b ∧ medDist d med' p.2 m = f i ∧
            (if i = med'.length then b else i) = m := by
          intro m hm
          by_cases hmb : m = b
          · exact ⟨k - 1, by omega, by omega, by rw [hmb]; exact hfb (by omega), by rw [if_pos hl.symm, hmb]⟩
          · exact ⟨m, by omega, hmb, hfm m (by omega) hmb, by rw [if_neg (by omega)]⟩
        refine ⟨by split <;> omega, ?_, by split <;> split <;> omega, by split <;> split <;> omega, t5, fun m hm a c => ?_⟩
        · split
          · rename_i hq
            rw [hfb (by omega), ← t2, hq, hl]
          · rw [hfm _ (by omega) h3, t2]
        · obtain ⟨i, i1, i2, i3, i4⟩ := hall m hm
          rw [i3]
          exact t6 i i1 (fun e' => a (by rw [← e', i4])) (fun e' => c (by rw [← e', i4]))

theorem fixDataP_cache {n : Nat} {d : Nat → Nat → N} (hd : Dissim n d) {med : List Nat}
    {data : List (Reco N)} {b : Nat} (hr : ∀ m ∈ med, m < n) (hnd : med.Nodup)
    (hb : b < med.length) (hk : 3 ≤ med.length) (hu : med.length < u32Max) (h : MCache n d med data) :
    MCache n d (removeListP med b) (fixDataP d med data b) := by
  have hown := removeDataP_mown d hb (h.mown hd hr hnd)
  refine ⟨by simp [fixDataP, h.len], fun o r' hr' => ?_, fun m o r' hm hg => ?_⟩
  · obtain ⟨r, hget, rfl⟩ := fixDataP_get hr'
    obtain ⟨e1, e2⟩ := removeListP_medDist (d := d) (o := o) hb
    rw [removeListP_length hb]
    exact fixRecP_top3 (p := (r, o)) hb hk hu (removeListP_length hb) e1 e2 (h.reco o r hget)
  · obtain ⟨r, hget, rfl⟩ := fixDataP_get hg
    rw [(fixRecP_same d _ _ _ _).1]
    refine (hown.own m o _ hm ?_).1
    have ho := (List.getElem?_eq_some_iff.mp hget).1
    have hro : data[o] = r := (List.getElem?_eq_some_iff.mp hget).2
    rw [removeDataP, List.getElem?_map, List.getElem?_eq_getElem (by simpa using ho)]
    simp [hro]

theorem MCache.reco3 {n : Nat} {d : Nat → Nat → N} {med : List Nat} {data : List (Reco N)} (h : MCache n d med data)
    (hk : 3 ≤ med.length) : ∀ r ∈ data, Reco3 med.length r := by
  intro r hr
  obtain ⟨o, ho⟩ := List.mem_iff_getElem?.mp hr
  have h3 := h.reco o r ho
  obtain ⟨t1, -, t3, t4, -⟩ := h3.third_of hk
  exact ⟨h3.near_lt, h3.seco_lt, t1, h3.ne, Ne.symm t3, Ne.symm t4⟩

end level2

/-! ## exact arithmetic -/

section level3
variable {N L : Type} [LinearOrder N] [Zero N] [RDist N] [LawfulDist N]
variable [Field L] [LinearOrder L] [IsStrictOrderedRing L] [RLoss L] [LawfulField L]
variable [RFrom N L] [LawfulFrom N L]

theorem fixChoose_first {rem : List L} (h : 0 < rem.length) :
    (fixChoose rem).2 < rem.length ∧ (fixChoose rem).2 = firstMin (fun b => - rem.getD b 0) rem.length := by
  have := foldl_zipIdx_prefix (fun p (r : L × Nat) => 0 < p → r.1 = rem.getD r.2 0 ∧ r.2 < p ∧
      (∀ m, m < p → rem.getD m 0 ≤ r.1) ∧ ∀ m, m < r.2 → rem.getD m 0 < r.1)
    (g := fun (r : L × Nat) p => if p.2 == 0 || rgt p.1 r.1 then p else r)
    (xs := rem) (s := ((RLoss.zero : L), usizeMax)) 0 (fun p x s _ hx hI _ => by
      have hxp : rem.getD p 0 = x := by rw [List.getD_eq_getElem?_getD, hx]; rfl
      simp only [Bool.or_eq_true, beq_iff_eq, rgtL, decide_eq_true_eq]
      by_cases hp : p = 0
      · rw [if_pos (Or.inl hp)]
        refine ⟨hxp.symm, by dsimp only; omega, fun m hm => ?_, fun m hm => by dsimp only at hm; omega⟩
        have : m = p := by omega
        rw [this, hxp]
      · obtain ⟨h1, h2, h3, h4⟩ := hI (by omega)
        by_cases hlt : s.1 < x
        · rw [if_pos (Or.inr hlt)]
          refine ⟨hxp.symm, by dsimp only; omega, fun m hm => ?_, fun m hm => lt_of_le_of_lt (h3 m hm) hlt⟩
          by_cases hmp : m = p
          · rw [hmp, hxp]
          · exact le_of_lt (lt_of_le_of_lt (h3 m (by omega)) hlt)
        · rw [if_neg (by rintro (h | h); exact hp h; exact hlt h)]
          refine ⟨h1, by omega, fun m hm => ?_, h4⟩
          by_cases hmp : m = p
          · rw [hmp, hxp]; exact not_lt.mp hlt
          · exact h3 m (by omega)) (by omega) (by omega)
  rw [List.drop_zero] at this
  obtain ⟨h1, h2, h3, h4⟩ := this h
  have h1 : (fixChoose rem).1 = rem.getD (fixChoose rem).2 0 := h1
  have h3 : ∀ m, m < rem.length → rem.getD m 0 ≤ (fixChoose rem).1 := h3
  have h4 : ∀ m, m < (fixChoose rem).2 → rem.getD m 0 < (fixChoose rem).1 := h4
  rw [h1] at h3 h4
  exact ⟨h2, (firstMin_unique (fun b => - rem.getD b 0) h2 (fun m hm => neg_le_neg (h3 m hm))
    (fun m hm => neg_lt_neg (h4 m hm))).symm⟩

/-- The repaired code removes the least useful medoid. -/
theorem removal_dropBest {n : Nat} {d : Nat → Nat → N} {s : MSCState N L} {k : Nat} (hn : 0 < n)
    (h : MSCEx n k d s) (hk : 3 ≤ k) :
    removeListP s.med (fixChoose s.rem).2 = dropBest (medSil (conv : N → L) n d) s.med := by
  have hl := h.inv.medLen
  have hrl : s.rem.length = k := by rw [h.rem, mscRemP_length]
  unfold dropBest
  rw [dropAt_eq, (fixChoose_first (by omega)).2, hrl, hl]
  congr 1
  refine firstMin_congr fun a b ha hb => ?_
  have e := fun x (hx : x < s.med.length) => mscRemP_remove (L := L) h.inv.medRange h.inv.cache (by omega) hx
  rw [hl] at e
  rw [h.rem, e a ha, e b hb]
  have g : ∀ b < k, medSil (conv : N → L) n d (s.med.eraseIdx b) =
      medSil (conv : N → L) n d (removeListP s.med b) := fun b hb => by
    have hb' : b < s.med.length := by omega
    refine (medSil_perm hn (removeListP_perm hb') ?_).symm
    rw [removeListP_length hb']; omega
  rw [g a ha, g b hb, neg_lt_neg_iff, neg_lt_neg_iff, medSil_lt_iff hn]
  exact sub_lt_sub_iff_left _

/-- Invariant of the rounds of the repaired code. -/
structure FixInv (n : Nat) (d : Nat → Nat → N) (k0 minK : Nat) (F : L) (s : DynState N L) : Prop where
  inv : DynInv n d k0 minK F s
  ex : DEx n d s
  right : s.med.length < k0 → s.bestLoss = medSil (conv : N → L) n d s.retMeds ∧ NearestAssignment n d s.retMeds s.retAssi
  low : minK ≤ s.med.length + 1

theorem fixRound_eq [LawfulAdd N L] {mat : Mat N} {n k0 minK : Nat} {d : Nat → Nat → N} (hm : IsMatrix mat n d) (hd : Dissim n d)
    (hn : n ≤ u32Max) (hn0 : 0 < n) (hku : k0 < u32Max) (maxiter : Nat) {F : L} {s : DynState N L}
    (hF : s.med.length = k0 → F = toSilhouette (dynSwapP d n maxiter s).1.loss n)
    (h : FixInv n d k0 minK F s) (h3 : 3 ≤ s.med.length) (hmin : minK ≤ s.med.length) :
    fixRound mat maxiter minK s = .ok (fixRoundP d n maxiter minK s) ∧ FixInv n d k0 minK F (fixRoundP d n maxiter minK s) ∧
      (fixRoundP d n maxiter minK s).med.length = s.med.length - 1 := by
  have hsh := h.inv.shape
  have hk : s.med.length < u32Max := lt_of_le_of_lt hsh.le hku
  have hle := hsh.le
  obtain ⟨-, hshape, hlen1, hs, hi⟩ := dynRound_eq hm hn0 hku hsh h3 hmin maxiter
  have hinv := dynRoundP_inv hd hn hn0 hku hm maxiter hF h.inv h3 hmin
  have h0 := hsh.msc h3
  have hl := mscLoop_eq hm hk (by omega) (fuel := maxiter) (iter := 0) h0.mscshape
  have hu := mscUpdateRemovalLoss_eq (L := L) (k := s.rem.length) (data := s.data)
    (fun r hr => by rw [hsh.remLen]; exact (hsh.recs h3 r hr).idx)
  have hsw : dynSwapP d n maxiter s =
    mscLoopP d n maxiter 0 ⟨s.med, s.data, mscRemP L s.data s.rem.length, s.loss, n, 0⟩ := rfl
  rw [← hsw] at hl
  have hb : (fixChoose (dynSwapP d n maxiter s).1.rem).2 < s.med.length := by
    have := (fixChoose_first (rem := (dynSwapP d n maxiter s).1.rem) (by rw [hs.remLen]; omega)).1
    rwa [hs.remLen] at this
  have hbm : (fixChoose (dynSwapP d n maxiter s).1.rem).2 < (dynSwapP d n maxiter s).1.med.length := by
    rw [hs.shape.medLen]; exact hb
  have hrm := fixRemoveMed_eq (L := L) hm hn0 hs.shape.medLen hs.shape.medRange hs.shape.dataLen hk hb
  have hlen := removeListP_length hbm
  rw [hs.shape.medLen] at hlen
  have hlen' : (fixRoundP d n maxiter minK s).med.length = s.med.length - 1 := hlen
  have hset : s.med.length - minK < s.retLoss.length := by rw [hsh.retLen]; omega
  obtain ⟨hex, -⟩ := dynSwapP_ex hd h.ex h3 hk hsh.remLen maxiter
  have hci := hex.inv
  have hl3 : 3 ≤ (dynSwapP d n maxiter s).1.med.length := by rw [hci.medLen]; exact h3
  have hlu : (dynSwapP d n maxiter s).1.med.length < u32Max := by rw [hci.medLen]; exact hk
  have hcache := fixDataP_cache hd hci.medRange hci.nodup hbm hl3 hlu hci.cache
  have hrange : ∀ m ∈ (fixRoundP d n maxiter minK s).med, m < n :=
    fun m hmem => hci.medRange m (removeListP_mem hbm m hmem)
  have hnod : (fixRoundP d n maxiter minK s).med.Nodup := removeListP_nodup hbm hci.nodup
  have hDEx : DEx n d (fixRoundP d n maxiter minK s) :=
    ⟨rfl, hrange, hnod, hcache, by
      show mscLossP L (fixDataP _ _ _ _) = _
      rw [fixDataP_loss, mscLossP_remove hbm hl3 hci.cache]; rfl⟩
  have hloss : toSilhouette (dynSwapP d n maxiter s).1.loss n = medSil (conv : N → L) n d (dynSwapP d n maxiter s).1.med := by
    rw [← toSilhouette_eq hn0 hn, hci.loss]
  refine ⟨?_, ⟨⟨⟨?_, ?_, hrange, ?_, ?_, ?_, hshape.retLen⟩, hcache.mown hd hrange hnod, fun _ => hDEx, hinv.bnd, ?_, ?_, ?_⟩,
    hDEx, ?_, by omega⟩, hlen'⟩
  · unfold fixRound
    simp only [hu, ok_bind, hm.len, hl.1, setIdx_lt hset, hrm]
    rw [if_pos (by rw [hs.remLen]; exact hb)]
    rfl
  · omega
  · omega
  · show (List.eraseIdx _ _).length = _
    rw [hlen', List.length_eraseIdx_of_lt (by rw [hs.remLen]; exact hb), hs.remLen]
  · exact hcache.len
  · exact fun h3' => hcache.reco3 h3'
  · intro h'; omega
  · intro _
    obtain ⟨g1, ⟨i, g2, g3⟩, g4, g5, g6, g7, g8, g9, g10, g11⟩ := hinv.ret (by omega)
    exact ⟨g1, ⟨i, g2, by omega⟩, g4, g5, g6, g7, g8, g9, g10, g11⟩
  · intro _; exact hinv.first (by omega)
  · intro _
    show (if _ then _ else _) = medSil _ _ _ (if _ then _ else _) ∧ NearestAssignment n d (if _ then _ else _) (if _ then _ else _)
    simp only [rgtL, decide_eq_true_eq]
    by_cases hc : s.bestLoss < toSilhouette (dynSwapP d n maxiter s).1.loss n
    · simp only [hc, if_true]
      exact ⟨hloss, hci.cache.assignment hci.medRange⟩
    · simp only [hc, if_false]
      refine h.right ?_
      by_contra hne
      rw [h.inv.start (by omega), hloss] at hc
      exact hc (medSil_pos hd hci.medRange (by omega))

/-- The history of the run, as for the code. -/
theorem fixRoundP_track [LawfulAdd N L] {n k0 minK : Nat} {d : Nat → Nat → N} (hd : Dissim n d)
    (hn : n ≤ u32Max) (hn0 : 0 < n) (hku : k0 < u32Max) {mat : Mat N} (hm : IsMatrix mat n d) (maxiter : Nat)
    {s : DynState N L} (hs : DynShape n k0 minK s) (h : DEx n d s) (h3 : 3 ≤ s.med.length)
    (hmin : minK ≤ s.med.length) {hist : List (List Nat × Nat × Nat)} (ht : DynTrack n d minK hist s)
    (hlen : (fixRoundP d n maxiter minK s).med.length = s.med.length - 1) :
    let e := eagerRun (fun m => - medSil (conv : N → L) n d m) (List.range n) maxiter s.med
    DynTrack n d minK (hist ++ [e]) (fixRoundP d n maxiter minK s) ∧
      (fixRoundP d n maxiter minK s).med = dropBest (medSil (conv : N → L) n d) e.1 := by
  have hk : s.med.length < u32Max := lt_of_le_of_lt hs.le hku
  have hl := (dynRound_eq hm hn0 hku hs h3 hmin maxiter).2.2.1
  obtain ⟨hex, -⟩ := dynSwapP_ex hd h h3 hk hs.remLen maxiter
  have he := dynSwapP_eager (L := L) hd hn0 h h3 hk hs.remLen maxiter
  obtain ⟨⟨t1, t2, t3, t4, t5⟩, -⟩ := dynRoundP_track hd hn hn0 hku hm maxiter hs h h3 hmin ht
  refine ⟨⟨t1, t2, t3, t4, ?_⟩, ?_⟩
  · rw [hlen, ← hl]; exact t5
  · rw [← he]; exact removal_dropBest hn0 hex h3

/-- pure `fixLoop` -/
def fixLoopP (d : Nat → Nat → N) (n maxiter minK : Nat) : Nat → DynState N L → DynState N L
  | 0, s => s
  | fuel + 1, s =>
    if 3 ≤ s.med.length ∧ minK ≤ s.med.length then
      fixLoopP d n maxiter minK fuel (fixRoundP d n maxiter minK s)
    else s

theorem fixLoop_eq [LawfulAdd N L] {mat : Mat N} {n k0 minK : Nat} {d : Nat → Nat → N} (hm : IsMatrix mat n d) (hd : Dissim n d)
    (hn : n ≤ u32Max) (hn0 : 0 < n) (hku : k0 < u32Max) (maxiter : Nat) {F : L} {fuel : Nat} {s : DynState N L}
    (hF : s.med.length = k0 → F = toSilhouette (dynSwapP d n maxiter s).1.loss n)
    (h : FixInv n d k0 minK F s) {hist : List (List Nat × Nat × Nat)} (ht : DynTrack n d minK hist s) (hf : s.med.length ≤ fuel) :
    fixLoop mat maxiter minK fuel s = .ok (fixLoopP d n maxiter minK fuel s) ∧
      FixInv n d k0 minK F (fixLoopP d n maxiter minK fuel s) ∧
      ¬ (3 ≤ (fixLoopP d n maxiter minK fuel s).med.length ∧ minK ≤ (fixLoopP d n maxiter minK fuel s).med.length) ∧
      ∃ hist', DynTrack n d minK hist' (fixLoopP d n maxiter minK fuel s) ∧
        hist' ++ bestSteps (medSil (conv : N → L) n d) n maxiter minK
            (fixLoopP d n maxiter minK fuel s).med.length (fixLoopP d n maxiter minK fuel s).med =
          hist ++ bestSteps (medSil (conv : N → L) n d) n maxiter minK s.med.length s.med := by
  induction fuel generalizing s hist with
  | zero => have := h.inv.shape.two; omega
  | succ fuel ih =>
    unfold fixLoop fixLoopP
    by_cases hc : 3 ≤ s.med.length ∧ minK ≤ s.med.length
    · obtain ⟨h1, h2, h3⟩ := fixRound_eq hm hd hn hn0 hku maxiter hF h hc.1 hc.2
      obtain ⟨h4, h5⟩ := fixRoundP_track hd hn hn0 hku hm maxiter h.inv.shape h.ex hc.1 hc.2 ht h3
      have hle := h.inv.shape.le
      rw [if_pos hc, if_pos hc, h1]
      obtain ⟨g1, g2, g3, hist', g4, g5⟩ := ih (s := fixRoundP d n maxiter minK s) (fun h' => by omega) h2 h4 (by omega)
      refine ⟨g1, g2, g3, hist', g4, ?_⟩
      rw [g5, List.append_assoc]
      congr 1
      obtain ⟨k, hk⟩ : ∃ k, s.med.length = k + 1 := ⟨s.med.length - 1, by omega⟩
      rw [h3, h5, hk]
      show _ = if _ then _ else _
      rw [if_pos (by omega)]
      rfl
    · rw [if_neg hc, if_neg hc]
      exact ⟨rfl, h, hc, hist, ht, rfl⟩

end level3

end KMedoids
