import Verif.Model.DynMsc
import Verif.Proofs.PureMsc2
import Verif.Proofs.MscCache

/-!
# `dynmsc` without panics, for any arithmetic

Pure mirror of the DynMSC model. The invariant is that the three labels of a record are valid and pairwise
different; whether the cached distances are right does not matter here.
-/

set_option linter.unusedSectionVars false

namespace KMedoids

variable {N L : Type} [RDist N] [RLoss L] [RFrom N L]
open RFrom (conv)

/-! ## labels of a record -/

/-- The three cached labels are valid and pairwise different. -/
structure Reco3 (k : Nat) (r : Reco N) : Prop where
  near : r.near.i < k
  seco : r.seco.i < k
  third : r.third.i < k
  ns : r.near.i ≠ r.seco.i
  nt : r.near.i ≠ r.third.i
  st : r.seco.i ≠ r.third.i

theorem Reco3.idx {k : Nat} {r : Reco N} (h : Reco3 k r) : RecoIdx k r :=
  ⟨h.near, h.seco, Or.inl h.third⟩

/-- Labels of a record while it is built from the first `p` medoids. -/
def Reco3Init (p : Nat) (r : Reco N) : Prop :=
  (p = 1 ∧ r.near.i = 0 ∧ r.seco.i = u32Max) ∨
  (p = 2 ∧ r.near.i < 2 ∧ r.seco.i < 2 ∧ r.near.i ≠ r.seco.i ∧ r.third.i = u32Max) ∨
  (3 ≤ p ∧ Reco3 p r)

theorem mscInitStepP_reco3 {d : Nat → Nat → N} {i c p : Nat} {r : Reco N}
    (h : Reco3Init p r) (ht : p = 1 → r.third.i = u32Max) : Reco3Init (p + 1) (mscInitStepP d i r (c, p)) := by
  unfold mscInitStepP
  rcases h with ⟨rfl, h1, h2⟩ | ⟨rfl, h1, h2, h3, h4⟩ | ⟨hp, h⟩
  · right; left
    have ht := ht rfl
    split
    · exact ⟨rfl, by simp, by simp [h1], by simp [h1], by simpa using h2⟩
    · simp only [h2, beq_self_eq_true, Bool.true_or, if_true]
      exact ⟨trivial, by simp [h1], by simp, by simp [h1], trivial⟩
  · right; right
    refine ⟨by omega, ?_⟩
    split
    · exact ⟨by simp, by dsimp only; omega, by dsimp only; omega, by dsimp only; omega, by dsimp only; omega,
        by dsimp only; omega⟩
    · split
      · exact ⟨by dsimp only; omega, by simp, by dsimp only; omega, by dsimp only; omega, by dsimp only; omega,
          by dsimp only; omega⟩
      · simp only [h4, beq_self_eq_true, Bool.true_or, if_true]
        exact ⟨by dsimp only; omega, by dsimp only; omega, by simp, by dsimp only; omega, by dsimp only; omega,
          by dsimp only; omega⟩
  · right; right
    refine ⟨by omega, ?_⟩
    obtain ⟨g1, g2, g3, g4, g5, g6⟩ := h
    split
    · constructor <;> dsimp only <;> omega
    · split
      · constructor <;> dsimp only <;> omega
      · split
        · constructor <;> dsimp only <;> omega
        · constructor <;> omega

theorem mscInitRecP_reco3 (d : Nat → Nat → N) {med : List Nat} (hk : 3 ≤ med.length) (i : Nat) :
    Reco3 med.length (mscInitRecP d med i) := by
  have := foldl_zipIdx_prefix (fun p (r : Reco N) => Reco3Init p r ∧ (p = 1 → r.third.i = u32Max))
    (g := mscInitStepP d i) (xs := med)
    (s := ⟨⟨0, d i (med.headD 0)⟩, ⟨u32Max, RDist.zero⟩, ⟨u32Max, RDist.zero⟩⟩) 1
    (fun p x s hp _ hI => ⟨mscInitStepP_reco3 hI.1 hI.2, by omega⟩) (by omega)
    ⟨Or.inl ⟨rfl, rfl, rfl⟩, fun _ => rfl⟩
  rcases this.1 with h | h | h
  · omega
  · omega
  · exact h.2

theorem mscSwapRecG_reco3 {k b : Nat} (hku : k < u32Max) (hb : b < k) {utn : Nat → Nat → DistancePair N}
    (hu : ∀ x y, x ≠ b → y ≠ b → (utn x y).i < k ∧ (utn x y).i ≠ x ∧ (utn x y).i ≠ y) (doj : N) {r : Reco N}
    (h : Reco3 k r) : Reco3 k (mscSwapRecG utn b doj r) := by
  obtain ⟨g1, g2, g3, g4, g5, g6⟩ := h
  have hne : (r.third.i == u32Max) = false := by rw [beq_eq_false_iff_ne]; omega
  unfold mscSwapRecG
  simp only [hne, Bool.false_or]
  by_cases hn : r.near.i = b
  · rw [if_pos hn]
    split
    · constructor <;> dsimp only <;> omega
    · split
      · constructor <;> dsimp only <;> omega
      · have := hu r.seco.i r.third.i (by omega) (by omega)
        constructor <;> dsimp only <;> omega
  · rw [if_neg hn]
    by_cases hs : r.seco.i = b
    · rw [if_pos hs]
      split
      · constructor <;> dsimp only <;> omega
      · split
        · constructor <;> dsimp only <;> omega
        · have := hu r.near.i r.third.i (by omega) (by omega)
          constructor <;> dsimp only <;> omega
    · rw [if_neg hs]
      split
      · constructor <;> dsimp only <;> omega
      · split
        · constructor <;> dsimp only <;> omega
        · split
          · constructor <;> dsimp only <;> omega
          · split
            · have := hu r.near.i r.seco.i (by omega) (by omega)
              constructor <;> dsimp only <;> omega
            · constructor <;> omega

theorem mscSwapRecJ_reco3 {k b : Nat} (hb : b < k) {r : Reco N} (h : Reco3 k r) :
    Reco3 k (mscSwapRecJ b r) := by
  obtain ⟨g1, g2, g3, g4, g5, g6⟩ := h
  unfold mscSwapRecJ
  split
  · constructor <;> dsimp only <;> omega
  · split
    · constructor <;> dsimp only <;> omega
    · constructor <;> dsimp only <;> omega

theorem utnP_label (d : Nat → Nat → N) {med : List Nat} {k b o x y : Nat} (hl : med.length = k) (hb : b < k)
    (doj : N) (hx : x ≠ b) (hy : y ≠ b) :
    (utnP d med x y b o doj).i < k ∧ (utnP d med x y b o doj).i ≠ x ∧ (utnP d med x y b o doj).i ≠ y := by
  unfold utnP
  refine foldl_inv (fun s : DistancePair N => s.i < k ∧ s.i ≠ x ∧ s.i ≠ y) (fun s p hp hs => ?_)
    ⟨hb, hx.symm, hy.symm⟩
  have hpk : p.2 < k := hl ▸ mem_zipIdx_lt hp
  split
  · exact hs
  · rename_i h
    split
    · exact ⟨hpk, by dsimp only; omega, by dsimp only; omega⟩
    · exact hs

/-- Labels of all records. -/
structure MShape3 (n k : Nat) (med : List Nat) (data : List (Reco N)) : Prop where
  medLen : med.length = k
  medRange : ∀ m ∈ med, m < n
  dataLen : data.length = n
  recs : ∀ r ∈ data, Reco3 k r

theorem MShape3.mshape {n k : Nat} {med : List Nat} {data : List (Reco N)} (h : MShape3 n k med data) :
    MShape n k med data := ⟨h.medLen, h.medRange, h.dataLen, fun r hr => (h.recs r hr).idx⟩

theorem mscInitDataP_shape3 {n : Nat} (d : Nat → Nat → N) {med : List Nat} (hv : ValidMeds n med)
    (hk : 3 ≤ med.length) : MShape3 n med.length med (mscInitDataP d n med) := by
  refine ⟨rfl, hv.range, by simp [mscInitDataP], ?_⟩
  intro r hr
  obtain ⟨i, -, rfl⟩ := List.mem_map.mp hr
  exact mscInitRecP_reco3 d hk i

theorem mscSwapDataP_shape3 {n k : Nat} (d : Nat → Nat → N) {med : List Nat} {data : List (Reco N)}
    (h : MShape3 n k med data) (hku : k < u32Max) {b j : Nat} (hb : b < k) (hj : j < n) :
    MShape3 n k (med.set b j) (mscSwapDataP d med data b j) := by
  refine ⟨by simp [h.medLen], set_range h.medRange hj, by simp [mscSwapDataP, h.dataLen], ?_⟩
  intro r hr
  obtain ⟨p, hp, rfl⟩ := List.mem_map.mp hr
  have h3 := h.recs p.1 (mem_zipIdx_mem hp)
  unfold mscSwapRecP
  split
  · exact mscSwapRecJ_reco3 hb h3
  · exact mscSwapRecG_reco3 hku hb (fun x y hx hy => utnP_label d (by simp [h.medLen]) hb _ hx hy) _ h3

/-- State of the swap loop with good labels. -/
structure MSCShape3 (n k : Nat) (s : MSCState N L) : Prop where
  shape : MShape3 n k s.med s.data
  remLen : s.rem.length = k

theorem MSCShape3.mscshape {n k : Nat} {s : MSCState N L} (h : MSCShape3 n k s) : MSCShape n k s :=
  ⟨h.shape.mshape, h.remLen⟩

theorem mscSwapP_shape3 {n k : Nat} (d : Nat → Nat → N) {s : MSCState N L} (hs : MSCShape3 n k s)
    (hku : k < u32Max) {b j : Nat} (hb : b < k) (hj : j < n) : MSCShape3 n k (mscSwapP d s b j) :=
  ⟨mscSwapDataP_shape3 d hs.shape hku hb hj, by simp [mscSwapP, mscRemP_length, hs.remLen]⟩

theorem mscLoopP_shape3 {n k : Nat} (d : Nat → Nat → N) (hku : k < u32Max) (hk : 1 ≤ k) {fuel iter : Nat}
    {s : MSCState N L} (hs : MSCShape3 n k s) :
    MSCShape3 n k (mscLoopP d n fuel iter s).1 ∧ (mscLoopP d n fuel iter s).2 ≤ iter + fuel := by
  unfold mscLoopP
  refine loopG_inv (MSCShape3 n k) (fun s hs => ?_) hs
  refine passG_inv (MSCShape3 n k) (fun s j s' hj hs hc => ?_) hs
  have hj := List.mem_range.mp hj
  unfold mscCandP at hc
  split at hc
  · cases hc
  · dsimp only at hc
    split at hc
    · cases hc
    · cases hc
      have := mscFbsP_lt d (rem := s.rem) s.data j (by rw [hs.remLen]; exact hk)
      rw [hs.remLen] at this
      exact mscSwapP_shape3 d hs hku this hj

/-! ## remove_med -/

/-- pure `updateThirdNearestWithoutNew` -/
def utnwP (d : Nat → Nat → N) (med : List Nat) (n s b o : Nat) : DistancePair N :=
  med.zipIdx.foldl (fun (dist : DistancePair N) (p : Nat × Nat) =>
    if p.2 = n ∨ p.2 = s then dist
    else if dist.i == b || rlt (d o p.1) dist.d then ⟨p.2, d o p.1⟩ else dist) ⟨b, RDist.zero⟩

theorem updateThirdNearestWithoutNew_eq {mat : Mat N} {n : Nat} {d : Nat → Nat → N} (hm : IsMatrix mat n d)
    {med : List Nat} (hk : med.length < u32Max) (hr : ∀ m ∈ med, m < n) {nn s b o : Nat} (hb : b < u32Max)
    (ho : o < n) :
    updateThirdNearestWithoutNew mat med nn s b o = .ok (utnwP d med nn s b o) := by
  unfold updateThirdNearestWithoutNew utnwP
  rw [show DistancePair.new b (RDist.zero : N) = ⟨b, RDist.zero⟩ by simp [DistancePair.new, asU32_lt hb]]
  refine foldRes_eq' (fun s p hp => ?_) _
  have hpk : p.2 < u32Max := lt_trans (mem_zipIdx_lt hp) hk
  split
  · rfl
  · simp only [hm.get _ _ ho (hr _ (mem_zipIdx_mem hp)), ok_bind, asU32_lt hb, DistancePair.new,
      asU32_lt hpk]

theorem utnwP_label (d : Nat → Nat → N) {med : List Nat} (hk : 3 ≤ med.length) (x y b o : Nat) :
    (utnwP d med x y b o).i < med.length ∧ (utnwP d med x y b o).i ≠ x ∧ (utnwP d med x y b o).i ≠ y := by
  have := foldl_zipIdx_prefix (fun p (s : DistancePair N) =>
      ((∀ m, m < p → m = x ∨ m = y) ∧ s.i = b) ∨ (s.i < p ∧ s.i ≠ x ∧ s.i ≠ y))
    (g := fun (dist : DistancePair N) (p : Nat × Nat) =>
      if p.2 = x ∨ p.2 = y then dist
      else if dist.i == b || rlt (d o p.1) dist.d then ⟨p.2, d o p.1⟩ else dist)
    (xs := med) (s := ⟨b, RDist.zero⟩) 0 (fun p c s _ _ hI => by
      dsimp only
      split
      · rename_i hc
        rcases hI with ⟨h1, h2⟩ | h
        · left
          refine ⟨fun m hm => ?_, h2⟩
          rcases Nat.lt_succ_iff_lt_or_eq.mp hm with h | rfl
          · exact h1 m h
          · exact hc
        · right; exact ⟨by omega, h.2⟩
      · rename_i hc
        right
        rcases hI with ⟨h1, h2⟩ | h
        · simp only [h2, beq_self_eq_true, Bool.true_or, if_true]
          exact ⟨by omega, by omega, by omega⟩
        · split
          · exact ⟨by dsimp only; omega, by dsimp only; omega, by dsimp only; omega⟩
          · exact ⟨by omega, h.2⟩)
    (by omega) (Or.inl ⟨by omega, rfl⟩)
  rw [List.drop_zero] at this
  rcases this with ⟨h1, -⟩ | h
  · have h0 := h1 0 (by omega); have h1' := h1 1 (by omega); have h2 := h1 2 (by omega)
    omega
  · exact h

/-- pure `relabel` -/
def relabelP (l b : Nat) (p : DistancePair N) : DistancePair N := if p.i = l then ⟨b, p.d⟩ else p

theorem relabelP_d (l b : Nat) (p : DistancePair N) : (relabelP l b p).d = p.d := by
  unfold relabelP; split <;> rfl

theorem relabelP_i (l b : Nat) (p : DistancePair N) : (relabelP l b p).i = if p.i = l then b else p.i := by
  unfold relabelP; split <;> rfl

/-- pure record part of `removeMedRec` -/
def removeRecP (d : Nat → Nat → N) (med : List Nat) (l b : Nat) (p : Reco N × Nat) : Reco N :=
  let r := p.1
  let n := relabelP l b r.near
  let s := relabelP l b r.seco
  let t := relabelP l b r.third
  if r.near.i = b then ⟨s, t, utnwP d med s.i t.i b p.2⟩
  else if r.seco.i = b then ⟨n, t, utnwP d med n.i t.i b p.2⟩
  else if r.third.i = b then ⟨n, s, utnwP d med n.i s.i b p.2⟩
  else ⟨n, s, t⟩

/-- `med` after removal of position `b` -/
def removeListP (med : List Nat) (b : Nat) : List Nat :=
  (med.set b (med.getD (med.length - 1) 0)).eraseIdx (med.length - 1)

theorem removeListP_length {med : List Nat} {b : Nat} (hb : b < med.length) :
    (removeListP med b).length = med.length - 1 := by
  unfold removeListP
  rw [List.length_eraseIdx_of_lt (by simp; omega), List.length_set]

theorem removeListP_mem {med : List Nat} {b : Nat} (hb : b < med.length) :
    ∀ m ∈ removeListP med b, m ∈ med := by
  intro m hm
  have := List.mem_of_mem_eraseIdx hm
  rcases List.mem_or_eq_of_mem_set this with h | h
  · exact h
  · rw [h, List.getD_eq_getElem?_getD, List.getElem?_eq_getElem (by omega)]
    simp

/-- pure data of `removeMed` -/
def removeDataP (d : Nat → Nat → N) (med : List Nat) (data : List (Reco N)) (b : Nat) : List (Reco N) :=
  data.zipIdx.map (removeRecP d (removeListP med b) (med.length - 1) b)

theorem removeMed_eq {mat : Mat N} {n k : Nat} {d : Nat → Nat → N} (hm : IsMatrix mat n d) (hn : 0 < n)
    {med : List Nat} {data : List (Reco N)} (hl : med.length = k) (hr : ∀ m ∈ med, m < n)
    (hdl : data.length = n) (hk : k < u32Max) {b : Nat} (hb : b < k) :
    removeMed L mat med data b =
      .ok (mscLossP L (removeDataP d med data b), removeListP med b, removeDataP d med data b) := by
  subst hl
  have hlast : med.length - 1 < med.length := by omega
  have hget : med[med.length - 1]? = some (med.getD (med.length - 1) 0) := by
    rw [List.getD_eq_getElem?_getD, List.getElem?_eq_getElem hlast]; simp
  have hrl : ∀ p : DistancePair N, relabel (med.length - 1) b p = relabelP (med.length - 1) b p := by
    intro p
    unfold relabel relabelP
    rw [asU32_lt (lt_trans hlast hk), asU32_lt (lt_trans hb hk)]
  have hlen := removeListP_length hb
  have hrr : ∀ m ∈ removeListP med b, m < n := fun m hmem => hr m (removeListP_mem hb m hmem)
  have hu := fun (x y o : Nat) (ho : o < n) =>
    updateThirdNearestWithoutNew_eq hm (med := removeListP med b) (by omega) hrr (nn := x) (s := y)
      (b := b) (lt_trans hb hk) ho
  have hmap : mapRes (removeMedRec L mat (removeListP med b) (med.length - 1) b) data.zipIdx =
      .ok (data.zipIdx.map fun p => (removeRecP d (removeListP med b) (med.length - 1) b p,
        mscLoss L (removeRecP d (removeListP med b) (med.length - 1) b p).near.d
          (removeRecP d (removeListP med b) (med.length - 1) b p).seco.d)) := by
    refine mapRes_eq fun p hp => ?_
    have ho : p.2 < n := hdl ▸ mem_zipIdx_lt hp
    unfold removeMedRec removeRecP
    simp only [hrl, asU32_lt (lt_trans hb hk), hu _ _ _ ho, ok_bind]
    split
    · rfl
    · split
      · rfl
      · split <;> rfl
  have hne : (removeDataP d med data b).map (fun r => mscLoss L r.near.d r.seco.d) ≠ [] := by
    intro h; have := congrArg List.length h; simp [removeDataP] at this; subst this; simp at hdl; omega
  have hb0 : ¬ med.length = 0 := by omega
  have hmaps : ((data.zipIdx.map fun p => (removeRecP d (removeListP med b) (med.length - 1) b p,
        mscLoss L (removeRecP d (removeListP med b) (med.length - 1) b p).near.d
          (removeRecP d (removeListP med b) (med.length - 1) b p).seco.d)).map (·.2)) =
      (removeDataP d med data b).map (fun r => mscLoss L r.near.d r.seco.d) := by
    simp [removeDataP, Function.comp_def]
  have hmaps1 : ((data.zipIdx.map fun p => (removeRecP d (removeListP med b) (med.length - 1) b p,
        mscLoss L (removeRecP d (removeListP med b) (med.length - 1) b p).near.d
          (removeRecP d (removeListP med b) (med.length - 1) b p).seco.d)).map (·.1)) =
      removeDataP d med data b := by
    simp [removeDataP, Function.comp_def]
  unfold removeMed
  rw [if_neg hb0]
  simp only [decide_eq_true hb, rassert_true, ok_bind, idx_of_get hget, setIdx_lt hb]
  rw [show (med.set b (med.getD (med.length - 1) 0)).eraseIdx (med.length - 1) = removeListP med b from rfl]
  simp only [hmap, ok_bind, hmaps, hmaps1, unwrap_reduceAdd hne, mscLossP]

theorem removeRecP_reco3 (d : Nat → Nat → N) {med : List Nat} {k b : Nat} (hb : b < k)
    (hl : med.length = k - 1) (hk : 4 ≤ k) {p : Reco N × Nat} (h : Reco3 k p.1) :
    Reco3 (k - 1) (removeRecP d med (k - 1) b p) := by
  obtain ⟨g1, g2, g3, g4, g5, g6⟩ := h
  have hu := fun x y => utnwP_label d (med := med) (by omega) x y b p.2
  simp only [hl] at hu
  unfold removeRecP
  have e1 := relabelP_i (k - 1) b p.1.near
  have e2 := relabelP_i (k - 1) b p.1.seco
  have e3 := relabelP_i (k - 1) b p.1.third
  dsimp only
  by_cases h1 : p.1.near.i = b
  · rw [if_pos h1]
    have := hu (relabelP (k - 1) b p.1.seco).i (relabelP (k - 1) b p.1.third).i
    split at e2 <;> split at e3 <;> (constructor <;> dsimp only <;> omega)
  · rw [if_neg h1]
    by_cases h2 : p.1.seco.i = b
    · rw [if_pos h2]
      have := hu (relabelP (k - 1) b p.1.near).i (relabelP (k - 1) b p.1.third).i
      split at e1 <;> split at e3 <;> (constructor <;> dsimp only <;> omega)
    · rw [if_neg h2]
      by_cases h3 : p.1.third.i = b
      · rw [if_pos h3]
        have := hu (relabelP (k - 1) b p.1.near).i (relabelP (k - 1) b p.1.seco).i
        split at e1 <;> split at e2 <;> (constructor <;> dsimp only <;> omega)
      · rw [if_neg h3]
        split at e1 <;> split at e2 <;> split at e3 <;> (constructor <;> dsimp only <;> omega)

theorem removeDataP_recs {n k : Nat} (d : Nat → Nat → N) {med : List Nat} {data : List (Reco N)}
    (h : MShape3 n k med data) {b : Nat} (hb : b < k) (hk : 4 ≤ k) :
    ∀ r ∈ removeDataP d med data b, Reco3 (k - 1) r := by
  intro r hr
  obtain ⟨p, hp, rfl⟩ := List.mem_map.mp hr
  rw [h.medLen]
  exact removeRecP_reco3 d hb (by rw [removeListP_length (h.medLen ▸ hb), h.medLen]) hk
    (h.recs _ (mem_zipIdx_mem hp))

/-! ## the rounds -/

theorem chooseRemoval_lt {rem : List L} (h : 0 < rem.length) : (chooseRemoval rem).2 < rem.length := by
  have := foldl_zipIdx_prefix (fun p (r : L × Nat) => p = 0 ∨ r.2 < p)
    (g := fun (r : L × Nat) p => if p.2 == 0 || rlt p.1 r.1 then p else r)
    (xs := rem) (s := ((RLoss.zero : L), usizeMax)) 0 (fun p x s _ _ hI => by
      right
      dsimp only
      split
      · simp
      · rename_i hc
        rcases hI with rfl | hI
        · simp at hc
        · omega) (by omega) (Or.inl rfl)
  rw [List.drop_zero] at this
  rcases this with h' | h'
  · omega
  · exact h'

/-- the swap phase of one round -/
def dynSwapP (d : Nat → Nat → N) (n maxiter : Nat) (s : DynState N L) : MSCState N L × Nat :=
  mscLoopP d n maxiter 0 ⟨s.med, s.data, mscRemP L s.data s.rem.length, s.loss, n, 0⟩

/-- pure `dynRound` -/
def dynRoundP (d : Nat → Nat → N) (n maxiter minK : Nat) (s : DynState N L) : DynState N L :=
  let m := dynSwapP d n maxiter s
  let b := (chooseRemoval m.1.rem).2
  let loss := toSilhouette m.1.loss n
  let better := rgt loss s.bestLoss
  { med := removeListP m.1.med b
    data := removeDataP d m.1.med m.1.data b
    rem := m.1.rem.eraseIdx b
    loss := mscLossP L (removeDataP d m.1.med m.1.data b)
    bestLoss := if better then loss else s.bestLoss
    retAssi := if better then m.1.data.map (·.near.i) else s.retAssi
    retMeds := if better then m.1.med else s.retMeds
    retIter := s.retIter + m.2
    retSwaps := s.retSwaps + m.1.nSwaps
    retLoss := s.retLoss.set (s.med.length - minK) loss }

/-- Sizes and labels between two rounds. -/
structure DynShape (n k0 minK : Nat) (s : DynState N L) : Prop where
  two : 2 ≤ s.med.length
  le : s.med.length ≤ k0
  medRange : ∀ m ∈ s.med, m < n
  remLen : s.rem.length = s.med.length
  dataLen : s.data.length = n
  recs : 3 ≤ s.med.length → ∀ r ∈ s.data, Reco3 s.med.length r
  retLen : s.retLoss.length = k0 - minK + 1

theorem DynShape.msc {n k0 minK : Nat} {s : DynState N L} (h : DynShape n k0 minK s) (h3 : 3 ≤ s.med.length) :
    MSCShape3 n s.med.length
      (⟨s.med, s.data, mscRemP L s.data s.rem.length, s.loss, n, 0⟩ : MSCState N L) :=
  ⟨⟨rfl, h.medRange, h.dataLen, h.recs h3⟩, by simp [mscRemP_length, h.remLen]⟩

theorem dynRound_eq {mat : Mat N} {n k0 minK : Nat} {d : Nat → Nat → N} (hm : IsMatrix mat n d) (hn : 0 < n)
    (hku : k0 < u32Max) {s : DynState N L} (h : DynShape n k0 minK s) (h3 : 3 ≤ s.med.length)
    (hmin : minK ≤ s.med.length) (maxiter : Nat) :
    dynRound mat maxiter minK s = .ok (dynRoundP d n maxiter minK s) ∧
      DynShape n k0 minK (dynRoundP d n maxiter minK s) ∧
      (dynRoundP d n maxiter minK s).med.length = s.med.length - 1 ∧
      MSCShape3 n s.med.length (dynSwapP d n maxiter s).1 ∧ (dynSwapP d n maxiter s).2 ≤ maxiter := by
  have hk : s.med.length < u32Max := lt_of_le_of_lt h.le hku
  have h0 := h.msc h3
  have hl := mscLoop_eq hm hk (by omega) (fuel := maxiter) (iter := 0) h0.mscshape
  obtain ⟨hs, hi⟩ := mscLoopP_shape3 d hk (by omega) (fuel := maxiter) (iter := 0) h0
  have hu := mscUpdateRemovalLoss_eq (L := L) (k := s.rem.length) (data := s.data)
    (fun r hr => by rw [h.remLen]; exact (h.recs h3 r hr).idx)
  have hsw : dynSwapP d n maxiter s =
    mscLoopP d n maxiter 0 ⟨s.med, s.data, mscRemP L s.data s.rem.length, s.loss, n, 0⟩ := rfl
  rw [← hsw] at hs hi hl
  have hb : (chooseRemoval (dynSwapP d n maxiter s).1.rem).2 < s.med.length := by
    have := chooseRemoval_lt (rem := (dynSwapP d n maxiter s).1.rem) (by rw [hs.remLen]; omega)
    rwa [hs.remLen] at this
  have hbm : (chooseRemoval (dynSwapP d n maxiter s).1.rem).2 < (dynSwapP d n maxiter s).1.med.length := by
    rw [hs.shape.medLen]; exact hb
  have hrm := removeMed_eq (L := L) hm hn hs.shape.medLen hs.shape.medRange hs.shape.dataLen hk hb
  have hlen := removeListP_length hbm
  rw [hs.shape.medLen] at hlen
  have hset : s.med.length - minK < s.retLoss.length := by rw [h.retLen]; have := h.le; omega
  refine ⟨?_, ⟨?_, ?_, ?_, ?_, ?_, ?_, ?_⟩, ?_, hs, by simpa using hi⟩
  · unfold dynRound
    simp only [hu, ok_bind, hm.len, hl.1, setIdx_lt hset, hrm]
    rw [if_pos (by rw [hs.remLen]; exact hb)]
    rfl
  · show 2 ≤ (removeListP _ _).length; rw [hlen]; omega
  · show (removeListP _ _).length ≤ k0; rw [hlen]; have := h.le; omega
  · exact fun m hmem => hs.shape.medRange m (removeListP_mem hbm m hmem)
  · show (List.eraseIdx _ _).length = (removeListP _ _).length
    rw [hlen, List.length_eraseIdx_of_lt (by rw [hs.remLen]; exact hb), hs.remLen]
  · show (removeDataP _ _ _ _).length = n; simp [removeDataP, hs.shape.dataLen]
  · intro h3'
    have h3' : 3 ≤ (removeListP (dynSwapP d n maxiter s).1.med
      (chooseRemoval (dynSwapP d n maxiter s).1.rem).2).length := h3'
    show ∀ r ∈ removeDataP _ _ _ _, Reco3 (removeListP _ _).length r
    rw [hlen] at h3' ⊢
    exact removeDataP_recs d hs.shape hb (by omega)
  · show (s.retLoss.set _ _).length = _; rw [List.length_set]; exact h.retLen
  · exact hlen

/-- pure `dynLoop` -/
def dynLoopP (d : Nat → Nat → N) (n maxiter minK : Nat) : Nat → DynState N L → DynState N L
  | 0, s => s
  | fuel + 1, s =>
    if 3 ≤ s.med.length ∧ minK ≤ s.med.length then
      dynLoopP d n maxiter minK fuel (dynRoundP d n maxiter minK s)
    else s

theorem dynLoop_eq {mat : Mat N} {n k0 minK : Nat} {d : Nat → Nat → N} (hm : IsMatrix mat n d) (hn : 0 < n)
    (hku : k0 < u32Max) (maxiter : Nat) {fuel : Nat} {s : DynState N L} (h : DynShape n k0 minK s)
    (hf : s.med.length ≤ fuel) :
    dynLoop mat maxiter minK fuel s = .ok (dynLoopP d n maxiter minK fuel s) ∧
      DynShape n k0 minK (dynLoopP d n maxiter minK fuel s) ∧
      ¬ (3 ≤ (dynLoopP d n maxiter minK fuel s).med.length ∧
        minK ≤ (dynLoopP d n maxiter minK fuel s).med.length) := by
  induction fuel generalizing s with
  | zero => have := h.two; omega
  | succ fuel ih =>
    unfold dynLoop dynLoopP
    by_cases hc : 3 ≤ s.med.length ∧ minK ≤ s.med.length
    · obtain ⟨h1, h2, h3, -⟩ := dynRound_eq hm hn hku h hc.1 hc.2 maxiter
      rw [if_pos hc, if_pos hc, h1]
      exact ih h2 (by omega)
    · rw [if_neg hc, if_neg hc]
      exact ⟨rfl, h, hc⟩

/-- An invariant of the rounds. -/
theorem dynLoopP_inv {d : Nat → Nat → N} {n maxiter minK : Nat} (I : DynState N L → Prop)
    (h : ∀ s, I s → 3 ≤ s.med.length → minK ≤ s.med.length → I (dynRoundP d n maxiter minK s)) {fuel : Nat}
    {s : DynState N L} (hs : I s) : I (dynLoopP d n maxiter minK fuel s) := by
  induction fuel generalizing s with
  | zero => exact hs
  | succ fuel ih =>
    unfold dynLoopP
    split
    · rename_i hc; exact ih (h s hs hc.1 hc.2)
    · exact hs

/-- the k = 2 part of `dynFinish` -/
def dynTwoP (d : Nat → Nat → N) (n maxiter minK : Nat) (s : DynState N L) : DynState N L :=
  let r := fastermscK2P L d n (s.med.getD 0 0) (s.med.getD 1 0) maxiter
  let better := rgt r.loss s.bestLoss
  { s with
    med := r.med
    bestLoss := if better then r.loss else s.bestLoss
    retAssi := if better then r.assi else s.retAssi
    retMeds := if better then r.med else s.retMeds
    retIter := s.retIter + r.nIter
    retSwaps := s.retSwaps + r.nSwap
    retLoss := s.retLoss.set (2 - minK) r.loss }

/-- pure `dynFinish` -/
def dynFinishP (d : Nat → Nat → N) (n maxiter minK : Nat) (s : DynState N L) : DynResult L :=
  let s := if minK ≤ 2 then dynTwoP d n maxiter minK s else s
  ⟨s.bestLoss, s.retAssi, s.retIter, s.retSwaps, s.retMeds,
    if minK ≤ 1 then s.retLoss.set 0 RLoss.zero else s.retLoss⟩

theorem list_two {l : List Nat} (h : l.length = 2) : l = [l.getD 0 0, l.getD 1 0] := by
  match l, h with
  | [a, b], _ => rfl

theorem dynFinish_eq {mat : Mat N} {n k0 minK : Nat} {d : Nat → Nat → N} (hm : IsMatrix mat n d)
    (hnu : n ≤ u32Max) (maxiter : Nat) {s : DynState N L} (h : DynShape n k0 minK s)
    (hend : ¬ (3 ≤ s.med.length ∧ minK ≤ s.med.length)) (hmk : minK ≤ k0) :
    dynFinish mat maxiter minK s = .ok (dynFinishP d n maxiter minK s) := by
  unfold dynFinish dynFinishP
  by_cases h2 : minK ≤ 2
  · have hl : s.med.length = 2 := by have := h.two; omega
    have e := list_two hl
    have hr0 : s.med.getD 0 0 < n := h.medRange _ (by rw [e]; simp)
    have hr1 : s.med.getD 1 0 < n := h.medRange _ (by rw [e]; simp)
    have hk2 := fastermscK2_eq (L := L) hm hnu hr0 hr1 maxiter
    rw [← e] at hk2
    have hk0 := h.le
    have hset : 2 - minK < s.retLoss.length := by rw [h.retLen]; omega
    have hset0 : ∀ x : L, 0 < (s.retLoss.set (2 - minK) x).length := by intro x; rw [List.length_set]; omega
    simp only [h2, if_true, hk2, ok_bind, setIdx_lt hset]
    by_cases h1 : minK ≤ 1
    · simp only [h1, if_true, setIdx_lt (hset0 _), ok_bind, dynTwoP]
    · simp only [h1, if_false, ok_bind, dynTwoP]
  · have h1 : ¬ minK ≤ 1 := by omega
    simp only [h2, h1, if_false, ok_bind]

/-- pure state before the first round -/
def dynInitP (L : Type) [RLoss L] [RFrom N L] (d : Nat → Nat → N) (n : Nat) (med : List Nat) (minK : Nat) :
    DynState N L :=
  { med := med, data := mscInitDataP d n med, rem := List.replicate med.length RLoss.zero
    loss := mscLossP L (mscInitDataP d n med), bestLoss := RLoss.zero, retAssi := [0, n], retMeds := med
    retIter := 0, retSwaps := 0, retLoss := List.replicate (med.length - minK + 1) RLoss.zero }

theorem dynInitP_shape {n : Nat} (d : Nat → Nat → N) {med : List Nat} (hv : ValidMeds n med)
    (hk : 2 ≤ med.length) (minK : Nat) : DynShape n med.length minK (dynInitP L d n med minK) :=
  ⟨hk, le_rfl, hv.range, by simp [dynInitP], by simp [dynInitP, mscInitDataP],
    fun h3 => (mscInitDataP_shape3 d hv h3).recs, by simp [dynInitP]⟩

/-- pure `dynmsc` for at least two medoids -/
def dynmscP (L : Type) [RLoss L] [RFrom N L] (d : Nat → Nat → N) (n : Nat) (med : List Nat)
    (minK maxiter : Nat) : DynResult L :=
  dynFinishP d n maxiter minK (dynLoopP d n maxiter minK med.length (dynInitP L d n med minK))

theorem dynmsc_eq {mat : Mat N} {n : Nat} {d : Nat → Nat → N} (hm : IsMatrix mat n d) {med : List Nat}
    (hv : ValidMeds n med) (hk : 2 ≤ med.length) (mink maxiter : Nat) :
    dynmsc L mat med mink maxiter = .ok (dynmscP L d n med (min (max mink 1) med.length) maxiter) := by
  have hn : 0 < n := lt_of_lt_of_le hv.sizes.pos hv.sizes.le
  have hl := dynLoop_eq hm hn hv.sizes.k_lt maxiter (fuel := med.length)
    (dynInitP_shape (L := L) d hv hk (min (max mink 1) med.length)) le_rfl
  have hf := dynFinish_eq hm hv.sizes.n_le maxiter hl.2.1 hl.2.2 (by omega)
  unfold dynmsc dynmscP
  rw [← hf]
  simp only [show ¬ med.length = 1 by omega, if_false, mscInitialAssignment_eq hm hv, ok_bind, hm.len]
  have := hl.1
  unfold dynInitP at this ⊢
  rw [this]
  rfl

theorem dynmsc_single {mat : Mat N} {n : Nat} {d : Nat → Nat → N} (hm : IsMatrix mat n d) {c : Nat}
    (hc : c < n) (mink maxiter : Nat) :
    dynmsc L mat [c] mink maxiter = .ok ⟨(singleP L d n c).loss, (singleP L d n c).assi,
      (singleP L d n c).nIter, (singleP L d n c).nSwap, (singleP L d n c).med, [(singleP L d n c).loss]⟩ := by
  have h := chooseMedoid_eq (L := L) hm (assi := List.replicate n 0) (med := [c]) (by simp)
    (m := 0) (c := c) rfl hc
  simp only [dynmsc, List.length_singleton, if_true, hm.len, h.1, ok_bind, singleP, List.set_cons_zero]

theorem dynSwapP_init (d : Nat → Nat → N) (n maxiter : Nat) (med : List Nat) (minK : Nat) :
    dynSwapP d n maxiter (dynInitP L d n med minK) = mscLoopP d n maxiter 0 (mscInitP L d n med) := by
  simp [dynSwapP, dynInitP, mscInitP]

theorem dynLoopP_stop {d : Nat → Nat → N} {n maxiter minK fuel : Nat} {s : DynState N L}
    (h : ¬ (3 ≤ s.med.length ∧ minK ≤ s.med.length)) : dynLoopP d n maxiter minK fuel s = s := by
  cases fuel with
  | zero => rfl
  | succ fuel => unfold dynLoopP; rw [if_neg h]

theorem dynLoopP_step {d : Nat → Nat → N} {n maxiter minK fuel : Nat} {s : DynState N L}
    (h : 3 ≤ s.med.length ∧ minK ≤ s.med.length) (hf : 0 < fuel) :
    dynLoopP d n maxiter minK fuel s = dynLoopP d n maxiter minK (fuel - 1) (dynRoundP d n maxiter minK s) := by
  cases fuel with
  | zero => omega
  | succ fuel => conv_lhs => unfold dynLoopP
                 rw [if_pos h]; rfl

end KMedoids
