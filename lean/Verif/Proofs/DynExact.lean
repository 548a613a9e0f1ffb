import Verif.Proofs.PureDyn
import Verif.Proofs.MscK2

/-! # DynMSC: removal of a medoid, and what the rounds keep -/

set_option linter.unusedSectionVars false

namespace KMedoids

open RFrom (conv)

/-! ## the medoid list after a removal -/

theorem removeListP_get {med : List Nat} {b m : Nat} (hb : b < med.length) (hm : m < med.length - 1) :
    (removeListP med b)[m]? = if m = b then med[med.length - 1]? else med[m]? := by
  unfold removeListP
  rw [List.getElem?_eraseIdx_of_lt hm]
  by_cases h : m = b
  · subst h
    rw [if_pos rfl, List.getElem?_set_self hb, List.getD_eq_getElem?_getD,
      List.getElem?_eq_getElem (by omega : med.length - 1 < med.length)]
    simp
  · rw [if_neg h, List.getElem?_set_ne (Ne.symm h)]

theorem removeListP_perm {med : List Nat} {b : Nat} (hb : b < med.length) :
    (removeListP med b).Perm (med.eraseIdx b) := by
  rcases List.eq_nil_or_concat med with rfl | ⟨pre, x, rfl⟩
  · simp at hb
  · simp only [List.concat_eq_append] at hb ⊢
    have hl : (pre ++ [x]).length - 1 = pre.length := by simp
    unfold removeListP
    have hx : (pre ++ [x]).getD pre.length 0 = x := by simp
    rw [hl, hx]
    by_cases h : b < pre.length
    · rw [List.set_append_left _ _ h, List.eraseIdx_append_of_length_le (by simp), List.length_set,
        Nat.sub_self, List.eraseIdx_append_of_lt_length h]
      simp only [List.eraseIdx_cons_zero, List.append_nil]
      exact (List.set_perm_cons_eraseIdx h x).trans (List.perm_append_singleton x _).symm
    · have hbe : b = pre.length := by simp at hb; omega
      subst hbe
      rw [List.set_append_right _ _ (le_refl _), List.eraseIdx_append_of_length_le (le_refl _),
        List.eraseIdx_append_of_length_le (le_refl _)]
      simp

theorem removeListP_nodup {med : List Nat} {b : Nat} (hb : b < med.length) (h : med.Nodup) :
    (removeListP med b).Nodup :=
  (removeListP_perm hb).nodup_iff.mpr (h.eraseIdx b)

theorem removeDataP_get {N : Type} [RDist N] {d : Nat → Nat → N} {med : List Nat} {data : List (Reco N)} {b o : Nat} {r' : Reco N}
    (h : (removeDataP d med data b)[o]? = some r') :
    ∃ r, data[o]? = some r ∧ r' = removeRecP d (removeListP med b) (med.length - 1) b (r, o) := by
  obtain ⟨h1, h2⟩ := List.getElem?_eq_some_iff.mp h
  simp [removeDataP] at h1 h2
  exact ⟨data[o], List.getElem?_eq_getElem h1, h2.symm⟩

/-! ## every medoid knows itself, whatever else the cache holds -/

section level2
variable {N : Type} [LinearOrder N] [Zero N] [RDist N] [LawfulDist N]

/-- Medoids are distinct, and every medoid is its own nearest at distance zero. -/
structure MOwn (n : Nat) (med : List Nat) (data : List (Reco N)) : Prop where
  len : data.length = n
  nodup : med.Nodup
  own : ∀ (m o : Nat) (r : Reco N), med[m]? = some o → data[o]? = some r → r.near.i = m ∧ r.near.d = 0

theorem MCache.mown {n : Nat} {d : Nat → Nat → N} (hd : Dissim n d) {med : List Nat} {data : List (Reco N)}
    (h : MCache n d med data) (hr : ∀ m ∈ med, m < n) (hnd : med.Nodup) : MOwn n med data := by
  refine ⟨h.len, hnd, fun m o r hm hg => ?_⟩
  have := h.own m o r hm hg
  refine ⟨this, ?_⟩
  rw [← (h.reco o r hg).near_d, this, medDist_get hm, hd.diag o (hr o (List.mem_of_getElem? hm))]

theorem MOwn.ownP {n : Nat} {med : List Nat} {data : List (Reco N)} (h : MOwn n med data) {j : Nat}
    (hj : j < n) : mscOwnP med data j = true ↔ j ∈ med := by
  have hget : data[j]? = some (data[j]'(h.len ▸ hj)) := List.getElem?_eq_getElem _
  simp only [mscOwnP, hget, beq_iff_eq]
  constructor
  · exact fun h' => List.mem_of_getElem? h'
  · intro h'
    obtain ⟨m, hm⟩ := List.mem_iff_getElem?.mp h'
    rw [(h.own m j _ hm hget).1]; exact hm

theorem mscSwapDataP_mown {n : Nat} {d : Nat → Nat → N} (hd : Dissim n d) {med : List Nat}
    {data : List (Reco N)} {b j : Nat} (hb : b < med.length) (hj : j < n)
    (hjm : j ∉ med) (h : MOwn n med data) : MOwn n (med.set b j) (mscSwapDataP d med data b j) := by
  refine ⟨by simp [mscSwapDataP, h.len], nodup_set h.nodup hjm, fun m o r' hm hr' => ?_⟩
  obtain ⟨r, hget, rfl⟩ := mscSwapDataP_get hr'
  have ho : o < n := h.len ▸ (List.getElem?_eq_some_iff.mp hget).1
  rw [getElem?_set_lt hb] at hm
  unfold mscSwapRecP
  dsimp only
  by_cases hmb : m = b
  · subst hmb
    simp at hm
    subst hm
    rw [if_pos rfl]
    unfold mscSwapRecJ
    simp only [zeroN]
    split
    · exact ⟨rfl, rfl⟩
    · split <;> exact ⟨rfl, rfl⟩
  · rw [if_neg hmb] at hm
    have hoj : o ≠ j := by
      rintro rfl; exact hjm (List.mem_of_getElem? hm)
    rw [if_neg hoj]
    obtain ⟨hn, hz⟩ := h.own m o r hm hget
    have hnl : ¬ d o j < r.near.d := by rw [hz]; exact not_lt.mpr (hd.nonneg o j ho hj)
    unfold mscSwapRecG
    simp only [rltN, decide_eq_true_eq, Bool.or_eq_true, beq_iff_eq, hnl, if_false]
    rw [if_neg (by omega)]
    split
    · split <;> exact ⟨hn, hz⟩
    · split
      · exact ⟨hn, hz⟩
      · split
        · exact ⟨hn, hz⟩
        · split <;> exact ⟨hn, hz⟩

theorem removeDataP_mown {n : Nat} (d : Nat → Nat → N) {med : List Nat} {data : List (Reco N)} {b : Nat}
    (hb : b < med.length) (h : MOwn n med data) : MOwn n (removeListP med b) (removeDataP d med data b) := by
  refine ⟨by simp [removeDataP, h.len], removeListP_nodup hb h.nodup, fun m o r' hm hr' => ?_⟩
  obtain ⟨r, hget, rfl⟩ := removeDataP_get hr'
  have hml : m < med.length - 1 := by
    rw [← removeListP_length hb]; exact (List.getElem?_eq_some_iff.mp hm).1
  rw [removeListP_get hb hml] at hm
  have key : ∃ i, med[i]? = some o ∧ i ≠ b ∧ (if i = med.length - 1 then b else i) = m := by
    by_cases hmb : m = b
    · rw [if_pos hmb] at hm
      exact ⟨_, hm, by omega, by rw [if_pos rfl, hmb]⟩
    · rw [if_neg hmb] at hm
      exact ⟨m, hm, hmb, by rw [if_neg (by omega)]⟩
  obtain ⟨i, hi, hib, him⟩ := key
  obtain ⟨hn, hz⟩ := h.own i o r hi hget
  have e : (relabelP (med.length - 1) b r.near).i = m ∧ (relabelP (med.length - 1) b r.near).d = 0 := by
    rw [relabelP_i, relabelP_d, hn]; exact ⟨him, hz⟩
  unfold removeRecP
  dsimp only
  rw [if_neg (by omega)]
  split
  · exact e
  · split
    · exact e
    · exact e

/-! ## what is right after a removal -/

/-- The record holds the two nearest medoids; nothing is said about the third. -/
structure Top2 (k : Nat) (f : Nat → N) (r : Reco N) : Prop where
  near_lt : r.near.i < k
  near_d : f r.near.i = r.near.d
  seco_lt : r.seco.i < k
  seco_d : f r.seco.i = r.seco.d
  ne : r.near.i ≠ r.seco.i
  le : r.near.d ≤ r.seco.d
  seco_le : ∀ m, m < k → m ≠ r.near.i → r.seco.d ≤ f m

theorem Top2.twoMin {d : Nat → Nat → N} {med : List Nat} {o : Nat} {r : Reco N}
    (h : Top2 med.length (medDist d med o) r) : TwoMin (med.map (d o)) r.near.d r.seco.d := by
  have hg : ∀ m, m < med.length → (med.map (d o))[m]? = some (medDist d med o m) := by
    intro m hm
    rw [List.getElem?_map, List.getElem?_eq_getElem hm, Option.map_some,
      medDist_get (List.getElem?_eq_getElem hm)]
  refine TwoMin.of_idx (i1 := r.near.i) (i2 := r.seco.i) (by rw [hg _ h.near_lt, h.near_d])
    (by rw [hg _ h.seco_lt, h.seco_d]) h.ne h.le fun m x hx hm => ?_
  have hml : m < med.length := by
    have := (List.getElem?_eq_some_iff.mp hx).1; simpa using this
  rw [hg m hml] at hx
  cases hx
  exact h.seco_le m hml hm

/-- Nearest and second nearest are right after a removal. -/
theorem removeRecP_top2 {d : Nat → Nat → N} {med' : List Nat} {k b : Nat} (hb : b < k) (hk : 3 ≤ k)
    {f f' : Nat → N} (hfb : b < k - 1 → f' b = f (k - 1)) (hfm : ∀ m, m < k - 1 → m ≠ b → f' m = f m)
    {p : Reco N × Nat} (h : Top3 k f p.1) : Top2 (k - 1) f' (removeRecP d med' (k - 1) b p) := by
  obtain ⟨t1, t2, t3, t4, t5, t6⟩ := h.third_of hk
  obtain ⟨g1, g2, g3, g4, g5, g6, -⟩ := h
  have hseco : ∀ m, m < k → m ≠ p.1.near.i → p.1.seco.d ≤ f m := fun m hm h1 => by
    by_cases hms : m = p.1.seco.i
    · rw [hms, g4]
    · exact le_trans t5 (t6 m hm h1 hms)
  have hl : ∀ q : DistancePair N, q.i < k → q.i ≠ b → f q.i = q.d →
      (relabelP (k - 1) b q).i < k - 1 ∧ f' (relabelP (k - 1) b q).i = q.d := by
    intro q h1 h2 h3
    rw [relabelP_i]
    split
    · rename_i hq
      exact ⟨by omega, by rw [hfb (by omega), ← h3, hq]⟩
    · rename_i hq
      exact ⟨by omega, by rw [hfm _ (by omega) h2, h3]⟩
  have hne : ∀ q q' : DistancePair N, q.i < k → q'.i < k → q.i ≠ b → q'.i ≠ b → q.i ≠ q'.i →
      (relabelP (k - 1) b q).i ≠ (relabelP (k - 1) b q').i := by
    intro q q' h1 h2 h3 h4 h5
    rw [relabelP_i, relabelP_i]
    split <;> split <;> omega
  have hall : ∀ m, m < k - 1 → ∃ i, i < k ∧ i ≠ b ∧ f' m = f i ∧ (if i = k - 1 then b else i) = m := by
    intro m hm
    by_cases hmb : m = b
    · exact ⟨k - 1, by omega, by omega, by rw [hmb]; exact hfb (by omega), by rw [if_pos rfl, hmb]⟩
    · exact ⟨m, by omega, hmb, hfm m hm hmb, by rw [if_neg (by omega)]⟩
  unfold removeRecP
  dsimp only
  by_cases h1 : p.1.near.i = b
  · rw [if_pos h1]
    have hs := hl p.1.seco g3 (by omega) g4
    have ht := hl p.1.third t1 (by omega) t2
    refine ⟨hs.1, by rw [relabelP_d]; exact hs.2, ht.1, by rw [relabelP_d]; exact ht.2,
      hne _ _ g3 t1 (by omega) (by omega) (Ne.symm t4), by simp only [relabelP_d]; exact t5, fun m hm h' => ?_⟩
    obtain ⟨i, i1, i2, i3, i4⟩ := hall m hm
    rw [relabelP_d, i3]
    refine t6 i i1 (by omega) fun e => h' ?_
    rw [relabelP_i, ← e, i4]
  · rw [if_neg h1]
    have hn := hl p.1.near g1 h1 g2
    by_cases h2 : p.1.seco.i = b
    · rw [if_pos h2]
      have ht := hl p.1.third t1 (by omega) t2
      refine ⟨hn.1, by rw [relabelP_d]; exact hn.2, ht.1, by rw [relabelP_d]; exact ht.2,
        hne _ _ g1 t1 (by omega) (by omega) (Ne.symm t3), by simp only [relabelP_d]; exact le_trans g6 t5,
        fun m hm h' => ?_⟩
      obtain ⟨i, i1, i2, i3, i4⟩ := hall m hm
      rw [relabelP_d, i3]
      refine t6 i i1 (fun e => h' ?_) (by omega)
      rw [relabelP_i, ← e, i4]
    · rw [if_neg h2]
      have hs := hl p.1.seco g3 h2 g4
      have : ∀ t : DistancePair N, Top2 (k - 1) f'
          ⟨relabelP (k - 1) b p.1.near, relabelP (k - 1) b p.1.seco, t⟩ := by
        intro t
        refine ⟨hn.1, by rw [relabelP_d]; exact hn.2, hs.1, by rw [relabelP_d]; exact hs.2,
          hne _ _ g1 g3 (by omega) (by omega) g5, by simp only [relabelP_d]; exact g6, fun m hm h' => ?_⟩
        obtain ⟨i, i1, i2, i3, i4⟩ := hall m hm
        rw [relabelP_d, i3]
        refine hseco i i1 fun e => h' ?_
        rw [relabelP_i, ← e, i4]
      split
      · exact this _
      · exact this _

/-- What `update_third_nearest_without_new` returns is at the right distance, if it is among three or more
medoids. It need not be the nearest of the remaining ones. -/
theorem utnwP_dist (d : Nat → Nat → N) {med : List Nat} (hk : 3 ≤ med.length) (x y b o : Nat) :
    medDist d med o (utnwP d med x y b o).i = (utnwP d med x y b o).d := by
  have := foldl_zipIdx_prefix (fun p (s : DistancePair N) =>
      ((∀ m, m < p → m = x ∨ m = y) ∧ s.i = b) ∨ medDist d med o s.i = s.d)
    (g := fun (dist : DistancePair N) (p : Nat × Nat) =>
      if p.2 = x ∨ p.2 = y then dist
      else if dist.i == b || rlt (d o p.1) dist.d then ⟨p.2, d o p.1⟩ else dist)
    (xs := med) (s := ⟨b, RDist.zero⟩) 0 (fun p c s _ hc hI => by
      dsimp only
      split
      · rename_i hxy
        rcases hI with ⟨h1, h2⟩ | h
        · left
          refine ⟨fun m hm => ?_, h2⟩
          rcases Nat.lt_succ_iff_lt_or_eq.mp hm with h | rfl
          · exact h1 m h
          · exact hxy
        · right; exact h
      · rename_i hxy
        right
        rcases hI with ⟨h1, h2⟩ | h
        · simp only [h2, beq_self_eq_true, Bool.true_or, if_true]
          exact medDist_get hc
        · split
          · exact medDist_get hc
          · exact h)
    (by omega) (Or.inl ⟨by omega, rfl⟩)
  rw [List.drop_zero] at this
  rcases this with ⟨h1, -⟩ | h
  · have h0 := h1 0 (by omega); have h1' := h1 1 (by omega); have h2 := h1 2 (by omega)
    omega
  · exact h

/-- If three medoids remain, the record is right. -/
theorem removeRecP_top3 {d : Nat → Nat → N} {med' : List Nat} {b : Nat} (hb : b < 4) (hl : med'.length = 3)
    {f : Nat → N} {p : Reco N × Nat}
    (hfb : b < 3 → medDist d med' p.2 b = f 3) (hfm : ∀ m, m < 3 → m ≠ b → medDist d med' p.2 m = f m)
    (h : Top3 4 f p.1) : Top3 3 (medDist d med' p.2) (removeRecP d med' 3 b p) := by
  have h2 := removeRecP_top2 (d := d) (med' := med') (k := 4) hb (by omega) hfb hfm h
  obtain ⟨t1, t2, t3, t4, t5, t6⟩ := h.third_of (by omega)
  have h3 : Reco3 3 (removeRecP d med' 3 b p) := removeRecP_reco3 d hb hl (le_refl _)
    ⟨h.near_lt, h.seco_lt, t1, h.ne, Ne.symm t3, Ne.symm t4⟩
  have hd : medDist d med' p.2 (removeRecP d med' 3 b p).third.i = (removeRecP d med' 3 b p).third.d := by
    unfold removeRecP
    dsimp only
    split
    · exact utnwP_dist d (by omega) _ _ _ _
    · split
      · exact utnwP_dist d (by omega) _ _ _ _
      · split
        · exact utnwP_dist d (by omega) _ _ _ _
        · rename_i hb3
          rw [relabelP_d, relabelP_i]
          split
          · rename_i hq
            rw [hfb (by omega), ← t2, hq]
          · rw [hfm _ (by omega) hb3, t2]
  refine ⟨h2.near_lt, h2.near_d, h2.seco_lt, h2.seco_d, h2.ne, h2.le, Or.inl ⟨h3.third, hd, Ne.symm h3.nt,
    Ne.symm h3.st, ?_, fun m hm h4 h5 => ?_⟩⟩
  · rw [← hd]; exact h2.seco_le _ h3.third (Ne.symm h3.nt)
  · have e : m = (removeRecP d med' 3 b p).third.i := by
      have := h3.near; have := h3.seco; have := h3.third; have := h3.ns; have := h3.nt; have := h3.st
      omega
    rw [e, hd]

theorem removeListP_medDist {d : Nat → Nat → N} {med : List Nat} {b o : Nat} (hb : b < med.length) :
    (b < med.length - 1 → medDist d (removeListP med b) o b = medDist d med o (med.length - 1)) ∧
    ∀ m, m < med.length - 1 → m ≠ b → medDist d (removeListP med b) o m = medDist d med o m := by
  constructor
  · intro h
    simp only [medDist, List.getD_eq_getElem?_getD, removeListP_get hb h, if_true]
  · intro m hm hmb
    simp only [medDist, List.getD_eq_getElem?_getD, removeListP_get hb hm, if_neg hmb]

theorem removeDataP_top2 {n : Nat} {d : Nat → Nat → N} {med : List Nat} {data : List (Reco N)} {b : Nat}
    (hb : b < med.length) (hk : 3 ≤ med.length) (h : MCache n d med data) :
    ∀ (o : Nat) (r : Reco N), (removeDataP d med data b)[o]? = some r →
      Top2 (removeListP med b).length (medDist d (removeListP med b) o) r := by
  intro o r' hr'
  obtain ⟨r, hget, rfl⟩ := removeDataP_get hr'
  rw [removeListP_length hb]
  obtain ⟨e1, e2⟩ := removeListP_medDist (d := d) (o := o) hb
  exact removeRecP_top2 hb hk e1 e2 (h.reco o r hget)

theorem removeDataP_cache {n : Nat} {d : Nat → Nat → N} (hd : Dissim n d) {med : List Nat}
    {data : List (Reco N)} {b : Nat} (hr : ∀ m ∈ med, m < n) (hnd : med.Nodup)
    (hb : b < med.length) (hk : med.length = 4) (h : MCache n d med data) :
    MCache n d (removeListP med b) (removeDataP d med data b) := by
  have hown := removeDataP_mown d hb (h.mown hd hr hnd)
  refine ⟨hown.len, fun o r' hr' => ?_, fun m o r hm hg => (hown.own m o r hm hg).1⟩
  obtain ⟨r, hget, rfl⟩ := removeDataP_get hr'
  obtain ⟨e1, e2⟩ := removeListP_medDist (d := d) (o := o) hb
  have hlen := removeListP_length hb
  have h3 := h.reco o r hget
  rw [hk] at hlen e1 e2 h3 hb ⊢
  rw [hlen]
  exact removeRecP_top3 (p := (r, o)) hb hlen e1 e2 h3

end level2

section anyLoss
variable {N L : Type} [LinearOrder N] [Zero N] [RDist N] [LawfulDist N] [RLoss L] [RFrom N L]

theorem mscLoopP_mown {n k : Nat} {d : Nat → Nat → N} (hd : Dissim n d) (hku : k < u32Max) (hk : 1 ≤ k)
    {fuel iter : Nat} {s : MSCState N L} (hs : MSCShape3 n k s) (ho : MOwn n s.med s.data) :
    MOwn n (mscLoopP d n fuel iter s).1.med (mscLoopP d n fuel iter s).1.data := by
  have : MSCShape3 n k (mscLoopP d n fuel iter s).1 ∧
      MOwn n (mscLoopP d n fuel iter s).1.med (mscLoopP d n fuel iter s).1.data := by
    unfold mscLoopP
    refine (loopG_inv (fun s : MSCState N L => MSCShape3 n k s ∧ MOwn n s.med s.data) (fun s hs => ?_)
      ⟨hs, ho⟩).1
    refine passG_inv (fun s : MSCState N L => MSCShape3 n k s ∧ MOwn n s.med s.data)
      (fun s j s' hj hs hc => ?_) hs
    have hj := List.mem_range.mp hj
    obtain ⟨hs, ho⟩ := hs
    unfold mscCandP at hc
    split at hc
    · cases hc
    · rename_i hown
      have hjm : j ∉ s.med := fun h => hown ((ho.ownP hj).mpr h)
      dsimp only at hc
      split at hc
      · cases hc
      · cases hc
        have := mscFbsP_lt d (rem := s.rem) s.data j (by rw [hs.remLen]; exact hk)
        rw [hs.remLen] at this
        exact ⟨mscSwapP_shape3 d hs hku this hj,
          mscSwapDataP_mown hd (by rw [hs.shape.medLen]; exact this) hj hjm ho⟩
  exact this.2

end anyLoss

/-! ## exact arithmetic -/

section level3
variable {N L : Type} [LinearOrder N] [Zero N] [RDist N] [LawfulDist N]
variable [Field L] [LinearOrder L] [IsStrictOrderedRing L] [RLoss L] [LawfulField L]
variable [RFrom N L] [LawfulFrom N L]

/-- The loss after a removal is right. -/
theorem mscLossP_remove {n : Nat} {d : Nat → Nat → N} {med : List Nat} {data : List (Reco N)} {b : Nat}
    (hb : b < med.length) (hk : 3 ≤ med.length) (h : MCache n d med data) :
    mscLossP L (removeDataP d med data b) = msT L n d (removeListP med b) := by
  have hlen : (removeDataP d med data b).length = n := by simp [removeDataP, h.len]
  rw [mscLossP, sumP_eq, msT, ← hlen, sum_range_zipIdx]
  rw [← map_zipIdx_fst (removeDataP d med data b) (fun r => mscLoss L r.near.d r.seco.d)]
  congr 1
  refine List.map_congr_left fun p hp => ?_
  have h2 := removeDataP_top2 hb hk h p.2 p.1 (mem_zipIdx_get hp)
  rw [mscLoss_eq, ratio_of_twoMin h2.twoMin]

/-- The medoid silhouette of a solution is positive: the first medoid contributes one. -/
theorem medSil_pos {n : Nat} {d : Nat → Nat → N} (hd : Dissim n d) {med : List Nat} (hr : ∀ m ∈ med, m < n)
    (hk : 2 ≤ med.length) : 0 < medSil (conv : N → L) n d med := by
  obtain ⟨c, hc⟩ : ∃ c, c ∈ med := List.exists_mem_of_length_pos (by omega)
  have hcn := hr c hc
  have hn : (0 : L) < n := by exact_mod_cast (lt_of_le_of_lt (Nat.zero_le _) hcn)
  have h1 : medSil1 (conv : N → L) d med c = 1 := by
    have h := twoNearestP_twoMin d hk c
    rw [medSil1_of h]
    obtain ⟨ha, -, -⟩ := h.mem
    have hle : (twoNearestP d med c).1 ≤ d c c := by
      obtain ⟨rest, hp, hab, hrest⟩ := h
      have := hp.mem_iff.mp (List.mem_map.mpr ⟨c, hc, rfl⟩)
      rcases List.mem_cons.mp this with e | e
      · exact le_of_eq e.symm
      · rcases List.mem_cons.mp e with e | e
        · rw [e]; exact hab
        · exact le_trans hab (hrest _ e)
    rw [hd.diag c hcn] at hle
    obtain ⟨m, hm, e⟩ := List.mem_map.mp ha
    have h0 : 0 ≤ (twoNearestP d med c).1 := e ▸ hd.nonneg c m hcn (hr m hm)
    rw [if_pos (le_antisymm hle h0)]
  unfold medSil mean
  apply div_pos
  · apply lt_of_lt_of_le (zero_lt_one (α := L))
    rw [← h1]
    refine List.single_le_sum ?_ _ (List.mem_map.mpr ⟨c, List.mem_range.mpr hcn, rfl⟩)
    intro x hx
    obtain ⟨o, ho, rfl⟩ := List.mem_map.mp hx
    exact (medSil1_range hk fun m hm => hd.nonneg o m (List.mem_range.mp ho) (hr m hm)).1
  · simpa using hn

/-! ## one round -/

/-- Medoids, cache and loss are right. -/
def DEx (n : Nat) (d : Nat → Nat → N) (s : DynState N L) : Prop := MInv n s.med.length d s.med s.data s.loss

theorem dynSwapP_ex [LawfulAdd N L] {n : Nat} {d : Nat → Nat → N} (hd : Dissim n d) {s : DynState N L}
    (h : DEx n d s) (hk : 3 ≤ s.med.length) (hku : s.med.length < u32Max) (hrem : s.rem.length = s.med.length)
    (maxiter : Nat) :
    MSCEx n s.med.length d (dynSwapP d n maxiter s).1 ∧
      ∃ c, SwapChain (msT L n d) n c s.med (dynSwapP d n maxiter s).1.med := by
  have H := msc_candSpec (L := L) hd hk hku
  have hseq : ∀ j ∈ List.range n, j < n := fun j hj => List.mem_range.mp hj
  have hinit : MSCEx n s.med.length d
      (⟨s.med, s.data, mscRemP L s.data s.rem.length, s.loss, n, 0⟩ : MSCState N L) :=
    ⟨h, by rw [hrem]⟩
  obtain ⟨h1, c, -, h3, -⟩ := loopG_ex H hseq (fuel := maxiter) (iter := 0) hinit
  exact ⟨h1, c, h3⟩

/-- What is known about the best solution so far. -/
structure RetOk (n : Nat) (d : Nat → Nat → N) (k0 minK : Nat) (s : DynState N L) : Prop where
  pos : 0 < s.bestLoss
  idx : ∃ i, s.retLoss[i]? = some s.bestLoss ∧ s.med.length < i + minK
  assiLen : s.retAssi.length = n
  label : ∀ a ∈ s.retAssi, a < s.retMeds.length
  range : ∀ m ∈ s.retMeds, m < n
  nodup : s.retMeds.Nodup
  three : 3 ≤ s.retMeds.length
  min : minK ≤ s.retMeds.length
  le : s.retMeds.length ≤ k0
  right : k0 ≤ 4 ∨ s.retMeds.length = k0 →
    s.bestLoss = medSil (conv : N → L) n d s.retMeds ∧ NearestAssignment n d s.retMeds s.retAssi

/-- Invariant of the rounds. `F` is the loss of the first round. -/
structure DynInv (n : Nat) (d : Nat → Nat → N) (k0 minK : Nat) (F : L) (s : DynState N L) : Prop where
  shape : DynShape n k0 minK s
  own : MOwn n s.med s.data
  ex : s.med.length = k0 ∨ k0 ≤ 4 ∧ 3 ≤ s.med.length → DEx n d s
  bnd : ∀ x ∈ s.retLoss, x ≤ s.bestLoss
  start : s.med.length = k0 → s.bestLoss = 0
  ret : s.med.length < k0 → RetOk n d k0 minK s
  first : s.med.length < k0 → s.retLoss[k0 - minK]? = some F

theorem dynRoundP_inv [LawfulAdd N L] {n k0 minK : Nat} {d : Nat → Nat → N} (hd : Dissim n d)
    (hn : n ≤ u32Max) (hn0 : 0 < n) (hku : k0 < u32Max) {mat : Mat N} (hm : IsMatrix mat n d) (maxiter : Nat) {F : L} {s : DynState N L}
    (hF : s.med.length = k0 → F = toSilhouette (dynSwapP d n maxiter s).1.loss n)
    (h : DynInv n d k0 minK F s) (h3 : 3 ≤ s.med.length) (hmin : minK ≤ s.med.length) :
    DynInv n d k0 minK F (dynRoundP d n maxiter minK s) := by
  obtain ⟨-, hshape, hlen, hsw, -⟩ := dynRound_eq hm hn0 hku h.shape h3 hmin maxiter
  have hk : s.med.length < u32Max := lt_of_le_of_lt h.shape.le hku
  have hle := h.shape.le
  have hb : (chooseRemoval (dynSwapP d n maxiter s).1.rem).2 < s.med.length := by
    have := chooseRemoval_lt (rem := (dynSwapP d n maxiter s).1.rem) (by rw [hsw.remLen]; omega)
    rwa [hsw.remLen] at this
  have hbm : (chooseRemoval (dynSwapP d n maxiter s).1.rem).2 < (dynSwapP d n maxiter s).1.med.length := by
    rw [hsw.shape.medLen]; exact hb
  have hown : MOwn n (dynSwapP d n maxiter s).1.med (dynSwapP d n maxiter s).1.data :=
    mscLoopP_mown hd hk (by omega) (h.shape.msc h3) h.own
  have hex := fun h' => dynSwapP_ex hd (h.ex h') h3 hk h.shape.remLen maxiter
  have hexl : s.med.length = k0 ∨ k0 ≤ 4 ∧ 3 ≤ s.med.length →
      toSilhouette (dynSwapP d n maxiter s).1.loss n =
        medSil (conv : N → L) n d (dynSwapP d n maxiter s).1.med := by
    intro h'
    rw [← toSilhouette_eq hn0 hn, (hex h').1.inv.loss]
  have hset : s.med.length - minK < s.retLoss.length := by rw [h.shape.retLen]; omega
  -- abbreviations
  generalize hs' : dynRoundP d n maxiter minK s = s' at *
  have eb : s'.bestLoss = if rgt (toSilhouette (dynSwapP d n maxiter s).1.loss n) s.bestLoss then
      toSilhouette (dynSwapP d n maxiter s).1.loss n else s.bestLoss := by rw [← hs']; rfl
  have em : s'.retMeds = if rgt (toSilhouette (dynSwapP d n maxiter s).1.loss n) s.bestLoss then
      (dynSwapP d n maxiter s).1.med else s.retMeds := by rw [← hs']; rfl
  have ea : s'.retAssi = if rgt (toSilhouette (dynSwapP d n maxiter s).1.loss n) s.bestLoss then
      (dynSwapP d n maxiter s).1.data.map (·.near.i) else s.retAssi := by rw [← hs']; rfl
  have el : s'.retLoss = s.retLoss.set (s.med.length - minK)
      (toSilhouette (dynSwapP d n maxiter s).1.loss n) := by rw [← hs']; rfl
  rw [rgtL] at eb em ea
  refine ⟨hshape, ?_, ?_, ?_, ?_, ?_, ?_⟩
  · rw [← hs']; exact removeDataP_mown d hbm hown
  · intro h'
    rcases h' with h' | ⟨h', h''⟩
    · omega
    · have h4 : s.med.length = 4 := by omega
      have hi := (hex (Or.inr ⟨h', h3⟩)).1.inv
      have hl4 : (dynSwapP d n maxiter s).1.med.length = 4 := by rw [hsw.shape.medLen, h4]
      have hc := removeDataP_cache hd hi.medRange hi.nodup hbm hl4 hi.cache
      rw [← hs']
      exact ⟨rfl, fun m hmem => hi.medRange m (removeListP_mem hbm m hmem), removeListP_nodup hbm hi.nodup, hc,
        mscLossP_remove hbm (by omega) hi.cache⟩
  · intro x hx
    rw [el] at hx
    rw [eb]
    rcases List.mem_or_eq_of_mem_set hx with hx | rfl
    · split
      · rename_i hc
        exact le_of_lt (lt_of_le_of_lt (h.bnd x hx) (by simpa using hc))
      · exact h.bnd x hx
    · split
      · exact le_refl _
      · rename_i hc
        exact not_lt.mp (by simpa using hc)
  · intro h'; omega
  · intro _
    by_cases hc : s.bestLoss < toSilhouette (dynSwapP d n maxiter s).1.loss n
    · simp only [hc, decide_true, if_true] at eb em ea
      refine ⟨?_, ?_, ?_, ?_, ?_, ?_, ?_, ?_, ?_, ?_⟩
      · rw [eb]
        by_cases h' : s.med.length = k0
        · rw [h.start h'] at hc; exact hc
        · exact lt_trans (h.ret (by omega)).pos hc
      · exact ⟨s.med.length - minK, by rw [el, eb, List.getElem?_set_self hset], by omega⟩
      · rw [ea]; simp [hown.len]
      · rw [ea, em]
        intro a ha
        obtain ⟨r, hr, rfl⟩ := List.mem_map.mp ha
        rw [hsw.shape.medLen]; exact (hsw.shape.recs r hr).near
      · rw [em]; exact hsw.shape.medRange
      · rw [em]; exact hown.nodup
      · rw [em, hsw.shape.medLen]; exact h3
      · rw [em, hsw.shape.medLen]; exact hmin
      · rw [em, hsw.shape.medLen]; exact hle
      · rw [em, eb, ea, hsw.shape.medLen]
        intro h'
        have h'' : s.med.length = k0 ∨ k0 ≤ 4 ∧ 3 ≤ s.med.length := by omega
        have hi := (hex h'').1.inv
        exact ⟨hexl h'', hi.cache.assignment hi.medRange⟩
    · simp only [hc, decide_false, Bool.false_eq_true, if_false] at eb em ea
      have hne : s.med.length ≠ k0 := by
        intro h'
        rw [h.start h', hexl (Or.inl h')] at hc
        exact hc (medSil_pos hd hsw.shape.medRange (by rw [hsw.shape.medLen]; omega))
      obtain ⟨g1, ⟨i, g2, g3⟩, g4, g5, g6, g7, g8, g9, g10, g11⟩ := h.ret (by omega)
      rw [← eb] at g1
      refine ⟨g1, ⟨i, ?_, by omega⟩, by rw [ea]; exact g4, by rw [ea, em]; exact g5, by rw [em]; exact g6,
        by rw [em]; exact g7, by rw [em]; exact g8, by rw [em]; exact g9, by rw [em]; exact g10, ?_⟩
      · rw [el, eb, List.getElem?_set_ne (by omega), g2]
      · rw [em, eb, ea]; exact g11
  · intro _
    by_cases h' : s.med.length = k0
    · rw [el, h', hF h', List.getElem?_set_self (by rw [h'] at hset; exact hset)]
    · rw [el, List.getElem?_set_ne (by omega)]
      exact h.first (by omega)

theorem dynInitP_inv {n : Nat} {d : Nat → Nat → N} (hd : Dissim n d) {med : List Nat} (hv : ValidMeds n med)
    (hnd : med.Nodup) (hk : 2 ≤ med.length) (minK : Nat) (F : L) :
    DynInv n d med.length minK F (dynInitP L d n med minK) := by
  have hi := MInv.init (L := L) hd hv hnd hk
  refine ⟨dynInitP_shape d hv hk minK, hi.cache.mown hd hv.range hnd, fun _ => hi, ?_, fun _ => zeroL,
    fun h => absurd h (lt_irrefl _), fun h => absurd h (lt_irrefl _)⟩
  intro x hx
  have : x = RLoss.zero := List.eq_of_mem_replicate hx
  rw [this]; exact le_refl _

/-- What a run of `dynmsc` delivers. -/
structure DynOk (n : Nat) (d : Nat → Nat → N) (k0 minK : Nat) (r : DynResult L) : Prop where
  mem : r.loss ∈ r.losses
  max : ∀ x ∈ r.losses, x ≤ r.loss
  assiLen : r.assi.length = n
  label : ∀ a ∈ r.assi, a < r.med.length
  range : ∀ m ∈ r.med, m < n
  nodup : r.med.Nodup
  two : 2 ≤ r.med.length
  min : minK ≤ r.med.length
  le : r.med.length ≤ k0
  right : k0 ≤ 4 ∨ r.med.length = k0 ∨ r.med.length = 2 →
    r.loss = medSil (conv : N → L) n d r.med ∧ ∀ o m : Nat, r.assi[o]? = some m → IsNearest d r.med o m

theorem dynFinishP_ok {n k0 minK : Nat} {d : Nat → Nat → N} (hd : Dissim n d) (hn : n ≤ u32Max)
    (maxiter : Nat) {F : L} {s : DynState N L} (h : DynInv n d k0 minK F s)
    (hend : ¬ (3 ≤ s.med.length ∧ minK ≤ s.med.length)) (hmk : minK ≤ k0) (h1 : 1 ≤ minK) :
    DynOk n d k0 minK (dynFinishP d n maxiter minK s) ∧
      (3 ≤ k0 → (dynFinishP d n maxiter minK s).losses[k0 - minK]? = some F) := by
  have h2 := h.shape.two
  by_cases hm2 : minK ≤ 2
  · have hl : s.med.length = 2 := by omega
    have e := list_two hl
    have hr0 : s.med.getD 0 0 < n := h.shape.medRange _ (by rw [e]; simp)
    have hr1 : s.med.getD 1 0 < n := h.shape.medRange _ (by rw [e]; simp)
    have hne : s.med.getD 0 0 ≠ s.med.getD 1 0 := by
      have := h.own.nodup; rw [e] at this; simpa using this
    have ho := fastermscK2P_outcome (L := L) hd hr0 hr1 hne hn maxiter
    have hle := h.shape.le
    have hset : 2 - minK < s.retLoss.length := by rw [h.shape.retLen]; omega
    have hpos : 0 < (fastermscK2P L d n (s.med.getD 0 0) (s.med.getD 1 0) maxiter).loss := by
      rw [ho.loss]
      refine medSil_pos hd (ho.chain.range ?_) ?_
      · intro m hm; simp only [List.mem_cons, List.not_mem_nil, or_false] at hm
        rcases hm with rfl | rfl
        · exact hr0
        · exact hr1
      · rw [ho.chain.length]; simp
    have hlen2 : (fastermscK2P L d n (s.med.getD 0 0) (s.med.getD 1 0) maxiter).med.length = 2 := by
      rw [ho.chain.length]; simp
    have hrange : ∀ m ∈ (fastermscK2P L d n (s.med.getD 0 0) (s.med.getD 1 0) maxiter).med, m < n := by
      refine ho.chain.range ?_
      intro m hm; simp only [List.mem_cons, List.not_mem_nil, or_false] at hm
      rcases hm with rfl | rfl
      · exact hr0
      · exact hr1
    have hnod : (fastermscK2P L d n (s.med.getD 0 0) (s.med.getD 1 0) maxiter).med.Nodup :=
      ho.chain.nodup (by simpa using hne)
    generalize hK : fastermscK2P L d n (s.med.getD 0 0) (s.med.getD 1 0) maxiter = K at *
    have hfin : dynFinishP d n maxiter minK s =
        ⟨if s.bestLoss < K.loss then K.loss else s.bestLoss,
         if s.bestLoss < K.loss then K.assi else s.retAssi, s.retIter + K.nIter, s.retSwaps + K.nSwap,
         if s.bestLoss < K.loss then K.med else s.retMeds,
         if minK ≤ 1 then (s.retLoss.set (2 - minK) K.loss).set 0 0 else s.retLoss.set (2 - minK) K.loss⟩ := by
      simp only [dynFinishP, hm2, if_true, dynTwoP, hK, rgtL, decide_eq_true_eq, zeroL]
    rw [hfin]
    -- entries of the loss vector
    have hget : ∀ i, 1 ≤ i + minK - 1 → i ≠ 0 ∨ ¬ minK ≤ 1 →
        (if minK ≤ 1 then (s.retLoss.set (2 - minK) K.loss).set 0 0 else s.retLoss.set (2 - minK) K.loss)[i]? =
          (s.retLoss.set (2 - minK) K.loss)[i]? := by
      intro i _ hi
      split
      · rw [List.getElem?_set_ne (by omega)]
      · rfl
    have hb0 : 0 ≤ s.bestLoss := by
      by_cases h' : s.med.length = k0
      · rw [h.start h']
      · exact le_of_lt (h.ret (by omega)).pos
    have hmax : ∀ x ∈ (if minK ≤ 1 then (s.retLoss.set (2 - minK) K.loss).set 0 0
        else s.retLoss.set (2 - minK) K.loss), x ≤ if s.bestLoss < K.loss then K.loss else s.bestLoss := by
      have hA : ∀ x ∈ s.retLoss.set (2 - minK) K.loss, x ≤ if s.bestLoss < K.loss then K.loss else s.bestLoss := by
        intro x hx
        rcases List.mem_or_eq_of_mem_set hx with hx | rfl
        · split
          · rename_i hc; exact le_of_lt (lt_of_le_of_lt (h.bnd x hx) hc)
          · exact h.bnd x hx
        · split
          · exact le_refl _
          · rename_i hc; exact not_lt.mp hc
      intro x hx
      split at hx
      · rcases List.mem_or_eq_of_mem_set hx with hx | rfl
        · exact hA x hx
        · split
          · exact le_of_lt hpos
          · exact hb0
      · exact hA x hx
    refine ⟨?_, ?_⟩
    · by_cases hc : s.bestLoss < K.loss
      · simp only [hc, if_true] at hmax ⊢
        refine ⟨?_, hmax, ho.assiLen, ?_, hrange, hnod, by simp [hlen2], by simp [hlen2]; exact hm2,
          by simp [hlen2]; omega, fun _ => ⟨ho.loss, ho.nearest⟩⟩
        · refine List.mem_of_getElem? (i := 2 - minK) ?_
          dsimp only
          rw [hget _ (by omega) (by omega), List.getElem?_set_self hset]
        · intro a ha
          obtain ⟨o, ho'⟩ := List.mem_iff_getElem?.mp ha
          obtain ⟨c, hc', -⟩ := ho.nearest o a ho'
          exact (List.getElem?_eq_some_iff.mp hc').1
      · simp only [hc, if_false] at hmax ⊢
        have hlt : s.med.length < k0 := by
          by_contra h'
          have : s.med.length = k0 := by omega
          rw [h.start this] at hc
          exact hc hpos
        obtain ⟨g1, ⟨i, g2, g3⟩, g4, g5, g6, g7, g8, g9, g10, g11⟩ := h.ret hlt
        refine ⟨?_, hmax, g4, g5, g6, g7, by dsimp only; omega, g9, g10, ?_⟩
        · refine List.mem_of_getElem? (i := i) ?_
          dsimp only
          rw [hget _ (by omega) (by omega), List.getElem?_set_ne (by omega), g2]
        · intro h'
          dsimp only at h' ⊢
          have := g11 (by omega)
          exact ⟨this.1, this.2.nearest⟩
    · intro h3
      dsimp only
      rw [hget _ (by omega) (by omega), List.getElem?_set_ne (by omega)]
      exact h.first (by omega)
  · have hm1 : ¬ minK ≤ 1 := by omega
    have hlt : s.med.length < k0 := by omega
    obtain ⟨g1, ⟨i, g2, g3⟩, g4, g5, g6, g7, g8, g9, g10, g11⟩ := h.ret hlt
    have hfin : dynFinishP d n maxiter minK s =
        ⟨s.bestLoss, s.retAssi, s.retIter, s.retSwaps, s.retMeds, s.retLoss⟩ := by
      simp only [dynFinishP, hm2, hm1, if_false]
    rw [hfin]
    refine ⟨⟨List.mem_of_getElem? g2, h.bnd, g4, g5, g6, g7, by dsimp only; omega, g9, g10, ?_⟩,
      fun _ => h.first hlt⟩
    intro h'
    dsimp only at h' ⊢
    have := g11 (by omega)
    exact ⟨this.1, this.2.nearest⟩

theorem dynLoopP_ok [LawfulAdd N L] {n k0 minK : Nat} {d : Nat → Nat → N} (hd : Dissim n d)
    (hn : n ≤ u32Max) (hn0 : 0 < n) (hku : k0 < u32Max) {mat : Mat N} (hm : IsMatrix mat n d) (maxiter : Nat)
    {F : L} {fuel : Nat} {s : DynState N L} (hs : DynInv n d k0 minK F s)
    (hF : s.med.length = k0 → F = toSilhouette (dynSwapP d n maxiter s).1.loss n) :
    DynInv n d k0 minK F (dynLoopP d n maxiter minK fuel s) := by
  induction fuel generalizing s with
  | zero => exact hs
  | succ fuel ih =>
    unfold dynLoopP
    split
    · rename_i hc
      refine ih (dynRoundP_inv hd hn hn0 hku hm maxiter hF hs hc.1 hc.2) fun h' => ?_
      have := (dynRound_eq hm hn0 hku hs.shape hc.1 hc.2 maxiter).2.2.1
      have := hs.shape.le
      omega
    · exact hs

theorem dynmscP_ok [LawfulAdd N L] {mat : Mat N} {n : Nat} {d : Nat → Nat → N} (hm : IsMatrix mat n d)
    (hd : Dissim n d) {med : List Nat} (hv : ValidMeds n med) (hnd : med.Nodup) (hk : 2 ≤ med.length)
    {minK : Nat} (h1 : 1 ≤ minK) (hmk : minK ≤ med.length) (maxiter : Nat) :
    DynOk n d med.length minK (dynmscP L d n med minK maxiter) ∧
      (3 ≤ med.length → (dynmscP L d n med minK maxiter).losses[med.length - minK]? =
        some (fastermscP L d n med maxiter).loss) := by
  have hn0 : 0 < n := lt_of_lt_of_le hv.sizes.pos hv.sizes.le
  have hi := dynInitP_inv (L := L) hd hv hnd hk minK
    (toSilhouette (dynSwapP d n maxiter (dynInitP L d n med minK)).1.loss n)
  have hl := dynLoopP_ok hd hv.sizes.n_le hn0 hv.sizes.k_lt hm maxiter (fuel := med.length) hi (fun _ => rfl)
  have he := (dynLoop_eq (L := L) hm hn0 hv.sizes.k_lt maxiter (fuel := med.length)
    (dynInitP_shape d hv hk minK) le_rfl).2.2
  have hf := dynFinishP_ok hd hv.sizes.n_le maxiter hl he hmk h1
  refine ⟨hf.1, fun h3 => ?_⟩
  rw [fastermscP_many d n h3, mscResultP]
  have := hf.2 h3
  rw [dynSwapP_init] at this
  exact this

end level3

end KMedoids
