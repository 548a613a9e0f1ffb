import Verif.Proofs.BitLoss
import Verif.Proofs.MscLoops
import Verif.Proofs.MscK2

/-!
# FasterMSC, FastMSC and PAMMEDSIL with an arbitrary loss arithmetic

Level 2: linearly ordered distances, nothing known about the arithmetic of the loss.
-/

set_option linter.unusedSectionVars false

namespace KMedoids

variable {N L : Type} [LinearOrder N] [Zero N] [RDist N] [LawfulDist N] [RLoss L] [RFrom N L]
open RFrom (conv)

/-- What object `o` contributes to the loss: its smallest over its second smallest distance to a medoid. -/
def silTerm (L : Type) [RLoss L] [RFrom N L] (d : Nat → Nat → N) (med : List Nat) (o : Nat) : L :=
  match sortedDist d o med with
  | a :: b :: _ => if a = 0 then RLoss.zero else RLoss.div (conv a) (conv b)
  | _ => RLoss.zero

/-- The contributions, in the order of the objects. -/
def silTerms (L : Type) [RLoss L] [RFrom N L] (n : Nat) (d : Nat → Nat → N) (med : List Nat) : List L :=
  (List.range n).map (silTerm L d med)

theorem mscLoss_term {d : Nat → Nat → N} {med : List Nat} {o : Nat} {a b : N} (h : TwoMin (med.map (d o)) a b)
    (ha : 0 ≤ a) : mscLoss L a b = silTerm L d med o := by
  obtain ⟨rest, hs⟩ := h.sorted
  have hab := h.mem.2.2
  unfold silTerm sortedDist
  rw [hs]
  unfold mscLoss
  simp only [LawfulDist.isZero_eq, Bool.or_eq_true, decide_eq_true_eq]
  by_cases h0 : a = 0
  · simp [h0]
  · have hb : b ≠ 0 := (lt_of_lt_of_le (lt_of_le_of_ne ha (Ne.symm h0)) hab).ne'
    simp [h0, hb]

theorem silTerm_zero {d : Nat → Nat → N} {med : List Nat} {o : Nat} {a b : N}
    (h : TwoMin (med.map (d o)) a b) (ha : a = 0) : silTerm L d med o = RLoss.zero := by
  obtain ⟨rest, hs⟩ := h.sorted
  unfold silTerm sortedDist
  rw [hs]
  simp [ha]

/-! ## three or more medoids, and PAMMEDSIL -/

/-- Invariant of medoids, cache and loss. -/
structure MInvA (n k : Nat) (d : Nat → Nat → N) (med : List Nat) (data : List (Reco N)) (loss : L) : Prop where
  medLen : med.length = k
  medRange : ∀ m ∈ med, m < n
  nodup : med.Nodup
  cache : MCache n d med data
  loss : loss = leftSum (silTerms L n d med)

theorem MCache.near_nonneg {n : Nat} {d : Nat → Nat → N} (hd : Dissim n d) {med : List Nat}
    {data : List (Reco N)} (h : MCache n d med data) (hr : ∀ m ∈ med, m < n) {p : Reco N × Nat}
    (hp : p ∈ data.zipIdx) : 0 ≤ p.1.near.d := by
  have ht := (h.recs p hp)
  obtain ⟨m, hm, e⟩ := List.mem_map.mp ht.twoMin.mem.1
  rw [← e]
  exact hd.nonneg _ _ (h.len ▸ mem_zipIdx_lt hp) (hr m hm)

theorem mscLossP_leftSum {n : Nat} {d : Nat → Nat → N} (hd : Dissim n d) {med : List Nat}
    {data : List (Reco N)} (h : MCache n d med data) (hr : ∀ m ∈ med, m < n) :
    mscLossP L data = leftSum (silTerms L n d med) := by
  rw [mscLossP, sumP_leftSum, ← map_zipIdx_fst data (fun r => mscLoss L r.near.d r.seco.d), silTerms, ← h.len,
    ← zipIdx_snd_range data (silTerm L d med)]
  congr 1
  exact List.map_congr_left fun p hp => mscLoss_term (h.recs p hp).twoMin (h.near_nonneg hd hr hp)

theorem mscSwapSumP_leftSum {n : Nat} {d : Nat → Nat → N} (hd : Dissim n d) {med : List Nat}
    {data : List (Reco N)} (h : MCache n d med data) (hr : ∀ m ∈ med, m < n) {j : Nat} (hj : j ∈ med) :
    mscSwapSumP L j data = leftSum (silTerms L n d med) := by
  rw [mscSwapSumP, sumP_leftSum, silTerms, ← h.len, ← zipIdx_snd_range data (silTerm L d med)]
  congr 1
  refine List.map_congr_left fun p hp => ?_
  unfold mscSwapLossP
  split
  · rename_i hpj
    obtain ⟨m, hm⟩ := List.mem_iff_getElem?.mp hj
    have ht := h.recs p hp
    have ho := h.own m p.2 p.1 (by rw [hpj]; exact hm) (mem_zipIdx_get hp)
    have hpn : p.2 < n := h.len ▸ mem_zipIdx_lt hp
    have hz : p.1.near.d = 0 := by
      rw [← ht.near_d, ho, medDist_get hm, hpj, hd.diag _ (hpj ▸ hpn)]
    exact (silTerm_zero ht.twoMin hz).symm
  · exact mscLoss_term (h.recs p hp).twoMin (h.near_nonneg hd hr hp)

theorem MInvA.init {n : Nat} {d : Nat → Nat → N} (hd : Dissim n d) {med : List Nat} (hv : ValidMeds n med)
    (hnd : med.Nodup) (hk : 2 ≤ med.length) :
    MInvA n med.length d med (mscInitDataP d n med) (mscLossP L (mscInitDataP d n med)) :=
  ⟨rfl, hv.range, hnd, mscInitDataP_cache hd hv hnd hk,
    mscLossP_leftSum hd (mscInitDataP_cache hd hv hnd hk) hv.range⟩

theorem MInvA.swap {n k : Nat} {d : Nat → Nat → N} (hd : Dissim n d) (hku : k < u32Max) {med : List Nat}
    {data : List (Reco N)} {loss : L} (h : MInvA n k d med data loss) {b j : Nat} (hb : b < k) (hj : j < n)
    (hjm : j ∉ med) :
    MInvA n k d (med.set b j) (mscSwapDataP d med data b j) (mscSwapSumP L j (mscSwapDataP d med data b j)) := by
  have hb' : b < med.length := h.medLen ▸ hb
  have hc := mscSwapDataP_cache hd (by rw [h.medLen]; exact hku) h.medRange hb' hj hjm h.cache
  have hr := set_range h.medRange (b := b) hj
  refine ⟨by simp [h.medLen], hr, nodup_set h.nodup hjm, hc, ?_⟩
  exact mscSwapSumP_leftSum hd hc hr (mem_set_self hb' j)

/-- Invariant of FasterMSC. -/
structure MSCA (n k : Nat) (d : Nat → Nat → N) (s : MSCState N L) : Prop where
  inv : MInvA n k d s.med s.data s.loss
  remLen : s.rem.length = k

theorem mscCandP_A {n k : Nat} {d : Nat → Nat → N} (hd : Dissim n d) (hk : 1 ≤ k) (hku : k < u32Max)
    {s s' : MSCState N L} {j : Nat} (hj : j < n) (hs : MSCA n k d s) (hc : mscCandP d s j = some s') :
    MSCA n k d s' := by
  unfold mscCandP at hc
  by_cases hown : mscOwnP s.med s.data j = true
  · simp [hown] at hc
  · have hjm : j ∉ s.med := fun h => hown ((hs.inv.cache.ownP hj).mpr h)
    simp only [hown, Bool.false_eq_true, if_false] at hc
    split at hc
    · cases hc
    · have hb := mscFbsP_lt d (rem := s.rem) s.data j (by rw [hs.remLen]; exact hk)
      rw [hs.remLen] at hb
      cases hc
      exact ⟨hs.inv.swap hd hku hb hj hjm, by simp [mscSwapP, mscRemP_length, hs.remLen]⟩

theorem mscLoopP_A {n : Nat} {d : Nat → Nat → N} (hd : Dissim n d) {med : List Nat} (hv : ValidMeds n med)
    (hnd : med.Nodup) (hk : 2 ≤ med.length) (maxiter : Nat) :
    MSCA n med.length d (mscLoopP d n maxiter 0 (mscInitP L d n med)).1 := by
  refine (loopG_inv (MSCA n med.length d) (fun s hs => ?_) (fuel := maxiter) (iter := 0)
    (s := mscInitP L d n med) ⟨MInvA.init hd hv hnd hk, mscRemP_length _ _⟩).1
  refine passG_inv (MSCA n med.length d) (fun s j s' hj hs hc => ?_) hs
  exact mscCandP_A hd (by omega) hv.sizes.k_lt (List.mem_range.mp hj) hs hc

/-- What FastMSC and PAMMEDSIL report, before it is turned into a silhouette: the loss of the final medoids,
or, if the last exchange did not lower the computed loss, the loss before that exchange. -/
def SilUpToLast (n : Nat) (d : Nat → Nat → N) (med : List Nat) (loss : L) : Prop :=
  loss = leftSum (silTerms L n d med) ∨
    ∃ (before : List Nat) (b j : Nat), (∀ m ∈ before, m < n) ∧ b < before.length ∧ j < n ∧ med = before.set b j ∧
      loss = leftSum (silTerms L n d before) ∧ rlt (leftSum (silTerms L n d med)) loss = false

/-- Invariant of FastMSC and PAMMEDSIL after the last exchange. -/
structure MPEnd (n k : Nat) (d : Nat → Nat → N) (s : MPState N L) : Prop where
  medLen : s.med.length = k
  medRange : ∀ m ∈ s.med, m < n
  nodup : s.med.Nodup
  cache : MCache n d s.med s.data
  loss : SilUpToLast n d s.med s.loss

/-- A scan result that will be used is a real exchange. -/
def ScanMaxSound (n k : Nat) (d : Nat → Nat → N) (scan : List Nat → List (Reco N) → L × Nat × Nat) : Prop :=
  ∀ med data, MCache n d med data → rgt (scan med data).1 RLoss.zero = true →
    (scan med data).2.1 < k ∧ (scan med data).2.2 < n ∧ (scan med data).2.2 ∉ med

theorem rge_not_rlt {a b : L} (h : rge a b = true) : rlt a b = false := by
  unfold rge rlt at *
  cases hc : pcmp a b with
  | none => simp [hc] at h
  | some o => cases o <;> simp_all

theorem mpStepP_A {n k : Nat} {d : Nat → Nat → N} (hd : Dissim n d) (hku : k < u32Max)
    {scan : List Nat → List (Reco N) → L × Nat × Nat} (hscan : ScanMaxSound n k d scan)
    {s s' : MPState N L} {b : Bool} (hs : MInvA n k d s.med s.data s.loss)
    (h : mpStepP d scan s = some (s', b)) :
    MPEnd n k d s' ∧ (b = false → MInvA n k d s'.med s'.data s'.loss) := by
  unfold mpStepP at h
  dsimp only at h
  split at h
  · rename_i hgt
    obtain ⟨h1, h2, h3⟩ := hscan _ _ hs.cache hgt
    have hsw := hs.swap hd hku h1 h2 h3
    split at h
    · rename_i hge
      cases h
      refine ⟨⟨hsw.medLen, hsw.medRange, hsw.nodup, hsw.cache, Or.inr ⟨s.med, _, _, hs.medRange,
        hs.medLen ▸ h1, h2, rfl, hs.loss, ?_⟩⟩, fun h => by cases h⟩
      rw [← hsw.loss]
      exact rge_not_rlt hge
    · cases h
      exact ⟨⟨hsw.medLen, hsw.medRange, hsw.nodup, hsw.cache, Or.inl hsw.loss⟩, fun _ => hsw⟩
  · cases h

theorem mpLoop_A {n : Nat} {d : Nat → Nat → N} (hd : Dissim n d) {med : List Nat} (hv : ValidMeds n med)
    (hnd : med.Nodup) (hk : 2 ≤ med.length) {scan : List Nat → List (Reco N) → L × Nat × Nat}
    (hscan : ScanMaxSound n med.length d scan) (maxiter : Nat) :
    MPEnd n med.length d (loopB (mpStepP d scan) maxiter 0 (mpInitP L d n med)).1 :=
  loopB_inv2 (fun s : MPState N L => MInvA n med.length d s.med s.data s.loss) (MPEnd n med.length d)
    (fun s hs => ⟨hs.medLen, hs.medRange, hs.nodup, hs.cache, Or.inl hs.loss⟩)
    (fun _ _ hs h => (mpStepP_A hd hv.sizes.k_lt hscan hs h).2 rfl)
    (fun _ _ _ hs h => (mpStepP_A hd hv.sizes.k_lt hscan hs h).1)
    (MInvA.init hd hv hnd hk)

theorem fastmscScanP_sound [SaneZero L] (n : Nat) {k : Nat} (hk : 1 ≤ k) (d : Nat → Nat → N) :
    ScanMaxSound n k d (fastmscScanP d n k : _ → _ → L × Nat × Nat) := by
  intro med data hc hgt
  obtain ⟨h1, h2⟩ := fastmscScanP_ok d n hk med data hgt
  refine ⟨h1, h2, fun hmem => ?_⟩
  rcases scanMax_fold (mscFbsP d (mscRemP L data k) data) (mscOwnP med data) (List.range n)
    (RLoss.zero, usizeMax, usizeMax) with h | ⟨j, hj, hown, h⟩
  · rw [fastmscScanP, h] at hgt; simp [rgt_zero_zero] at hgt
  · rw [fastmscScanP, h] at hmem
    rw [(hc.ownP (List.mem_range.mp hj)).mpr hmem] at hown
    cases hown

theorem pmsScanP_sound [SaneZero L] (n k : Nat) (d : Nat → Nat → N) :
    ScanMaxSound n k d (pmsScanP d n k : _ → _ → L × Nat × Nat) := by
  intro med data hc hgt
  obtain ⟨h1, h2⟩ := pmsScanP_ok d n k med data hgt
  refine ⟨h1, h2, fun hmem => ?_⟩
  rcases scanMax_fold (pmsFbsP L d k data) (mscOwnP med data) (List.range n)
    (RLoss.zero, k, usizeMax) with h | ⟨j, hj, hown, h⟩
  · rw [pmsScanP, h] at hgt; simp [rgt_zero_zero] at hgt
  · rw [pmsScanP, h] at hmem
    rw [(hc.ownP (List.mem_range.mp hj)).mpr hmem] at hown
    cases hown

/-! ## two medoids -/

/-- Invariant of the functions for two medoids. The medoids need not be distinct. -/
structure K2A (n : Nat) (d : Nat → Nat → N) (m0 m1 : Nat) (s : K2State N L) : Prop where
  med : s.med = [m0, m1]
  r0 : m0 < n
  r1 : m1 < n
  data : s.data = (List.range n).map fun o => (d o m0, d o m1)
  assiLen : s.assi.length = n
  nearest : ∀ o m : Nat, s.assi[o]? = some m → IsNearest d [m0, m1] o m
  loss : s.loss = leftSum (silTerms L n d [m0, m1])

theorem twoMin_pair {d : Nat → Nat → N} {m0 m1 o : Nat} (h : d o m0 ≤ d o m1) :
    TwoMin ([m0, m1].map (d o)) (d o m0) (d o m1) := ⟨[], List.Perm.refl _, h, by simp⟩

theorem twoMin_pair' {d : Nat → Nat → N} {m0 m1 o : Nat} (h : d o m1 ≤ d o m0) :
    TwoMin ([m0, m1].map (d o)) (d o m1) (d o m0) := ⟨[], List.Perm.swap _ _ _, h, by simp⟩

theorem k2InitP_A {n : Nat} {d : Nat → Nat → N} (hd : Dissim n d) {m0 m1 : Nat} (h0 : m0 < n) (h1 : m1 < n)
    (last : Nat) : K2A n d m0 m1 (k2InitP L d n m0 m1 last) := by
  refine ⟨rfl, h0, h1, ?_, by simp [k2InitP], fun o m hm => ?_, ?_⟩
  · simp only [k2InitP, List.map_map]
    refine List.map_congr_left fun o _ => ?_
    simp only [Function.comp, k2InitRecP]
    split <;> rfl
  · simp only [k2InitP, List.map_map, List.getElem?_map, Option.map_eq_some_iff] at hm
    obtain ⟨o', ho', rfl⟩ := hm
    obtain ⟨rfl, -⟩ := range_get ho'
    simp only [Function.comp, k2InitRecP, rltN, decide_eq_true_eq]
    split
    · rename_i h; exact isNearest_pair0 h.le
    · rename_i h; exact isNearest_pair1 (not_lt.mp h)
  · simp only [k2InitP, sumP_leftSum, List.map_map, silTerms]
    congr 1
    refine List.map_congr_left fun o ho => ?_
    have ho := List.mem_range.mp ho
    simp only [Function.comp, k2InitRecP, rltN, decide_eq_true_eq]
    split
    · rename_i h; exact mscLoss_term (twoMin_pair h.le) (hd.nonneg _ _ ho h0)
    · rename_i h; exact mscLoss_term (twoMin_pair' (not_lt.mp h)) (hd.nonneg _ _ ho h1)

theorem k2SwapP_A {n : Nat} {d : Nat → Nat → N} (hd : Dissim n d) {m0 m1 : Nat} {s : K2State N L}
    (h : K2A n d m0 m1 s) {b j : Nat} (hb : b < 2) (hj : j < n) (last : Nat) :
    K2A n d (k2M0 b j m0) (k2M1 b j m1) (k2SwapP d s b j last) := by
  have hb2 : b = 0 ∨ b = 1 := by omega
  have hrec : ∀ o a, o < n → let r := k2SwapRecP L d b j ((a, (d o m0, d o m1)), o)
      r.2.1 = (d o (k2M0 b j m0), d o (k2M1 b j m1)) ∧
      r.2.2 = silTerm L d [k2M0 b j m0, k2M1 b j m1] o ∧
      IsNearest d [k2M0 b j m0, k2M1 b j m1] o r.1 := by
    intro o a ho
    have hdj := hd.diag j hj
    have g0 := hd.nonneg o m0 ho h.r0
    have g1 := hd.nonneg o m1 ho h.r1
    have gj := hd.nonneg o j ho hj
    rcases hb2 with rfl | rfl
    · simp only [k2SwapRecP, k2M0, k2M1, if_true]
      by_cases hoj : o = j
      · subst hoj
        have hle : d o o ≤ d o m1 := by rw [hdj]; exact g1
        simp only [if_true, hdj, zeroN]
        exact ⟨trivial, (silTerm_zero (twoMin_pair hle) hdj).symm, isNearest_pair0 hle⟩
      · simp only [hoj, if_false, rltN, reqN, Bool.or_eq_true, decide_eq_true_eq, Bool.and_eq_true, beq_iff_eq]
        split
        · rename_i hc
          have hle : d o j ≤ d o m1 := by
            rcases hc with hc | hc
            · exact hc.le
            · exact hc.1.le
          exact ⟨rfl, mscLoss_term (twoMin_pair hle) gj, isNearest_pair0 hle⟩
        · rename_i hc
          have hle : d o m1 ≤ d o j := not_lt.mp fun h => hc (Or.inl h)
          exact ⟨rfl, mscLoss_term (twoMin_pair' hle) g1, isNearest_pair1 hle⟩
    · simp only [k2SwapRecP, k2M0, k2M1, if_false, Nat.one_ne_zero]
      by_cases hoj : o = j
      · subst hoj
        have hle : d o o ≤ d o m0 := by rw [hdj]; exact g0
        simp only [if_true, hdj, zeroN]
        exact ⟨trivial, (silTerm_zero (twoMin_pair' hle) hdj).symm, isNearest_pair1 hle⟩
      · simp only [hoj, if_false, rltN, reqN, Bool.or_eq_true, decide_eq_true_eq, Bool.and_eq_true, beq_iff_eq]
        split
        · rename_i hc
          have hle : d o j ≤ d o m0 := by
            rcases hc with hc | hc
            · exact hc.le
            · exact hc.1.le
          exact ⟨rfl, mscLoss_term (twoMin_pair' hle) gj, isNearest_pair1 hle⟩
        · rename_i hc
          have hle : d o m0 ≤ d o j := not_lt.mp fun h => hc (Or.inl h)
          exact ⟨rfl, mscLoss_term (twoMin_pair hle) g0, isNearest_pair0 hle⟩
  have hzip : (s.assi.zip s.data).zipIdx =
      (List.range n).map fun o => ((s.assi.getD o 0, (d o m0, d o m1)), o) := by
    rw [← zipIdx_map_range n (fun o => (s.assi.getD o 0, (d o m0, d o m1)))]
    congr 1
    rw [h.data]
    apply List.ext_getElem?
    intro i
    by_cases hi : i < n
    · rw [List.getElem?_eq_getElem (by simp [h.assiLen, hi]), List.getElem?_eq_getElem (by simp [hi])]
      simp [h.assiLen, hi]
    · rw [List.getElem?_eq_none (by simp [h.assiLen]; omega), List.getElem?_eq_none (by simp; omega)]
  refine ⟨?_, ?_, ?_, ?_, ?_, fun o m hm => ?_, ?_⟩
  · rw [← k2_set hb, ← h.med]; rfl
  · unfold k2M0; split
    · exact hj
    · exact h.r0
  · unfold k2M1; split
    · exact h.r1
    · exact hj
  · simp only [k2SwapP, hzip, List.map_map]
    refine List.map_congr_left fun o ho => ?_
    exact (hrec o _ (List.mem_range.mp ho)).1
  · simp [k2SwapP, hzip]
  · simp only [k2SwapP, hzip, List.map_map, List.getElem?_map, Option.map_eq_some_iff] at hm
    obtain ⟨o', ho', rfl⟩ := hm
    obtain ⟨rfl, ho⟩ := range_get ho'
    exact (hrec o' _ ho).2.2
  · simp only [k2SwapP, hzip, List.map_map, sumP_leftSum, silTerms]
    congr 1
    refine List.map_congr_left fun o ho => ?_
    exact (hrec o _ (List.mem_range.mp ho)).2.1

/-- Invariant for some pair of medoids. -/
def K2Any (n : Nat) (d : Nat → Nat → N) (s : K2State N L) : Prop := ∃ m0 m1, K2A n d m0 m1 s

theorem K2Any.shape {n : Nat} {d : Nat → Nat → N} {s : K2State N L} (h : K2Any n d s) : K2Shape n s := by
  obtain ⟨m0, m1, h⟩ := h
  refine ⟨by simp [h.med], by simp [h.med, h.r0, h.r1], h.assiLen, fun a ha => ?_, by simp [h.data]⟩
  obtain ⟨i, hi, e⟩ := List.mem_iff_getElem.mp ha
  exact (h.nearest i a (by rw [List.getElem?_eq_getElem hi, e])).lt

theorem K2Any.nearest {n : Nat} {d : Nat → Nat → N} {s : K2State N L} (h : K2Any n d s) :
    ∀ o m : Nat, s.assi[o]? = some m → IsNearest d s.med o m := by
  obtain ⟨m0, m1, h⟩ := h
  rw [h.med]; exact h.nearest

theorem K2Any.loss {n : Nat} {d : Nat → Nat → N} {s : K2State N L} (h : K2Any n d s) :
    s.loss = leftSum (silTerms L n d s.med) := by
  obtain ⟨m0, m1, h⟩ := h
  rw [h.loss, h.med]

theorem K2Any.swap {n : Nat} {d : Nat → Nat → N} (hd : Dissim n d) {s : K2State N L} (h : K2Any n d s)
    {b j : Nat} (hb : b < 2) (hj : j < n) (last : Nat) : K2Any n d (k2SwapP d s b j last) := by
  obtain ⟨m0, m1, h⟩ := h
  exact ⟨_, _, k2SwapP_A hd h hb hj last⟩

theorem k2LoopP_A {n : Nat} {d : Nat → Nat → N} (hd : Dissim n d) {m0 m1 : Nat} (h0 : m0 < n) (h1 : m1 < n)
    (maxiter : Nat) : K2Any n d (k2LoopP d n maxiter 0 (k2InitP L d n m0 m1 n)).1 := by
  refine (loopG_inv (K2Any n d) (fun s hs => ?_) (fuel := maxiter) (iter := 0)
    (s := k2InitP L d n m0 m1 n) ⟨m0, m1, k2InitP_A hd h0 h1 n⟩).1
  refine passG_inv (K2Any n d) (fun s j s' hj hs hc => ?_) hs
  unfold k2CandP at hc
  split at hc
  · cases hc
  · dsimp only at hc
    split at hc
    · cases hc
    · cases hc
      exact hs.swap hd (k2FbsP_lt d s.data j) (List.mem_range.mp hj) j

/-- As `K2Any`, after the last exchange of FastMSC. -/
structure K2End (n : Nat) (d : Nat → Nat → N) (s : K2State N L) : Prop where
  medLen : s.med.length = 2
  medRange : ∀ m ∈ s.med, m < n
  assiLen : s.assi.length = n
  nearest : ∀ o m : Nat, s.assi[o]? = some m → IsNearest d s.med o m
  loss : SilUpToLast n d s.med s.loss

theorem fastmscK2StepP_A {n : Nat} {d : Nat → Nat → N} (hd : Dissim n d) {s s' : K2State N L} {b : Bool}
    (hs : K2Any n d s) (hok : K2StepOk n 2 d s) (h : fastmscK2StepP d n 2 s = some (s', b)) :
    K2End n d s' ∧ (b = false → K2Any n d s') := by
  unfold fastmscK2StepP at h
  dsimp only at h
  split at h
  · cases h
  · rename_i hlt
    have hf := hok (by simpa using hlt)
    have hsw := hs.swap hd hf.1 hf.2 s.lastswap
    split at h
    · rename_i hge
      cases h
      refine ⟨⟨hsw.shape.medLen, hsw.shape.medRange, hsw.shape.assiLen, hsw.nearest, Or.inr
        ⟨s.med, _, _, hs.shape.medRange, ?_, hf.2, rfl, hs.loss, ?_⟩⟩, fun h => by cases h⟩
      · rw [hs.shape.medLen]; exact hf.1
      · rw [hsw.loss] at hge
        simpa [k2SwapP] using hge
    · cases h
      exact ⟨⟨hsw.shape.medLen, hsw.shape.medRange, hsw.shape.assiLen, hsw.nearest, Or.inl hsw.loss⟩,
        fun _ => hsw⟩

theorem fastmscK2Loop_A {n : Nat} {d : Nat → Nat → N} (hd : Dissim n d) {m0 m1 : Nat} (h0 : m0 < n)
    (h1 : m1 < n) (hok : ∀ s : K2State N L, K2Any n d s → K2StepOk n 2 d s) (maxiter : Nat) :
    K2End n d (loopB (fastmscK2StepP d n 2) maxiter 0 (k2InitP L d n m0 m1 0)).1 :=
  loopB_inv2 (K2Any n d) (K2End n d)
    (fun s hs => ⟨hs.shape.medLen, hs.shape.medRange, hs.shape.assiLen, hs.nearest, Or.inl hs.loss⟩)
    (fun _ _ hs h => (fastmscK2StepP_A hd hs (hok _ hs) h).2 rfl)
    (fun _ _ _ hs h => (fastmscK2StepP_A hd hs (hok _ hs) h).1)
    ⟨m0, m1, k2InitP_A hd h0 h1 0⟩

end KMedoids
