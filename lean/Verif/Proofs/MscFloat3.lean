import Verif.Proofs.MscFloat2
import Verif.Proofs.LoopErr

/-!
# FasterMSC, FastMSC and PAMMEDSIL in floating point: the loops

Instances of the general facts about loops (`Proofs/Quiet.lean`, `Proofs/LoopErr.lean`).
-/

set_option linter.unusedSectionVars false

namespace KMedoids

open RFrom (conv)

variable {N L K : Type} [LinearOrder N] [Zero N] [RDist N] [LawfulDist N] [RLoss L] [RFrom N L]
  [Field K] [LinearOrder K] [IsStrictOrderedRing K]
variable {fin : L → Prop} {val : L → K} {u B eta v : K} {C : Nat}

/-- Sums of `n` terms of a gain do not overflow. -/
structure GainFits (u B : K) (n : Nat) : Prop where
  pos : 0 < n
  big : (1 + u) ^ (2 * n + 2) * (9 * n) ≤ B

namespace GainFits

theorem one_le_n {n : Nat} (h : GainFits u B n) : (1 : K) ≤ n := by exact_mod_cast h.pos

theorem pow_le (M : StdModel fin val u B) {n e : Nat} (h : GainFits u B n) (he : e ≤ 2 * n + 2) {A : K} (h0 : 0 ≤ A)
    (hA : A ≤ 9 * n) : (1 + u) ^ e * A ≤ B :=
  (mul_le_mul (M.pow_mono he) hA h0 (by linarith [M.one_le_pow (2 * n + 2)])).trans h.big

theorem one_le_B (M : StdModel fin val u B) {n : Nat} (h : GainFits u B n) : 1 ≤ B := by
  have := h.pow_le M (e := 0) (A := 1) (by omega) zero_le_one (by linarith [h.one_le_n])
  simpa using this

end GainFits

/-- The error of a computed sum of ratios. -/
def sumErr (u : K) (n : Nat) : K := ((1 + u) ^ n - 1) * n

theorem sumErr_gain (M : StdModel fin val u B) {n : Nat} (hv : 0 ≤ v) :
    0 ≤ n * gainErr u v n ∧ 2 * sumErr u n ≤ n * gainErr u v n ∧
      sumErr u n + ((1 + u) ^ (n + 1) - 1) * n ≤ n * gainErr u v n := by
  have h1 := M.one_le_pow n
  have h2 := M.pow_mono (show n ≤ 2 * n + 2 by omega)
  have h3 := M.pow_mono (show n + 1 ≤ 2 * n + 2 by omega)
  have hn : (0 : K) ≤ n := Nat.cast_nonneg n
  unfold gainErr sumErr
  refine ⟨mul_nonneg hn (by linarith), ?_, ?_⟩
  · rw [show 2 * (((1 + u) ^ n - 1) * (n : K)) = n * (2 * ((1 + u) ^ n - 1)) by ring]
    exact mul_le_mul_of_nonneg_left (by linarith) hn
  · rw [show ((1 + u) ^ n - 1) * (n : K) + ((1 + u) ^ (n + 1) - 1) * n = n * (((1 + u) ^ n - 1) + ((1 + u) ^ (n + 1) - 1))
      by ring]
    exact mul_le_mul_of_nonneg_left (by linarith) hn

theorem sumErr_pms (M : StdModel fin val u B) {n : Nat} : 0 ≤ n * pmsErr u n ∧ 2 * sumErr u n ≤ n * pmsErr u n := by
  have h1 := M.one_le_pow n
  have h2 := M.pow_mono (show n ≤ n + 2 by omega)
  have hn : (0 : K) ≤ n := Nat.cast_nonneg n
  unfold pmsErr sumErr
  refine ⟨mul_nonneg hn (by linarith), ?_⟩
  rw [show 2 * (((1 + u) ^ n - 1) * (n : K)) = n * (2 * ((1 + u) ^ n - 1)) by ring]
  exact mul_le_mul_of_nonneg_left (by linarith) hn

section loops
variable {n k : Nat} {d : Nat → Nat → N}

theorem leftSum_near (Q : QuotLoss N fin val u B eta C) (hf : GainFits u B n) (hd : Dissim n d) {med : List Nat}
    (hk : 2 ≤ med.length) (hr : ∀ m ∈ med, m < n) :
    Appr fin val u n (exactRatios N val n d med) n (leftSum (silTerms L n d med)) :=
  leftSum_ratios Q hf.pos hd hk hr (hf.one_le_B Q.loss.std)
    (hf.pow_le Q.loss.std (by omega) (Nat.cast_nonneg n) (by linarith [hf.one_le_n]))

/-! ## FasterMSC -/

/-- Object `j` is a medoid, or the computed gain is not positive. -/
def MscRej (d : Nat → Nat → N) (s : MSCState N L) (j : Nat) : Prop :=
  j ∈ s.med ∨ rle (mscFbsP d s.rem s.data j).1 RLoss.zero = true

theorem mscCand_rej (hd : Dissim n d) (hk : 1 ≤ k) (hku : k < u32Max) :
    CandRej n (fun s : MSCState N L => MSCA n k d s ∧ s.rem = mscRemP L s.data k) (·.lastswap) (·.nSwaps) (mscCandP d)
      (MscRej d) where
  none s j hs hj h := by
    unfold mscCandP at h
    by_cases h2 : mscOwnP s.med s.data j = true
    · exact Or.inl ((hs.1.inv.cache.ownP hj).mp h2)
    · simp only [h2, if_false, Bool.false_eq_true] at h
      by_cases h3 : rle (mscFbsP d s.rem s.data j).1 RLoss.zero = true
      · exact Or.inr h3
      · simp [h3] at h
  some s j s' hs hj h := by
    have hA := mscCandP_A hd hk hku hj hs.1 h
    unfold mscCandP at h
    by_cases h2 : mscOwnP s.med s.data j = true
    · simp [h2] at h
    · simp only [h2, if_false, Bool.false_eq_true] at h
      by_cases h3 : rle (mscFbsP d s.rem s.data j).1 RLoss.zero = true
      · simp [h3] at h
      · simp only [h3, if_false, Bool.false_eq_true, Option.some.injEq] at h
        subst h
        have hb : (mscFbsP d s.rem s.data j).2 < s.med.length := by
          have := mscFbsP_lt d (rem := s.rem) s.data j (by rw [hs.1.remLen]; exact hk)
          rwa [hs.1.remLen, ← hs.1.inv.medLen] at this
        exact ⟨⟨hA, by simp [mscSwapP, hs.1.remLen]⟩, rfl, rfl, Or.inl (mem_set_self hb j)⟩

theorem rle_iff (M : StdModel fin val u B) {a b : L} (ha : fin a) (hb : fin b) : rle a b = true ↔ val a ≤ val b := by
  have h1 := M.pcmp a b ha hb
  unfold rle
  rw [h1]
  rcases lt_trichotomy (val a) (val b) with h | h | h
  · simp [compare_lt_iff_lt.mpr h, h.le]
  · simp [compare_eq_iff_eq.mpr h, h.le]
  · simp [compare_gt_iff_gt.mpr h, h]

theorem mscGain (Q : QuotLoss N fin val u B eta C) (hf : GainFits u B n) (hd : Dissim n d) (hk : 3 ≤ k) (hku : k < u32Max)
    (hv0 : 0 ≤ v) (hv : v ≤ 1 / 2) (hS : SumErr val v n d) {s : MSCState N L} (hs : MSCA n k d s)
    (hrem : s.rem = mscRemP L s.data k) {j : Nat} (hj : j < n) :
    GainOk fin val (n * gainErr u v n) n d s.med j (mscFbsP d s.rem s.data j) := by
  have hml := hs.inv.medLen
  rw [hrem, ← hml]
  exact mscFbsP_float Q hd hs.inv.cache hs.inv.medRange (by omega) (by omega) hv0 hv hS hj hf.big

theorem mscCand_step (Q : QuotLoss N fin val u B eta C) (hf : GainFits u B n) (hd : Dissim n d) (hk : 3 ≤ k)
    (hku : k < u32Max) (hv0 : 0 ≤ v) (hv : v ≤ 1 / 2) (hS : SumErr val v n d) {s s' : MSCState N L} (hs : MSCA n k d s)
    (hrem : s.rem = mscRemP L s.data k) {j : Nat} (hj : j < n) (h : mscCandP d s j = some s') :
    exactRatios N val n d s'.med ≤ exactRatios N val n d s.med + n * gainErr u v n := by
  have g := mscGain Q hf hd hk hku hv0 hv hS hs hrem hj
  unfold mscCandP at h
  by_cases h2 : mscOwnP s.med s.data j = true
  · simp [h2] at h
  · simp only [h2, if_false, Bool.false_eq_true] at h
    by_cases h3 : rle (mscFbsP d s.rem s.data j).1 RLoss.zero = true
    · simp [h3] at h
    · simp only [h3, if_false, Bool.false_eq_true, Option.some.injEq] at h
      subst h
      rw [rle_iff Q.loss.std g.fin Q.loss.std.zero_fin, Q.loss.std.zero, not_le] at h3
      exact g.high h3

/-! ## FastMSC and PAMMEDSIL -/

/-- What is known of a scan for the best exchange. -/
def ScanGainF (fin : L → Prop) (val : L → K) (E : K) (n k : Nat) (d : Nat → Nat → N)
    (scan : List Nat → List (Reco N) → L × Nat × Nat) : Prop :=
  ∀ med data, MCache n d med data → (∀ m ∈ med, m < n) → med.length = k →
    (rgt (scan med data).1 RLoss.zero = true → exactRatios N val n d (med.set (scan med data).2.1 (scan med data).2.2) ≤
      exactRatios N val n d med + E) ∧
    (rgt (scan med data).1 RLoss.zero = false → ∀ b < k, ∀ j < n, j ∉ med →
      exactRatios N val n d med ≤ exactRatios N val n d (med.set b j) + E)

theorem scanMax_float (M : StdModel fin val u B) (fbs : Nat → L × Nat) (own : Nat → Bool) {js : List Nat}
    (hf : ∀ j ∈ js, own j = false → fin (fbs j).1) (b0 : Nat × Nat) :
    fin (js.foldl (scanMaxP fbs own) (RLoss.zero, b0)).1 ∧
      ∀ j ∈ js, own j = false → val (fbs j).1 ≤ val (js.foldl (scanMaxP fbs own) (RLoss.zero, b0)).1 := by
  induction js using List.reverseRecOn with
  | nil => exact ⟨M.zero_fin, by simp⟩
  | append_singleton js j ih =>
    obtain ⟨i1, i2⟩ := ih fun x hx => hf x (by simp [hx])
    rw [List.foldl_append, List.foldl_cons, List.foldl_nil]
    generalize js.foldl (scanMaxP fbs own) ((RLoss.zero : L), b0) = best at *
    unfold scanMaxP
    by_cases ho : own j = true
    · simp only [ho, if_true]
      refine ⟨i1, fun x hx hxo => ?_⟩
      rcases List.mem_append.mp hx with hx | hx
      · exact i2 x hx hxo
      · rw [List.mem_singleton.mp hx, ho] at hxo; cases hxo
    · have ho : own j = false := by simpa using ho
      have hj := hf j (by simp) ho
      simp only [ho, if_false, Bool.false_eq_true]
      by_cases hc : rle (fbs j).1 best.1 = true
      · simp only [hc, if_true]
        refine ⟨i1, fun x hx hxo => ?_⟩
        rcases List.mem_append.mp hx with hx | hx
        · exact i2 x hx hxo
        · rw [List.mem_singleton.mp hx]; exact (rle_iff M hj i1).mp hc
      · simp only [hc, if_false, Bool.false_eq_true]
        have hlt := not_le.mp fun h => hc ((rle_iff M hj i1).mpr h)
        refine ⟨hj, fun x hx hxo => ?_⟩
        rcases List.mem_append.mp hx with hx | hx
        · exact (i2 x hx hxo).trans hlt.le
        · rw [List.mem_singleton.mp hx]

/-- A scan that evaluates the candidates well. -/
theorem scanGain_of (M : StdModel fin val u B) {E : K} {fbs : List (Reco N) → Nat → L × Nat} {b0 : Nat × Nat}
    (hfbs : ∀ med data j, MCache n d med data → (∀ m ∈ med, m < n) → med.length = k → j < n →
      GainOk fin val E n d med j (fbs data j)) :
    ScanGainF fin val E n k d fun med data =>
      (List.range n).foldl (scanMaxP (fbs data) (mscOwnP med data)) (RLoss.zero, b0) := by
  intro med data hc hr hl
  have hg := fun j (hj : j ∈ List.range n) => hfbs med data j hc hr hl (List.mem_range.mp hj)
  obtain ⟨f1, f2⟩ := scanMax_float M (fbs data) (mscOwnP med data) (fun j hj _ => (hg j hj).fin) b0
  dsimp only
  refine ⟨fun hgt => ?_, fun hgt b hb j hj hjm => ?_⟩
  · have hp := (DivModel.rgt_iff M f1 M.zero_fin).mp hgt
    rw [M.zero] at hp
    rcases scanMax_fold (fbs data) (mscOwnP med data) (List.range n) ((RLoss.zero : L), b0) with h | ⟨j, hj, -, h⟩
    · rw [h, M.zero] at hp; exact absurd hp (lt_irrefl _)
    · rw [h] at hp ⊢
      exact (hg j hj).high hp
  · have hj' := List.mem_range.mpr hj
    have hown : mscOwnP med data j = false := by
      rw [Bool.eq_false_iff]; exact fun h => hjm ((hc.ownP hj).mp h)
    have hle : ¬ val (RLoss.zero : L) < val ((List.range n).foldl (scanMaxP (fbs data) (mscOwnP med data)) (RLoss.zero, b0)).1 :=
      fun h => Bool.false_ne_true (hgt.symm.trans ((DivModel.rgt_iff M f1 M.zero_fin).mpr h))
    rw [M.zero, not_lt] at hle
    exact (hg j hj').low ((f2 j hj' hown).trans hle) b (hl ▸ hb)

theorem fastmscScan_gain (Q : QuotLoss N fin val u B eta C) (hf : GainFits u B n) (hd : Dissim n d) (hk : 3 ≤ k)
    (hku : k < u32Max) (hv0 : 0 ≤ v) (hv : v ≤ 1 / 2) (hS : SumErr val v n d) :
    ScanGainF fin val (n * gainErr u v n) n k d (fastmscScanP (L := L) d n k) :=
  scanGain_of Q.loss.std (fbs := fun data => mscFbsP d (mscRemP L data k) data) fun med data j hc hr hl hj => by
    subst hl
    exact mscFbsP_float Q hd hc hr hk hku hv0 hv hS hj hf.big

theorem pmsScan_gain (Q : QuotLoss N fin val u B eta C) (hf : GainFits u B n) (hd : Dissim n d) (hk : 2 ≤ k)
    (hku : k < u32Max) : ScanGainF fin val (n * pmsErr u n) n k d (pmsScanP (L := L) d n k) :=
  scanGain_of Q.loss.std (fbs := fun data => pmsFbsP L d k data) fun med data j hc hr hl hj => by
    subst hl
    exact pmsFbsP_float Q hd hc hr hk hku hj (hf.pow_le Q.loss.std (by omega) (by positivity) (by linarith [hf.one_le_n]))

/-- One step of FastMSC and PAMMEDSIL. -/
theorem mpStep_err (Q : QuotLoss N fin val u B eta C) (hf : GainFits u B n) (hd : Dissim n d) (hk : 2 ≤ k)
    (hku : k < u32Max) {scan : List Nat → List (Reco N) → L × Nat × Nat} (hscan : ScanMaxSound n k d scan) {E : K}
    (hg : ScanGainF fin val E n k d scan) {s s' : MPState N L} {b : Bool} (hs : MInvA n k d s.med s.data s.loss)
    (h : mpStepP d scan s = some (s', b)) :
    StepErr val (fun s : MPState N L => MInvA n k d s.med s.data s.loss) (·.nSwaps)
      (fun s => exactRatios N val n d s.med) (·.loss) E s s' b := by
  unfold mpStepP at h
  dsimp only at h
  split at h
  · rename_i hgt
    obtain ⟨h1, h2, h3⟩ := hscan _ _ hs.cache hgt
    have hsw := hs.swap hd hku h1 h2 h3
    have hle := (hg _ _ hs.cache hs.medRange hs.medLen).1 hgt
    have a1 := leftSum_near Q hf hd (by rw [hs.medLen]; exact hk) hs.medRange
    have a2 := leftSum_near Q hf hd (by rw [hsw.medLen]; exact hk) hsw.medRange
    rw [← hs.loss] at a1
    rw [← hsw.loss] at a2
    split at h
    · rename_i hge
      cases h
      refine ⟨rfl, hle, fun h => (by cases h), fun _ => ⟨rfl, ⟨_, _, _, 0⟩, hsw, rfl, ?_⟩⟩
      exact (Q.loss.std.rge_iff a2.fin a1.fin).mp hge
    · rename_i hge
      cases h
      refine ⟨rfl, hle, fun _ => ⟨hsw, ?_⟩, fun h => by cases h⟩
      exact not_le.mp fun h => hge ((Q.loss.std.rge_iff a2.fin a1.fin).mpr h)
  · cases h

theorem mpStep_none {scan : List Nat → List (Reco N) → L × Nat × Nat} {s : MPState N L} (h : mpStepP d scan s = none) :
    rgt (scan s.med s.data).1 RLoss.zero = false := by
  unfold mpStepP at h
  dsimp only at h
  split at h
  · split at h <;> cases h
  · rename_i hc; simpa using hc

/-! ## Two medoids -/

/-- Object `j` is a medoid, or the computed sum of ratios is not smaller. -/
def K2Rej (d : Nat → Nat → N) (s : K2State N L) (j : Nat) : Prop :=
  j ∈ s.med ∨ rge (k2FbsP L d s.data j).1 s.loss = true

theorem k2Own_mem {med assi : List Nat} {j : Nat} (h : k2OwnP med assi j = true) : j ∈ med := by
  unfold k2OwnP at h
  split at h
  · exact List.mem_of_getElem? (beq_iff_eq.mp h)
  · cases h

theorem k2Cand_rej (hd : Dissim n d) :
    CandRej n (K2Any (L := L) n d) (·.lastswap) (·.nSwaps) (k2CandP d) (K2Rej d) where
  none s j hs hj h := by
    unfold k2CandP at h
    by_cases h2 : k2OwnP s.med s.assi j = true
    · exact Or.inl (k2Own_mem h2)
    · simp only [h2, if_false, Bool.false_eq_true] at h
      by_cases h3 : rge (k2FbsP L d s.data j).1 s.loss = true
      · exact Or.inr h3
      · simp [h3] at h
  some s j s' hs hj h := by
    unfold k2CandP at h
    by_cases h2 : k2OwnP s.med s.assi j = true
    · simp [h2] at h
    · simp only [h2, if_false, Bool.false_eq_true] at h
      by_cases h3 : rge (k2FbsP L d s.data j).1 s.loss = true
      · simp [h3] at h
      · simp only [h3, if_false, Bool.false_eq_true, Option.some.injEq] at h
        subst h
        have hb := k2FbsP_lt (L := L) d s.data j
        refine ⟨hs.swap hd hb hj j, rfl, rfl, Or.inl ?_⟩
        exact mem_set_self (by rw [hs.shape.medLen]; exact hb) j

theorem K2Any.near (Q : QuotLoss N fin val u B eta C) (hf : GainFits u B n) (hd : Dissim n d) {s : K2State N L}
    (hs : K2Any n d s) : Appr fin val u n (exactRatios N val n d s.med) n s.loss := by
  rw [hs.loss]
  exact leftSum_near Q hf hd (by rw [hs.shape.medLen]) hs.shape.medRange

theorem k2_float (Q : QuotLoss N fin val u B eta C) (hf : GainFits u B n) (hd : Dissim n d) {s : K2State N L}
    (hs : K2Any n d s) {j : Nat} (hj : j < n) :
    fin (k2FbsP L d s.data j).1 ∧
      (∀ m < 2, val (k2FbsP L d s.data j).1 ≤ exactRatios N val n d (s.med.set m j) + ((1 + u) ^ (n + 1) - 1) * n) ∧
      |val (k2FbsP L d s.data j).1 - exactRatios N val n d (s.med.set (k2FbsP L d s.data j).2 j)| ≤
        ((1 + u) ^ (n + 1) - 1) * n :=
  k2Fbs_float Q hd hs hj (hf.one_le_B Q.loss.std)
      (hf.pow_le Q.loss.std (by omega) (Nat.cast_nonneg n) (by linarith [hf.one_le_n]))

/-- A computed sum of ratios that is not smaller. -/
theorem k2_low (Q : QuotLoss N fin val u B eta C) (hf : GainFits u B n) (hd : Dissim n d) (hv0 : 0 ≤ v) {s : K2State N L}
    (hs : K2Any n d s) {j : Nat} (hj : j < n) (h : val s.loss ≤ val (k2FbsP L d s.data j).1) {b : Nat} (hb : b < 2) :
    exactRatios N val n d s.med ≤ exactRatios N val n d (s.med.set b j) + n * gainErr u v n := by
  obtain ⟨-, f2, -⟩ := k2_float Q hf hd hs hj
  have h1 := f2 b hb
  have h2 := (abs_le.mp (hs.near Q hf hd).err).1
  have h3 := (sumErr_gain (n := n) Q.loss.std hv0).2.2
  unfold sumErr at h3
  linarith

/-- A computed sum of ratios that is smaller. -/
theorem k2_high (Q : QuotLoss N fin val u B eta C) (hf : GainFits u B n) (hd : Dissim n d) (hv0 : 0 ≤ v) {s : K2State N L}
    (hs : K2Any n d s) {j : Nat} (hj : j < n) (h : val (k2FbsP L d s.data j).1 ≤ val s.loss) :
    exactRatios N val n d (s.med.set (k2FbsP L d s.data j).2 j) ≤ exactRatios N val n d s.med + n * gainErr u v n := by
  obtain ⟨-, -, f3⟩ := k2_float Q hf hd hs hj
  have h1 := (abs_le.mp f3).1
  have h2 := (abs_le.mp (hs.near Q hf hd).err).2
  have h3 := (sumErr_gain (n := n) Q.loss.std hv0).2.2
  unfold sumErr at h3
  linarith

theorem k2Cand_step (Q : QuotLoss N fin val u B eta C) (hf : GainFits u B n) (hd : Dissim n d) (hv0 : 0 ≤ v)
    {s s' : K2State N L} (hs : K2Any n d s) {j : Nat} (hj : j < n) (h : k2CandP d s j = some s') :
    exactRatios N val n d s'.med ≤ exactRatios N val n d s.med + n * gainErr u v n := by
  unfold k2CandP at h
  by_cases h2 : k2OwnP s.med s.assi j = true
  · simp [h2] at h
  · simp only [h2, if_false, Bool.false_eq_true] at h
    by_cases h3 : rge (k2FbsP L d s.data j).1 s.loss = true
    · simp [h3] at h
    · simp only [h3, if_false, Bool.false_eq_true, Option.some.injEq] at h
      subst h
      obtain ⟨f1, -, -⟩ := k2_float Q hf hd hs hj
      rw [Q.loss.std.rge_iff f1 (hs.near Q hf hd).fin, not_le] at h3
      exact k2_high Q hf hd hv0 hs hj h3.le

/-- The scan of FastMSC for two medoids. -/
theorem k2Scan_float (Q : QuotLoss N fin val u B eta C) (hf : GainFits u B n) (hd : Dissim n d) (hn3 : 3 ≤ n)
    (hn : n ≤ u32Max) {s : K2State N L} (hs : K2Any n d s) :
    (∃ j < n, fastmscK2ScanP d n 2 s = ((k2FbsP L d s.data j).1, (k2FbsP L d s.data j).2, j)) ∧
      ∀ j < n, j ∉ s.med → val (fastmscK2ScanP d n 2 s).1 ≤ val (k2FbsP L d s.data j).1 := by
  have M := Q.loss.std
  have hg : ∀ js : List Nat, (∀ j ∈ js, j < n) →
      let best := js.foldl (fun (best : L × Nat × Nat) (j : Nat) =>
        if k2OwnP s.med s.assi j then best
        else
          let r := k2FbsP L d s.data j
          if best.2.2 == usizeMax || rlt r.1 best.1 then (r.1, r.2, j) else best) (RLoss.zero, 2, usizeMax)
      (best.2.2 ≠ usizeMax → ∃ j < n, best = ((k2FbsP L d s.data j).1, (k2FbsP L d s.data j).2, j)) ∧
      ∀ j ∈ js, k2OwnP s.med s.assi j = false → best.2.2 ≠ usizeMax ∧ val best.1 ≤ val (k2FbsP L d s.data j).1 := by
    intro js
    induction js using List.reverseRecOn with
    | nil => intro _; simp
    | append_singleton js j ih =>
      intro hjs
      obtain ⟨i1, i2⟩ := ih (fun x hx => hjs x (by simp [hx]))
      have hj : j < n := hjs j (by simp)
      have hju : j ≠ usizeMax := by unfold u32Max at hn; unfold usizeMax; omega
      rw [List.foldl_append, List.foldl_cons, List.foldl_nil]
      generalize js.foldl _ ((RLoss.zero : L), 2, usizeMax) = best at *
      dsimp only at *
      by_cases hown : k2OwnP s.med s.assi j = true
      · simp only [hown, if_true]
        refine ⟨i1, fun x hx hxo => ?_⟩
        rcases List.mem_append.mp hx with hx | hx
        · exact i2 x hx hxo
        · rw [List.mem_singleton.mp hx, hown] at hxo; cases hxo
      · simp only [hown, Bool.false_eq_true, if_false]
        by_cases hu : best.2.2 = usizeMax
        · simp only [hu, beq_self_eq_true, Bool.true_or, if_true]
          refine ⟨fun _ => ⟨j, hj, rfl⟩, fun x hx hxo => ⟨hju, ?_⟩⟩
          rcases List.mem_append.mp hx with hx | hx
          · exact absurd hu (i2 x hx hxo).1
          · rw [List.mem_singleton.mp hx]
        · have hu' : (best.2.2 == usizeMax) = false := by simpa using hu
          simp only [hu', Bool.false_or]
          obtain ⟨j0, hj0, e⟩ := i1 hu
          have hfin : fin best.1 := by rw [e]; exact (k2_float Q hf hd hs hj0).1
          have hfj := (k2_float Q hf hd hs hj).1
          by_cases hlt : rlt (k2FbsP L d s.data j).1 best.1 = true
          · simp only [hlt, if_true]
            have hlt' := (M.rlt_iff hfj hfin).mp hlt
            refine ⟨fun _ => ⟨j, hj, rfl⟩, fun x hx hxo => ⟨hju, ?_⟩⟩
            rcases List.mem_append.mp hx with hx | hx
            · exact hlt'.le.trans (i2 x hx hxo).2
            · rw [List.mem_singleton.mp hx]
          · simp only [hlt, Bool.false_eq_true, if_false]
            have hlt' := not_lt.mp fun h => hlt ((M.rlt_iff hfj hfin).mpr h)
            refine ⟨i1, fun x hx hxo => ⟨hu, ?_⟩⟩
            rcases List.mem_append.mp hx with hx | hx
            · exact (i2 x hx hxo).2
            · rw [List.mem_singleton.mp hx]; exact hlt'
  obtain ⟨g1, g2⟩ := hg (List.range n) fun j hj => List.mem_range.mp hj
  obtain ⟨j0, hj0, ho0⟩ := exists_not_own hn3 hs.shape
  refine ⟨g1 (g2 j0 (List.mem_range.mpr hj0) ho0).1, fun j hj hjm => (g2 j (List.mem_range.mpr hj) ?_).2⟩
  rw [Bool.eq_false_iff]
  exact fun h => hjm (k2Own_mem h)

/-- One step of FastMSC for two medoids. -/
theorem k2Step_err (Q : QuotLoss N fin val u B eta C) (hf : GainFits u B n) (hd : Dissim n d) (hn3 : 3 ≤ n)
    (hn : n ≤ u32Max) (hv0 : 0 ≤ v) {s s' : K2State N L} {b : Bool} (hs : K2Any n d s)
    (h : fastmscK2StepP d n 2 s = some (s', b)) :
    StepErr val (K2Any (L := L) n d) (·.nSwaps) (fun s => exactRatios N val n d s.med) (·.loss) (n * gainErr u v n) s s' b := by
  have M := Q.loss.std
  obtain ⟨⟨j, hj, e⟩, -⟩ := k2Scan_float Q hf hd hn3 hn hs
  unfold fastmscK2StepP at h
  rw [e] at h
  dsimp only at h
  split at h
  · cases h
  · rename_i hlt
    have hb := k2FbsP_lt (L := L) d s.data j
    have hsw := hs.swap hd hb hj s.lastswap
    have hlt : rlt (k2FbsP L d s.data j).1 s.loss = true := by simpa using hlt
    have f1 := (hs.near Q hf hd).fin
    have f2 := (hsw.near Q hf hd).fin
    have hle := k2_high Q hf hd hv0 hs hj ((M.rlt_iff (k2_float Q hf hd hs hj).1 f1).mp hlt).le
    split at h
    · rename_i hge
      cases h
      refine ⟨rfl, hle, fun h => (by cases h), fun _ => ⟨rfl, _, hsw, rfl, ?_⟩⟩
      exact not_lt.mp fun h => by rw [(M.rlt_iff f2 f1).mpr h] at hge; simp at hge
    · rename_i hge
      cases h
      refine ⟨rfl, hle, fun _ => ⟨hsw, ?_⟩, fun h => by cases h⟩
      exact (M.rlt_iff f2 f1).mp (by simpa using hge)

theorem k2Step_none {s : K2State N L} (h : fastmscK2StepP d n 2 s = none) : rlt (fastmscK2ScanP d n 2 s).1 s.loss = false := by
  unfold fastmscK2StepP at h
  dsimp only at h
  split at h
  · rename_i hc; simpa using hc
  · split at h <;> cases h

end loops

end KMedoids
