import Verif.Proofs.MscFloat3
import Verif.Props.C67
import Verif.Props.C78

/-!
# C80: floating point runs of the medoid silhouette methods end in nearly local optima

In floating point arithmetic (`QuotLoss`) a run of FasterMSC whose last pass made no exchange, and a run of FastMSC or
PAMMEDSIL whose last iteration made no exchange, ends with medoids for which no exchange of a medoid for another object
improves the *exact* average medoid silhouette by more than a rounding error. The error of FastMSC and FasterMSC contains
the relative error `v` of the sum of two distances in the type of the distances: the code adds the distances before it
divides.
-/

set_option linter.unusedSectionVars false
set_option linter.overlappingInstances false

namespace KMedoids

variable {N L K : Type} [LinearOrder N] [Zero N] [RDist N] [LawfulDist N] [RLoss L] [RFrom N L]
  [Field K] [LinearOrder K] [IsStrictOrderedRing K]
open RFrom (conv)

variable {fin : L → Prop} {val : L → K} {u B eta v : K} {C : Nat}

/-- No exchange of a medoid for another object improves the exact average medoid silhouette by more than `E`. -/
def NearlyBest (val : L → K) (E : K) (n : Nat) (d : Nat → Nat → N) (med : List Nat) : Prop :=
  ∀ b < med.length, ∀ j < n, j ∉ med → exactMedSil N val n d (med.set b j) ≤ exactMedSil N val n d med + E

theorem nearlyBest_of {E : K} {n : Nat} (hn : 0 < n) {d : Nat → Nat → N} {med : List Nat}
    (h : ∀ b < med.length, ∀ j < n, j ∉ med →
      exactRatios N val n d med ≤ exactRatios N val n d (med.set b j) + n * E) : NearlyBest val E n d med := by
  intro b hb j hj hjm
  have hn' : (0 : K) < n := by exact_mod_cast hn
  have h1 := h b hb j hj hjm
  rw [exactMedSil_eq hn, exactMedSil_eq hn]
  have h2 := div_le_div_of_nonneg_right h1 hn'.le
  rw [add_div, mul_div_cancel_left₀ _ hn'.ne'] at h2
  linarith

/-! ## FasterMSC -/

/-- **C80, fastermsc.** `r0` is the result with the iteration limit `maxiter`, `r` the result with one more pass; the
additional pass was made (`nIter`) and exchanged nothing (`nSwap`). -/
theorem C80_fastermsc (Q : QuotLoss N fin val u B eta C) {mat : Mat N} {n : Nat} {d : Nat → Nat → N}
    (hm : IsMatrix mat n d) (hd : Dissim n d) {med : List Nat} (hv : ValidMeds n med) (hnd : med.Nodup)
    (hk : 2 ≤ med.length) (hf : GainFits u B n) (hv0 : 0 ≤ v) (hv1 : v ≤ 1 / 2)
    (hS : 3 ≤ med.length → SumErr val v n d) (maxiter : Nat) {r0 r : SwapResult L}
    (h0 : fastermsc L mat med maxiter = .ok r0) (hr : fastermsc L mat med (maxiter + 1) = .ok r)
    (hit : r.nIter = maxiter + 1) (hq : r.nSwap = r0.nSwap) : NearlyBest (N := N) val (gainErr u v n) n d r.med := by
  have M := Q.loss.std
  have hs : ∀ j ∈ List.range n, j < n := fun j hj => List.mem_range.mp hj
  rw [fastermsc_eq hm hv] at h0 hr
  cases h0; cases hr
  refine nearlyBest_of hf.pos fun b hb j hj hjm => ?_
  by_cases h2 : med.length = 2
  · obtain ⟨m0, m1, rfl⟩ := List.length_eq_two.mp h2
    have hI : K2Any n d (k2InitP L d n m0 m1 n) := ⟨m0, m1, k2InitP_A hd (hv.range m0 (by simp)) (hv.range m1 (by simp)) n⟩
    have hh : HistR (fun s : K2State N L => s.lastswap) (K2Rej d) (List.range n) (k2InitP L d n m0 m1 n) :=
      Or.inl fun h => lt_irrefl n (hs n h)
    obtain ⟨i1, i2⟩ := loopG_quiet (k2Cand_rej (L := L) hd) (loss := (·.loss)) hs List.nodup_range hI hh (fuel := maxiter)
      (iter := 0) (by rw [Nat.zero_add]; exact hit) hq
    rcases i2 j (List.mem_range.mpr hj) with h | h
    · exact absurd h hjm
    · refine k2_low Q hf hd hv0 i1 hj ?_ (hb.trans_eq i1.shape.medLen)
      exact (M.rge_iff (k2_float Q hf hd i1 hj).1 (i1.near Q hf hd).fin).mp h
  · have h3 : 3 ≤ med.length := by omega
    rw [fastermscP_many d n h3] at hit hq hjm hb ⊢
    rw [fastermscP_many d n h3] at hq
    have hI : MSCA n med.length d (mscInitP L d n med) ∧
        (mscInitP L d n med).rem = mscRemP L (mscInitP L d n med).data med.length :=
      ⟨⟨MInvA.init hd hv hnd hk, mscRemP_length _ _⟩, rfl⟩
    have hh : HistR (fun s : MSCState N L => s.lastswap) (MscRej d) (List.range n) (mscInitP L d n med) :=
      Or.inl fun h => lt_irrefl n (hs n h)
    obtain ⟨⟨i1, i2⟩, i3⟩ := loopG_quiet (mscCand_rej (L := L) hd (by omega) hv.sizes.k_lt) (loss := (·.loss)) hs
      List.nodup_range hI hh (fuel := maxiter) (iter := 0) (by rw [Nat.zero_add]; exact hit) hq
    have g := mscGain Q hf hd h3 hv.sizes.k_lt hv0 hv1 (hS h3) i1 i2 hj
    rcases i3 j (List.mem_range.mpr hj) with h | h
    · exact absurd h hjm
    · rw [rle_iff M g.fin M.zero_fin, M.zero] at h
      exact g.low h b hb

/-! ## FastMSC and PAMMEDSIL -/

/-- A quiet iteration of FastMSC or PAMMEDSIL. -/
theorem mpLoop_quiet (Q : QuotLoss N fin val u B eta C) {n : Nat} {d : Nat → Nat → N} (hf : GainFits u B n)
    (hd : Dissim n d) {med : List Nat} (hv : ValidMeds n med) (hnd : med.Nodup) (hk : 2 ≤ med.length)
    {scan : List Nat → List (Reco N) → L × Nat × Nat} (hscan : ScanMaxSound n med.length d scan) {E : K}
    (hg : ScanGainF fin val (n * E) n med.length d scan) (maxiter : Nat)
    (hq : (mpResultP n (loopB (mpStepP d scan) maxiter 0 (mpInitP L d n med))).nSwap <
      (mpResultP n (loopB (mpStepP d scan) maxiter 0 (mpInitP L d n med))).nIter) :
    NearlyBest (N := N) val E n d (mpResultP n (loopB (mpStepP d scan) maxiter 0 (mpInitP L d n med))).med := by
  obtain ⟨i1, i2⟩ := loopB_quiet (I := fun s : MPState N L => MInvA n med.length d s.med s.data s.loss)
    (nSwaps := fun s : MPState N L => s.nSwaps) (step := mpStepP d scan) (fuel := maxiter) (iter := 0)
    (s := mpInitP L d n med)
    (fun s s' b hs h => by
      have g := mpStep_err Q hf hd hk hv.sizes.k_lt hscan hg hs h
      exact ⟨g.count, fun hb => (g.go hb).1⟩)
    (MInvA.init hd hv hnd hk) (by simpa [mpResultP, mpInitP] using hq)
  refine nearlyBest_of hf.pos fun b hb j hj hjm => ?_
  exact (hg _ _ i1.cache i1.medRange i1.medLen).2 (mpStep_none i2) b (hb.trans_eq i1.medLen) j hj hjm

/-- **C80, fastmsc.** -/
theorem C80_fastmsc (Q : QuotLoss N fin val u B eta C) {mat : Mat N} {n : Nat} {d : Nat → Nat → N}
    (hm : IsMatrix mat n d) (hd : Dissim n d) {med : List Nat} (hv : ValidMeds n med) (hnd : med.Nodup)
    (hk : 2 ≤ med.length) (hn2 : ¬ (med.length = 2 ∧ n = 2)) (hf : GainFits u B n) (hv0 : 0 ≤ v) (hv1 : v ≤ 1 / 2)
    (hS : 3 ≤ med.length → SumErr val v n d) (maxiter : Nat) {r : SwapResult L}
    (hr : fastmsc L mat med maxiter = .ok r) (hq : r.nSwap < r.nIter) :
    NearlyBest (N := N) val (gainErr u v n) n d r.med := by
  have M := Q.loss.std
  have := Q.loss.saneZero
  have hle := hv.sizes.le
  by_cases h2 : med.length = 2
  · obtain ⟨m0, m1, rfl⟩ := List.length_eq_two.mp h2
    have g0 := hv.range m0 (by simp)
    have g1 := hv.range m1 (by simp)
    have hn3 : 3 ≤ n := by omega
    rw [fastmsc_eq_2 (fastmscK2_eq3 (L := L) hm hv.sizes.n_le hn3 g0 g1 maxiter).1] at hr
    cases hr
    obtain ⟨i1, i2⟩ := loopB_quiet (I := K2Any (L := L) n d) (nSwaps := fun s : K2State N L => s.nSwaps)
      (step := fastmscK2StepP d n 2) (fuel := maxiter) (iter := 0) (s := k2InitP L d n m0 m1 0)
      (fun s s' b hs h => by
        have g := k2Step_err Q hf hd hn3 hv.sizes.n_le hv0 hs h
        exact ⟨g.count, fun hb => (g.go hb).1⟩)
      ⟨m0, m1, k2InitP_A hd g0 g1 0⟩ (by
        rw [Nat.add_zero, show (k2InitP L d n m0 m1 0).nSwaps = 0 from rfl, Nat.zero_add]; exact hq)
    refine nearlyBest_of hf.pos fun b hb j hj hjm => ?_
    obtain ⟨⟨j0, hj0, e⟩, c2⟩ := k2Scan_float Q hf hd hn3 hv.sizes.n_le i1
    have h1 := c2 j hj hjm
    have h3 := k2Step_none i2
    have hlow : ¬ val (fastmscK2ScanP d n 2 _).1 < val _ := fun h => Bool.false_ne_true (h3.symm.trans
      ((M.rlt_iff (by rw [e]; exact (k2_float Q hf hd i1 hj0).1) (i1.near Q hf hd).fin).mpr h))
    exact k2_low Q hf hd hv0 i1 hj ((not_lt.mp hlow).trans h1) (hb.trans_eq i1.shape.medLen)
  · have h3 : 3 ≤ med.length := by omega
    rw [fastmsc_eq_ne2 hm hv h2, fastmscP_many d n h3] at hr
    cases hr
    exact mpLoop_quiet Q hf hd hv hnd hk (fastmscScanP_sound n (by omega) d)
      (fastmscScan_gain Q hf hd h3 hv.sizes.k_lt hv0 hv1 (hS h3)) maxiter hq

/-- **C80, pammedsil_swap.** -/
theorem C80_pammedsil_swap (Q : QuotLoss N fin val u B eta C) {mat : Mat N} {n : Nat} {d : Nat → Nat → N}
    (hm : IsMatrix mat n d) (hd : Dissim n d) {med : List Nat} (hv : ValidMeds n med) (hnd : med.Nodup)
    (hk : 2 ≤ med.length) (hf : GainFits u B n) (maxiter : Nat) {r : SwapResult L}
    (hr : pammedsilSwap L mat med maxiter = .ok r) (hq : r.nSwap < r.nIter) :
    NearlyBest (N := N) val (pmsErr u n) n d r.med := by
  have := Q.loss.saneZero
  rw [pammedsilSwap_eq hm hv] at hr
  cases hr
  rw [pammedsilSwapP, pmsOptP_many d n (s := mpInitP L d n med) hk] at hq ⊢
  exact mpLoop_quiet Q hf hd hv hnd hk (pmsScanP_sound n med.length d) (pmsScan_gain Q hf hd hk hv.sizes.k_lt) maxiter hq

/-! ## IEEE 754 -/

/-- `u32` distances whose sums do not overflow: no error. -/
theorem sumErr_u32 {n : Nat} {d : Nat → Nat → UInt32} (h : ∀ x < n, ∀ y < n, (d x y).toNat < 2 ^ 31) :
    SumErr (Ieee.val (F := binary64)) 0 n d := by
  intro o x y ho hx hy
  have h1 := h o ho x hx
  have h2 := h o ho y hy
  have h3 : (d o x + d o y).toNat = (d o x).toNat + (d o y).toNat := by
    rw [UInt32.toNat_add]; omega
  show |((d o x + d o y).toNat : ℚ) - ((d o x).toNat + (d o y).toNat)| ≤ _
  rw [h3]
  simp

theorem sumErr_finite (F : Fmt) {x y : Finite F} (h : 0 ≤ x.q + y.q) :
    |F.rnd (x.q + y.q) - (x.q + y.q)| ≤ 1 / 2 ^ F.p * (x.q + y.q) := by
  obtain ⟨a, ha⟩ := F.rnd_grid x.q
  obtain ⟨b, hb⟩ := F.rnd_grid y.q
  rw [x.rep] at ha
  rw [y.rep] at hb
  have := F.rnd_err (x := x.q + y.q) ⟨a + b, by rw [ha, hb]; push_cast; ring⟩
  rwa [abs_of_nonneg h] at this

/-- `f32` distances. The last assumption excludes overflow of a sum of two distances, which our `Finite` does not model. -/
theorem sumErr_f32 {n : Nat} {d : Nat → Nat → Finite binary32} (hd : Dissim n d)
    (_h : ∀ x < n, ∀ y < n, (d x y).q ≤ 2 ^ 126) : SumErr (Ieee.val (F := binary64)) (1 / 2 ^ 24) n d := by
  intro o x y ho hx hy
  have h1 : 0 ≤ (d o x).q := hd.nonneg o x ho hx
  have h2 : 0 ≤ (d o y).q := hd.nonneg o y ho hy
  exact sumErr_finite binary32 (add_nonneg h1 h2)

/-- `f64` distances. The last assumption excludes overflow of a sum of two distances, which our `Finite` does not model. -/
theorem sumErr_f64 {n : Nat} {d : Nat → Nat → Finite binary64} (hd : Dissim n d)
    (_h : ∀ x < n, ∀ y < n, (d x y).q ≤ 2 ^ 1022) : SumErr (Ieee.val (F := binary64)) (1 / 2 ^ 53) n d := by
  intro o x y ho hx hy
  have h1 : 0 ≤ (d o x).q := hd.nonneg o x ho hx
  have h2 : 0 ≤ (d o y).q := hd.nonneg o y ho hy
  exact sumErr_finite binary64 (add_nonneg h1 h2)

theorem gainErr_f64 {n : Nat} (hn : n ≤ u32Max) (v : ℚ) :
    gainErr (1 / 2 ^ 53 : ℚ) v n ≤ 18 * (n + 1) / 2 ^ 52 + 2 * v := by
  have := pow_f64 (e := 2 * n + 2) (le_trans (Nat.add_le_add_right (Nat.mul_le_mul_left 2 hn) 2) (by decide))
  unfold gainErr
  push_cast at this
  linarith

theorem pmsErr_f64 {n : Nat} (hn : n ≤ u32Max) : pmsErr (1 / 2 ^ 53 : ℚ) n ≤ 3 * (n + 2) / 2 ^ 52 := by
  have := pow_f64 (e := n + 2) (le_trans (Nat.add_le_add_right hn 2) (by decide))
  unfold pmsErr
  push_cast at this
  linarith

theorem gainFits64 {n : Nat} (h0 : 0 < n) (hn : n ≤ u32Max) : GainFits (1 / 2 ^ 53 : ℚ) (2 ^ 1023) n := by
  refine ⟨h0, ?_⟩
  have h1 := pow_f64 (e := 2 * n + 2) (le_trans (Nat.add_le_add_right (Nat.mul_le_mul_left 2 hn) 2) (by decide))
  have hn' : (n : ℚ) ≤ 2 ^ 32 := by
    have h : n ≤ 2 ^ 32 := hn.trans (by decide)
    exact_mod_cast h
  have hq : ((2 * n + 2 : ℕ) : ℚ) / 2 ^ 52 ≤ 1 := by
    rw [div_le_one (by norm_num)]
    push_cast
    linarith
  calc (1 + 1 / 2 ^ 53 : ℚ) ^ (2 * n + 2) * (9 * n) ≤ 2 * (16 * 2 ^ 32) :=
        mul_le_mul (by linarith) (by linarith [(Nat.cast_nonneg n : (0 : ℚ) ≤ n)]) (by positivity) (by norm_num)
    _ ≤ 2 ^ 1023 := by
      have : (2 : ℚ) * (16 * 2 ^ 32) = 2 ^ 37 := by norm_num
      rw [this]
      exact pow_le_pow_right₀ (by norm_num) (by norm_num)

theorem NearlyBest.mono {E E' : K} (h : E ≤ E') {n : Nat} {d : Nat → Nat → N} {med : List Nat}
    (hb : NearlyBest val E n d med) : NearlyBest val E' n d med :=
  fun b hb' j hj hjm => (hb b hb' j hj hjm).trans (by linarith)

section f64
variable [RFrom N (Ieee binary64)]
  (Q : QuotLoss N (Ieee.Fin (F := binary64)) Ieee.val (1 / 2 ^ 53) (2 ^ 1023) (2 ^ (-1075 : ℤ)) u32Max)
include Q

/-- **C80, fastermsc with `f64` losses.** `Q` holds for `u32`, `f32` and `f64` distances; `hS` with `v = 0` (`sumErr_u32`),
`v = 2 ^ -24` (`sumErr_f32`), `v = 2 ^ -53` (`sumErr_f64`), unless sums of two distances overflow. -/
theorem C80_fastermsc_f64 {mat : Mat N} {n : Nat} {d : Nat → Nat → N} (hm : IsMatrix mat n d) (hd : Dissim n d)
    {med : List Nat} (hv : ValidMeds n med) (hnd : med.Nodup) (hk : 2 ≤ med.length) {v : ℚ} (hv0 : 0 ≤ v) (hv1 : v ≤ 1 / 2)
    (hS : 3 ≤ med.length → SumErr (Ieee.val (F := binary64)) v n d) (maxiter : Nat) {r0 r : SwapResult (Ieee binary64)}
    (h0 : fastermsc (Ieee binary64) mat med maxiter = .ok r0) (hr : fastermsc (Ieee binary64) mat med (maxiter + 1) = .ok r)
    (hit : r.nIter = maxiter + 1) (hq : r.nSwap = r0.nSwap) :
    NearlyBest (N := N) (Ieee.val (F := binary64)) (18 * (n + 1) / 2 ^ 52 + 2 * v) n d r.med :=
  (C80_fastermsc Q hm hd hv hnd hk (gainFits64 (lt_of_lt_of_le hv.sizes.pos hv.sizes.le) hv.sizes.n_le) hv0 hv1 hS maxiter
    h0 hr hit hq).mono (gainErr_f64 hv.sizes.n_le v)

/-- **C80, fastmsc with `f64` losses.** -/
theorem C80_fastmsc_f64 {mat : Mat N} {n : Nat} {d : Nat → Nat → N} (hm : IsMatrix mat n d) (hd : Dissim n d)
    {med : List Nat} (hv : ValidMeds n med) (hnd : med.Nodup) (hk : 2 ≤ med.length) (hn2 : ¬ (med.length = 2 ∧ n = 2))
    {v : ℚ} (hv0 : 0 ≤ v) (hv1 : v ≤ 1 / 2)
    (hS : 3 ≤ med.length → SumErr (Ieee.val (F := binary64)) v n d) (maxiter : Nat) {r : SwapResult (Ieee binary64)}
    (hr : fastmsc (Ieee binary64) mat med maxiter = .ok r) (hq : r.nSwap < r.nIter) :
    NearlyBest (N := N) (Ieee.val (F := binary64)) (18 * (n + 1) / 2 ^ 52 + 2 * v) n d r.med :=
  (C80_fastmsc Q hm hd hv hnd hk hn2 (gainFits64 (lt_of_lt_of_le hv.sizes.pos hv.sizes.le) hv.sizes.n_le) hv0 hv1 hS maxiter
    hr hq).mono (gainErr_f64 hv.sizes.n_le v)

/-- **C80, pammedsil_swap with `f64` losses.** -/
theorem C80_pammedsil_swap_f64 {mat : Mat N} {n : Nat} {d : Nat → Nat → N} (hm : IsMatrix mat n d) (hd : Dissim n d)
    {med : List Nat} (hv : ValidMeds n med) (hnd : med.Nodup) (hk : 2 ≤ med.length) (maxiter : Nat)
    {r : SwapResult (Ieee binary64)} (hr : pammedsilSwap (Ieee binary64) mat med maxiter = .ok r) (hq : r.nSwap < r.nIter) :
    NearlyBest (N := N) (Ieee.val (F := binary64)) (3 * (n + 2) / 2 ^ 52) n d r.med :=
  (C80_pammedsil_swap Q hm hd hv hnd hk (gainFits64 (lt_of_lt_of_le hv.sizes.pos hv.sizes.le) hv.sizes.n_le) maxiter
    hr hq).mono (pmsErr_f64 hv.sizes.n_le)

end f64

/-! ## Non-vacuity -/

/-- A small bound for the sums of the distances. -/
theorem silU_small : ∀ x < 5, ∀ y < 5, (silU x y).toNat < 2 ^ 31 := by decide +kernel

/-- Three medoids: the second pass exchanges nothing. -/
example : NearlyBest (N := UInt32) (Ieee.val (F := binary64)) (18 * ((5 : ℕ) + 1) / 2 ^ 52 + 2 * 0) 5 silU [3, 1, 2] :=
  C80_fastermsc_f64 quotLoss_u32_f64 silU_isMatrix silU_dissim (silU_valid3 (a := 0) (b := 1) (c := 2) (by decide)) (by decide)
    (by decide) le_rfl (by norm_num) (fun _ => sumErr_u32 silU_small) 1
    (r0 := ⟨.num (8106479329266893 / 9007199254740992), [1, 1, 2, 0, 0], 1, 1, [3, 1, 2]⟩)
    (r := ⟨.num (8106479329266893 / 9007199254740992), [1, 1, 2, 0, 0], 2, 1, [3, 1, 2]⟩)
    (by decide +kernel) (by decide +kernel) rfl rfl

/-- Two medoids. -/
example : NearlyBest (N := UInt32) (Ieee.val (F := binary64)) (18 * ((5 : ℕ) + 1) / 2 ^ 52 + 2 * 0) 5 silU [4, 1] :=
  C80_fastermsc_f64 quotLoss_u32_f64 silU_isMatrix silU_dissim (med := [0, 1])
    ⟨⟨by decide, by decide, by decide, by decide⟩, by decide⟩ (by decide)
    (by decide) le_rfl (by norm_num) (fun _ => sumErr_u32 silU_small) 1
    (r0 := ⟨.num (495261923307559 / 562949953421312), [1, 1, 1, 0, 0], 1, 3, [4, 1]⟩)
    (r := ⟨.num (495261923307559 / 562949953421312), [1, 1, 1, 0, 0], 2, 3, [4, 1]⟩)
    (by decide +kernel) (by decide +kernel) rfl rfl

example : NearlyBest (N := UInt32) (Ieee.val (F := binary64)) (18 * ((5 : ℕ) + 1) / 2 ^ 52 + 2 * 0) 5 silU [3, 1, 2] :=
  C80_fastmsc_f64 quotLoss_u32_f64 silU_isMatrix silU_dissim (silU_valid3 (a := 0) (b := 1) (c := 2) (by decide)) (by decide)
    (by decide) (by decide) le_rfl (by norm_num) (fun _ => sumErr_u32 silU_small) 9
    (r := ⟨.num (8106479329266893 / 9007199254740992), [1, 1, 2, 0, 0], 2, 1, [3, 1, 2]⟩)
    (by decide +kernel) (by decide)

example : NearlyBest (N := UInt32) (Ieee.val (F := binary64)) (18 * ((5 : ℕ) + 1) / 2 ^ 52 + 2 * 0) 5 silU [4, 1] :=
  C80_fastmsc_f64 quotLoss_u32_f64 silU_isMatrix silU_dissim (med := [0, 1])
    ⟨⟨by decide, by decide, by decide, by decide⟩, by decide⟩ (by decide)
    (by decide) (by decide) le_rfl (by norm_num) (fun _ => sumErr_u32 silU_small) 9
    (r := ⟨.num (495261923307559 / 562949953421312), [1, 1, 1, 0, 0], 2, 1, [4, 1]⟩)
    (by decide +kernel) (by decide)

example : NearlyBest (N := UInt32) (Ieee.val (F := binary64)) (3 * ((5 : ℕ) + 2) / 2 ^ 52) 5 silU [3, 1, 2] :=
  C80_pammedsil_swap_f64 quotLoss_u32_f64 silU_isMatrix silU_dissim (silU_valid3 (a := 0) (b := 1) (c := 2) (by decide))
    (by decide) (by decide) 9
    (r := ⟨.num (8106479329266893 / 9007199254740992), [1, 1, 2, 0, 0], 2, 1, [3, 1, 2]⟩)
    (by decide +kernel) (by decide)

/-- The conclusion is not trivial: the medoids at the start do not have the property. -/
example : ¬ NearlyBest (N := UInt32) (Ieee.val (F := binary64)) (18 * ((5 : ℕ) + 1) / 2 ^ 52 + 2 * 0) 5 silU [0, 1, 2] := by
  intro h
  have := h 0 (by decide) 3 (by decide) (by decide)
  revert this
  decide +kernel

end KMedoids
