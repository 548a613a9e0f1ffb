import Verif.Props.C80

/-!
# C81: FasterMSC, FastMSC and PAMMEDSIL under rounding hardly make the medoids worse

In floating point arithmetic an exchange can be accepted though it makes the *exact* average medoid silhouette worse, by at
most the rounding error `E` of C80. The medoids returned are at most `E` worse for each exchange made than the initial
medoids; moreover, since the loops stop when the computed loss does not decrease, they are at most `(n + 1) * E` (FasterMSC)
and `2 * E` (FastMSC, PAMMEDSIL) worse, whatever the number of exchanges. FastMSC and PAMMEDSIL return the loss before the
last exchange if that exchange did not lower the computed loss (C59); the value returned is accurate nevertheless.
-/

set_option linter.unusedSectionVars false
set_option linter.overlappingInstances false

namespace KMedoids

variable {N L K : Type} [LinearOrder N] [Zero N] [RDist N] [LawfulDist N] [RLoss L] [RFrom N L]
  [Field K] [LinearOrder K] [IsStrictOrderedRing K]
open RFrom (conv)

variable {fin : L → Prop} {val : L → K} {u B eta v : K} {C : Nat}

/-- `med'`, reached with `c` exchanges, is hardly worse than `med`: by at most `c * E`, and by at most `m * E`. -/
structure HardlyWorse (val : L → K) (E : K) (m : Nat) (n : Nat) (d : Nat → Nat → N) (med : List Nat) (c : Nat)
    (med' : List Nat) : Prop where
  swaps : exactMedSil N val n d med ≤ exactMedSil N val n d med' + c * E
  limit : exactMedSil N val n d med ≤ exactMedSil N val n d med' + m * E

theorem medSil_worse {E : K} {n : Nat} (hn : 0 < n) {d : Nat → Nat → N} {med med' : List Nat} {c : K}
    (h : exactRatios N val n d med' ≤ exactRatios N val n d med + c * (n * E)) :
    exactMedSil N val n d med ≤ exactMedSil N val n d med' + c * E := by
  have hn' : (0 : K) < n := by exact_mod_cast hn
  rw [exactMedSil_eq hn, exactMedSil_eq hn]
  have h2 := div_le_div_of_nonneg_right h hn'.le
  rw [show c * (n * E) = n * (c * E) by ring, add_div, mul_div_cancel_left₀ _ hn'.ne'] at h2
  linarith

theorem medSil_dist {E : K} {n : Nat} (hn : 0 < n) {d : Nat → Nat → N} {med med' : List Nat}
    (h : |exactRatios N val n d med - exactRatios N val n d med'| ≤ n * E) :
    |exactMedSil N val n d med - exactMedSil N val n d med'| ≤ E := by
  obtain ⟨h1, h2⟩ := abs_le.mp h
  have a := medSil_worse (val := val) (E := E) hn (d := d) (med := med) (med' := med') (c := 1) (by linarith)
  have b := medSil_worse (val := val) (E := E) hn (d := d) (med := med') (med' := med) (c := 1) (by linarith)
  rw [abs_le]
  constructor <;> linarith

/-! ## FasterMSC -/

/-- **C81, fastermsc.** -/
theorem C81_fastermsc (Q : QuotLoss N fin val u B eta C) {mat : Mat N} {n : Nat} {d : Nat → Nat → N}
    (hm : IsMatrix mat n d) (hd : Dissim n d) {med : List Nat} (hv : ValidMeds n med) (hnd : med.Nodup)
    (hk : 2 ≤ med.length) (hf : GainFits u B n) (hv0 : 0 ≤ v) (hv1 : v ≤ 1 / 2)
    (hS : 3 ≤ med.length → SumErr val v n d) (maxiter : Nat) {r : SwapResult L}
    (hr : fastermsc L mat med maxiter = .ok r) : HardlyWorse (N := N) val (gainErr u v n) (n + 1) n d med r.nSwap r.med := by
  have M := Q.loss.std
  have hs : ∀ j ∈ List.range n, j < n := fun j hj => List.mem_range.mp hj
  obtain ⟨hE, h2E, -⟩ := sumErr_gain (n := n) M hv0
  rw [fastermsc_eq hm hv] at hr
  cases hr
  by_cases h2 : med.length = 2
  · obtain ⟨m0, m1, rfl⟩ := List.length_eq_two.mp h2
    have hI : K2Any n d (k2InitP L d n m0 m1 n) := ⟨m0, m1, k2InitP_A hd (hv.range m0 (by simp)) (hv.range m1 (by simp)) n⟩
    obtain ⟨⟨c, c1, c2⟩, c3⟩ := loopG_step M (k2Cand_rej (L := L) hd) (V := fun s => exactRatios N val n d s.med)
      (loss := fun s => s.loss) hE h2E (fun s j s' hs hj h => k2Cand_step Q hf hd hv0 hs hj h)
      (fun s hs => ⟨(hs.near Q hf hd).fin, (hs.near Q hf hd).err⟩) hs (fuel := maxiter) (iter := 0) hI
      (hI.near Q hf hd).err le_rfl
    rw [show (k2InitP L d n m0 m1 n).nSwaps = 0 from rfl, Nat.zero_add] at c1
    have hc : (fastermscP L d n [m0, m1] maxiter).nSwap = c := c1
    rw [hc]
    rw [List.length_range] at c3
    refine ⟨medSil_worse hf.pos c2, medSil_worse hf.pos ?_⟩
    push_cast
    exact c3
  · have h3 : 3 ≤ med.length := by omega
    rw [fastermscP_many d n h3]
    have hI : MSCA n med.length d (mscInitP L d n med) ∧
        (mscInitP L d n med).rem = mscRemP L (mscInitP L d n med).data med.length :=
      ⟨⟨MInvA.init hd hv hnd hk, mscRemP_length _ _⟩, rfl⟩
    have near : ∀ s : MSCState N L, MSCA n med.length d s →
        Appr fin val u n (exactRatios N val n d s.med) n s.loss := fun s hs => by
      rw [hs.inv.loss]
      exact leftSum_near Q hf hd (by rw [hs.inv.medLen]; exact hk) hs.inv.medRange
    obtain ⟨⟨c, c1, c2⟩, c3⟩ := loopG_step M (mscCand_rej (L := L) hd (by omega) hv.sizes.k_lt)
      (V := fun s => exactRatios N val n d s.med)
      (loss := fun s => s.loss) hE h2E
      (fun s j s' hs hj h => mscCand_step Q hf hd h3 hv.sizes.k_lt hv0 hv1 (hS h3) hs.1 hs.2 hj h)
      (fun s hs => ⟨(near s hs.1).fin, (near s hs.1).err⟩) hs (fuel := maxiter) (iter := 0) hI
      (near _ hI.1).err le_rfl
    rw [show (mscInitP L d n med).nSwaps = 0 from rfl, Nat.zero_add] at c1
    have hc : (mscResultP n (mscLoopP d n maxiter 0 (mscInitP L d n med))).nSwap = c := c1
    rw [hc]
    rw [List.length_range] at c3
    refine ⟨medSil_worse hf.pos c2, medSil_worse hf.pos ?_⟩
    push_cast
    exact c3

/-! ## FastMSC and PAMMEDSIL -/

/-- What C81 says of FastMSC and PAMMEDSIL. -/
structure MpAccurate (fin : L → Prop) (val : L → K) (u E : K) (n : Nat) (d : Nat → Nat → N) (med : List Nat)
    (r : SwapResult L) : Prop where
  hardly : HardlyWorse (N := N) val E 2 n d med r.nSwap r.med
  fin : fin r.loss
  near : |val r.loss - exactMedSil N val n d r.med| ≤ medErr u n + E

theorem mpLoop_acc (Q : QuotLoss N fin val u B eta C) {n : Nat} {d : Nat → Nat → N} (hf : GainFits u B n)
    (hf' : MedFits u B C n)
    (hd : Dissim n d) {med : List Nat} (hv : ValidMeds n med) (hnd : med.Nodup) (hk : 2 ≤ med.length)
    {scan : List Nat → List (Reco N) → L × Nat × Nat} (hscan : ScanMaxSound n med.length d scan) {E : K}
    (hE : 0 ≤ n * E) (h2E : 2 * sumErr u n ≤ n * E)
    (hg : ScanGainF fin val (n * E) n med.length d scan) (maxiter : Nat) :
    MpAccurate (N := N) fin val u E n d med (mpResultP n (loopB (mpStepP d scan) maxiter 0 (mpInitP L d n med))) := by
  have near : ∀ s : MPState N L, MInvA n med.length d s.med s.data s.loss →
      Appr fin val u n (exactRatios N val n d s.med) n s.loss := fun s hs => by
    rw [hs.loss]
    exact leftSum_near Q hf hd (by rw [hs.medLen]; exact hk) hs.medRange
  have hI : MInvA n med.length d (mpInitP L d n med).med (mpInitP L d n med).data (mpInitP L d n med).loss :=
    MInvA.init hd hv hnd hk
  obtain ⟨⟨c, c1, c2⟩, c3, s0, c4, c5, c6⟩ := loopB_step
    (I := fun s : MPState N L => MInvA n med.length d s.med s.data s.loss)
    (nSwaps := fun s : MPState N L => s.nSwaps) (step := mpStepP d scan) (V := fun s => exactRatios N val n d s.med)
    (loss := fun s => s.loss) hE h2E (fun s hs => (near s hs).err)
    (fun s s' b hs h => mpStep_err Q hf hd hk hv.sizes.k_lt hscan hg hs h) (fuel := maxiter) (iter := 0) hI
    (near _ hI).err le_rfl
  rw [show (mpInitP L d n med).nSwaps = 0 from rfl, Nat.zero_add] at c1
  have hc : (mpResultP n (loopB (mpStepP d scan) maxiter 0 (mpInitP L d n med))).nSwap = c := c1
  have hl : (mpResultP n (loopB (mpStepP d scan) maxiter 0 (mpInitP L d n med))).loss = recomputedSil L n d s0.med := by
    show toSilhouette _ n = _
    rw [toSil_eq hv.sizes.n_le, c5, c4.loss]
    rfl
  obtain ⟨f1, f2⟩ := recomputedSil_near Q hf' hd (by rw [c4.medLen]; exact hk) c4.medRange
  refine ⟨⟨by rw [hc]; exact medSil_worse hf.pos c2, medSil_worse hf.pos c3⟩, by rw [hl]; exact f1, ?_⟩
  rw [hl]
  exact (abs_sub_le _ _ _).trans (add_le_add f2 (medSil_dist hf.pos c6))

/-- **C81, fastmsc.** -/
theorem C81_fastmsc (Q : QuotLoss N fin val u B eta C) {mat : Mat N} {n : Nat} {d : Nat → Nat → N}
    (hm : IsMatrix mat n d) (hd : Dissim n d) {med : List Nat} (hv : ValidMeds n med) (hnd : med.Nodup)
    (hk : 2 ≤ med.length) (hn2 : ¬ (med.length = 2 ∧ n = 2)) (hf : GainFits u B n) (hf' : MedFits u B C n) (hv0 : 0 ≤ v)
    (hv1 : v ≤ 1 / 2) (hS : 3 ≤ med.length → SumErr val v n d) (maxiter : Nat) {r : SwapResult L}
    (hr : fastmsc L mat med maxiter = .ok r) : MpAccurate (N := N) fin val u (gainErr u v n) n d med r := by
  have M := Q.loss.std
  have := Q.loss.saneZero
  have hle := hv.sizes.le
  obtain ⟨hE, h2E, -⟩ := sumErr_gain (n := n) M hv0
  by_cases h2 : med.length = 2
  · obtain ⟨m0, m1, rfl⟩ := List.length_eq_two.mp h2
    have g0 := hv.range m0 (by simp)
    have g1 := hv.range m1 (by simp)
    have hn3 : 3 ≤ n := by omega
    rw [fastmsc_eq_2 (fastmscK2_eq3 (L := L) hm hv.sizes.n_le hn3 g0 g1 maxiter).1] at hr
    cases hr
    have hI : K2Any n d (k2InitP L d n m0 m1 0) := ⟨m0, m1, k2InitP_A hd g0 g1 0⟩
    obtain ⟨⟨c, c1, c2⟩, c3, s0, c4, c5, c6⟩ := loopB_step (I := K2Any (L := L) n d)
      (nSwaps := fun s : K2State N L => s.nSwaps) (step := fastmscK2StepP d n 2)
      (V := fun s => exactRatios N val n d s.med)
      (loss := fun s => s.loss) hE h2E (fun s hs => (hs.near Q hf hd).err)
      (fun s s' b hs h => k2Step_err Q hf hd hn3 hv.sizes.n_le hv0 hs h) (fuel := maxiter) (iter := 0) hI
      (hI.near Q hf hd).err le_rfl
    rw [show (k2InitP L d n m0 m1 0).nSwaps = 0 from rfl, Nat.zero_add] at c1
    have hc : (fastmscP L d n [m0, m1] maxiter).nSwap = c := c1
    have hl : (fastmscP L d n [m0, m1] maxiter).loss = recomputedSil L n d s0.med := by
      show toSilhouette (loopB (fastmscK2StepP d n 2) maxiter 0 (k2InitP L d n m0 m1 0)).1.loss n = _
      rw [toSil_eq hv.sizes.n_le, c5, c4.loss]
      rfl
    obtain ⟨f1, f2⟩ := recomputedSil_near Q hf' hd (by rw [c4.shape.medLen]) c4.shape.medRange
    refine ⟨⟨by rw [hc]; exact medSil_worse hf.pos c2, medSil_worse hf.pos c3⟩, by rw [hl]; exact f1, ?_⟩
    rw [hl]
    exact (abs_sub_le _ _ _).trans (add_le_add f2 (medSil_dist hf.pos c6))
  · have h3 : 3 ≤ med.length := by omega
    rw [fastmsc_eq_ne2 hm hv h2, fastmscP_many d n h3] at hr
    cases hr
    exact mpLoop_acc Q hf hf' hd hv hnd hk (fastmscScanP_sound n (by omega) d) hE h2E
      (fastmscScan_gain Q hf hd h3 hv.sizes.k_lt hv0 hv1 (hS h3)) maxiter

/-- **C81, pammedsil_swap.** -/
theorem C81_pammedsil_swap (Q : QuotLoss N fin val u B eta C) {mat : Mat N} {n : Nat} {d : Nat → Nat → N}
    (hm : IsMatrix mat n d) (hd : Dissim n d) {med : List Nat} (hv : ValidMeds n med) (hnd : med.Nodup)
    (hk : 2 ≤ med.length) (hf : GainFits u B n) (hf' : MedFits u B C n) (maxiter : Nat) {r : SwapResult L}
    (hr : pammedsilSwap L mat med maxiter = .ok r) : MpAccurate (N := N) fin val u (pmsErr u n) n d med r := by
  have := Q.loss.saneZero
  obtain ⟨hE, h2E⟩ := sumErr_pms (n := n) Q.loss.std
  rw [pammedsilSwap_eq hm hv] at hr
  cases hr
  rw [pammedsilSwapP, pmsOptP_many d n (s := mpInitP L d n med) hk]
  exact mpLoop_acc Q hf hf' hd hv hnd hk (pmsScanP_sound n med.length d) hE h2E
    (pmsScan_gain Q hf hd hk hv.sizes.k_lt) maxiter

/-! ## IEEE 754 -/

theorem HardlyWorse.mono {E E' : K} (h : E ≤ E') {m n : Nat} {d : Nat → Nat → N} {med med' : List Nat} {c : Nat}
    (hb : HardlyWorse val E m n d med c med') : HardlyWorse val E' m n d med c med' :=
  ⟨hb.swaps.trans (by linarith [mul_le_mul_of_nonneg_left h (Nat.cast_nonneg (α := K) c)]),
    hb.limit.trans (by linarith [mul_le_mul_of_nonneg_left h (Nat.cast_nonneg (α := K) m)])⟩

section f64
variable [RFrom N (Ieee binary64)]
  (Q : QuotLoss N (Ieee.Fin (F := binary64)) Ieee.val (1 / 2 ^ 53) (2 ^ 1023) (2 ^ (-1075 : ℤ)) u32Max)
include Q

/-- **C81, fastermsc with `f64` losses.** `Q` and `hS` as in `C80_fastermsc_f64`. -/
theorem C81_fastermsc_f64 {mat : Mat N} {n : Nat} {d : Nat → Nat → N} (hm : IsMatrix mat n d) (hd : Dissim n d)
    {med : List Nat} (hv : ValidMeds n med) (hnd : med.Nodup) (hk : 2 ≤ med.length) {v : ℚ} (hv0 : 0 ≤ v) (hv1 : v ≤ 1 / 2)
    (hS : 3 ≤ med.length → SumErr (Ieee.val (F := binary64)) v n d) (maxiter : Nat) {r : SwapResult (Ieee binary64)}
    (hr : fastermsc (Ieee binary64) mat med maxiter = .ok r) :
    HardlyWorse (N := N) (Ieee.val (F := binary64)) (18 * (n + 1) / 2 ^ 52 + 2 * v) (n + 1) n d med r.nSwap r.med :=
  (C81_fastermsc Q hm hd hv hnd hk (gainFits64 (lt_of_lt_of_le hv.sizes.pos hv.sizes.le) hv.sizes.n_le) hv0 hv1 hS maxiter
    hr).mono (gainErr_f64 hv.sizes.n_le v)

/-- **C81, fastmsc with `f64` losses.** -/
theorem C81_fastmsc_f64 {mat : Mat N} {n : Nat} {d : Nat → Nat → N} (hm : IsMatrix mat n d) (hd : Dissim n d)
    {med : List Nat} (hv : ValidMeds n med) (hnd : med.Nodup) (hk : 2 ≤ med.length) (hn2 : ¬ (med.length = 2 ∧ n = 2))
    {v : ℚ} (hv0 : 0 ≤ v) (hv1 : v ≤ 1 / 2)
    (hS : 3 ≤ med.length → SumErr (Ieee.val (F := binary64)) v n d) (maxiter : Nat) {r : SwapResult (Ieee binary64)}
    (hr : fastmsc (Ieee binary64) mat med maxiter = .ok r) :
    HardlyWorse (N := N) (Ieee.val (F := binary64)) (18 * (n + 1) / 2 ^ 52 + 2 * v) 2 n d med r.nSwap r.med ∧
      ∃ q, r.loss = .num q ∧ |q - medSil (fun x : N => (conv x : Ieee binary64).val) n d r.med| ≤
        (19 * n + 21) / 2 ^ 52 + 2 * v := by
  have h0 := lt_of_lt_of_le hv.sizes.pos hv.sizes.le
  obtain ⟨h1, ⟨q, h2, -⟩, h3⟩ := C81_fastmsc Q hm hd hv hnd hk hn2 (gainFits64 h0 hv.sizes.n_le)
    (medFits64 h0 hv.sizes.n_le) hv0 hv1 hS maxiter hr
  refine ⟨h1.mono (gainErr_f64 hv.sizes.n_le v), q, h2, ?_⟩
  rw [h2] at h3
  have h4 := medErr_f64 hv.sizes.n_le
  have h5 := gainErr_f64 hv.sizes.n_le v
  have h6 : (19 * (n : ℚ) + 21) / 2 ^ 52 = (n + 3) / 2 ^ 52 + 18 * (n + 1) / 2 ^ 52 := by ring
  rw [h6]
  exact h3.trans (by linarith)

/-- **C81, pammedsil_swap with `f64` losses.** -/
theorem C81_pammedsil_swap_f64 {mat : Mat N} {n : Nat} {d : Nat → Nat → N} (hm : IsMatrix mat n d) (hd : Dissim n d)
    {med : List Nat} (hv : ValidMeds n med) (hnd : med.Nodup) (hk : 2 ≤ med.length) (maxiter : Nat)
    {r : SwapResult (Ieee binary64)} (hr : pammedsilSwap (Ieee binary64) mat med maxiter = .ok r) :
    HardlyWorse (N := N) (Ieee.val (F := binary64)) (3 * (n + 2) / 2 ^ 52) 2 n d med r.nSwap r.med ∧
      ∃ q, r.loss = .num q ∧ |q - medSil (fun x : N => (conv x : Ieee binary64).val) n d r.med| ≤ (4 * n + 9) / 2 ^ 52 := by
  have h0 := lt_of_lt_of_le hv.sizes.pos hv.sizes.le
  obtain ⟨h1, ⟨q, h2, -⟩, h3⟩ := C81_pammedsil_swap Q hm hd hv hnd hk (gainFits64 h0 hv.sizes.n_le)
    (medFits64 h0 hv.sizes.n_le) maxiter hr
  refine ⟨h1.mono (pmsErr_f64 hv.sizes.n_le), q, h2, ?_⟩
  rw [h2] at h3
  have h4 := medErr_f64 hv.sizes.n_le
  have h5 := pmsErr_f64 hv.sizes.n_le
  have h6 : (4 * (n : ℚ) + 9) / 2 ^ 52 = (n + 3) / 2 ^ 52 + 3 * (n + 2) / 2 ^ 52 := by ring
  rw [h6]
  exact h3.trans (by linarith)

end f64

/-! ## Non-vacuity -/

example : HardlyWorse (N := UInt32) (Ieee.val (F := binary64)) (18 * ((5 : ℕ) + 1) / 2 ^ 52 + 2 * 0) (5 + 1) 5 silU [0, 1, 2] 1
    [3, 1, 2] :=
  C81_fastermsc_f64 quotLoss_u32_f64 silU_isMatrix silU_dissim (silU_valid3 (by decide)) (by decide) (by decide) le_rfl
    (by norm_num) (fun _ => sumErr_u32 silU_small) 20
    (r := ⟨.num (8106479329266893 / 9007199254740992), [1, 1, 2, 0, 0], 2, 1, [3, 1, 2]⟩) (by decide +kernel)

example : ∃ q, (.num (8106479329266893 / 9007199254740992) : Ieee binary64) = .num q ∧
    |q - medSil (fun x : UInt32 => (x.toNat : ℚ)) 5 silU [3, 1, 2]| ≤ (19 * (5 : ℕ) + 21) / 2 ^ 52 + 2 * 0 :=
  (C81_fastmsc_f64 quotLoss_u32_f64 silU_isMatrix silU_dissim (silU_valid3 (a := 0) (b := 1) (c := 2) (by decide)) (by decide)
    (by decide) (by decide) le_rfl (by norm_num) (fun _ => sumErr_u32 silU_small) 9
    (r := ⟨.num (8106479329266893 / 9007199254740992), [1, 1, 2, 0, 0], 2, 1, [3, 1, 2]⟩) (by decide +kernel)).2

example : ∃ q, (.num (495261923307559 / 562949953421312) : Ieee binary64) = .num q ∧
    |q - medSil (fun x : UInt32 => (x.toNat : ℚ)) 5 silU [4, 1]| ≤ (4 * (5 : ℕ) + 9) / 2 ^ 52 :=
  (C81_pammedsil_swap_f64 quotLoss_u32_f64 silU_isMatrix silU_dissim (med := [0, 1])
    ⟨⟨by decide, by decide, by decide, by decide⟩, by decide⟩ (by decide) (by decide) 9
    (r := ⟨.num (495261923307559 / 562949953421312), [1, 1, 1, 0, 0], 2, 1, [4, 1]⟩) (by decide +kernel)).2

end KMedoids
