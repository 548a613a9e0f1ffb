import Verif.Props.C71
import Verif.Props.C75

/-!
# C82: PAM and FastPAM1 report an accurate loss in floating point

PAM and FastPAM1 return the loss before the last exchange if that exchange did not lower the computed loss (C58). The
number reported is nevertheless close to the exact total deviation of the medoids returned: the exchange was accepted
because its computed change was negative, so it did not make the exact total deviation much worse, and the computed loss
did not decrease, so it did not make it much better either.
-/

set_option linter.unusedSectionVars false
set_option linter.overlappingInstances false

namespace KMedoids

variable {N L K : Type} [LinearOrder N] [Zero N] [RDist N] [LawfulDist N] [RLoss L] [RFrom N L]
  [Field K] [LinearOrder K] [IsStrictOrderedRing K]
open RFrom (conv)

variable {fin : L → Prop} {val : L → K} {u B : K}

/-- The reported number is finite and at most `E` away from the exact total deviation. -/
def Within (fin : L → Prop) (val : L → K) (E : K) (n : Nat) (d : Nat → Nat → N) (med : List Nat) (loss : L) : Prop :=
  fin loss ∧ |val loss - exactDev N val n d med| ≤ E

theorem Within.mono {E E' : K} (h : E ≤ E') {n : Nat} {d : Nat → Nat → N} {med : List Nat} {loss : L}
    (hw : Within (N := N) fin val E n d med loss) : Within (N := N) fin val E' n d med loss := ⟨hw.1, hw.2.trans h⟩

section pam
variable {n k : Nat} {d : Nat → Nat → N} {W : K}

theorem pLoop_within (M : FloatLoss N fin val u B) (hd : Dissim n d) (hk : 2 ≤ k) (hW : AtMost val W n d)
    (hB : (1 + u) ^ (n - 1) * (n * W) ≤ B) {e0 E : K} (he0 : e0 = ((1 + u) ^ (n - 1) - 1) * (n * W))
    {scan : List Nat → List (Rec N) → L × Nat × Nat} (hscan : ScanSound n k d scan) (hsE : ScanErr val E n k d scan)
    {fuel iter : Nat} {s : PState N L} (hs : CacheOk n d s.med s.data) (hlen : s.med.length = k)
    (hl : Within fin val e0 n d s.med s.loss) (hE : 0 ≤ E) :
    Within fin val (e0 + E) n d (pLoopP d scan fuel iter s).1.med (pLoopP d scan fuel iter s).1.loss := by
  induction fuel generalizing iter s with
  | zero => exact hl.mono (by linarith)
  | succ fuel ih =>
    unfold pLoopP
    dsimp only
    split
    · rename_i hlt
      obtain ⟨h1, h2', h3⟩ := hscan _ _ hs hlen hlt
      have hstep := hsE _ _ hs hlen hlt
      have h := swapDataP_ok hd hs (hlen ▸ h1) h2' h3
      have hsum : swapSumP L (scan s.med s.data).2.2
          (swapDataP d s.med s.data (scan s.med s.data).2.1 (scan s.med s.data).2.2) =
          leftSum (devs L n d (s.med.set (scan s.med s.data).2.1 (scan s.med s.data).2.2)) := by
        rw [swapSumP, sumP_leftSum]
        exact congrArg leftSum (swapMap_devs (L := L) M.conv_zero hd h (mem_set_self (hlen ▸ h1) _))
      have hlen' : (s.med.set (scan s.med s.data).2.1 (scan s.med s.data).2.2).length = k := by
        rw [List.length_set, hlen]
      have f2 := leftSum_accurate (val := val) M hd (List.ne_nil_of_length_pos (by omega)) h.range hW hB
      rw [← hsum, ← he0] at f2
      split
      · rename_i hc
        have hge := (M.std.rge_iff f2.1 hl.1).mp hc
        refine ⟨hl.1, ?_⟩
        show |val s.loss - exactDev N val n d (s.med.set _ _)| ≤ _
        obtain ⟨a1, a2⟩ := abs_le.mp hl.2
        obtain ⟨b1, b2⟩ := abs_le.mp f2.2
        rw [abs_le]
        constructor <;> linarith
      · exact ih (iter := iter + 1)
          (s := pSwapP d s (scan s.med s.data).2.1 (scan s.med s.data).2.2
            (swapSumP L (scan s.med s.data).2.2
              (swapDataP d s.med s.data (scan s.med s.data).2.1 (scan s.med s.data).2.2)))
          h hlen' f2
    · exact hl.mono (by linarith)

/-- The error of the initial loss against the error of a computed change. -/
theorem lossErr_le (M : FloatLoss N fin val u B) (hd : Dissim n d) (hn : 1 ≤ n) (hW : AtMost val W n d) {e c : Nat}
    (he : n - 1 ≤ e) : c * (((1 + u) ^ (n - 1) - 1) * (n * W)) ≤ roundErr u W e c n := by
  have h0 := (roundErr_nonneg (u := u) M hd hn hW e c).1
  have h1 := M.std.pow_mono he
  have h3 : ((1 + u) ^ (n - 1) - 1) * (c * (n * W)) ≤ ((1 + u) ^ e - 1) * (c * (n * W)) :=
    mul_le_mul_of_nonneg_right (by linarith) (by positivity)
  unfold roundErr
  linarith

end pam

/-- **C82, pam_swap.** -/
theorem C82_pam_swap (M : FloatLoss N fin val u B) {mat : Mat N} {n : Nat} {d : Nat → Nat → N}
    (hm : IsMatrix mat n d) (hd : Dissim n d) {W : K} (hW : AtMost val W n d)
    (hB : (1 + u) ^ (n + 1) * (n * W) ≤ B) {med : List Nat} (hv : ValidMeds n med) (hnd : med.Nodup)
    (hk : 2 ≤ med.length) (maxiter : Nat) {r : SwapResult L} (hr : pamSwap L mat med maxiter = .ok r) :
    Within (N := N) fin val (2 * roundErr u W (n + 1) 1 n) n d r.med r.loss := by
  have := M.saneZero
  have hn : 1 ≤ n := hv.sizes.pos.trans hv.sizes.le
  rw [pamSwap_eq hm hv, pamSwapP, pOptP_many d n _ hk] at hr
  cases hr
  have hok := initDataP_ok hd hk hv hnd
  have hne : med ≠ [] := List.ne_nil_of_length_pos (by omega)
  obtain ⟨hW0, hE⟩ := roundErr_nonneg (u := u) M hd hn hW (n + 1) 1
  have hB' : (1 + u) ^ (n - 1) * (n * W) ≤ B :=
    (mul_le_mul_of_nonneg_right (M.std.pow_mono (by omega)) (by positivity)).trans hB
  have hl : nearLossP L (initDataP d n med) = leftSum (devs L n d med) := nearLossP_leftSum hok
  have hx := leftSum_accurate (val := val) M hd hne hv.range hW hB'
  rw [← hl] at hx
  have h1 := lossErr_le (u := u) (e := n + 1) (c := 1) M hd hn hW (by omega)
  rw [Nat.cast_one, one_mul] at h1
  refine (pLoop_within M hd hk hW hB' rfl
    (pamScanP_sound (L := L) n med.length d) (pamScan_err M hd hk hW hB) (fuel := maxiter) (iter := 0)
    (s := ⟨med, initDataP d n med, nearLossP L (initDataP d n med), 0⟩) hok rfl hx hE).mono (by linarith)

/-- **C82, fastpam1.** -/
theorem C82_fastpam1 (M : FloatLoss N fin val u B) {mat : Mat N} {n : Nat} {d : Nat → Nat → N}
    (hm : IsMatrix mat n d) (hd : Dissim n d) {W : K} (hW : AtMost val W n d)
    (hB : (1 + u) ^ (2 * n + 1) * (2 * (n * W)) ≤ B) {med : List Nat} (hv : ValidMeds n med) (hnd : med.Nodup)
    (hk : 2 ≤ med.length) (maxiter : Nat) {r : SwapResult L} (hr : fastpam1 L mat med maxiter = .ok r) :
    Within (N := N) fin val (3 / 2 * roundErr u W (2 * n + 1) 2 n) n d r.med r.loss := by
  have := M.saneZero
  have hn : 1 ≤ n := hv.sizes.pos.trans hv.sizes.le
  rw [fastpam1_eq hm hv, fastpam1P, pOptP_many d n _ hk] at hr
  cases hr
  have hok := initDataP_ok hd hk hv hnd
  have hne : med ≠ [] := List.ne_nil_of_length_pos (by omega)
  obtain ⟨hW0, hE⟩ := roundErr_nonneg (u := u) M hd hn hW (2 * n + 1) 2
  have hB' : (1 + u) ^ (n - 1) * (n * W) ≤ B := by
    have h1 := M.std.pow_mono (show n - 1 ≤ 2 * n + 1 by omega)
    have h2 := M.std.one_le_pow (n - 1)
    have hnW : 0 ≤ (n : K) * W := by positivity
    exact (mul_le_mul h1 (show (n : K) * W ≤ 2 * (n * W) by linarith) hnW (by linarith)).trans hB
  have hl : nearLossP L (initDataP d n med) = leftSum (devs L n d med) := nearLossP_leftSum hok
  have hx := leftSum_accurate (val := val) M hd hne hv.range hW hB'
  rw [← hl] at hx
  have h1 := lossErr_le (u := u) (e := 2 * n + 1) (c := 2) M hd hn hW (by omega)
  rw [Nat.cast_ofNat] at h1
  refine (pLoop_within M hd hk hW hB' rfl
    (fastScanP_sound (L := L) (n := n) (k := med.length) (by omega) d) (fastScan_err M hd hk hW hB) (fuel := maxiter)
    (iter := 0) (s := ⟨med, initDataP d n med, nearLossP L (initDataP d n med), 0⟩) hok rfl hx hE).mono (by linarith)

/-- **C82, pam.** -/
theorem C82_pam (M : FloatLoss N fin val u B) {mat : Mat N} {n k : Nat} {d : Nat → Nat → N} {P : L → Prop}
    (ha : AddZero n d P) (hm : IsMatrix mat n d) (hd : Dissim n d) (hs : Sizes n k) {W : K} (hW : AtMost val W n d)
    (hB : (1 + u) ^ (n + 1) * (n * W) ≤ B) {b : BuildResult L} (hb : pamBuild L mat k = .ok b) (hk : 2 ≤ b.med.length)
    (maxiter : Nat) {r : SwapResult L} (hr : pam L mat k maxiter = .ok r) :
    Within (N := N) fin val (2 * roundErr u W (n + 1) 1 n) n d r.med r.loss := by
  have := M.saneZero
  obtain ⟨v1, v2, v3, v4, -⟩ := C71_pam_build_valid M.negZero hm hd hs hb
  have hv : ValidMeds n b.med := ⟨⟨v1, v2.trans hs.le, hs.n_le, lt_of_le_of_lt v2 hs.k_lt⟩, v4⟩
  rw [(C71_pam_eq M.negZero M.conv_zero ha hm hd hs maxiter hb).1] at hr
  exact C82_pam_swap M hm hd hW hB hv v3 hk maxiter hr

/-- **C82, one medoid**: relative error as in C66. -/
theorem C82_single (M : FloatLoss N fin val u B) {mat : Mat N} {n : Nat} {d : Nat → Nat → N}
    (hm : IsMatrix mat n d) (hd : Dissim n d) (hs : Symm n d) {c : Nat} (hv : ValidMeds n [c]) (maxiter : Nat)
    {r : SwapResult L} (hr : pamSwap L mat [c] maxiter = .ok r ∨ fastpam1 L mat [c] maxiter = .ok r)
    (hB : (1 + u) ^ (n - 1) * exactDev N val n d r.med ≤ B) : Accurate fin val u n d r.med r.loss := by
  have := M.saneZero
  have hw : r.med.length = 1 ∧ ∀ c ∈ r.med, c < n := by
    rcases hr with hr | hr
    · obtain ⟨r', hr', hw⟩ := C04_pam_swap (L := L) hm hv maxiter
      rw [hr] at hr'; cases hr'
      exact ⟨hw.medLen, hw.medRange⟩
    · obtain ⟨r', hr', hw⟩ := C04_fastpam1 (L := L) hm hv maxiter
      rw [hr] at hr'; cases hr'
      exact ⟨hw.medLen, hw.medRange⟩
  rw [C58_pam_swap_single hm hv maxiter hr]
  exact accurate_recomputed M hd (List.ne_nil_of_length_pos (by omega)) hw.2 (fun _ => hs) hB

/-! ## `f32` or `u32` distances, `f64` losses -/

section f64
variable {N : Type} [LinearOrder N] [Zero N] [RDist N] [LawfulDist N] [RFrom N (Ieee binary64)]
variable {mat : Mat N} {n : Nat} {d : Nat → Nat → N} {W : ℚ} {med : List Nat}

/-- **C82, pam_swap with `f64` losses**, no assumption about overflow. -/
theorem C82_pam_swap_f64 (h : Wide n d W) (hm : IsMatrix mat n d) (hd : Dissim n d) (hv : ValidMeds n med)
    (hnd : med.Nodup) (hk : 2 ≤ med.length) (maxiter : Nat) {r : SwapResult (Ieee binary64)}
    (hr : pamSwap (Ieee binary64) mat med maxiter = .ok r) :
    ∃ q, r.loss = .num q ∧ |q - dev64 n d r.med| ≤ 2 * ((n + 1) / 2 ^ 52 * (n * W)) := by
  have he : n + 1 ≤ 2 ^ 53 := by have := e_le hv; omega
  have hf := h.fits hd hv he (c := 1) (by norm_num) (by norm_num)
  rw [one_mul] at hf
  obtain ⟨⟨q, hq, -⟩, h2⟩ := C82_pam_swap h.model hm hd h.bound hf hv hnd hk maxiter hr
  have h3 := roundErr_f64 (c := 1) (n := n) he (h.nonneg hd (hv.sizes.pos.trans hv.sizes.le))
  rw [Nat.cast_one, one_mul] at h3
  push_cast at h3
  rw [hq] at h2
  exact ⟨q, hq, h2.trans (by linarith)⟩

/-- **C82, fastpam1 with `f64` losses.** -/
theorem C82_fastpam1_f64 (h : Wide n d W) (hm : IsMatrix mat n d) (hd : Dissim n d) (hv : ValidMeds n med)
    (hnd : med.Nodup) (hk : 2 ≤ med.length) (maxiter : Nat) {r : SwapResult (Ieee binary64)}
    (hr : fastpam1 (Ieee binary64) mat med maxiter = .ok r) :
    ∃ q, r.loss = .num q ∧ |q - dev64 n d r.med| ≤ 3 * ((2 * n + 1) / 2 ^ 52 * (n * W)) := by
  obtain ⟨⟨q, hq, -⟩, h2⟩ := C82_fastpam1 h.model hm hd h.bound (h.fits hd hv (e_le hv) (by norm_num) le_rfl) hv hnd hk
    maxiter hr
  have h3 := roundErr_f64 (c := 2) (n := n) (e_le hv) (h.nonneg hd (hv.sizes.pos.trans hv.sizes.le))
  push_cast at h3
  rw [hq] at h2
  exact ⟨q, hq, h2.trans (by linarith)⟩

end f64

/-! ## Non-vacuity -/

def lateRows : List (List ℕ) :=
  [[0, 5, 4, 7, 1, 1], [5, 0, 8, 5, 3, 5], [4, 8, 0, 5, 4, 1], [7, 5, 5, 0, 3, 7], [1, 3, 4, 3, 0, 1], [1, 5, 1, 7, 1, 0]]

def lateD (x y : Nat) : Finite binary64 := .ofRat binary64 (((lateRows.getD x []).getD y 0 : ℕ) / 10)

theorem late_isMatrix : IsMatrix (ofRows (tenths lateRows)) 6 lateD := by
  have h : ∀ x < 6, ∀ y < 6, (ofRows (tenths lateRows)).get x y = .ok (lateD x y) := by decide +kernel
  exact ⟨rfl, rfl, fun x y hx hy => h x hx y hy⟩

theorem late_dissim : Dissim 6 lateD := by
  have hd : ∀ x < 6, lateD x x = 0 := by decide +kernel
  have hn : ∀ x < 6, ∀ y < 6, 0 ≤ lateD x y := by decide +kernel
  exact ⟨hd, fun x y hx hy => hn x hx y hy⟩

theorem late_symm : Symm 6 lateD := by
  have hs : ∀ x < 6, ∀ y < 6, lateD x y = lateD y x := by decide +kernel
  exact fun x y hx hy => hs x hx y hy

theorem late_atMost : AtMost (L := Ieee binary64) Ieee.val 1 6 lateD := by
  have h : ∀ x < 6, ∀ y < 6, Ieee.val (conv (lateD x y) : Ieee binary64) ≤ 1 := by decide +kernel
  exact fun x y hx hy => h x hx y hy

theorem late_addZero : AddZero 6 lateD (Ieee.InFmt (F := binary64)) := by
  refine ieee_addZero binary64 fun x y hx hy => ?_
  have : ∀ x < 6, ∀ y < 6, |(lateD x y).q| < 2 ^ binary64.emax := by decide +kernel
  exact this x hx y hy

theorem late_run (f : List Nat → Nat → Res (SwapResult (Ieee binary64)))
    (h : f = pamSwap (Ieee binary64) (ofRows (tenths lateRows)) ∨ f = fastpam1 (Ieee binary64) (ofRows (tenths lateRows))) :
    f [0, 1] 20 = .ok ⟨.num (7205759403792793 / 9007199254740992), [0, 1, 0, 1, 1, 0], 2, 2, [5, 4]⟩ := by
  rcases h with rfl | rfl <;> decide +kernel

/-- **The loss is that before the last exchange also in `f64`**: on these distances, multiples of 0.1, PAM and FastPAM1
return medoids 5 and 4 with a number that is not the loss computed for them. -/
theorem C82_not_recomputed : ∃ (mat : Mat (Finite binary64)) (n : Nat) (d : Nat → Nat → Finite binary64) (med : List Nat)
    (r : SwapResult (Ieee binary64)), IsMatrix mat n d ∧ Dissim n d ∧ Symm n d ∧ ValidMeds n med ∧ med.Nodup ∧
    pamSwap (Ieee binary64) mat med 20 = .ok r ∧ fastpam1 (Ieee binary64) mat med 20 = .ok r ∧
    r.loss ≠ recomputed (Ieee binary64) n d r.med :=
  ⟨_, 6, lateD, [0, 1], _, late_isMatrix, late_dissim, late_symm, worse_valid, by decide, late_run _ (.inl rfl),
    late_run _ (.inr rfl), by decide +kernel⟩

/-- The theorems apply to these runs. -/
example : Within (N := Finite binary64) Ieee.Fin Ieee.val (1 / 10 ^ 13) 6 lateD [5, 4]
    (.num (7205759403792793 / 9007199254740992) : Ieee binary64) :=
  (C82_pam_swap (ieee_floatLoss binary64) late_isMatrix late_dissim late_atMost (by decide +kernel) worse_valid (by decide)
    (by decide) 20 (late_run _ (.inl rfl))).mono (by decide +kernel)

example : Within (N := Finite binary64) Ieee.Fin Ieee.val (1 / 10 ^ 13) 6 lateD [5, 4]
    (.num (7205759403792793 / 9007199254740992) : Ieee binary64) :=
  (C82_fastpam1 (ieee_floatLoss binary64) late_isMatrix late_dissim late_atMost (by decide +kernel) worse_valid (by decide)
    (by decide) 20 (late_run _ (.inr rfl))).mono (by decide +kernel)

example : Within (N := Finite binary64) Ieee.Fin Ieee.val (1 / 10 ^ 13) 6 worseD [4, 1, 2]
    (.num (1351079888211149 / 2251799813685248) : Ieee binary64) :=
  (C82_pam (ieee_floatLoss binary64) worse_addZero worse_isMatrix worse_dissim
    (k := 3) ⟨by decide, by decide, by decide, by decide⟩ worse_atMost (by decide +kernel)
    (b := ⟨.num (3602879701896397 / 4503599627370496), [0, 1, 2, 1, 0, 2], [0, 1, 2]⟩) (by decide +kernel) (by decide) 9
    (r := ⟨.num (1351079888211149 / 2251799813685248), [1, 1, 2, 1, 0, 2], 2, 1, [4, 1, 2]⟩) (by decide +kernel)).mono
    (by decide +kernel)

example : Accurate (N := Finite binary64) Ieee.Fin Ieee.val (1 / 2 ^ 53) 6 lateD [4]
    (.num (1351079888211149 / 1125899906842624) : Ieee binary64) :=
  C82_single (ieee_floatLoss binary64) late_isMatrix late_dissim late_symm (c := 1)
    ⟨⟨by decide, by decide, by decide, by decide⟩, by decide⟩ 20
    (r := ⟨.num (1351079888211149 / 1125899906842624), [0, 0, 0, 0, 0, 0], 1, 1, [4]⟩) (.inl (by decide +kernel))
    (by decide +kernel)

example : ∃ q, (.num (7 / 8) : Ieee binary64) = .num q ∧
    |q - dev64 6 road32 [1, 4]| ≤ 2 * (((6 : ℕ) + 1) / 2 ^ 52 * ((6 : ℕ) * 3)) :=
  C82_pam_swap_f64 road32_wide road32_isMatrix road32_dissim road_valid (by decide) (by decide) 20
    (r := ⟨.num (7 / 8), [0, 0, 0, 1, 1, 1], 3, 2, [1, 4]⟩) (by decide +kernel)

example : ∃ q, (.num (7 / 8) : Ieee binary64) = .num q ∧
    |q - dev64 6 road32 [1, 4]| ≤ 3 * ((2 * (6 : ℕ) + 1) / 2 ^ 52 * ((6 : ℕ) * 3)) :=
  C82_fastpam1_f64 road32_wide road32_isMatrix road32_dissim road_valid (by decide) (by decide) 20
    (r := ⟨.num (7 / 8), [0, 0, 0, 1, 1, 1], 3, 2, [1, 4]⟩) (by decide +kernel)

end KMedoids
