import Verif.Props.C68
import Verif.Props.C73
import Verif.Props.C74

/-!
# C75: `f32` or `u32` distances with an `f64` loss

The wider type for the loss removes the assumptions about overflow from C66, C69, C70, C73 and C74: with at most `u32::MAX`
objects (which the functions check) no sum can overflow, and the errors have a simple form.
-/

set_option linter.unusedSectionVars false
set_option linter.overlappingInstances false

set_option exponentiation.threshold 2000

namespace KMedoids

open RFrom (conv)

/-- `f64::from(f32)` is exact. -/
instance : RFrom (Finite binary32) (Ieee binary64) := ⟨fun x => .num x.q⟩

theorem grid_f32_f64 {q : ℚ} (h : binary32.Grid q) : binary64.Grid q := by
  obtain ⟨m, rfl⟩ := h
  refine ⟨m * 2 ^ (925 : ℕ), ?_⟩
  have e : (2 : ℚ) ^ binary32.emin = 2 ^ (925 : ℕ) * 2 ^ binary64.emin := by
    rw [← zpow_natCast, ← zpow_add₀ two_ne_zero]; congr 1
  rw [e]; push_cast; ring

/-- `f32` distances, `f64` losses. -/
theorem floatLoss_f32_f64 : FloatLoss (Finite binary32) (Ieee.Fin (F := binary64)) Ieee.val (1 / 2 ^ 53) (2 ^ 1023) where
  std := Ieee.stdModel binary64
  conv_fin x := ⟨x.q, rfl, grid_f32_f64 (x.rep ▸ binary32.rnd_grid x.q)⟩
  conv_mono _ _ h := h
  conv_zero := rfl

instance : LinearOrder UInt32 where
  le_refl _ := UInt32.le_refl _
  le_trans _ _ _ := UInt32.le_trans
  lt_iff_le_not_ge a b := by
    rw [UInt32.lt_iff_toNat_lt, UInt32.le_iff_toNat_le, UInt32.le_iff_toNat_le]; omega
  le_antisymm _ _ := UInt32.le_antisymm
  le_total := UInt32.le_total
  toDecidableLE := inferInstance
  toDecidableEq := inferInstance
  toDecidableLT := inferInstance

instance : LawfulDist UInt32 where
  pcmp_eq a b := by
    show some (compare a.toNat b.toNat) = some (compare a b)
    rcases lt_trichotomy a.toNat b.toNat with h | h | h
    · rw [compare_lt_iff_lt.mpr h, compare_lt_iff_lt.mpr (UInt32.lt_iff_toNat_lt.mpr h)]
    · rw [UInt32.toNat_inj.mp h]; simp
    · rw [compare_gt_iff_gt.mpr h, compare_gt_iff_gt.mpr (UInt32.lt_iff_toNat_lt.mpr h)]
  zero_eq := rfl
  isZero_eq _ := rfl

/-- `u32` distances, `f64` losses. -/
theorem floatLoss_u32_f64 : FloatLoss UInt32 (Ieee.Fin (F := binary64)) Ieee.val (1 / 2 ^ 53) (2 ^ 1023) where
  std := Ieee.stdModel binary64
  conv_fin x := ⟨x.toNat, rfl, (x.toNat : ℤ) * 2 ^ 1074, by
    have e : (2 : ℚ) ^ (1074 : ℕ) * 2 ^ binary64.emin = 1 := by
      rw [← zpow_natCast, ← zpow_add₀ two_ne_zero]; exact zpow_zero 2
    rw [Int.cast_mul, Int.cast_pow, Int.cast_natCast, Int.cast_ofNat, mul_assoc, e, mul_one]⟩
  conv_mono x y h := by
    have : x.toNat ≤ y.toNat := UInt32.le_iff_toNat_le.mp h
    show (x.toNat : ℚ) ≤ y.toNat
    exact_mod_cast this
  conv_zero := rfl

/-- Distances of a type `N` that is exactly representable in `f64`, all of them at most `W`, in the range of `f32`. -/
structure Wide {N : Type} [LinearOrder N] [Zero N] [RFrom N (Ieee binary64)] (n : Nat) (d : Nat → Nat → N) (W : ℚ) :
    Prop where
  model : FloatLoss N (Ieee.Fin (F := binary64)) Ieee.val (1 / 2 ^ 53) (2 ^ 1023)
  bound : AtMost (L := Ieee binary64) Ieee.val W n d
  le : W ≤ 2 ^ 128

/-- All `f32` matrices: every finite `f32` is below `2 ^ 128`. -/
theorem wide_f32 {n : Nat} {d : Nat → Nat → Finite binary32} {W : ℚ} (h : ∀ x y, x < n → y < n → (d x y).q ≤ W)
    (hW : W ≤ 2 ^ 128) : Wide n d W := ⟨floatLoss_f32_f64, h, hW⟩

/-- All `u32` matrices. -/
theorem wide_u32 (n : Nat) (d : Nat → Nat → UInt32) : Wide n d (2 ^ 32 - 1) := by
  refine ⟨floatLoss_u32_f64, fun x y _ _ => ?_, by norm_num⟩
  show ((d x y).toNat : ℚ) ≤ 2 ^ 32 - 1
  have h : ((d x y).toNat : ℚ) + 1 ≤ 2 ^ 32 := by exact_mod_cast (d x y).toNat_lt
  linarith

/-! ## Numbers -/

theorem pow_simple {u : ℚ} (hu : 0 ≤ u) {e : ℕ} (he : e * u ≤ 1) : (1 + u) ^ e ≤ 1 + 2 * (e * u) := by
  suffices h : ∀ j : ℕ, j ≤ e → (1 + u) ^ j ≤ 1 + j * u + (j * u) ^ 2 by
    have h1 := h e le_rfl
    have h2 : 0 ≤ (e : ℚ) * u := by positivity
    nlinarith
  intro j
  induction j with
  | zero => intro _; simp
  | succ j ih =>
    intro hj
    have h1 := ih (by omega)
    have hx0 : 0 ≤ (j : ℚ) * u := by positivity
    have hx : (j : ℚ) * u ≤ 1 := by
      have : (j : ℚ) ≤ e := by exact_mod_cast (by omega : j ≤ e)
      nlinarith
    have h2 := mul_le_mul_of_nonneg_right h1 (show 0 ≤ 1 + u by linarith)
    rw [pow_succ]
    push_cast
    have h3 : ((j : ℚ) * u) ^ 2 * u ≤ (j * u) * u := by nlinarith [mul_nonneg hx0 hu]
    nlinarith [mul_nonneg hx0 hu, mul_nonneg hu hu]

theorem pow_f64 {e : ℕ} (he : e ≤ 2 ^ 53) : (1 + 1 / 2 ^ 53 : ℚ) ^ e - 1 ≤ e / 2 ^ 52 := by
  have h : (e : ℚ) ≤ 2 ^ 53 := by exact_mod_cast he
  have := pow_simple (u := 1 / 2 ^ 53) (by norm_num) (e := e) (by rw [mul_one_div]; exact (div_le_one (by norm_num)).mpr h)
  have e2 : (2 : ℚ) * (e * (1 / 2 ^ 53)) = e / 2 ^ 52 := by ring
  linarith

theorem no_overflow {n e : ℕ} (hn : n ≤ u32Max) (he : e ≤ 2 ^ 53) {W c : ℚ} (hc0 : 0 ≤ c) (hc : c ≤ 2) (hW0 : 0 ≤ W)
    (hW : W ≤ 2 ^ 128) : (1 + 1 / 2 ^ 53 : ℚ) ^ e * (c * (n * W)) ≤ 2 ^ 1023 := by
  have h1 := pow_f64 he
  have h2 : (e : ℚ) / 2 ^ 52 ≤ 2 := by
    rw [div_le_iff₀ (by norm_num)]
    have : (e : ℚ) ≤ 2 ^ 53 := by exact_mod_cast he
    linarith
  have hn' : (n : ℚ) ≤ 2 ^ 32 := by
    have h : n ≤ 2 ^ 32 := hn.trans (by decide)
    exact_mod_cast h
  have h3 : (n : ℚ) * W ≤ 2 ^ 32 * 2 ^ 128 := mul_le_mul hn' hW hW0 (by norm_num)
  have h4 : c * (n * W) ≤ 2 * (2 ^ 32 * 2 ^ 128) := mul_le_mul hc h3 (by positivity) (by norm_num)
  calc (1 + 1 / 2 ^ 53 : ℚ) ^ e * (c * (n * W)) ≤ 3 * (2 * (2 ^ 32 * 2 ^ 128)) :=
        mul_le_mul (by linarith) h4 (by positivity) (by norm_num)
    _ ≤ 2 ^ 200 := by norm_num
    _ ≤ 2 ^ 1023 := pow_le_pow_right₀ (by norm_num) (by norm_num)

theorem roundErr_f64 {e c n : ℕ} (he : e ≤ 2 ^ 53) {W : ℚ} (hW0 : 0 ≤ W) :
    roundErr (1 / 2 ^ 53) W e c n ≤ e / 2 ^ 52 * (c * (n * W)) :=
  mul_le_mul_of_nonneg_right (pow_f64 he) (by positivity)

variable {N : Type} [LinearOrder N] [Zero N] [RDist N] [LawfulDist N] [RFrom N (Ieee binary64)]
variable {mat : Mat N} {n : Nat} {d : Nat → Nat → N} {W : ℚ} {med : List Nat}

/-- The exact total deviation. -/
abbrev dev64 (n : Nat) (d : Nat → Nat → N) (med : List Nat) : ℚ := exactDev (L := Ieee binary64) N Ieee.val n d med

theorem Wide.nonneg (h : Wide n d W) (hd : Dissim n d) (hn : 1 ≤ n) : 0 ≤ W :=
  (roundErr_nonneg (u := 1 / 2 ^ 53) h.model hd hn h.bound 0 0).1

theorem Wide.fits (h : Wide n d W) (hd : Dissim n d) (hv : ValidMeds n med) {e : ℕ} (he : e ≤ 2 ^ 53) {c : ℚ} (hc0 : 0 ≤ c)
    (hc : c ≤ 2) : (1 + 1 / 2 ^ 53 : ℚ) ^ e * (c * (n * W)) ≤ 2 ^ 1023 :=
  no_overflow hv.sizes.n_le he hc0 hc (h.nonneg hd (hv.sizes.pos.trans hv.sizes.le)) h.le

theorem Wide.dev_fits (h : Wide n d W) (hd : Dissim n d) (hv : ValidMeds n med) {med' : List Nat} (hne : med' ≠ [])
    (hr : ∀ c ∈ med', c < n) : (1 + 1 / 2 ^ 53 : ℚ) ^ (n - 1) * dev64 n d med' ≤ 2 ^ 1023 := by
  have he : n - 1 ≤ 2 ^ 53 := by have := hv.sizes.n_le; have : u32Max ≤ 2 ^ 53 := by decide
                                 omega
  have h1 := h.fits hd hv he (c := 1) (by norm_num) (by norm_num)
  rw [one_mul] at h1
  exact (mul_le_mul_of_nonneg_left (exactDev_le h.bound hne hr) (by positivity)).trans h1

/-- The reported loss is finite, its relative error at most `n 2⁻⁵²`. -/
def Accurate64 (n : Nat) (d : Nat → Nat → N) (med : List Nat) (loss : Ieee binary64) : Prop :=
  ∃ q, loss = .num q ∧ |q - dev64 n d med| ≤ n / 2 ^ 52 * dev64 n d med

theorem Accurate.simple (h : Wide n d W) (hd : Dissim n d) (hv : ValidMeds n med) {med' : List Nat} (hne : med' ≠ [])
    (hr : ∀ c ∈ med', c < n) {loss : Ieee binary64}
    (ha : Accurate (N := N) (Ieee.Fin (F := binary64)) Ieee.val (1 / 2 ^ 53) n d med' loss) : Accurate64 n d med' loss := by
  obtain ⟨⟨q, rfl, -⟩, h2⟩ := ha
  refine ⟨q, rfl, h2.trans (mul_le_mul_of_nonneg_right ?_ ?_)⟩
  · have he : n - 1 ≤ 2 ^ 53 := by have := hv.sizes.n_le; have : u32Max ≤ 2 ^ 53 := by decide
                                   omega
    refine (pow_f64 he).trans (div_le_div_of_nonneg_right ?_ (by norm_num))
    exact_mod_cast Nat.sub_le n 1
  · exact List.sum_nonneg fun y hy => by
      obtain ⟨o, ho, rfl⟩ := List.mem_map.mp hy
      exact h.model.val_nonneg (minDist_nonneg hd hne hr (List.mem_range.mp ho))

/-- **C75, accurate loss**: FasterPAM (any order). -/
theorem C75_rand_fasterpam (h : Wide n d W) (hm : IsMatrix mat n d) (hd : Dissim n d) (hv : ValidMeds n med)
    (hnd : med.Nodup) (hs : med.length = 1 → Symm n d) (maxiter : Nat) {seq : List Nat} (hseq : ∀ j ∈ seq, j < n)
    {r : SwapResult (Ieee binary64)} (hr : randFasterpam (Ieee binary64) mat med maxiter seq = .ok r) :
    Accurate64 n d r.med r.loss := by
  obtain ⟨r', hr', hw⟩ := C04_rand_fasterpam (L := Ieee binary64) hm hv maxiter hseq
  rw [hr] at hr'; cases hr'
  have hl : r.med.length = med.length := hw.medLen
  have hne : r.med ≠ [] := List.ne_nil_of_length_pos (hl ▸ hv.sizes.pos)
  exact Accurate.simple h hd hv hne hw.medRange
    (C66_rand_fasterpam h.model hm hd hv hnd hs maxiter hseq hr (h.dev_fits hd hv hne hw.medRange))

theorem C75_fasterpam (h : Wide n d W) (hm : IsMatrix mat n d) (hd : Dissim n d) (hv : ValidMeds n med)
    (hnd : med.Nodup) (hs : med.length = 1 → Symm n d) (maxiter : Nat)
    {r : SwapResult (Ieee binary64)} (hr : fasterpam (Ieee binary64) mat med maxiter = .ok r) :
    Accurate64 n d r.med r.loss := by
  rw [fasterpam_eq_rand, hm.len] at hr
  exact C75_rand_fasterpam h hm hd hv hnd hs maxiter (fun j hj => List.mem_range.mp hj) hr

/-- par_fasterpam, every schedule. -/
theorem C75_par_fasterpam (h : Wide n d W) (hm : IsMatrix mat n d) (hd : Dissim n d) (hv : ValidMeds n med)
    (hnd : med.Nodup) (hk : 2 ≤ med.length) (sc0 : Sched) (scF scS : Nat → Nat → Sched) (maxiter : Nat) {seq : List Nat}
    (hseq : ∀ j ∈ seq, j < n) {r : SwapResult (Ieee binary64)}
    (hr : parFasterpam (Ieee binary64) sc0 scF scS mat med maxiter seq = .ok r) : Accurate64 n d r.med r.loss := by
  obtain ⟨b1, b2, b3⟩ := parFasterpam_any (L := Ieee binary64) sc0 scF scS hm hv maxiter hseq
  have hsh := (b2 hk).shape
  have hr' := hr
  rw [b1, b3 hk] at hr'
  have hl : r.med.length = med.length := by cases hr'; exact hsh.medLen
  have hrg : ∀ c ∈ r.med, c < n := by cases hr'; exact hsh.medRange
  have hne : r.med ≠ [] := List.ne_nil_of_length_pos (hl ▸ hv.sizes.pos)
  exact Accurate.simple h hd hv hne hrg
    (C66_par_fasterpam h.model sc0 scF scS hm hd hv hnd hk maxiter hseq hr (h.dev_fits hd hv hne hrg))

theorem C75_alternating (h : Wide n d W) (hm : IsMatrix mat n d) (hd : Dissim n d) (hv : ValidMeds n med)
    (hnd : med.Nodup) (maxiter : Nat) {r : AltResult (Ieee binary64)}
    (hr : alternating (Ieee binary64) mat med maxiter = .ok r) : Accurate64 n d r.med r.loss := by
  obtain ⟨r', hr', hw⟩ := C04_alternating (L := Ieee binary64) hm hv maxiter
  rw [hr] at hr'; cases hr'
  have hl : r.med.length = med.length := hw.medLen
  have hne : r.med ≠ [] := List.ne_nil_of_length_pos (hl ▸ hv.sizes.pos)
  exact Accurate.simple h hd hv hne hw.medRange
    (C66_alternating h.model hm hd hv hnd maxiter hr (h.dev_fits hd hv hne hw.medRange))

/-- The error of one computed change, `m` roundings. -/
def err64 (m n : ℕ) (W : ℚ) : ℚ := m / 2 ^ 52 * (2 * (n * W))

theorem e_le (hv : ValidMeds n med) : 2 * n + 1 ≤ 2 ^ 53 := by
  have := hv.sizes.n_le
  have : 2 * u32Max + 1 ≤ 2 ^ 53 := by decide
  omega

/-- **C75, not worse**: FasterPAM (any order), all numbers of exchanges and iterations. -/
theorem C75_rand_fasterpam_not_worse (h : Wide n d W) (hm : IsMatrix mat n d) (hd : Dissim n d) (hv : ValidMeds n med)
    (hnd : med.Nodup) (hk : 2 ≤ med.length) (maxiter : Nat) {seq : List Nat} (hseq : seq.Perm (List.range n))
    {r : SwapResult (Ieee binary64)} (hr : randFasterpam (Ieee binary64) mat med maxiter seq = .ok r) :
    dev64 n d r.med ≤ dev64 n d med + (n + 1) * err64 (2 * n + 1) n W := by
  have hW0 := h.nonneg hd (hv.sizes.pos.trans hv.sizes.le)
  refine (C69_rand_fasterpam h.model hm hd h.bound (h.fits hd hv (e_le hv) (by norm_num) le_rfl) hv hnd hk maxiter hseq
    hr).2.trans ?_
  exact add_le_add_right (mul_le_mul_of_nonneg_left (roundErr_f64 (c := 2) (e_le hv) hW0) (by positivity)) _

/-- par_fasterpam with at most `p ≤ u32::MAX` threads. -/
theorem C75_par_fasterpam_not_worse (h : Wide n d W) (hm : IsMatrix mat n d) (hd : Dissim n d) (hv : ValidMeds n med)
    (hnd : med.Nodup) (hk : 2 ≤ med.length) (sc0 : Sched) {scF : Nat → Nat → Sched} (scS : Nat → Nat → Sched) {p : Nat}
    (hp : p ≤ u32Max) (hF : AtMostThreads p scF) (maxiter : Nat) {seq : List Nat} (hseq : seq.Perm (List.range n))
    {r : SwapResult (Ieee binary64)} (hr : parFasterpam (Ieee binary64) sc0 scF scS mat med maxiter seq = .ok r) :
    dev64 n d r.med ≤ dev64 n d med + (n + 1) * err64 (n + p + 1) n W := by
  have hW0 := h.nonneg hd (hv.sizes.pos.trans hv.sizes.le)
  have he : n + p + 1 ≤ 2 ^ 53 := by
    have := hv.sizes.n_le
    have : 2 * u32Max + 1 ≤ 2 ^ 53 := by decide
    omega
  refine (C73_not_worse h.model sc0 scS hF hm hd h.bound (h.fits hd hv he (by norm_num) le_rfl) hv hnd hk maxiter hseq
    hr).2.trans ?_
  exact add_le_add_right (mul_le_mul_of_nonneg_left (roundErr_f64 (c := 2) he hW0) (by positivity)) _

/-- **C75, factor five**: FasterPAM (any order) when the last pass exchanged nothing, on a metric. -/
theorem C75_metric (h : Wide n d W) (hm : IsMatrix mat n d) (hd : Dissim n d)
    (hmet : NearMetric (L := Ieee binary64) Ieee.val 0 n d) (hv : ValidMeds n med)
    (hnd : med.Nodup) (hk : 2 ≤ med.length) (maxiter : Nat) {seq : List Nat} (hseq : seq.Perm (List.range n))
    {r0 r : SwapResult (Ieee binary64)} (h0 : randFasterpam (Ieee binary64) mat med maxiter seq = .ok r0)
    (hr : randFasterpam (Ieee binary64) mat med (maxiter + 1) seq = .ok r)
    (hit : r.nIter = maxiter + 1) (hq : r.nSwap = r0.nSwap)
    {other : List Nat} (hne : other ≠ []) (hor : ∀ c ∈ other, c < n) (ho : other.length ≤ med.length) :
    dev64 n d r.med ≤ 5 * dev64 n d other + other.length * err64 (2 * n + 1) n W := by
  have hW0 := h.nonneg hd (hv.sizes.pos.trans hv.sizes.le)
  refine (C70_rand_fasterpam h.model hm hd h.bound hmet (h.fits hd hv (e_le hv) (by norm_num) le_rfl) hv hnd hk maxiter
    hseq h0 hr hit hq hne hor ho).trans ?_
  have := mul_le_mul_of_nonneg_left (roundErr_f64 (c := 2) (e := 2 * n + 1) (n := n) (e_le hv) hW0)
    (show (0 : ℚ) ≤ other.length by positivity)
  rw [mul_zero, mul_zero, add_zero]
  exact add_le_add_right this _

/-! ## Non-vacuity -/

/-- The distances of `roadRows` (a metric) as `f32`, in units of 1/8: exact, so a metric without error. -/
def road32 (x y : Nat) : Finite binary32 := .ofRat binary32 (((roadRows.getD x []).getD y 0 : ℕ) / 8)

instance : Inhabited (Finite binary32) := ⟨0⟩

def road32Mat : Mat (Finite binary32) := ofRows ((List.range 6).map fun x => (List.range 6).map (road32 x))

theorem road32_isMatrix : IsMatrix road32Mat 6 road32 := by
  have h : ∀ x < 6, ∀ y < 6, road32Mat.get x y = .ok (road32 x y) := by decide +kernel
  exact ⟨rfl, rfl, fun x y hx hy => h x hx y hy⟩

theorem road32_dissim : Dissim 6 road32 := by
  have hd : ∀ x < 6, road32 x x = 0 := by decide +kernel
  have hn : ∀ x < 6, ∀ y < 6, 0 ≤ road32 x y := by decide +kernel
  exact ⟨hd, fun x y hx hy => hn x hx y hy⟩

theorem road32_wide : Wide 6 road32 3 := by
  have h : ∀ x < 6, ∀ y < 6, (road32 x y).q ≤ 3 := by decide +kernel
  exact wide_f32 (fun x y hx hy => h x hx y hy) (by norm_num)

theorem road32_metric : NearMetric (L := Ieee binary64) Ieee.val 0 6 road32 := by
  have hs : ∀ x < 6, ∀ y < 6, road32 x y = road32 y x := by decide +kernel
  have ht : ∀ x < 6, ∀ y < 6, ∀ z < 6, Ieee.val (conv (road32 x z) : Ieee binary64) ≤
      Ieee.val (conv (road32 x y) : Ieee binary64) + Ieee.val (conv (road32 y z) : Ieee binary64) + 0 := by
    decide +kernel
  exact ⟨le_rfl, fun x y hx hy => hs x hx y hy, fun x y z hx hy hz => ht x hx y hy z hz⟩

theorem road32_run (it : Nat) (h : it = 1 ∨ it = 2) :
    randFasterpam (Ieee binary64) road32Mat [2, 5] it (List.range 6) = .ok ⟨.num (7 / 8), [0, 0, 0, 1, 1, 1], it, 4, [1, 4]⟩ := by
  rcases h with rfl | rfl <;> decide +kernel

example : dev64 6 road32 [1, 4] ≤ dev64 6 road32 [2, 5] + ((6 : ℕ) + 1) * err64 13 6 3 :=
  C75_rand_fasterpam_not_worse road32_wide road32_isMatrix road32_dissim road_valid (by decide) (by decide) 1
    (List.Perm.refl _) (road32_run 1 (.inl rfl))

example (other : List Nat) (hne : other ≠ []) (hor : ∀ c ∈ other, c < 6) (ho : other.length ≤ 2) :
    dev64 6 road32 [1, 4] ≤ 5 * dev64 6 road32 other + other.length * err64 13 6 3 :=
  C75_metric road32_wide road32_isMatrix road32_dissim road32_metric road_valid (by decide) (by decide) 1
    (List.Perm.refl _) (road32_run 1 (.inl rfl)) (road32_run 2 (.inr rfl)) rfl rfl hne hor ho

/-- Four objects, all distances `u32::MAX`. -/
def far32 (x y : Nat) : UInt32 := if x = y then 0 else 4294967295

def far32Mat : Mat UInt32 := ofRows ((List.range 4).map fun x => (List.range 4).map (far32 x))

theorem far32_isMatrix : IsMatrix far32Mat 4 far32 := by
  have h : ∀ x < 4, ∀ y < 4, far32Mat.get x y = .ok (far32 x y) := by decide +kernel
  exact ⟨rfl, rfl, fun x y hx hy => h x hx y hy⟩

theorem far32_dissim : Dissim 4 far32 :=
  ⟨fun _ _ => if_pos rfl, fun _ _ _ _ => UInt32.le_iff_toNat_le.mpr (Nat.zero_le _)⟩

theorem far32_valid : ValidMeds 4 [0, 1] := ⟨⟨by decide, by decide, by decide, by decide⟩, by decide⟩

example : Accurate64 4 far32 [0, 1] (.num 8589934590) :=
  C75_fasterpam (wide_u32 4 far32) far32_isMatrix far32_dissim far32_valid (by decide) (fun h => nomatch h) 100
    (r := ⟨.num 8589934590, [0, 1, 0, 0], 1, 0, [0, 1]⟩) (by decide +kernel)

example : Accurate64 6 road32 [1, 4] (.num (7 / 8)) :=
  C75_par_fasterpam road32_wide road32_isMatrix road32_dissim road_valid (by decide) (by decide) (mixS 0 0) mixF mixS
    100 (seq := List.range 6) (fun j hj => List.mem_range.mp hj) (r := ⟨.num (7 / 8), [0, 0, 0, 1, 1, 1], 2, 4, [1, 4]⟩) (by decide +kernel)

example : Accurate64 6 road32 [1, 4] (.num (7 / 8)) :=
  C75_alternating road32_wide road32_isMatrix road32_dissim road_valid (by decide) 100
    (r := ⟨.num (7 / 8), [0, 0, 0, 1, 1, 1], 2, [1, 4]⟩) (by decide +kernel)

/-! ## With `f64` distances sums can overflow -/

/-- Six objects, distances up to 15, times `2 ^ 1020`. -/
def hugeRows : List (List ℕ) :=
  [[0, 0, 8, 0, 15, 0], [0, 0, 0, 15, 15, 15], [8, 0, 0, 15, 15, 15], [0, 15, 15, 0, 0, 1], [15, 15, 15, 0, 0, 15],
    [0, 15, 15, 1, 15, 0]]

def huge (x y : Nat) : Finite binary64 := .ofRat binary64 (((hugeRows.getD x []).getD y 0 : ℕ) * 2 ^ 1020)

def hugeMat : Mat (Finite binary64) := ofRows ((List.range 6).map fun x => (List.range 6).map (huge x))

theorem huge_isMatrix : IsMatrix hugeMat 6 huge := by
  have h : ∀ x < 6, ∀ y < 6, hugeMat.get x y = .ok (huge x y) := by decide +kernel
  exact ⟨rfl, rfl, fun x y hx hy => h x hx y hy⟩

/-- **C75, overflow**: all distances are finite, the loss of `[1, 5]` overflows, and FasterPAM exchanges medoid 1 for 3 since
the change is the difference of two infinities, not a number, and so not `≥ 0`; the exact total deviation nearly doubles. -/
theorem C75_f64_overflow : (∀ x < 6, ∀ y < 6, (huge x y).q ≤ 15 * 2 ^ 1020) ∧ Dissim 6 huge ∧ Symm 6 huge ∧
    fasterpam (Ieee binary64) hugeMat [1, 5] 100 = .ok ⟨.inf, [1, 1, 1, 0, 0, 1], 1, 1, [3, 5]⟩ ∧
    dev64 6 huge [1, 5] = 16 * 2 ^ 1020 ∧ dev64 6 huge [3, 5] = 30 * 2 ^ 1020 := by
  refine ⟨by decide +kernel, ⟨?_, ?_⟩, ?_, by decide +kernel, by decide +kernel, by decide +kernel⟩
  · exact (by decide +kernel : ∀ x < 6, huge x x = 0)
  · exact fun x y hx hy => (by decide +kernel : ∀ x < 6, ∀ y < 6, 0 ≤ huge x y) x hx y hy
  · exact fun x y hx hy => (by decide +kernel : ∀ x < 6, ∀ y < 6, huge x y = huge y x) x hx y hy

end KMedoids
