import Verif.Ieee
import Verif.Proofs.Bounded
import Verif.Proofs.Loss

/-!
# Floating point numbers on a grid

Distances which are multiples `z * 2 ^ e` of a power of two with `z ≤ U`. Floating point arithmetic is exact on such numbers
as long as the multiples do not exceed `2 ^ p` in magnitude, `p` the precision of the format.
-/

set_option linter.unusedSectionVars false

namespace KMedoids

open RFrom (conv)

/-- Natural numbers up to `U`. -/
structure Steps (U : ℕ) where
  z : ℕ
  le : z ≤ U

namespace Steps
variable {U : ℕ}

theorem z_inj : Function.Injective (z : Steps U → ℕ) := by
  rintro ⟨a, ha⟩ ⟨b, hb⟩ h; cases h; rfl

instance : LinearOrder (Steps U) := LinearOrder.lift' z z_inj
instance : Zero (Steps U) := ⟨⟨0, Nat.zero_le _⟩⟩
instance : Inhabited (Steps U) := ⟨0⟩

/-- The PAM family does not add distances; addition saturates. -/
instance : RDist (Steps U) where
  pcmp a b := some (compare a.z b.z)
  zero := 0
  isZero a := decide (a.z = 0)
  add a b := ⟨min (a.z + b.z) U, min_le_right _ _⟩

instance : LawfulDist (Steps U) where
  pcmp_eq a b := by
    show some (compare a.z b.z) = some (compare a b)
    rcases lt_trichotomy a.z b.z with h | h | h
    · rw [compare_lt_iff_lt.mpr h, compare_lt_iff_lt.mpr (show a < b from h)]
    · rw [compare_eq_iff_eq.mpr h, compare_eq_iff_eq.mpr (z_inj h)]
    · rw [compare_gt_iff_gt.mpr h, compare_gt_iff_gt.mpr (show b < a from h)]
  zero_eq := rfl
  isZero_eq a := by
    show decide (a.z = 0) = decide (a = 0)
    exact decide_eq_decide.mpr ⟨fun h => z_inj h, fun h => h ▸ rfl⟩

instance : RFrom (Steps U) ℤ := ⟨fun x => x.z⟩
instance : LawfulFrom (Steps U) ℤ := ⟨fun _ _ h => Int.ofNat_lt.mpr h, rfl⟩

end Steps

variable {F : Fmt}

/-- The floating point number `z * 2 ^ e`. -/
def gridNum (F : Fmt) (e z : ℤ) : Ieee F := .num (z * 2 ^ e)

/-- The distance `z * 2 ^ e`. -/
def gridDist (F : Fmt) (e : ℤ) {U : ℕ} (x : Steps U) : Finite F := .ofRat F (x.z * 2 ^ e)

theorem gridDist_q {e : ℤ} (he : F.emin ≤ e) {U : ℕ} (hU : U ≤ 2 ^ F.p) (x : Steps U) :
    (gridDist F e x).q = x.z * 2 ^ e := by
  have h := F.rnd_of_rep (m := x.z) he (by
    rw [abs_of_nonneg (by positivity)]; exact_mod_cast x.le.trans hU)
  simpa [gridDist, Finite.ofRat] using h

theorem ofExact_grid {e z : ℤ} (he : F.emin ≤ e) (he' : e + F.p < F.emax) (hz : Bd (2 ^ F.p) z) :
    Ieee.ofExact F (z * 2 ^ e) = gridNum F e z := by
  have hpos : (0 : ℚ) < 2 ^ e := zpow_pos two_pos e
  have hr := F.rnd_of_rep (m := z) he (abs_le.mpr hz)
  have hz' : |(z : ℚ)| ≤ 2 ^ F.p := by exact_mod_cast abs_le.mpr hz
  have hlt : |(z : ℚ) * 2 ^ e| < 2 ^ F.emax := by
    rw [abs_mul, abs_of_pos hpos]
    calc |(z : ℚ)| * 2 ^ e ≤ 2 ^ F.p * 2 ^ e := mul_le_mul_of_nonneg_right hz' hpos.le
      _ = 2 ^ (e + F.p) := by rw [zpow_add₀ two_ne_zero, zpow_natCast, mul_comm]
      _ < 2 ^ F.emax := zpow_lt_zpow_right₀ one_lt_two he'
  obtain ⟨h1, h2⟩ := abs_lt.mp hlt
  rw [Ieee.ofExact, hr, if_neg (not_le.mpr h2), if_neg (not_le.mpr h1), gridNum]

/-- Floating point arithmetic is exact on the grid. -/
theorem grid_loss {e : ℤ} (he : F.emin ≤ e) (he' : e + F.p < F.emax) :
    (∀ x y, pcmp (gridNum F e x) (gridNum F e y) = some (compare x y)) ∧ gridNum F e 0 = RLoss.zero ∧
    (∀ x y, Bd (2 ^ F.p) (x + y) → gridNum F e (x + y) = RLoss.add (gridNum F e x) (gridNum F e y)) ∧
    (∀ x y, Bd (2 ^ F.p) (x - y) → gridNum F e (x - y) = RLoss.sub (gridNum F e x) (gridNum F e y)) ∧
    ∀ x, gridNum F e (-x) = RLoss.neg (gridNum F e x) := by
  have hpos : (0 : ℚ) < 2 ^ e := zpow_pos two_pos e
  refine ⟨fun x y => ?_, ?_, fun x y h => ?_, fun x y h => ?_, fun x => ?_⟩
  · show some (compare ((x : ℚ) * 2 ^ e) (y * 2 ^ e)) = _
    rcases lt_trichotomy x y with h | h | h
    · rw [compare_lt_iff_lt.mpr h, compare_lt_iff_lt.mpr (mul_lt_mul_of_pos_right (by exact_mod_cast h) hpos)]
    · subst h; simp
    · rw [compare_gt_iff_gt.mpr h, compare_gt_iff_gt.mpr (mul_lt_mul_of_pos_right (by exact_mod_cast h) hpos)]
  · show Ieee.num _ = Ieee.num _; simp
  · rw [← ofExact_grid he he' h]
    show _ = Ieee.ofExact F _
    push_cast; rw [add_mul]
  · rw [← ofExact_grid he he' h]
    show _ = Ieee.ofExact F _
    push_cast; rw [sub_mul, sub_eq_add_neg]
  · show Ieee.num _ = Ieee.num _
    push_cast; rw [neg_mul]

theorem grid_bhom {e : ℤ} (he : F.emin ≤ e) (he' : e + F.p < F.emax) {U : ℕ} (hU : U ≤ 2 ^ F.p) :
    BHom (N := Steps U) (gridDist F e) (gridNum F e) U (2 ^ F.p) := by
  obtain ⟨h1, h2, h3, h4, h5⟩ := grid_loss (F := F) he he'
  have hpos : (0 : ℚ) < 2 ^ e := zpow_pos two_pos e
  refine ⟨fun x y => ?_, ?_, fun x y _ _ => h1 x y, h2, fun x y _ _ => h3 x y, fun x y _ _ => h4 x y, fun x _ _ => h5 x,
    fun x => ?_, fun x => Int.natCast_nonneg _, fun x => Int.ofNat_le.mpr x.le⟩
  · show some (compare (gridDist F e x).q (gridDist F e y).q) = some (compare x.z y.z)
    rw [gridDist_q he hU, gridDist_q he hU]
    rcases lt_trichotomy x.z y.z with h | h | h
    · rw [compare_lt_iff_lt.mpr h, compare_lt_iff_lt.mpr (mul_lt_mul_of_pos_right (by exact_mod_cast h) hpos)]
    · rw [h]; simp
    · rw [compare_gt_iff_gt.mpr h, compare_gt_iff_gt.mpr (mul_lt_mul_of_pos_right (by exact_mod_cast h) hpos)]
  · exact Finite.q_inj (by rw [gridDist_q he hU]; show ((0 : ℕ) : ℚ) * _ = 0; simp)
  · show gridNum F e x.z = Ieee.num (gridDist F e x).q
    rw [gridDist_q he hU, gridNum]; push_cast; rfl

end KMedoids
