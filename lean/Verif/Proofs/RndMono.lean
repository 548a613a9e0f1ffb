import Verif.Ieee
import Mathlib.Tactic.Linarith

/-! # Rounding to nearest is monotone and odd -/

namespace KMedoids

theorem roundEven_mono {r s : ℚ} (h : r ≤ s) : roundEven r ≤ roundEven s := by
  by_contra hlt
  rw [not_le] at hlt
  have h1 := abs_le.mp (roundEven_err r)
  have h2 := abs_le.mp (roundEven_err s)
  have h3 : (roundEven s : ℚ) + 1 ≤ roundEven r := by exact_mod_cast hlt
  -- both are the midpoint, so equal
  have h4 : r = s := by linarith [h1.1, h1.2, h2.1, h2.2]
  rw [h4] at hlt
  exact lt_irrefl _ hlt

theorem roundEven_neg (r : ℚ) : roundEven (-r) = -roundEven r := by
  have h1 := Int.floor_le r
  have h2 := Int.lt_floor_add_one r
  by_cases hi : r = ⌊r⌋
  · have e : (-r : ℚ) = ((-⌊r⌋ : ℤ) : ℚ) := by push_cast; linarith
    rw [e, roundEven_int]
    conv_rhs => rw [hi, roundEven_int]
  · have hlt : (⌊r⌋ : ℚ) < r := lt_of_le_of_ne h1 (Ne.symm hi)
    have hf : ⌊-r⌋ = -⌊r⌋ - 1 := by
      rw [Int.floor_eq_iff]
      push_cast
      constructor <;> linarith
    have e : -r - ((-⌊r⌋ - 1 : ℤ) : ℚ) = 1 - (r - ⌊r⌋) := by push_cast; ring
    unfold roundEven
    dsimp only
    rw [hf, e]
    rcases lt_trichotomy (r - (⌊r⌋ : ℚ)) (1 / 2) with h | h | h
    · rw [if_neg (by linarith), if_pos (by linarith), if_pos h]; omega
    · rw [h]
      norm_num
      by_cases hm : ⌊r⌋ % 2 = 0
      · rw [if_neg (show ¬(-⌊r⌋ - 1) % 2 = 0 by omega), if_pos hm]
      · rw [if_pos (show (-⌊r⌋ - 1) % 2 = 0 by omega), if_neg hm]; omega
    · rw [if_pos (by linarith), if_neg (by linarith), if_pos h]; omega

namespace Fmt
variable (F : Fmt)

theorem rnd_neg (x : ℚ) : F.rnd (-x) = -F.rnd x := by
  have e : F.quantum (-x) = F.quantum x := by rw [quantum, quantum, abs_neg]
  rw [rnd, rnd, e, neg_div, roundEven_neg]
  push_cast
  ring

theorem rnd_nonneg {x : ℚ} (h : 0 ≤ x) : 0 ≤ F.rnd x := by
  have hpos : (0 : ℚ) < 2 ^ F.quantum x := zpow_pos two_pos _
  have := roundEven_mono (r := 0) (s := x / 2 ^ F.quantum x) (by positivity)
  rw [show roundEven 0 = 0 by simpa using roundEven_int 0] at this
  exact mul_nonneg (by exact_mod_cast this) hpos.le

theorem rnd_mono_nonneg {x y : ℚ} (hx : 0 ≤ x) (h : x ≤ y) : F.rnd x ≤ F.rnd y := by
  have hpos : ∀ e : ℤ, (0 : ℚ) < 2 ^ e := fun e => zpow_pos two_pos e
  rcases eq_or_lt_of_le hx with rfl | hx0
  · rw [rnd_zero]; exact F.rnd_nonneg h
  have hy0 : 0 < y := hx0.trans_le h
  have hlog : Int.log 2 |x| ≤ Int.log 2 |y| := by
    rw [abs_of_pos hx0, abs_of_pos hy0]; exact Int.log_mono_right hx0 h
  rcases eq_or_lt_of_le hlog with hl | hl
  · have e : F.quantum x = F.quantum y := by rw [quantum, quantum, hl]
    rw [rnd, rnd, e]
    refine mul_le_mul_of_nonneg_right ?_ (hpos _).le
    exact_mod_cast roundEven_mono (div_le_div_of_nonneg_right h (hpos _).le)
  by_cases hq : F.quantum x = F.quantum y
  · rw [rnd, rnd, hq]
    refine mul_le_mul_of_nonneg_right ?_ (hpos _).le
    exact_mod_cast roundEven_mono (div_le_div_of_nonneg_right h (hpos _).le)
  -- the power of two between them is representable
  have hqy : F.quantum y = Int.log 2 |y| + 1 - F.p ∧ F.quantum x ≤ F.quantum y := by
    unfold quantum at hq ⊢; omega
  have hp := F.hp
  have hup : ∀ {q : ℤ}, q ≤ Int.log 2 |y| → ∃ z : ℤ, (z : ℚ) * 2 ^ q = 2 ^ Int.log 2 |y| := by
    intro q hq
    refine ⟨2 ^ (Int.log 2 |y| - q).toNat, ?_⟩
    rw [Int.cast_pow, Int.cast_ofNat, ← zpow_natCast, ← zpow_add₀ two_ne_zero]
    congr 1; omega
  have h1 : F.rnd x ≤ 2 ^ Int.log 2 |y| := by
    obtain ⟨z, hz⟩ := hup (q := F.quantum x) (by omega)
    have hx2 : x ≤ 2 ^ Int.log 2 |y| := by
      have := Int.lt_zpow_succ_log_self (R := ℚ) (b := 2) (by norm_num) |x|
      rw [abs_of_pos hx0] at this
      refine this.le.trans ?_
      have : (2 : ℚ) ^ (Int.log 2 x + 1) ≤ 2 ^ Int.log 2 |y| :=
        zpow_le_zpow_right₀ (by norm_num) (by rw [abs_of_pos hx0] at hl; omega)
      exact_mod_cast this
    rw [rnd, ← hz]
    refine mul_le_mul_of_nonneg_right ?_ (hpos _).le
    have := roundEven_mono (r := x / 2 ^ F.quantum x) (s := z) (by rw [div_le_iff₀ (hpos _), hz]; exact hx2)
    rw [roundEven_int] at this
    exact_mod_cast this
  have h2 : 2 ^ Int.log 2 |y| ≤ F.rnd y := by
    obtain ⟨z, hz⟩ := hup (q := F.quantum y) (by omega)
    have hy2 : 2 ^ Int.log 2 |y| ≤ y := by
      have := Int.zpow_log_le_self (R := ℚ) (b := 2) (by norm_num) hy0
      rw [abs_of_pos hy0]
      exact_mod_cast this
    rw [rnd, ← hz]
    refine mul_le_mul_of_nonneg_right ?_ (hpos _).le
    have := roundEven_mono (r := z) (s := y / 2 ^ F.quantum y) (by rw [le_div_iff₀ (hpos _), hz]; exact hy2)
    rw [roundEven_int] at this
    exact_mod_cast this
  exact h1.trans h2

/-- Rounding is monotone. -/
theorem rnd_mono {x y : ℚ} (h : x ≤ y) : F.rnd x ≤ F.rnd y := by
  rcases le_total 0 x with hx | hx
  · exact F.rnd_mono_nonneg hx h
  · rcases le_total 0 y with hy | hy
    · have h1 := F.rnd_nonneg (x := -x) (by linarith)
      rw [F.rnd_neg] at h1
      have h2 := F.rnd_nonneg hy
      linarith
    · have := F.rnd_mono_nonneg (x := -y) (y := -x) (by linarith) (by linarith)
      rw [F.rnd_neg, F.rnd_neg] at this
      linarith
end Fmt
end KMedoids
