import Verif.Ext
import Verif.Proofs.BitK2
import Mathlib.Algebra.Order.Floor.Ring
import Mathlib.Data.Rat.Floor

/-!
# Arithmetic with rounding

Every operation is the exact one on the rationals followed by a rounding, which may be any monotone function
that fixes zero and one. This covers all rounding modes of binary floating point (without overflow) and fixed
point. `MonoQuot` holds for all of them, and with infinities and NaN.
-/

set_option linter.unusedSectionVars false

namespace KMedoids

open RFrom (conv)

structure Rounding where
  f : ℚ → ℚ
  mono : Monotone f
  zero : f 0 = 0
  one : f 1 = 1

/-- Numbers with rounding `ρ`. -/
structure Rd (ρ : Rounding) where
  v : ℚ

instance (ρ : Rounding) : RLoss (Rd ρ) where
  pcmp a b := some (compare a.v b.v)
  zero := ⟨0⟩
  one := ⟨1⟩
  add a b := ⟨ρ.f (a.v + b.v)⟩
  sub a b := ⟨ρ.f (a.v - b.v)⟩
  neg a := ⟨-a.v⟩
  div a b := ⟨ρ.f (a.v / b.v)⟩
  ofU32 n := ⟨ρ.f n⟩

instance (ρ : Rounding) : RFrom ℕ (Rd ρ) := ⟨fun n => ⟨ρ.f n⟩⟩
instance (ρ : Rounding) : SaneZero (Rd ρ) := ⟨by simp [pcmp, RLoss.zero, RPartialOrd.pcmp]⟩

theorem rlt_rd {ρ : Rounding} (a b : Rd ρ) : rlt a b = decide (a.v < b.v) := by
  unfold rlt
  show (some (compare a.v b.v) == some Ordering.lt) = _
  rcases lt_trichotomy a.v b.v with h | h | h
  · simp [compare_lt_iff_lt.mpr h, h]
  · simp [h]
  · simp [compare_gt_iff_gt.mpr h, h.le]

theorem conv_rd_pos {ρ : Rounding} {c : ℕ} (h : 0 < c) : 0 < (conv c : Rd ρ).v := by
  have h1 : ρ.f 1 ≤ ρ.f (c : ℚ) := ρ.mono (by exact_mod_cast h)
  rw [ρ.one] at h1
  exact lt_of_lt_of_le one_pos h1

theorem monoQuot_rounded (ρ : Rounding) : MonoQuot ℕ (Rd ρ) := by
  have hself : ∀ c : ℕ, 0 < c → (RLoss.div (conv c) (conv c) : Rd ρ).v = 1 := by
    intro c hc
    show ρ.f (_ / _) = 1
    rw [div_self (conv_rd_pos hc).ne', ρ.one]
  refine ⟨fun a b => a.v ≤ b.v, fun a b h => ?_, le_refl (0 : ℚ), fun a a' b b' h h' => ?_, fun c hc => ?_,
    fun a b c ha hab hc => ?_⟩
  · rw [rlt_rd]; simpa using h
  · exact ρ.mono (add_le_add h h')
  · dsimp only; rw [hself c hc]; exact zero_le_one
  · have hcp : 0 < c := by rcases hc with rfl | rfl; exact ha; exact lt_of_lt_of_le ha hab
    dsimp only
    rw [hself c hcp, ← ρ.one]
    exact ρ.mono ((div_le_one (conv_rd_pos (lt_of_lt_of_le ha hab))).mpr (ρ.mono (by exact_mod_cast hab)))

/-- Rounding down to multiples of 1/8: fixed point with three binary digits. -/
def eighths : Rounding where
  f x := ⌊8 * x⌋ / 8
  mono x y h := by
    have : ⌊8 * x⌋ ≤ ⌊8 * y⌋ := Int.floor_le_floor (by linarith)
    have : (⌊8 * x⌋ : ℚ) ≤ ⌊8 * y⌋ := by exact_mod_cast this
    show (⌊8 * x⌋ : ℚ) / 8 ≤ ⌊8 * y⌋ / 8
    linarith
  zero := by simp
  one := by norm_num

/-! ## infinities and NaN -/

/-- NaN is largest; otherwise the order of the non-negative numbers. -/
def Ext.R : Ext → Ext → Prop
  | _, .nan => True
  | .fin p, .fin q => 0 ≤ p ∧ p ≤ q
  | .fin p, .inf => 0 ≤ p
  | .inf, .inf => True
  | _, _ => False

theorem rlt_fin (p q : ℚ) : rlt (Ext.fin p) (Ext.fin q) = decide (p < q) := by
  unfold rlt
  show (some (compare p q) == some Ordering.lt) = _
  rcases lt_trichotomy p q with h | h | h
  · simp [compare_lt_iff_lt.mpr h, h]
  · simp [h]
  · simp [compare_gt_iff_gt.mpr h, h.le]

theorem monoQuot_ext : MonoQuot (WithTop ℕ) Ext := by
  have hself : ∀ c : ℕ, 0 < c → Ext.div (.fin c) (.fin c) = .fin 1 := by
    intro c hc
    have hc : (c : ℚ) ≠ 0 := by exact_mod_cast hc.ne'
    show (if (c : ℚ) = 0 then Ext.infOf c else .fin (c / c)) = _
    rw [if_neg hc, div_self hc]
  refine ⟨Ext.R, fun a b h => ?_, ⟨le_rfl, le_rfl⟩, fun a a' b b' h h' => ?_, fun c hc => ?_,
    fun a b c ha hab hc => ?_⟩
  · match a, b, h with
    | .fin p, .fin q, h => rw [rlt_fin]; simpa using h.2
    | .fin p, .inf, _ => rfl
    | .inf, .inf, _ => rfl
    | .fin _, .nan, _ => rfl
    | .inf, .nan, _ => rfl
    | .negInf, .nan, _ => rfl
    | .nan, .nan, _ => rfl
  · show Ext.R (Ext.add a b) (Ext.add a' b')
    cases a <;> cases a' <;> cases b <;> cases b' <;> simp_all [Ext.R, Ext.add]
    · constructor <;> linarith
    all_goals linarith
  · cases c with
    | top => trivial
    | coe c =>
      show Ext.R (.fin 0) (Ext.div (.fin c) (.fin c))
      rw [hself c (WithTop.coe_pos.mp hc)]
      exact ⟨le_rfl, zero_le_one⟩
  · cases c with
    | top => 
      show Ext.R _ (Ext.div .inf .inf)
      cases hq : (RLoss.div (conv a) (conv b) : Ext) <;> trivial
    | coe c =>
      have hcp : 0 < c := by
        rcases hc with h | h
        · exact WithTop.coe_pos.mp (h ▸ ha)
        · exact WithTop.coe_pos.mp (h ▸ lt_of_lt_of_le ha hab)
      show Ext.R (RLoss.div (conv a) (conv b)) (Ext.div (.fin c) (.fin c))
      rw [hself c hcp]
      cases a with
      | top =>
        rcases hc with h | h
        · cases h
        · rw [← h] at hab; exact absurd hab (by simp)
      | coe a =>
        cases b with
        | top => exact ⟨le_rfl, zero_le_one⟩
        | coe b =>
          have ha : 0 < a := WithTop.coe_pos.mp ha
          have hab : a ≤ b := WithTop.coe_le_coe.mp hab
          have hb : (0 : ℚ) < b := by exact_mod_cast lt_of_lt_of_le ha hab
          show Ext.R (if (b : ℚ) = 0 then Ext.infOf a else .fin (a / b)) (.fin 1)
          rw [if_neg hb.ne']
          exact ⟨by positivity, (div_le_one hb).mpr (by exact_mod_cast hab)⟩

end KMedoids
