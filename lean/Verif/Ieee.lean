import Verif.Proofs.RelErr
import Verif.Ext
import Mathlib.Data.Int.Log
import Mathlib.Data.Rat.Floor

/-!
# IEEE 754 binary floating point

Binary formats with `p` bits of precision, smallest positive number `2 ^ emin` (gradual underflow) and overflow at
`2 ^ emax`; rounding to nearest, ties to even; infinities and NaN. The only simplification is that the two zeros are not
distinguished. `binary64` is `f64`, `binary32` is `f32`.
-/

set_option linter.unusedSectionVars false

namespace KMedoids

open RFrom (conv)

/-- A binary format. -/
structure Fmt where
  p : ℕ
  emin : ℤ
  emax : ℤ
  hp : 1 ≤ p
  hone : emin + p ≤ 1
  hmax : 1 ≤ emax

def binary64 : Fmt := ⟨53, -1074, 1024, by decide, by decide, by decide⟩
def binary32 : Fmt := ⟨24, -149, 128, by decide, by decide, by decide⟩

/-- Round to the nearest integer, ties to even. -/
def roundEven (r : ℚ) : ℤ :=
  let q := ⌊r⌋
  if r - q < 1 / 2 then q else if 1 / 2 < r - q then q + 1 else if q % 2 = 0 then q else q + 1

theorem roundEven_err (r : ℚ) : |(roundEven r : ℚ) - r| ≤ 1 / 2 := by
  have h1 := Int.floor_le r
  have h2 := Int.lt_floor_add_one r
  have key : ∀ z : ℤ, z = ⌊r⌋ ∨ z = ⌊r⌋ + 1 → (z = ⌊r⌋ → r - ⌊r⌋ ≤ 1 / 2) → (z = ⌊r⌋ + 1 → 1 / 2 ≤ r - ⌊r⌋) →
      |(z : ℚ) - r| ≤ 1 / 2 := by
    rintro z (rfl | rfl) h3 h4
    · have := h3 rfl; rw [abs_le]; constructor <;> linarith
    · have := h4 rfl; push_cast; rw [abs_le]; constructor <;> linarith
  unfold roundEven
  dsimp only
  split
  · rename_i h; exact key _ (.inl rfl) (fun _ => h.le) (fun h => by omega)
  · rename_i h
    split
    · rename_i h'; exact key _ (.inr rfl) (fun h => by omega) (fun _ => h'.le)
    · rename_i h'
      split
      · exact key _ (.inl rfl) (fun _ => not_lt.mp h') (fun h => by omega)
      · exact key _ (.inr rfl) (fun h => by omega) (fun _ => not_lt.mp h)

theorem roundEven_int (z : ℤ) : roundEven z = z := by
  unfold roundEven; simp

namespace Fmt
variable (F : Fmt)

/-- Exponent of the unit in the last place. -/
def quantum (x : ℚ) : ℤ := max F.emin (Int.log 2 |x| + 1 - F.p)

/-- Rounding, as if there was no overflow. -/
def rnd (x : ℚ) : ℚ := roundEven (x / 2 ^ F.quantum x) * 2 ^ F.quantum x

/-- Multiples of the smallest positive number. -/
def Grid (x : ℚ) : Prop := ∃ m : ℤ, x = m * 2 ^ F.emin

theorem rnd_grid (x : ℚ) : F.Grid (F.rnd x) := by
  obtain ⟨t, ht⟩ : ∃ t : ℕ, F.quantum x = F.emin + t :=
    ⟨(F.quantum x - F.emin).toNat, by have : F.emin ≤ F.quantum x := le_max_left _ _; omega⟩
  refine ⟨roundEven (x / 2 ^ F.quantum x) * 2 ^ t, ?_⟩
  rw [rnd, ht, zpow_add₀ two_ne_zero, zpow_natCast]
  push_cast; ring

theorem rnd_zero : F.rnd 0 = 0 := by
  have := roundEven_int 0
  simp only [Int.cast_zero] at this
  simp [rnd, this]

/-- Relative error; below the normal range numbers on the grid are exact. -/
theorem rnd_err {x : ℚ} (hx : F.Grid x) : |F.rnd x - x| ≤ (1 / 2 ^ F.p) * |x| := by
  have hpos : ∀ e : ℤ, (0 : ℚ) < 2 ^ e := fun e => zpow_pos two_pos e
  by_cases h0 : x = 0
  · subst h0; simp [rnd_zero]
  · have hxp : 0 < |x| := abs_pos.mpr h0
    by_cases hq : F.quantum x = F.emin
    · obtain ⟨m, hm⟩ := hx
      have : x / 2 ^ F.quantum x = m := by rw [hq, hm]; field_simp
      rw [rnd, this, roundEven_int, hq, ← hm]
      simp only [sub_self, abs_zero]
      positivity
    · have hq' : F.quantum x = Int.log 2 |x| + 1 - F.p := by
        unfold quantum at hq ⊢; omega
      have h1 := roundEven_err (x / 2 ^ F.quantum x)
      have h2 := Int.zpow_log_le_self (R := ℚ) (b := 2) (by norm_num) hxp
      have e : F.rnd x - x = (roundEven (x / 2 ^ F.quantum x) - x / 2 ^ F.quantum x) * 2 ^ F.quantum x := by
        rw [rnd, sub_mul, div_mul_cancel₀ _ (hpos _).ne']
      rw [e, abs_mul, abs_of_pos (hpos _)]
      calc _ ≤ 1 / 2 * 2 ^ F.quantum x := mul_le_mul_of_nonneg_right h1 (hpos _).le
        _ = (1 / 2 ^ F.p) * 2 ^ Int.log 2 |x| := by
          rw [hq', show Int.log 2 |x| + 1 - (F.p : ℤ) = (Int.log 2 |x| + 1) + (-(F.p : ℤ)) by ring,
            zpow_add₀ two_ne_zero, zpow_add₀ two_ne_zero, zpow_neg, zpow_natCast, zpow_one]
          field_simp
        _ ≤ _ := mul_le_mul_of_nonneg_left (by exact_mod_cast h2) (by positivity)

end Fmt

/-- A floating point number. -/
inductive Ieee (F : Fmt) where
  | num (q : ℚ)
  | inf
  | negInf
  | nan
  deriving DecidableEq, Repr

namespace Ieee
variable {F : Fmt}

/-- The exact result, rounded; overflow gives an infinity. -/
def ofExact (F : Fmt) (x : ℚ) : Ieee F :=
  if 2 ^ F.emax ≤ F.rnd x then .inf else if F.rnd x ≤ -2 ^ F.emax then .negInf else .num (F.rnd x)

def neg : Ieee F → Ieee F
  | .num q => .num (-q)
  | .inf => .negInf
  | .negInf => .inf
  | .nan => .nan

def add : Ieee F → Ieee F → Ieee F
  | .num p, .num q => ofExact F (p + q)
  | .nan, _ => .nan
  | _, .nan => .nan
  | .inf, .negInf => .nan
  | .negInf, .inf => .nan
  | .inf, _ => .inf
  | _, .inf => .inf
  | .negInf, _ => .negInf
  | _, .negInf => .negInf

/-- Infinity with the sign of `q`; NaN if `q` is zero. -/
def infOf (q : ℚ) : Ieee F := if q = 0 then .nan else if q < 0 then .negInf else .inf

def div : Ieee F → Ieee F → Ieee F
  | .num p, .num q => if q = 0 then infOf p else ofExact F (p / q)
  | .num _, .inf => .num 0
  | .num _, .negInf => .num 0
  | .inf, .num q => if q < 0 then .negInf else .inf
  | .negInf, .num q => if q < 0 then .inf else .negInf
  | _, _ => .nan

def cmp : Ieee F → Ieee F → Option Ordering
  | .num p, .num q => some (compare p q)
  | .nan, _ => none
  | _, .nan => none
  | .inf, .inf => some .eq
  | .negInf, .negInf => some .eq
  | .inf, _ => some .gt
  | _, .inf => some .lt
  | .negInf, _ => some .lt
  | _, .negInf => some .gt

instance : RLoss (Ieee F) where
  pcmp := cmp
  zero := .num 0
  one := .num 1
  add := add
  sub a b := add a (neg b)
  neg := neg
  div := div
  ofU32 n := ofExact F n

instance : SaneZero (Ieee F) := ⟨by show some (compare (0 : ℚ) 0) = _; simp⟩

/-- Finite numbers. -/
def Fin (x : Ieee F) : Prop := ∃ q, x = .num q ∧ F.Grid q

/-- The value of a finite number. -/
def val : Ieee F → ℚ
  | .num q => q
  | _ => 0

theorem ofExact_spec {x : ℚ} (hx : F.Grid x) (hB : |x| ≤ 2 ^ (F.emax - 1)) :
    Fin (ofExact F x) ∧ |val (ofExact F x) - x| ≤ (1 / 2 ^ F.p) * |x| := by
  have he := F.rnd_err hx
  have hp : (1 : ℚ) / 2 ^ F.p ≤ 1 / 2 := by
    have : (2 : ℚ) ^ 1 ≤ 2 ^ F.p := pow_le_pow_right₀ (by norm_num) F.hp
    exact one_div_le_one_div_of_le (by norm_num) (by linarith)
  have hm : (2 : ℚ) ^ F.emax = 2 * 2 ^ (F.emax - 1) := by
    rw [show F.emax = 1 + (F.emax - 1) by ring, zpow_add₀ two_ne_zero, zpow_one]; simp
  have hpos : (0 : ℚ) < 2 ^ (F.emax - 1) := zpow_pos two_pos _
  have h1 : |F.rnd x| < 2 ^ F.emax := by
    have h2 : |F.rnd x| ≤ |F.rnd x - x| + |x| := by
      have := abs_add_le (F.rnd x - x) x
      rwa [sub_add_cancel] at this
    have h3 : (1 / 2 ^ F.p) * |x| ≤ 1 / 2 * |x| := mul_le_mul_of_nonneg_right hp (abs_nonneg _)
    linarith
  rw [abs_lt] at h1
  have e : ofExact F x = .num (F.rnd x) := by
    unfold ofExact
    rw [if_neg (not_le.mpr h1.2), if_neg (not_le.mpr h1.1)]
  rw [e]
  exact ⟨⟨_, rfl, F.rnd_grid x⟩, he⟩

/-- **IEEE arithmetic satisfies the standard model**, for sums up to half of the overflow threshold. -/
theorem stdModel (F : Fmt) : StdModel (Fin (F := F)) val (1 / 2 ^ F.p) (2 ^ (F.emax - 1)) := by
  have hg : ∀ {x y : ℚ}, F.Grid x → F.Grid y → F.Grid (x + y) := by
    rintro _ _ ⟨m, rfl⟩ ⟨m', rfl⟩
    exact ⟨m + m', by push_cast; ring⟩
  refine ⟨by positivity, ?_, ?_, ⟨0, rfl, 0, by simp⟩, rfl, ?_, ?_, ?_⟩
  · rw [div_lt_one (by positivity)]
    exact one_lt_pow₀ one_lt_two (by have := F.hp; omega)
  · rintro _ _ ⟨p, rfl, -⟩ ⟨q, rfl, -⟩; rfl
  · rintro _ _ ⟨p, rfl, hp⟩ ⟨q, rfl, hq⟩ hB
    exact ofExact_spec (hg hp hq) hB
  · rintro _ _ ⟨p, rfl, hp⟩ ⟨q, rfl, m, hq⟩ hB
    have : F.Grid (-q) := ⟨-m, by rw [hq]; push_cast; ring⟩
    have h := ofExact_spec (hg hp this) (by rw [← sub_eq_add_neg]; exact hB)
    rw [← sub_eq_add_neg] at h
    show Fin (ofExact F (p + -q)) ∧ |val (ofExact F (p + -q)) - (p - q)| ≤ _
    rw [← sub_eq_add_neg]
    exact h
  · rintro _ ⟨q, rfl, m, hq⟩
    exact ⟨⟨-q, rfl, -m, by rw [hq]; push_cast; ring⟩, rfl⟩

end Ieee

/-! ## Distances -/

namespace Fmt
variable (F : Fmt)

/-- Numbers with at most `p` significant bits are exact. -/
theorem rnd_of_rep {m e : ℤ} (he : F.emin ≤ e) (hm : |m| ≤ 2 ^ F.p) : F.rnd (m * 2 ^ e) = m * 2 ^ e := by
  have hpos : ∀ e : ℤ, (0 : ℚ) < 2 ^ e := fun e => zpow_pos two_pos e
  suffices h : ∃ z : ℤ, ((m : ℚ) * 2 ^ e) / 2 ^ F.quantum (m * 2 ^ e) = z by
    obtain ⟨z, hz⟩ := h
    rw [rnd, hz, roundEven_int, ← hz, div_mul_cancel₀ _ (hpos _).ne']
  by_cases h0 : m = 0
  · exact ⟨0, by simp [h0]⟩
  have hx : (0 : ℚ) < |(m : ℚ) * 2 ^ e| := abs_pos.mpr (mul_ne_zero (by exact_mod_cast h0) (hpos e).ne')
  have hle : |(m : ℚ) * 2 ^ e| ≤ 2 ^ ((F.p : ℤ) + e) := by
    rw [abs_mul, abs_of_pos (hpos e), zpow_add₀ two_ne_zero, zpow_natCast]
    exact mul_le_mul_of_nonneg_right (by exact_mod_cast hm) (hpos e).le
  have hlog := Int.zpow_log_le_self (R := ℚ) (b := 2) (by norm_num) hx
  have hl : Int.log 2 |(m : ℚ) * 2 ^ e| ≤ F.p + e := by
    have : (2 : ℚ) ^ Int.log 2 |(m : ℚ) * 2 ^ e| ≤ 2 ^ ((F.p : ℤ) + e) := le_trans (by exact_mod_cast hlog) hle
    exact (zpow_le_zpow_iff_right₀ (by norm_num)).mp this
  rcases hl.lt_or_eq with hl | hl
  · have hq : F.quantum (m * 2 ^ e) ≤ e := max_le he (by omega)
    obtain ⟨t, ht⟩ : ∃ t : ℕ, e = F.quantum (m * 2 ^ e) + t :=
      ⟨(e - F.quantum (m * 2 ^ e)).toNat, by omega⟩
    refine ⟨m * 2 ^ t, ?_⟩
    generalize F.quantum (m * 2 ^ e) = q at ht
    rw [ht, zpow_add₀ two_ne_zero, zpow_natCast]
    have := (hpos q).ne'
    push_cast; field_simp
  · have heq : |(m : ℚ) * 2 ^ e| = 2 ^ ((F.p : ℤ) + e) := by
      refine le_antisymm hle ?_
      rw [← hl]; exact_mod_cast hlog
    have hq : F.quantum (m * 2 ^ e) = e + 1 := by
      unfold quantum; rw [hl]; omega
    rw [hq]
    have hp := F.hp
    obtain ⟨t, ht⟩ : ∃ t : ℕ, (F.p : ℤ) + e = (e + 1) + t := ⟨F.p - 1, by omega⟩
    have hne := (hpos (e + 1)).ne'
    rcases abs_choice ((m : ℚ) * 2 ^ e) with hc | hc
    · refine ⟨2 ^ t, ?_⟩
      rw [hc] at heq
      rw [heq, ht, zpow_add₀ two_ne_zero (e + 1), zpow_natCast]
      push_cast; field_simp
    · refine ⟨-2 ^ t, ?_⟩
      rw [hc] at heq
      rw [← neg_neg ((m : ℚ) * 2 ^ e), heq, ht, zpow_add₀ two_ne_zero (e + 1), zpow_natCast]
      push_cast; field_simp

theorem rnd_rnd (x : ℚ) : F.rnd (F.rnd x) = F.rnd x := by
  have hpos : ∀ e : ℤ, (0 : ℚ) < 2 ^ e := fun e => zpow_pos two_pos e
  refine F.rnd_of_rep (le_max_left _ _) ?_
  have hlt : |x / 2 ^ F.quantum x| < 2 ^ F.p := by
    rw [abs_div, abs_of_pos (hpos _), div_lt_iff₀ (hpos _)]
    have h1 := Int.lt_zpow_succ_log_self (R := ℚ) (b := 2) (by norm_num) |x|
    have h2 : Int.log 2 |x| + 1 ≤ F.p + F.quantum x := by
      have : Int.log 2 |x| + 1 - F.p ≤ F.quantum x := le_max_right _ _
      omega
    calc |x| < 2 ^ (Int.log 2 |x| + 1) := by exact_mod_cast h1
      _ ≤ 2 ^ ((F.p : ℤ) + F.quantum x) := zpow_le_zpow_right₀ (by norm_num) h2
      _ = _ := by rw [zpow_add₀ two_ne_zero, zpow_natCast]
  have herr := roundEven_err (x / 2 ^ F.quantum x)
  generalize x / 2 ^ F.quantum x = y at hlt herr
  have h3 : |(roundEven y : ℚ)| ≤ |(roundEven y : ℚ) - y| + |y| := by
    have := abs_add_le ((roundEven y : ℚ) - y) y
    rwa [sub_add_cancel] at this
  have h4 : |(roundEven y : ℚ)| < 2 ^ F.p + 1 := by linarith
  have h5 : |roundEven y| < 2 ^ F.p + 1 := by exact_mod_cast h4
  omega

end Fmt

/-- The finite numbers of a format, as distances (no NaN, so they are linearly ordered). -/
structure Finite (F : Fmt) where
  q : ℚ
  rep : F.rnd q = q

namespace Finite
variable {F : Fmt}

theorem q_inj : Function.Injective (q : Finite F → ℚ) := by
  rintro ⟨a, ha⟩ ⟨b, hb⟩ h; cases h; rfl

/-- The nearest number. -/
def ofRat (F : Fmt) (x : ℚ) : Finite F := ⟨F.rnd x, F.rnd_rnd x⟩

instance : LinearOrder (Finite F) := LinearOrder.lift' q q_inj
instance : Zero (Finite F) := ⟨⟨0, F.rnd_zero⟩⟩

/-- Overflow of sums of distances is not modelled (only the silhouette functions add distances). -/
instance : RDist (Finite F) where
  pcmp a b := some (compare a.q b.q)
  zero := 0
  isZero a := decide (a.q = 0)
  add a b := ofRat F (a.q + b.q)

instance : LawfulDist (Finite F) where
  pcmp_eq a b := by
    show some (compare a.q b.q) = some (compare a b)
    rcases lt_trichotomy a.q b.q with h | h | h
    · rw [compare_lt_iff_lt.mpr h, compare_lt_iff_lt.mpr (show a < b from h)]
    · rw [q_inj h]; simp
    · rw [compare_gt_iff_gt.mpr h, compare_gt_iff_gt.mpr (show b < a from h)]
  zero_eq := rfl
  isZero_eq a := by
    refine Bool.eq_iff_iff.mpr ?_
    show decide (a.q = 0) = true ↔ _
    rw [decide_eq_true_iff, decide_eq_true_iff]
    exact ⟨fun h => q_inj h, fun h => h ▸ rfl⟩

instance : RFrom (Finite F) (Ieee F) := ⟨fun x => .num x.q⟩

end Finite

/-- Rounding in `f64`: 0.1 + 0.2 is not 0.3, and 2⁵³ + 1 is 2⁵³. -/
example : (RLoss.add (conv (Finite.ofRat binary64 (1 / 10))) (conv (Finite.ofRat binary64 (2 / 10))) : Ieee binary64) ≠
      conv (Finite.ofRat binary64 (3 / 10)) ∧
    (RLoss.add (.num (2 ^ 53)) (.num 1) : Ieee binary64) = .num (2 ^ 53) ∧
    (RLoss.add (.num (2 ^ 1023)) (.num (2 ^ 1023)) : Ieee binary64) = .inf ∧
    (RLoss.div (.num 1) (.num 3) : Ieee binary64) = .num (6004799503160661 / 2 ^ 54) := by decide +kernel

end KMedoids
