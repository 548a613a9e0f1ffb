import Verif.Ieee
import Verif.Proofs.SilExact
import Mathlib.Tactic.Positivity

/-!
# Rounding errors of quotients

The standard model with division: relative error `u`, or absolute error `eta` when the quotient underflows.
-/

set_option linter.unusedSectionVars false

namespace KMedoids

variable {L K : Type} [RLoss L] [Field K] [LinearOrder K] [IsStrictOrderedRing K]

/-- The standard model with division. `eta` is half of the smallest positive number, `C` a bound up to which the integers
are exact. -/
structure DivModel (fin : L → Prop) (val : L → K) (u B eta : K) (C : Nat) : Prop where
  std : StdModel fin val u B
  eta_nonneg : 0 ≤ eta
  eta_le : eta ≤ u
  one_fin : fin RLoss.one
  one : val RLoss.one = 1
  ofU32 : ∀ k, k ≤ C → fin (RLoss.ofU32 k) ∧ val (RLoss.ofU32 k) = k
  div : ∀ a b, fin a → fin b → val b ≠ 0 → |val a / val b| ≤ B →
    fin (RLoss.div a b) ∧ |val (RLoss.div a b) - val a / val b| ≤ max (u * |val a / val b|) eta
  zero_div : ∀ a b, fin a → fin b → val b ≠ 0 → val a = 0 → val (RLoss.div a b) = 0

variable {fin : L → Prop} {val : L → K} {u B eta : K} {C : Nat}

namespace DivModel

theorem rgt_iff (M : StdModel fin val u B) {a b : L} (ha : fin a) (hb : fin b) : rgt a b = true ↔ val b < val a := by
  unfold rgt
  rw [M.pcmp a b ha hb]
  rcases lt_trichotomy (val a) (val b) with h | h | h
  · simp [compare_lt_iff_lt.mpr h, h.le]
  · simp [h]
  · simp [compare_gt_iff_gt.mpr h, h]

/-- Quotients of numbers in absolute terms. -/
theorem div_abs (M : DivModel fin val u B eta C) {a b : L} (ha : fin a) (hb : fin b) (h0 : val b ≠ 0) {A : K}
    (hA : |val a / val b| ≤ A) (h1 : 1 ≤ A) (hB : A ≤ B) :
    fin (RLoss.div a b) ∧ |val (RLoss.div a b) - val a / val b| ≤ u * A := by
  obtain ⟨h2, h3⟩ := M.div a b ha hb h0 (hA.trans hB)
  refine ⟨h2, h3.trans (max_le (mul_le_mul_of_nonneg_left hA M.std.u_nonneg) (M.eta_le.trans ?_))⟩
  exact le_mul_of_one_le_right M.std.u_nonneg h1

end DivModel

/-- The sum of a list, added to zero from the left. -/
theorem appr_sum (M : StdModel fin val u B) (xs : List L) {A : L → K} (hx : ∀ x ∈ xs, fin x ∧ |val x| ≤ A x)
    (hB : (1 + u) ^ xs.length * (xs.map A).sum ≤ B) :
    Appr fin val u xs.length (xs.map val).sum (xs.map A).sum (xs.foldl RLoss.add RLoss.zero) := by
  induction xs using List.reverseRecOn with
  | nil => simpa using Appr.zero M
  | append_singleton xs x ih =>
    have hnn : 0 ≤ (xs.map A).sum := List.sum_nonneg fun y hy => by
      obtain ⟨q, hq, rfl⟩ := List.mem_map.mp hy
      exact (abs_nonneg _).trans (hx q (by simp [hq])).2
    obtain ⟨h1, h2⟩ := hx x (by simp)
    have hA := (abs_nonneg _).trans h2
    rw [List.map_append, List.sum_append, List.length_append] at hB ⊢
    simp only [List.map_cons, List.map_nil, List.sum_cons, List.sum_nil, add_zero, List.length_singleton] at hB ⊢
    rw [List.map_append, List.sum_append, List.foldl_append]
    simp only [List.map_cons, List.map_nil, List.sum_cons, List.sum_nil, add_zero, List.foldl_cons, List.foldl_nil]
    have hB' : (1 + u) ^ xs.length * ((xs.map A).sum + A x) ≤ B :=
      (mul_le_mul_of_nonneg_right (M.pow_mono (Nat.le_succ _)) (by linarith)).trans hB
    refine (ih (fun y hy => hx y (by simp [hy])) (le_trans ?_ hB')).add M ?_ hB'
    · exact mul_le_mul_of_nonneg_left (by linarith) (by linarith [M.one_le_pow xs.length])
    · exact ⟨h1, h2, by simpa using mul_nonneg (by linarith [M.one_le_pow xs.length]) hA⟩

/-- `x` is `y ≥ 0` with relative error at most `g`. -/
def Near (fin : L → Prop) (val : L → K) (g y : K) (x : L) : Prop := fin x ∧ 0 ≤ y ∧ |val x - y| ≤ g * y

theorem Near.mono {g g' y : K} {x : L} (h : Near fin val g y x) (hg : g ≤ g') : Near fin val g' y x :=
  ⟨h.1, h.2.1, h.2.2.trans (mul_le_mul_of_nonneg_right hg h.2.1)⟩

theorem Near.bounds {g y : K} {x : L} (h : Near fin val g y x) : (1 - g) * y ≤ val x ∧ val x ≤ (1 + g) * y := by
  have := abs_le.mp h.2.2
  constructor <;> linarith [this.1, this.2]

theorem Near.of_bounds {g y : K} {x : L} (hf : fin x) (hy : 0 ≤ y) (h1 : (1 - g) * y ≤ val x) (h2 : val x ≤ (1 + g) * y) :
    Near fin val g y x := ⟨hf, hy, abs_le.mpr ⟨by linarith, by linarith⟩⟩

theorem Near.zero {g y : K} {x : L} (h : Near fin val g y x) (hy : y = 0) : val x = 0 := by
  subst hy
  have := h.2.2
  simpa using this

/-- A mean, as computed by the silhouette functions: the sum divided by the count. -/
theorem near_mean (M : DivModel fin val u B eta C) (xs : List L) {w : K} (hlen : 1 ≤ xs.length) (hC : xs.length ≤ C)
    (hx : ∀ x ∈ xs, fin x ∧ (val x = 0 ∨ w ≤ val x)) (hw : 0 < w) (hu : (1 + u) ^ xs.length ≤ 3 / 2)
    (hw' : 2 * xs.length * eta ≤ u * w) (hB : (1 + u) ^ xs.length * (xs.map val).sum ≤ B) :
    Near fin val ((1 + u) ^ (xs.length + 1) - 1) ((xs.map val).sum / xs.length)
      (checkedDiv (xs.foldl RLoss.add RLoss.zero) (RLoss.ofU32 xs.length)) := by
  have hnn : ∀ x ∈ xs, 0 ≤ val x := fun x h => by
    rcases (hx x h).2 with h' | h'
    · exact h'.ge
    · linarith
  have hS0 : 0 ≤ (xs.map val).sum := List.sum_nonneg fun y hy => by
    obtain ⟨q, hq, rfl⟩ := List.mem_map.mp hy
    exact hnn q hq
  have ha := appr_sum M.std xs (A := val) (fun x h => ⟨(hx x h).1, (abs_of_nonneg (hnn x h)).le⟩) hB
  obtain ⟨hcf, hc⟩ := M.ofU32 xs.length hC
  have hl : (0 : K) < xs.length := by exact_mod_cast hlen
  have hl1 : (1 : K) ≤ xs.length := by exact_mod_cast hlen
  rw [checkedDiv, if_pos ((DivModel.rgt_iff M.std hcf M.std.zero_fin).mpr (by rw [hc, M.std.zero]; exact hl))]
  generalize hs : xs.foldl RLoss.add RLoss.zero = s at ha ⊢
  generalize hS : (xs.map val).sum = S at ha hB hS0 ⊢
  have hq0 : 0 ≤ S / xs.length := div_nonneg hS0 hl.le
  by_cases h0 : S = 0
  · have hv : val s = 0 := by
      have := ha.err
      rw [h0, mul_zero, sub_zero] at this
      exact abs_nonpos_iff.mp this
    have hd := M.div s (RLoss.ofU32 xs.length) ha.fin hcf (by rw [hc]; exact hl.ne') (by
      rw [hv, zero_div, abs_zero]
      exact le_trans (by rw [h0, mul_zero]) hB)
    refine ⟨hd.1, hq0, ?_⟩
    rw [M.zero_div s _ ha.fin hcf (by rw [hc]; exact hl.ne') hv, h0]
    simp
  · have hSw : w ≤ S := by
      by_contra hlt
      apply h0
      have hz : ∀ y ∈ xs.map val, y = 0 := by
        intro y hy
        obtain ⟨q, hq, rfl⟩ := List.mem_map.mp hy
        rcases (hx q hq).2 with h' | h'
        · exact h'
        · exact absurd (h'.trans ((List.single_le_sum (fun y hy => by
            obtain ⟨q, hq, rfl⟩ := List.mem_map.mp hy
            exact hnn q hq) _ hy).trans hS.le)) hlt
      rw [← hS]
      exact List.sum_eq_zero hz
    have he := abs_le.mp ha.err
    have hp1 := M.std.one_le_pow xs.length
    have hpos : 0 < S := hw.trans_le hSw
    have hlo : S / 2 ≤ val s := by nlinarith [he.1]
    have hsB : val s ≤ (1 + u) ^ xs.length * S := by linarith [he.2]
    have habs : |val s / (xs.length : K)| = val s / xs.length := abs_of_nonneg (div_nonneg (by linarith) hl.le)
    have hle : val s / (xs.length : K) ≤ val s := div_le_self (by linarith) hl1
    obtain ⟨hd1, hd2⟩ := M.div s (RLoss.ofU32 xs.length) ha.fin hcf (by rw [hc]; exact hl.ne') (by
      rw [hc, habs]; exact hle.trans (hsB.trans hB))
    rw [hc, habs] at hd2
    have hund : eta ≤ u * (val s / xs.length) := by
      rw [← mul_div_assoc, le_div_iff₀ hl]
      have : u * w ≤ u * (2 * val s) := mul_le_mul_of_nonneg_left (by linarith) M.std.u_nonneg
      nlinarith
    rw [max_eq_left hund] at hd2
    have hd3 := abs_le.mp hd2
    have hlo' : (2 - (1 + u) ^ xs.length) * (S / xs.length) ≤ val s / xs.length := by
      rw [← mul_div_assoc]; exact div_le_div_of_nonneg_right (by linarith [he.1]) hl.le
    have hhi' : val s / xs.length ≤ (1 + u) ^ xs.length * (S / xs.length) := by
      rw [← mul_div_assoc]; exact div_le_div_of_nonneg_right hsB hl.le
    have hu0 := M.std.u_nonneg
    have hu1 := M.std.u_lt_one
    refine Near.of_bounds hd1 hq0 ?_ ?_
    · have h1 : (1 - u) * ((2 - (1 + u) ^ xs.length) * (S / xs.length)) ≤ (1 - u) * (val s / xs.length) :=
        mul_le_mul_of_nonneg_left hlo' (by linarith)
      have h2 : (1 - ((1 + u) ^ (xs.length + 1) - 1)) * (S / xs.length) ≤
          (1 - u) * ((2 - (1 + u) ^ xs.length) * (S / xs.length)) := by
        rw [← mul_assoc]
        refine mul_le_mul_of_nonneg_right ?_ hq0
        rw [pow_succ]
        nlinarith
      linarith [hd3.1]
    · have h1 : (1 + u) * (val s / xs.length) ≤ (1 + u) * ((1 + u) ^ xs.length * (S / xs.length)) :=
        mul_le_mul_of_nonneg_left hhi' (by linarith)
      have e : (1 + ((1 + u) ^ (xs.length + 1) - 1)) * (S / xs.length) =
          (1 + u) * ((1 + u) ^ xs.length * (S / xs.length)) := by rw [pow_succ]; ring
      rw [e]
      linarith [hd3.2]

/-- The smallest of some approximate numbers. -/
theorem near_min (M : StdModel fin val u B) {g : K} (hg1 : g ≤ 1) {α : Type} (f : α → L) (h : α → K)
    (xs : List α) {x : L} {y : K} (hxy : Near fin val g y x) (hxs : ∀ c ∈ xs, Near fin val g (h c) (f c)) :
    Near fin val g ((xs.map h).foldl min y) ((xs.map f).foldl (fun x y => if rlt y x then y else x) x) := by
  induction xs generalizing x y with
  | nil => exact hxy
  | cons c xs ih =>
    rw [List.map_cons, List.map_cons, List.foldl_cons, List.foldl_cons]
    refine ih ?_ fun a ha => hxs a (by simp [ha])
    have hc := hxs c (by simp)
    have b1 := hxy.bounds
    have b2 := hc.bounds
    by_cases hlt : rlt (f c) x = true
    · rw [if_pos hlt]
      have hlt' := (M.rlt_iff hc.1 hxy.1).mp hlt
      refine Near.of_bounds hc.1 (le_min hxy.2.1 hc.2.1) ?_ ?_
      · exact (mul_le_mul_of_nonneg_left (min_le_right _ _) (by linarith)).trans b2.1
      · rcases min_choice y (h c) with e | e <;> rw [e]
        · linarith
        · exact b2.2
    · rw [if_neg hlt]
      have hlt' := not_lt.mp fun h => hlt ((M.rlt_iff hc.1 hxy.1).mpr h)
      refine Near.of_bounds hxy.1 (le_min hxy.2.1 hc.2.1) ?_ ?_
      · exact (mul_le_mul_of_nonneg_left (min_le_left _ _) (by linarith)).trans b1.1
      · rcases min_choice y (h c) with e | e <;> rw [e]
        · exact b1.2
        · linarith

/-- `(b - a) / max a b` depends on the quotient of `a` and `b` only, and not faster than it. -/
theorem frac_near {g a b a' b' : K} (hg0 : 0 ≤ g) (hg1 : g < 1) (ha : 0 ≤ a) (hb : 0 ≤ b) (ha1 : (1 - g) * a ≤ a')
    (ha2 : a' ≤ (1 + g) * a) (hb1 : (1 - g) * b ≤ b') (hb2 : b' ≤ (1 + g) * b) (hm : max a b ≠ 0) :
    |(b' - a') / max a' b' - (b - a) / max a b| ≤ 2 * g / (1 - g) := by
  have hg : 0 < 1 - g := by linarith
  have ha' : 0 ≤ a' := (mul_nonneg hg.le ha).trans ha1
  have hb' : 0 ≤ b' := (mul_nonneg hg.le hb).trans hb1
  -- it suffices to bound one side, by symmetry
  have key : ∀ {a b a' b' : K}, 0 ≤ a → 0 ≤ b → (1 - g) * a ≤ a' → a' ≤ (1 + g) * a → (1 - g) * b ≤ b' →
      b' ≤ (1 + g) * b → max a b ≠ 0 →
      (b' - a') / max a' b' - (b - a) / max a b ≤ 2 * g / (1 - g) := by
    intro a b a' b' ha hb ha1 ha2 hb1 hb2 hm
    have ha' : 0 ≤ a' := (mul_nonneg hg.le ha).trans ha1
    have hb' : 0 ≤ b' := (mul_nonneg hg.le hb).trans hb1
    have hmp : 0 < max a b := lt_of_le_of_ne (ha.trans (le_max_left _ _)) hm.symm
    have hrhs : 0 ≤ 2 * g / (1 - g) := by positivity
    rw [le_div_iff₀ hg]
    rcases le_total a b with h | h
    · -- exact value `1 - a / b`
      rw [max_eq_right h] at hmp ⊢
      have hb'p : 0 < b' := lt_of_lt_of_le (mul_pos hg hmp) hb1
      rw [sub_div b a b, div_self hmp.ne']
      have hr1 : a / b ≤ 1 := (div_le_one hmp).mpr h
      have hr0 : 0 ≤ a / b := by positivity
      rcases le_total b' a' with h' | h'
      · have h1 : (b' - a') / max a' b' ≤ 0 :=
          div_nonpos_of_nonpos_of_nonneg (by linarith) (ha'.trans (le_max_left _ _))
        nlinarith
      rw [max_eq_right h', sub_div b' a' b', div_self hb'p.ne']
      have h2 : a / b - a' / b' ≤ 2 * g * (a / b) / (1 + g) := by
        have : (1 - g) * a / ((1 + g) * b) ≤ a' / b' := by
          rw [div_le_div_iff₀ (by positivity) hb'p]
          calc (1 - g) * a * b' ≤ a' * b' := mul_le_mul_of_nonneg_right ha1 hb'
            _ ≤ a' * ((1 + g) * b) := mul_le_mul_of_nonneg_left hb2 ha'
        have e : (1 - g) * a / ((1 + g) * b) = a / b - 2 * g * (a / b) / (1 + g) := by
          field_simp; ring
        linarith
      have h3 : 2 * g * (a / b) / (1 + g) ≤ 2 * g := by
        rw [div_le_iff₀ (by linarith)]
        nlinarith
      nlinarith
    · -- exact value `b / a - 1`
      rw [max_eq_left h] at hmp ⊢
      have ha'p : 0 < a' := lt_of_lt_of_le (mul_pos hg hmp) ha1
      rw [sub_div b a a, div_self hmp.ne']
      have hr0 : 0 ≤ b / a := by positivity
      have hr1 : b / a ≤ 1 := (div_le_one hmp).mpr h
      have h1 : (b' - a') / max a' b' ≤ b' / a' - 1 := by
        rcases le_total a' b' with h' | h'
        · rw [max_eq_right h']
          have hbp : 0 < b' := lt_of_lt_of_le ha'p h'
          rw [sub_div, div_self hbp.ne']
          have e1 : a' / b' ≤ 1 := (div_le_one hbp).mpr h'
          have e2 : 1 ≤ b' / a' := (one_le_div ha'p).mpr h'
          have e3 : b' / a' * (a' / b') = 1 := by field_simp
          nlinarith
        · rw [max_eq_left h', sub_div, div_self ha'p.ne']
      have h2 : b' / a' * (1 - g) ≤ (1 + g) * (b / a) := by
        have : b' / a' ≤ (1 + g) * b / ((1 - g) * a) := by
          rw [div_le_div_iff₀ ha'p (by positivity)]
          calc b' * ((1 - g) * a) ≤ b' * a' := mul_le_mul_of_nonneg_left ha1 hb'
            _ ≤ (1 + g) * b * a' := mul_le_mul_of_nonneg_right hb2 ha'
        have e : (1 + g) * b / ((1 - g) * a) * (1 - g) = (1 + g) * (b / a) := by field_simp
        calc _ ≤ (1 + g) * b / ((1 - g) * a) * (1 - g) := mul_le_mul_of_nonneg_right this hg.le
          _ = _ := e
      nlinarith
  rw [abs_le]
  constructor
  · have h := key hb ha hb1 hb2 ha1 ha2 (by rwa [max_comm])
    rw [max_comm b' a', max_comm b a] at h
    have e1 : (a' - b') / max a' b' = -((b' - a') / max a' b') := by rw [← neg_div, neg_sub]
    have e2 : (a - b) / max a b = -((b - a) / max a b) := by rw [← neg_div, neg_sub]
    rw [e1, e2] at h
    linarith
  · exact key ha hb ha1 ha2 hb1 hb2 hm

/-! ## IEEE 754 -/

namespace Fmt
variable (F : Fmt)

/-- Relative error, or half of the smallest positive number. -/
theorem rnd_err' (x : ℚ) : |F.rnd x - x| ≤ max ((1 / 2 ^ F.p) * |x|) (2 ^ (F.emin - 1)) := by
  have hpos : ∀ e : ℤ, (0 : ℚ) < 2 ^ e := fun e => zpow_pos two_pos e
  by_cases h0 : x = 0
  · subst h0; simp [rnd_zero]
  have hxp : 0 < |x| := abs_pos.mpr h0
  have h1 := roundEven_err (x / 2 ^ F.quantum x)
  have e : F.rnd x - x = (roundEven (x / 2 ^ F.quantum x) - x / 2 ^ F.quantum x) * 2 ^ F.quantum x := by
    rw [rnd, sub_mul, div_mul_cancel₀ _ (hpos _).ne']
  have h3 : |F.rnd x - x| ≤ 1 / 2 * 2 ^ F.quantum x := by
    rw [e, abs_mul, abs_of_pos (hpos _)]
    exact mul_le_mul_of_nonneg_right h1 (hpos _).le
  by_cases hq : F.quantum x = F.emin
  · refine le_max_of_le_right (h3.trans (le_of_eq ?_))
    rw [hq, zpow_sub₀ two_ne_zero, zpow_one]; ring
  · have hq' : F.quantum x = Int.log 2 |x| + 1 - F.p := by
      unfold quantum at hq ⊢; omega
    have h2 := Int.zpow_log_le_self (R := ℚ) (b := 2) (by norm_num) hxp
    refine le_max_of_le_left (h3.trans ?_)
    calc 1 / 2 * (2 : ℚ) ^ F.quantum x = (1 / 2 ^ F.p) * 2 ^ Int.log 2 |x| := by
          rw [hq', show Int.log 2 |x| + 1 - (F.p : ℤ) = (Int.log 2 |x| + 1) + (-(F.p : ℤ)) by ring,
            zpow_add₀ two_ne_zero, zpow_add₀ two_ne_zero, zpow_neg, zpow_natCast, zpow_one]
          field_simp
      _ ≤ _ := mul_le_mul_of_nonneg_left (by exact_mod_cast h2) (by positivity)

theorem eta_le : (2 : ℚ) ^ (F.emin - 1) ≤ 1 / 2 ^ F.p := by
  rw [one_div, ← zpow_natCast, ← zpow_neg]
  exact zpow_le_zpow_right₀ (by norm_num) (by have := F.hone; omega)

end Fmt

namespace Ieee
variable {F : Fmt}

theorem ofExact_spec' {x : ℚ} (hB : |x| ≤ 2 ^ (F.emax - 1)) :
    ofExact F x = .num (F.rnd x) ∧ |F.rnd x - x| ≤ max ((1 / 2 ^ F.p) * |x|) (2 ^ (F.emin - 1)) := by
  have he := F.rnd_err' x
  have hp : (1 : ℚ) / 2 ^ F.p ≤ 1 / 2 := by
    have : (2 : ℚ) ^ 1 ≤ 2 ^ F.p := pow_le_pow_right₀ (by norm_num) F.hp
    exact one_div_le_one_div_of_le (by norm_num) (by linarith)
  have hm : (2 : ℚ) ^ F.emax = 2 * 2 ^ (F.emax - 1) := by
    rw [show F.emax = 1 + (F.emax - 1) by ring, zpow_add₀ two_ne_zero, zpow_one]; simp
  have hone : (1 : ℚ) ≤ 2 ^ (F.emax - 1) := one_le_zpow₀ (by norm_num) (by have := F.hmax; omega)
  have h1 : |F.rnd x| < 2 ^ F.emax := by
    have h2 : |F.rnd x| ≤ |F.rnd x - x| + |x| := by
      have := abs_add_le (F.rnd x - x) x
      rwa [sub_add_cancel] at this
    have h3 : max ((1 / 2 ^ F.p) * |x|) (2 ^ (F.emin - 1)) < 2 ^ (F.emax - 1) := by
      refine max_lt ?_ (lt_of_le_of_lt (F.eta_le.trans hp) (by linarith))
      have : (1 / 2 ^ F.p) * |x| ≤ 1 / 2 * |x| := mul_le_mul_of_nonneg_right hp (abs_nonneg _)
      linarith
    linarith
  rw [abs_lt] at h1
  refine ⟨?_, he⟩
  unfold ofExact
  rw [if_neg (not_le.mpr h1.2), if_neg (not_le.mpr h1.1)]

/-- **IEEE arithmetic satisfies the standard model with division.** -/
theorem divModel (F : Fmt) {C : Nat} (hC : C ≤ 2 ^ F.p) (hC' : (C : ℚ) ≤ 2 ^ (F.emax - 1)) :
    DivModel (Fin (F := F)) Ieee.val (1 / 2 ^ F.p) (2 ^ (F.emax - 1)) (2 ^ (F.emin - 1)) C where
  std := stdModel F
  eta_nonneg := (zpow_pos two_pos _).le
  eta_le := F.eta_le
  one_fin := ⟨1, rfl, by
    show F.Grid 1
    have h : F.emin ≤ 0 := by have := F.hone; have := F.hp; omega
    refine ⟨2 ^ (-F.emin).toNat, ?_⟩
    rw [Int.cast_pow, Int.cast_ofNat, ← zpow_natCast, ← zpow_add₀ two_ne_zero]
    have : ((-F.emin).toNat : ℤ) + F.emin = 0 := by omega
    rw [this, zpow_zero]⟩
  one := rfl
  ofU32 k hk := by
    have hk' : (k : ℚ) ≤ C := by exact_mod_cast hk
    obtain ⟨h1, -⟩ := ofExact_spec' (F := F) (x := k) (by rw [abs_of_nonneg (by positivity)]; exact hk'.trans hC')
    have h2 := F.rnd_of_rep (m := k) (e := 0) (by have := F.hone; have := F.hp; omega) (by
      rw [abs_of_nonneg (by positivity)]
      exact_mod_cast hk.trans hC)
    rw [zpow_zero, mul_one] at h2
    push_cast at h2
    have h3 : (RLoss.ofU32 k : Ieee F) = .num k := by
      show ofExact F k = _
      rw [h1, h2]
    rw [h3]
    exact ⟨⟨k, rfl, h2 ▸ F.rnd_grid k⟩, rfl⟩
  div := by
    rintro _ _ ⟨p, rfl, hp⟩ ⟨q, rfl, hq⟩ h0 hB
    obtain ⟨h1, h2⟩ := ofExact_spec' hB
    have : (RLoss.div (.num p) (.num q) : Ieee F) = .num (F.rnd (p / q)) := by
      show (if q = 0 then infOf p else ofExact F (p / q)) = _
      rw [if_neg (show q ≠ 0 from h0)]; exact h1
    rw [this]
    exact ⟨⟨_, rfl, F.rnd_grid _⟩, h2⟩
  zero_div := by
    rintro _ _ ⟨p, rfl, hp⟩ ⟨q, rfl, hq⟩ h0 hp0
    have hp0 : p = 0 := hp0
    subst hp0
    have hB : |(0 : ℚ) / q| ≤ 2 ^ (F.emax - 1) := by
      rw [_root_.zero_div, abs_zero]; exact (zpow_pos two_pos _).le
    have : (RLoss.div (.num 0) (.num q) : Ieee F) = .num (F.rnd (0 / q)) := by
      show (if q = 0 then infOf 0 else ofExact F (0 / q)) = _
      rw [if_neg (show q ≠ 0 from h0)]; exact (ofExact_spec' hB).1
    rw [this, _root_.zero_div, F.rnd_zero]
    rfl

end Ieee

end KMedoids
