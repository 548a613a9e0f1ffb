import Verif.Proofs.RndMono
import Verif.Props.C72
import Verif.Props.C78

/-!
# C79: silhouettes stay in their range under rounding

In every binary format, for nonnegative distances, a silhouette is never a number outside of [-1, 1], and a medoid silhouette
is never a number outside of [0, 1]: neither the values of the objects nor the averages exceed the range by a rounding error.
This needs no bound on the distances; if sums overflow, the result can be NaN. The number of objects need not be exact in the
format of the loss.
-/

set_option linter.unusedSectionVars false
set_option linter.overlappingInstances false

namespace KMedoids

open RFrom (conv)

variable {F : Fmt}

/-- NaN, or a number between `lo` and `hi`. -/
def Ieee.Within (lo hi : ℚ) : Ieee F → Prop
  | .num q => lo ≤ q ∧ q ≤ hi
  | .nan => True
  | _ => False

/-- A nonnegative number of the format, or infinity. -/
def Ieee.RPos : Ieee F → Prop
  | .num q => 0 ≤ q ∧ F.rnd q = q ∧ q < 2 ^ F.emax
  | .inf => True
  | _ => False

/-- The formats and numbers of objects considered: at least two bits of precision, and the number of objects is in the range
of the format. All `n : u32` qualify for `f32` and `f64`, also those which are not exact in `f32`. -/
structure Counts (F : Fmt) (n : Nat) : Prop where
  prec : 2 ≤ F.p
  big : (n : ℚ) ≤ 2 ^ (F.emax - 1)

theorem Counts.mono {n m : Nat} (h : Counts F n) (hm : m ≤ n) : Counts F m :=
  ⟨h.prec, le_trans (by exact_mod_cast hm) h.big⟩

theorem Fmt.rnd_big (F : Fmt) : F.rnd (2 ^ (F.emax - 1)) = 2 ^ (F.emax - 1) := by
  have := F.rnd_of_rep (m := 1) (e := F.emax - 1) (by have := F.hone; have := F.hp; have := F.hmax; omega) (by
    rw [abs_one]
    exact one_le_pow₀ (by norm_num))
  rwa [Int.cast_one, one_mul] at this

theorem Fmt.big_lt (F : Fmt) : (2 : ℚ) ^ (F.emax - 1) < 2 ^ F.emax := zpow_lt_zpow_right₀ (by norm_num) (by omega)

theorem Fmt.rnd_count (F : Fmt) {n : Nat} (h : n ≤ 2 ^ F.p) : F.rnd n = n := by
  have := F.rnd_of_rep (m := n) (e := 0) (by have := F.hone; have := F.hp; omega) (by
    rw [abs_of_nonneg (by positivity)]
    exact_mod_cast h)
  rw [zpow_zero, mul_one] at this
  exact_mod_cast this

/-- The first integer that is not exact is rounded down. -/
theorem Fmt.rnd_stuck (F : Fmt) (hp : 2 ≤ F.p) : F.rnd (2 ^ F.p + 1) = 2 ^ F.p := by
  obtain ⟨p, hp'⟩ : ∃ p, F.p = p + 2 := ⟨F.p - 2, by omega⟩
  have hpos : (0 : ℚ) < 2 ^ p := by positivity
  have h1 : (1 : ℚ) ≤ 2 ^ p := one_le_pow₀ (by norm_num)
  have hlog : Int.log 2 |(2 ^ F.p + 1 : ℚ)| = F.p := by
    rw [abs_of_pos (by positivity)]
    refine le_antisymm ?_ ?_
    · refine Int.lt_add_one_iff.mp ((Int.lt_zpow_iff_log_lt (by norm_num) (by positivity)).mp ?_)
      have : ((2 : ℕ) : ℚ) ^ ((F.p : ℤ) + 1) = 2 ^ F.p * 2 := by
        rw [zpow_add₀ (by norm_num), zpow_natCast, zpow_one]
        norm_num
      rw [this, hp', pow_add]
      linarith
    · refine (Int.zpow_le_iff_le_log (by norm_num) (by positivity)).mp ?_
      have : ((2 : ℕ) : ℚ) ^ (F.p : ℤ) = 2 ^ F.p := by rw [zpow_natCast]; norm_num
      rw [this]
      linarith
  have hq : F.quantum (2 ^ F.p + 1) = 1 := by
    unfold Fmt.quantum
    rw [hlog]
    have := F.hone
    omega
  unfold Fmt.rnd
  rw [hq, zpow_one]
  have he : ((2 ^ F.p + 1) / 2 : ℚ) = ((2 ^ (p + 1) : ℤ) : ℚ) + 1 / 2 := by
    rw [hp']
    push_cast
    ring
  have hf : ⌊((2 ^ (p + 1) : ℤ) : ℚ) + 1 / 2⌋ = 2 ^ (p + 1) := by
    rw [Int.floor_intCast_add]
    norm_num
  have hr : roundEven (((2 ^ (p + 1) : ℤ) : ℚ) + 1 / 2) = 2 ^ (p + 1) := by
    unfold roundEven
    simp only [hf]
    rw [add_sub_cancel_left, if_neg (lt_irrefl _), if_neg (lt_irrefl _), if_pos]
    rw [pow_succ]
    exact Int.mul_emod_left _ _
  rw [he, hr, hp']
  push_cast
  ring

/-- The largest sum of `n` numbers which are at most one. -/
def capped (F : Fmt) (n : Nat) : Nat := min n (2 ^ F.p)

theorem capped_rnd (n : Nat) : F.rnd (capped F n) = capped F n := F.rnd_count (Nat.min_le_right _ _)

theorem Counts.capped_lt {n : Nat} (h : Counts F n) : (capped F n : ℚ) < 2 ^ F.emax :=
  lt_of_le_of_lt (le_trans (by exact_mod_cast Nat.min_le_left _ _) h.big) F.big_lt

/-- One more number. -/
theorem Counts.capped_succ {n : Nat} (h : Counts F n) {x : ℚ} (hx : x ≤ capped F n + 1) : F.rnd x ≤ capped F (n + 1) := by
  rcases Nat.lt_or_ge n (2 ^ F.p) with h1 | h1
  · have e1 : capped F n = n := Nat.min_eq_left h1.le
    have e2 : capped F (n + 1) = n + 1 := Nat.min_eq_left h1
    rw [e1] at hx
    have := F.rnd_mono (y := ((n + 1 : ℕ) : ℚ)) (by push_cast; exact hx)
    rw [F.rnd_count h1] at this
    rw [e2]
    exact this
  · have e1 : capped F n = 2 ^ F.p := Nat.min_eq_right h1
    have e2 : capped F (n + 1) = 2 ^ F.p := Nat.min_eq_right (h1.trans (Nat.le_succ n))
    rw [e1] at hx
    push_cast at hx
    have := F.rnd_mono hx
    rw [F.rnd_stuck h.prec] at this
    rw [e2]
    exact_mod_cast this

namespace Ieee

theorem ofExact_num {x : ℚ} (h1 : -2 ^ F.emax < F.rnd x) (h2 : F.rnd x < 2 ^ F.emax) : ofExact F x = .num (F.rnd x) := by
  unfold ofExact
  rw [if_neg (by linarith), if_neg (by linarith)]

theorem ofExact_within {x lo hi : ℚ} (h1 : lo ≤ x) (h2 : x ≤ hi) (e1 : F.rnd lo = lo) (e2 : F.rnd hi = hi)
    (b1 : -2 ^ F.emax < lo) (b2 : hi < 2 ^ F.emax) :
    ∃ q, ofExact F x = .num q ∧ lo ≤ q ∧ q ≤ hi ∧ F.rnd q = q := by
  have h3 := F.rnd_mono h1
  have h4 := F.rnd_mono h2
  rw [e1] at h3
  rw [e2] at h4
  refine ⟨F.rnd x, ?_, h3, h4, F.rnd_rnd x⟩
  unfold ofExact
  rw [if_neg (by linarith), if_neg (by linarith)]

theorem ofExact_rpos {x : ℚ} (h : 0 ≤ x) : (ofExact F x).RPos := by
  have h1 := F.rnd_nonneg h
  have hp : (0 : ℚ) < 2 ^ F.emax := zpow_pos two_pos _
  unfold ofExact
  split
  · trivial
  · rename_i h2
    rw [if_neg (by linarith)]
    exact ⟨h1, F.rnd_rnd x, not_le.mp h2⟩

theorem zero_rpos : (RLoss.zero : Ieee F).RPos :=
  ⟨le_refl (0 : ℚ), F.rnd_zero, zpow_pos two_pos _⟩

theorem RPos.pos {x : Ieee F} (h : x.RPos) : x.Pos := by
  cases x with
  | num q => exact h.1
  | inf => trivial
  | negInf => exact h
  | nan => exact h

theorem add_rpos {x y : Ieee F} (hx : x.Pos) (hy : y.Pos) : (RLoss.add x y).RPos := by
  cases x <;> cases y <;> try trivial
  exact ofExact_rpos (add_nonneg hx hy)

theorem sum_rpos {xs : List (Ieee F)} (h : ∀ x ∈ xs, x.Pos) : (xs.foldl RLoss.add RLoss.zero).RPos := by
  have : ∀ {s : Ieee F}, s.RPos → (xs.foldl RLoss.add s).RPos := by
    induction xs with
    | nil => exact fun h => h
    | cons x xs ih => exact fun hs => ih (fun y hy => h y (by simp [hy])) (add_rpos hs.pos (h x (by simp)))
  exact this zero_rpos

theorem one_lt_big (F : Fmt) : (1 : ℚ) < 2 ^ F.emax := by
  have : (2 : ℚ) ^ (1 : ℤ) ≤ 2 ^ F.emax := zpow_le_zpow_right₀ (by norm_num) F.hmax
  norm_num at this
  linarith

theorem one_rnd (F : Fmt) : F.rnd 1 = 1 := by
  have := F.rnd_count (n := 1) Nat.one_le_two_pow
  rwa [Nat.cast_one] at this

/-- The number of objects, which may be rounded. -/
theorem ofU32_num {n : Nat} (h : Counts F n) : ∃ c : ℚ, (RLoss.ofU32 n : Ieee F) = .num c ∧ (capped F n : ℚ) ≤ c := by
  have hp : (0 : ℚ) < 2 ^ F.emax := zpow_pos two_pos _
  have h1 := F.rnd_mono h.big
  rw [F.rnd_big] at h1
  have h2 := F.rnd_mono (x := (capped F n : ℚ)) (y := n) (by exact_mod_cast Nat.min_le_left _ _)
  rw [capped_rnd] at h2
  have h3 : (0 : ℚ) ≤ capped F n := Nat.cast_nonneg _
  exact ⟨F.rnd n, ofExact_num (by linarith) (lt_of_le_of_lt h1 F.big_lt), h2⟩

theorem rgt_zero {q : ℚ} : rgt (.num q : Ieee F) RLoss.zero = true ↔ 0 < q := by
  show rgt (.num q : Ieee F) (.num 0) = true ↔ _
  unfold rgt
  simp only [pcmp, RPartialOrd.pcmp, cmp]
  rcases lt_trichotomy q 0 with h | h | h
  · simp [compare_lt_iff_lt.mpr h, h.le]
  · simp [h]
  · simp [compare_gt_iff_gt.mpr h, h]

theorem mean_rpos {s : Ieee F} (hs : s.Pos) {n : Nat} (hn : Counts F n) : (checkedDiv s (RLoss.ofU32 n)).RPos := by
  obtain ⟨c, e, -⟩ := ofU32_num hn
  rw [e]
  unfold checkedDiv
  split
  · rename_i h
    have hc0 : (0 : ℚ) < c := rgt_zero.mp h
    cases s with
    | num q =>
      show (div (.num q) (.num (c : ℚ))).RPos
      unfold div
      dsimp only
      rw [if_neg hc0.ne']
      exact ofExact_rpos (div_nonneg hs hc0.le)
    | inf =>
      show (div .inf (.num (c : ℚ))).RPos
      unfold div
      dsimp only
      rw [if_neg (not_lt.mpr hc0.le)]
      trivial
    | negInf => exact hs.elim
    | nan => exact hs.elim
  · exact zero_rpos

theorem min_rpos {xs : List (Ieee F)} (h : ∀ x ∈ xs, x.RPos) :
    (xs.tail.foldl (fun x y => if rlt y x then y else x) (xs.head?.getD RLoss.zero)).RPos := by
  cases xs with
  | nil => exact zero_rpos
  | cons x xs =>
    have : ∀ s : Ieee F, s.RPos → (xs.foldl (fun x y => if rlt y x then y else x) s).RPos := by
      have h' : ∀ y ∈ xs, y.RPos := fun y hy => h y (by simp [hy])
      clear h
      induction xs with
      | nil => exact fun _ hs => hs
      | cons y xs ih =>
        intro s hs
        rw [List.foldl_cons]
        refine ih (fun z hz => h' z (by simp [hz])) _ ?_
        split
        · exact h' y (by simp)
        · exact hs
    exact this x (h x (by simp))

/-- `(b - a) / max a b`. -/
theorem frac_within {x y : Ieee F} (hx : x.RPos) (hy : y.RPos) :
    (checkedDiv (RLoss.sub y x) (if rgt x y then x else y)).Within (-1) 1 := by
  have hz : (RLoss.zero : Ieee F).Within (-1) 1 := ⟨by norm_num, by norm_num⟩
  cases x with
  | negInf => exact hx.elim
  | nan => exact hx.elim
  | inf =>
    cases y with
    | negInf => exact hy.elim
    | nan => exact hy.elim
    | inf => exact trivial
    | num q => exact trivial
  | num p =>
    cases y with
    | negInf => exact hy.elim
    | nan => exact hy.elim
    | inf => exact trivial
    | num q =>
      obtain ⟨p0, p1, p2⟩ := hx
      obtain ⟨q0, q1, q2⟩ := hy
      have key : ∀ m : ℚ, F.rnd m = m → m < 2 ^ F.emax → |q - p| ≤ m →
          (checkedDiv (RLoss.sub (.num q) (.num p)) (.num m) : Ieee F).Within (-1) 1 := by
        intro m m1 m2 m3
        unfold checkedDiv
        split
        · rename_i h
          have hm : 0 < m := rgt_zero.mp h
          obtain ⟨h1, h2⟩ := abs_le.mp m3
          obtain ⟨s, e, s1, s2, -⟩ := ofExact_within (F := F) (x := q + -p) (lo := -m) (hi := m) (by linarith) (by linarith)
            (by rw [F.rnd_neg, m1]) m1 (by linarith) m2
          have e' : (RLoss.sub (.num q) (.num p) : Ieee F) = .num s := e
          rw [e']
          show (div (.num s) (.num m)).Within (-1) 1
          unfold div
          dsimp only
          rw [if_neg hm.ne']
          obtain ⟨t, e, t1, t2, -⟩ := ofExact_within (F := F) (x := s / m) (lo := -1) (hi := 1)
            (by rw [le_div_iff₀ hm]; linarith) (by rw [div_le_iff₀ hm]; linarith) (by rw [F.rnd_neg, one_rnd]) (one_rnd F)
            (by linarith [one_lt_big F]) (one_lt_big F)
          rw [e]
          exact ⟨t1, t2⟩
        · exact hz
      split
      · rename_i h
        have hlt : q < p := by
          unfold rgt at h
          simp only [pcmp, RPartialOrd.pcmp, cmp] at h
          rcases lt_trichotomy p q with h' | h' | h'
          · simp [compare_lt_iff_lt.mpr h'] at h
          · simp [h'] at h
          · exact h'
        exact key p p1 p2 (by rw [abs_le]; constructor <;> linarith)
      · rename_i h
        have hle : p ≤ q := by
          by_contra h'
          apply h
          unfold rgt
          simp only [pcmp, RPartialOrd.pcmp, cmp]
          rw [compare_gt_iff_gt.mpr (not_le.mp h')]
          rfl
        exact key q q1 q2 (by rw [abs_le]; constructor <;> linarith)

/-- One more number in a range. -/
theorem add_within {lo : ℚ} (hlo : lo = 0 ∨ lo = -1) {n : Nat} (hc : Counts F (n + 1)) {s x : Ieee F}
    (hs : s.Within (capped F n * lo) (capped F n)) (hx : x.Within lo 1) :
    (RLoss.add s x).Within (capped F (n + 1) * lo) (capped F (n + 1)) := by
  have hcn := hc.mono (Nat.le_succ n)
  cases s with
  | inf => exact hs.elim
  | negInf => exact hs.elim
  | nan => exact trivial
  | num q =>
    cases x with
    | inf => exact hx.elim
    | negInf => exact hx.elim
    | nan => exact trivial
    | num p =>
      obtain ⟨i1, i2⟩ := hs
      obtain ⟨x1, x2⟩ := hx
      have h2 := hcn.capped_succ (x := q + p) (by linarith)
      have h1 : (capped F (n + 1) * lo : ℚ) ≤ F.rnd (q + p) := by
        rcases hlo with rfl | rfl
        · rw [mul_zero] at i1 ⊢
          exact F.rnd_nonneg (add_nonneg i1 x1)
        · have := hcn.capped_succ (x := -(q + p)) (by linarith)
          rw [F.rnd_neg] at this
          linarith
      have hb := hc.capped_lt
      have h0 : (0 : ℚ) ≤ capped F (n + 1) := Nat.cast_nonneg _
      have h3 : -2 ^ F.emax < (capped F (n + 1) * lo : ℚ) := by
        have hp : (0 : ℚ) < 2 ^ F.emax := zpow_pos two_pos _
        rcases hlo with rfl | rfl <;> linarith
      show (ofExact F (q + p)).Within _ _
      rw [ofExact_num (lt_of_lt_of_le h3 h1) (lt_of_le_of_lt h2 hb)]
      exact ⟨h1, h2⟩

/-- A sum of numbers in a range. -/
theorem sum_within {lo : ℚ} (hlo : lo = 0 ∨ lo = -1) {xs : List (Ieee F)} (h : ∀ x ∈ xs, x.Within lo 1)
    (hc : Counts F xs.length) : (xs.foldl RLoss.add RLoss.zero).Within (capped F xs.length * lo) (capped F xs.length) := by
  induction xs using List.reverseRecOn with
  | nil => exact ⟨by simp [capped], by simp [capped]⟩
  | append_singleton xs x ih =>
    rw [List.length_append, List.length_singleton] at hc
    rw [List.foldl_append, List.foldl_cons, List.foldl_nil, List.length_append, List.length_singleton]
    exact add_within hlo hc (ih (fun y hy => h y (by simp [hy])) (hc.mono (by omega))) (h x (by simp))

/-- The average. -/
theorem avg_within {lo : ℚ} (hlo : lo = 0 ∨ lo = -1) {n : Nat} (hn : 0 < n) (hc : Counts F n) {s : Ieee F}
    (hs : s.Within (capped F n * lo) (capped F n)) : (RLoss.div s (RLoss.ofU32 n)).Within lo 1 := by
  obtain ⟨c, e, hc1⟩ := ofU32_num hc
  have h1 : (1 : ℚ) ≤ capped F n := by exact_mod_cast Nat.le_min.mpr ⟨hn, Nat.one_le_two_pow⟩
  have hnq : (0 : ℚ) < c := by linarith
  rw [e]
  cases s with
  | inf => exact hs.elim
  | negInf => exact hs.elim
  | nan => exact trivial
  | num q =>
    show (div (.num q) (.num (c : ℚ))).Within lo 1
    unfold div
    dsimp only
    rw [if_neg hnq.ne']
    obtain ⟨h1, h2⟩ := hs
    have hb := one_lt_big F
    obtain ⟨t, e, t1, t2, -⟩ := ofExact_within (F := F) (x := q / c) (lo := lo) (hi := 1)
      (by rw [le_div_iff₀ hnq]; rcases hlo with rfl | rfl <;> linarith) (by rw [div_le_iff₀ hnq]; linarith)
      (by rcases hlo with rfl | rfl
          · exact F.rnd_zero
          · rw [F.rnd_neg, one_rnd]) (one_rnd F) (by rcases hlo with rfl | rfl <;> linarith) hb
    rw [e]
    exact ⟨t1, t2⟩

/-- One minus a number in the unit interval. -/
theorem one_sub_within {s : Ieee F} (hs : s.Within 0 1) : (RLoss.sub RLoss.one s).Within 0 1 := by
  cases s with
  | inf => exact hs.elim
  | negInf => exact hs.elim
  | nan => exact trivial
  | num q =>
    obtain ⟨h1, h2⟩ := hs
    have hb := one_lt_big F
    obtain ⟨t, e, t1, t2, -⟩ := ofExact_within (F := F) (x := 1 + -q) (lo := 0) (hi := 1) (by linarith) (by linarith)
      F.rnd_zero (one_rnd F) (by linarith) hb
    show (ofExact F (1 + -q)).Within 0 1
    rw [e]
    exact ⟨t1, t2⟩

/-- Quotients of nonnegative numbers. -/
theorem quot_within {x y : Ieee F} (hx : x.Pos) (hy : y.Pos) (h : rle x y = true) : (RLoss.div x y).Within 0 1 := by
  cases x with
  | negInf => exact hx.elim
  | nan => exact hx.elim
  | inf =>
    cases y with
    | negInf => exact hy.elim
    | nan => exact hy.elim
    | inf => exact trivial
    | num q => exact absurd h (by simp [rle, pcmp, RPartialOrd.pcmp, cmp])
  | num p =>
    cases y with
    | negInf => exact hy.elim
    | nan => exact hy.elim
    | inf => exact ⟨le_refl (0 : ℚ), zero_le_one⟩
    | num q =>
      have hpq : p ≤ q := by
        unfold rle at h
        simp only [pcmp, RPartialOrd.pcmp, cmp] at h
        rcases lt_trichotomy p q with h' | h' | h'
        · exact h'.le
        · exact h'.le
        · simp [compare_gt_iff_gt.mpr h'] at h
      have hp0 : 0 ≤ p := hx
      have hq0 : 0 ≤ q := hy
      show (div (.num p) (.num q)).Within 0 1
      unfold div
      dsimp only
      split
      · rename_i hq
        have hp : p = 0 := le_antisymm (hq ▸ hpq) hp0
        rw [infOf, if_pos hp]
        trivial
      · rename_i hq
        have hqp : 0 < q := lt_of_le_of_ne hq0 (Ne.symm hq)
        have hb := one_lt_big F
        obtain ⟨t, e, t1, t2, -⟩ := ofExact_within (F := F) (x := p / q) (lo := 0) (hi := 1) (div_nonneg hp0 hq0)
          ((div_le_one hqp).mpr hpq) F.rnd_zero (one_rnd F) (by linarith) hb
        rw [e]
        exact ⟨t1, t2⟩

end Ieee

/-! ## Silhouettes -/

section sil
variable {N : Type} [Zero N] [LE N] [RDist N] [RFrom N (Ieee F)]

theorem silValue_within (hpos : ∀ x : N, 0 ≤ x → (conv x : Ieee F).Pos) {d : Nat → Nat → N} {assi : List Nat} {i : Nat}
    (hi : i < assi.length) (hd : ∀ j < assi.length, 0 ≤ d i j) (hc : Counts F assi.length) (ai : Nat) :
    (silValueP (silBufP (Ieee F) d assi i) ai).Within (-1) 1 := by
  have hm : ∀ c, (meanF (Ieee F) d assi i c).RPos := fun c => by
    refine Ieee.mean_rpos (Ieee.sum_rpos fun x hx => ?_).pos (hc.mono (by have := members_lt assi hi c; omega))
    obtain ⟨j, hj, rfl⟩ := List.mem_map.mp hx
    exact hpos _ (hd j (List.getElem?_eq_some_iff.mp (mem_members.mp hj).1).1)
  unfold silValueP
  simp only [others_any]
  simp only [bucket_any]
  split
  · refine Ieee.frac_within (hm ai) (Ieee.min_rpos fun x hx => ?_)
    obtain ⟨c, -, rfl⟩ := List.mem_map.mp hx
    exact hm c
  · exact ⟨by norm_num, by norm_num⟩

theorem silAvg_within (hpos : ∀ x : N, 0 ≤ x → (conv x : Ieee F).Pos) {d : Nat → Nat → N} {assi : List Nat}
    (hne : assi ≠ []) (hu : assi.length ≤ u32Max) (hd : ∀ i < assi.length, ∀ j < assi.length, 0 ≤ d i j)
    (hc : Counts F assi.length) : (silAvgP (Ieee F) d assi).Within (-1) 1 := by
  unfold silAvgP
  rw [asU32_le hu]
  have hlen : (silValsP (Ieee F) d assi).length = assi.length := by simp [silValsP]
  refine Ieee.avg_within (Or.inr rfl) (List.length_pos_iff.mpr hne) hc ?_
  have := Ieee.sum_within (Or.inr rfl) (xs := silValsP (Ieee F) d assi) (fun x hx => by
    obtain ⟨p, hp, rfl⟩ := List.mem_map.mp hx
    exact silValue_within hpos (mem_zipIdx_lt hp) (hd _ (mem_zipIdx_lt hp)) hc _) (by rw [hlen]; exact hc)
  rwa [hlen] at this

/-- **C79, silhouette**: all values and the average are NaN or in [-1, 1]. -/
theorem C79_silhouette (hpos : ∀ x : N, 0 ≤ x → (conv x : Ieee F).Pos) {mat : Mat N} {m : Nat} {d : Nat → Nat → N}
    (hm : IsMatrix mat m d) {assi : List Nat} (hl : assi.length ≤ m) (hne : assi ≠ []) (hu : assi.length ≤ u32Max)
    (hd : ∀ i < m, ∀ j < m, 0 ≤ d i j) (hc : Counts F assi.length) (samples : Bool) {avg : Ieee F} {sil : List (Ieee F)}
    (hr : silhouette (Ieee F) mat assi samples = .ok (avg, sil)) :
    avg.Within (-1) 1 ∧ ∀ s ∈ sil, s.Within (-1) 1 := by
  rw [silhouette_eq hm hl, silhouetteP] at hr
  have hd' : ∀ i < assi.length, ∀ j < assi.length, 0 ≤ d i j := fun i hi j hj => hd i (by omega) j (by omega)
  have hz : (RLoss.zero : Ieee F).Within (-1) 1 := ⟨by norm_num, by norm_num⟩
  split at hr
  · cases hr
    refine ⟨hz, fun s hs => ?_⟩
    rw [List.eq_of_mem_replicate hs]
    exact hz
  · cases hr
    refine ⟨silAvg_within hpos hne hu hd' hc, fun s hs => ?_⟩
    cases samples
    · simp at hs
    · simp only [if_true] at hs
      obtain ⟨p, hp, rfl⟩ := List.mem_map.mp hs
      exact silValue_within hpos (mem_zipIdx_lt hp) (hd' _ (mem_zipIdx_lt hp)) hc _

/-- **C79, par_silhouette.** -/
theorem C79_par_silhouette (hpos : ∀ x : N, 0 ≤ x → (conv x : Ieee F).Pos) {mat : Mat N} {m : Nat} {d : Nat → Nat → N}
    (hm : IsMatrix mat m d) {assi : List Nat} (hl : assi.length ≤ m) (hne : assi ≠ []) (hu : assi.length ≤ u32Max)
    (hd : ∀ i < m, ∀ j < m, 0 ≤ d i j) (hc : Counts F assi.length) {avg : Ieee F}
    (hr : parSilhouette (Ieee F) mat assi = .ok avg) : avg.Within (-1) 1 := by
  rw [parSilhouette_eq hm hl] at hr
  cases hr
  exact silAvg_within hpos hne hu (fun i hi j hj => hd i (by omega) j (by omega)) hc

/-- **C79, pamsil_swap**: the returned average. -/
theorem C79_pamsil_swap (hpos : ∀ x : N, 0 ≤ x → (conv x : Ieee F).Pos) {mat : Mat N} {n : Nat} {d : Nat → Nat → N}
    (hm : IsMatrix mat n d) (hd : ∀ i < n, ∀ j < n, 0 ≤ d i j) {med : List Nat} (hv : ValidMeds n med)
    (hk : 2 ≤ med.length) (hc : Counts F n) {maxiter : Nat} {r : SwapResult (Ieee F)}
    (hr : pamsilSwap (Ieee F) mat med maxiter = .ok r) : r.loss.Within (-1) 1 := by
  obtain ⟨-, h1, h2, -⟩ := C39_pamsil_swap hm hv hk hr
  have hl := h2.assiLen
  have h0 : 0 < n := lt_of_lt_of_le hv.sizes.pos hv.sizes.le
  exact (C79_silhouette hpos hm hl.le (List.ne_nil_of_length_pos (by omega)) (by rw [hl]; exact hv.sizes.n_le) hd
    (by rw [hl]; exact hc) false h1).1

end sil

/-! ## Medoid silhouettes -/

section med
variable {N : Type} [LinearOrder N] [Zero N] [RDist N] [LawfulDist N] [RFrom N (Ieee F)]

/-- The conversion keeps the order, and nonnegative distances become nonnegative numbers or infinity. -/
structure ConvMono (N : Type) (F : Fmt) [LinearOrder N] [Zero N] [RFrom N (Ieee F)] : Prop where
  pos : ∀ x : N, 0 ≤ x → (conv x : Ieee F).Pos
  mono : ∀ x y : N, 0 ≤ x → x ≤ y → rle (conv x : Ieee F) (conv y : Ieee F) = true

theorem medRatio_within (H : ConvMono N F) {a b : N} (ha : 0 ≤ a) (hab : a ≤ b) :
    (RLoss.div (conv a : Ieee F) (conv b)).Within 0 1 :=
  Ieee.quot_within (H.pos a ha) (H.pos b (ha.trans hab)) (H.mono a b ha hab)

theorem silTerm_within (H : ConvMono N F) {n : Nat} {d : Nat → Nat → N} (hd : Dissim n d) {med : List Nat}
    (hk : 2 ≤ med.length) (hr : ∀ m ∈ med, m < n) {o : Nat} (ho : o < n) : (silTerm (Ieee F) d med o).Within 0 1 := by
  have ht := twoNearestP_twoMin d hk o
  obtain ⟨h1, h2⟩ := QuotLoss.twoMin_range hd hr ho ht
  rw [← mscLoss_term ht h1]
  unfold mscLoss
  split
  · exact ⟨le_refl (0 : ℚ), zero_le_one⟩
  · exact medRatio_within H h1 h2

theorem leftSum_within {xs : List (Ieee F)} (h : ∀ x ∈ xs, x.Within 0 1) (hc : Counts F xs.length) :
    (leftSum xs).Within (capped F xs.length * 0) (capped F xs.length) := by
  induction xs using List.reverseRecOn with
  | nil => exact ⟨by simp [capped], by simp [capped]⟩
  | append_singleton xs x ih =>
    rw [List.length_append, List.length_singleton] at hc
    have ih := ih (fun y hy => h y (by simp [hy])) (hc.mono (by omega))
    have hx := h x (by simp)
    cases xs with
    | nil =>
      have e : capped F ([] ++ [x]).length = 1 := Nat.min_eq_left Nat.one_le_two_pow
      rw [e, mul_zero, Nat.cast_one]
      exact hx
    | cons y ys =>
      have e : leftSum (y :: ys ++ [x]) = RLoss.add (leftSum (y :: ys)) x := by simp [leftSum]
      rw [e, List.length_append, List.length_singleton]
      exact Ieee.add_within (Or.inl rfl) hc ih hx

theorem recomputedSil_within (H : ConvMono N F) {n : Nat} (hn : 0 < n) (hc : Counts F n) {d : Nat → Nat → N}
    (hd : Dissim n d) {med : List Nat} (hk : 2 ≤ med.length) (hr : ∀ m ∈ med, m < n) :
    (recomputedSil (Ieee F) n d med).Within 0 1 := by
  have h := leftSum_within (xs := silTerms (Ieee F) n d med) (fun x hx => by
    obtain ⟨o, ho, rfl⟩ := List.mem_map.mp hx
    exact silTerm_within H hd hk hr (List.mem_range.mp ho)) (by simpa [silTerms] using hc)
  have e : (silTerms (Ieee F) n d med).length = n := by simp [silTerms]
  rw [e] at h
  exact Ieee.one_sub_within (Ieee.avg_within (Or.inl rfl) hn hc h)

/-- **C79, medoid_silhouette**: all values and the average are NaN or in [0, 1]. -/
theorem C79_medoid_silhouette (H : ConvMono N F) {mat : Mat N} {n : Nat} {d : Nat → Nat → N} (hm : IsMatrix mat n d)
    (hd : Dissim n d) {med : List Nat} (hv : ValidMeds n med) (hc : Counts F n) (samples : Bool) {avg : Ieee F}
    {sil : List (Ieee F)} (hr : medoidSilhouette (Ieee F) mat med samples = .ok (avg, sil)) :
    avg.Within 0 1 ∧ ∀ s ∈ sil, s.Within 0 1 := by
  have h0 : 0 < n := lt_of_lt_of_le hv.sizes.pos hv.sizes.le
  have hone : (RLoss.one : Ieee F).Within 0 1 := ⟨zero_le_one, le_refl (1 : ℚ)⟩
  rw [medoidSilhouette_eq hm hv, medoidSilhouetteP] at hr
  split at hr
  · cases hr
    refine ⟨hone, fun s hs => ?_⟩
    rw [List.eq_of_mem_replicate hs]
    exact hone
  rename_i h1
  have hk : 2 ≤ med.length := by have := hv.sizes.pos; omega
  cases hr
  have hrat : ∀ o < n, ∀ t, medRatioP (Ieee F) (twoNearestP d med o) = some t → t.Within 0 1 := by
    intro o ho t ht
    obtain ⟨h1, h2⟩ := QuotLoss.twoMin_range hd hv.range ho (twoNearestP_twoMin d hk o)
    unfold medRatioP at ht
    split at ht
    · cases ht
      exact medRatio_within H h1 h2
    · cases ht
  constructor
  · rw [asU32_le hv.sizes.n_le]
    refine Ieee.one_sub_within (Ieee.avg_within (Or.inl rfl) h0 hc ?_)
    have hs : ∀ k ≤ n, (medSumP (Ieee F) d k med).Within (capped F k * 0) (capped F k) := by
      intro k
      induction k with
      | zero => intro _; exact ⟨by simp [capped], by simp [capped]⟩
      | succ k ih =>
        intro hkn
        have ih := ih (by omega)
        have hck := hc.mono hkn
        unfold medSumP at ih ⊢
        rw [List.range_succ, List.foldl_append, List.foldl_cons, List.foldl_nil]
        generalize List.foldl _ _ (List.range k) = s at ih
        cases ht : medRatioP (Ieee F) (twoNearestP d med k) with
        | none =>
          dsimp only
          cases s with
          | inf => exact ih.elim
          | negInf => exact ih.elim
          | nan => exact trivial
          | num q =>
            rw [mul_zero] at ih ⊢
            exact ⟨ih.1, ih.2.trans (by unfold capped; exact_mod_cast min_le_min_right _ (Nat.le_succ k))⟩
        | some t => exact Ieee.add_within (Or.inl rfl) hck ih (hrat k (by omega) t ht)
    exact hs n le_rfl
  · intro s hs
    cases samples
    · simp at hs
    · simp only [if_true] at hs
      obtain ⟨o, ho, rfl⟩ := List.mem_map.mp hs
      unfold medSampleP
      cases ht : medRatioP (Ieee F) (twoNearestP d med o) with
      | none => exact hone
      | some t => exact Ieee.one_sub_within (hrat o (List.mem_range.mp ho) t ht)

/-- **C79, fastermsc.** -/
theorem C79_fastermsc (H : ConvMono N F) {mat : Mat N} {n : Nat} {d : Nat → Nat → N} (hm : IsMatrix mat n d)
    (hd : Dissim n d) {med : List Nat} (hv : ValidMeds n med) (hnd : med.Nodup) (hk : 2 ≤ med.length) (hc : Counts F n)
    (maxiter : Nat) {r : SwapResult (Ieee F)} (hr : fastermsc (Ieee F) mat med maxiter = .ok r) : r.loss.Within 0 1 := by
  have h := C59_fastermsc_nearest hm hd hv hnd hk maxiter hr
  rw [C59_fastermsc hm hd hv hnd hk maxiter hr]
  exact recomputedSil_within H (lt_of_lt_of_le hv.sizes.pos hv.sizes.le) hc hd (by rw [h.medLen]; exact hk) h.medRange

theorem upToLast_within (H : ConvMono N F) {n : Nat} (hn : 0 < n) (hc : Counts F n) {d : Nat → Nat → N}
    (hd : Dissim n d) {k : Nat} (hk : 2 ≤ k) {r : SwapResult (Ieee F)} (h : SilAnswer n k d r) (hl : SilLossUpToLast n d r) :
    r.loss.Within 0 1 := by
  rcases hl with e | ⟨before, b, j, h0, h1, h2, h3, e, -⟩
  · rw [e]
    exact recomputedSil_within H hn hc hd (by rw [h.medLen]; exact hk) h.medRange
  · rw [e]
    refine recomputedSil_within H hn hc hd ?_ h0
    have := h.medLen
    rw [h3, List.length_set] at this
    omega

/-- **C79, fastmsc.** -/
theorem C79_fastmsc (H : ConvMono N F) {mat : Mat N} {n : Nat} {d : Nat → Nat → N} (hm : IsMatrix mat n d)
    (hd : Dissim n d) {med : List Nat} (hv : ValidMeds n med) (hnd : med.Nodup) (hk : 2 ≤ med.length)
    (hn2 : ¬ (med.length = 2 ∧ n = 2)) (hc : Counts F n)
    (maxiter : Nat) {r : SwapResult (Ieee F)} (hr : fastmsc (Ieee F) mat med maxiter = .ok r) : r.loss.Within 0 1 :=
  upToLast_within H (lt_of_lt_of_le hv.sizes.pos hv.sizes.le) hc hd hk (C59_fastmsc_nearest hm hd hv hnd hk hn2 maxiter hr)
    (C59_fastmsc_partial hm hd hv hnd hk hn2 maxiter hr)

/-- **C79, pammedsil_swap.** -/
theorem C79_pammedsil_swap (H : ConvMono N F) {mat : Mat N} {n : Nat} {d : Nat → Nat → N} (hm : IsMatrix mat n d)
    (hd : Dissim n d) {med : List Nat} (hv : ValidMeds n med) (hnd : med.Nodup) (hk : 2 ≤ med.length) (hc : Counts F n)
    (maxiter : Nat) {r : SwapResult (Ieee F)} (hr : pammedsilSwap (Ieee F) mat med maxiter = .ok r) : r.loss.Within 0 1 :=
  upToLast_within H (lt_of_lt_of_le hv.sizes.pos hv.sizes.le) hc hd hk
    (C59_pammedsil_swap_nearest hm hd hv hnd hk maxiter hr).2 (C59_pammedsil_swap_partial hm hd hv hnd hk maxiter hr)

end med

/-! ## The formats of Rust -/

theorem counts64 {n : Nat} (hn : n ≤ u32Max) : Counts binary64 n := by
  refine ⟨by decide, le_trans (b := ((2 ^ 32 : ℕ) : ℚ)) (by exact_mod_cast hn.trans (by decide)) ?_⟩
  show _ ≤ (2 : ℚ) ^ (1023 : ℤ)
  rw [Nat.cast_pow, Nat.cast_ofNat, ← zpow_natCast]
  exact zpow_le_zpow_right₀ (by norm_num) (by norm_num)

theorem counts32 {n : Nat} (hn : n ≤ u32Max) : Counts binary32 n := by
  refine ⟨by decide, le_trans (b := ((2 ^ 32 : ℕ) : ℚ)) (by exact_mod_cast hn.trans (by decide)) ?_⟩
  show _ ≤ (2 : ℚ) ^ (127 : ℤ)
  rw [Nat.cast_pow, Nat.cast_ofNat, ← zpow_natCast]
  exact zpow_le_zpow_right₀ (by norm_num) (by norm_num)

theorem ConvMono.of_num {N : Type} [LinearOrder N] [Zero N] [RFrom N (Ieee F)] (f : N → ℚ) (hf : ∀ x, (conv x : Ieee F) = .num (f x))
    (h0 : f 0 = 0) (hm : ∀ x y, x ≤ y → f x ≤ f y) : ConvMono N F where
  pos x hx := by
    rw [hf]
    have := hm 0 x hx
    rw [h0] at this
    exact this
  mono x y _ h := by
    rw [hf, hf]
    unfold rle
    simp only [pcmp, RPartialOrd.pcmp, Ieee.cmp]
    rcases (hm x y h).lt_or_eq with h | h
    · simp [compare_lt_iff_lt.mpr h]
    · simp [h]

/-- Distances and losses of the same format. -/
theorem convMono_same (F : Fmt) : ConvMono (Finite F) F := .of_num (·.q) (fun _ => rfl) rfl fun _ _ h => h

theorem convMono_f32_f64 : ConvMono (Finite binary32) binary64 := .of_num (·.q) (fun _ => rfl) rfl fun _ _ h => h

theorem convMono_u32_f64 : ConvMono UInt32 binary64 := .of_num (fun x => (x.toNat : ℚ)) (fun _ => rfl) rfl fun x y h => by
  have : x.toNat ≤ y.toNat := UInt32.le_iff_toNat_le.mp h
  exact_mod_cast this

/-! ## Non-vacuity -/

/-- `u32` distances: the silhouette of an object in the wrong cluster, and the average. -/
example : ∃ (avg : Ieee binary64) (sil : List (Ieee binary64)),
    silhouette (Ieee binary64) silUMat [0, 1, 0, 1, 1] true = .ok (avg, sil) ∧ avg.Within (-1) 1 ∧
      sil[1]? = some (.num (-3602879701896397 / 4503599627370496)) ∧ ∀ s ∈ sil, s.Within (-1) 1 := by
  have hr : ∃ r, silhouette (Ieee binary64) silUMat [0, 1, 0, 1, 1] true = .ok r :=
    ⟨_, silhouette_eq silU_isMatrix (by decide) true⟩
  obtain ⟨⟨avg, sil⟩, hr⟩ := hr
  obtain ⟨h1, h2⟩ := C79_silhouette convMono_u32_f64.pos silU_isMatrix (by decide) (by decide) (by decide)
    (fun x hx y hy => silU_dissim.2 x y hx hy) (counts64 (by decide)) true hr
  have h3 : (silhouette (Ieee binary64) silUMat [0, 1, 0, 1, 1] true).toOption.bind (·.2[1]?) =
      some (.num (-3602879701896397 / 4503599627370496)) := by decide +kernel
  rw [hr] at h3
  exact ⟨avg, sil, hr, h1, h3, h2⟩

/-- Sums of distances overflow: not a number. -/
def vast (x y : Nat) : Finite binary64 := .ofRat binary64 (if x = y then 0 else 2 ^ (1023 : ℤ))

def vastMat : Mat (Finite binary64) := ofRows ((List.range 4).map fun x => (List.range 4).map (vast x))

example : IsMatrix vastMat 4 vast ∧ (∀ x < 4, ∀ y < 4, 0 ≤ vast x y) ∧
    silhouette (Ieee binary64) vastMat [0, 0, 0, 1] true = .ok (.nan, [.nan, .nan, .nan, .num 0]) := by
  refine ⟨⟨rfl, rfl, fun x y hx hy => ?_⟩, by decide +kernel, by decide +kernel⟩
  exact (by decide +kernel : ∀ x < 4, ∀ y < 4, vastMat.get x y = .ok (vast x y)) x hx y hy

/-- Distances over the whole range of `f64`. -/
example : ∃ r : SwapResult (Ieee binary64), fastermsc (Ieee binary64) wideMat [0, 1] 20 = .ok r ∧ r.loss.Within 0 1 := by
  have hv : ValidMeds 4 [0, 1] := ⟨⟨by decide, by decide, by decide, by decide⟩, by decide⟩
  have hr : ∃ r, fastermsc (Ieee binary64) wideMat [0, 1] 20 = .ok r := ⟨_, fastermsc_eq wide_isMatrix hv 20⟩
  obtain ⟨r, hr⟩ := hr
  exact ⟨r, hr, C79_fastermsc (convMono_same binary64) wide_isMatrix wide_dissim hv (by decide) (by decide)
    (counts64 (by decide)) 20 hr⟩

/-- The counts are beyond the precision of `f32`. -/
example : Counts binary32 (2 ^ 24 + 1) ∧ binary32.rnd ((2 ^ 24 + 1 : ℕ) : ℚ) ≠ ((2 ^ 24 + 1 : ℕ) : ℚ) :=
  ⟨counts32 (by decide), by decide +kernel⟩

end KMedoids
