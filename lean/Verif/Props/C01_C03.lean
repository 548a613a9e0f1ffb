import Verif.Instances
import Verif.Spec
import Verif.Proofs.Basic
import Verif.Model.Initialization
import Mathlib.Tactic.Ring

/-! # C01, C02 (LowerTriangle) and C03 (first_k) -/

namespace KMedoids

variable {N : Type}

/-- The storage cell of the unordered pair `{x, y}`, `x ≠ y`: rows of the strict lower triangle one
after the other. -/
def triCell (x y : Nat) : Nat := max x y * (max x y - 1) / 2 + min x y

theorem tri_succ (n : Nat) : (n + 1) * n / 2 = n * (n - 1) / 2 + n := by
  cases n with
  | zero => rfl
  | succ n =>
    have : (n + 1 + 1) * (n + 1) = (n + 1) * n + (n + 1) * 2 := by ring
    rw [this, Nat.add_mul_div_right _ _ (by omega)]; simp

theorem tri_mono {a b : Nat} (h : a ≤ b) : a * (a - 1) / 2 ≤ b * (b - 1) / 2 :=
  Nat.div_le_div_right (Nat.mul_le_mul h (by omega))

/-- Rows do not overlap: row `a` ends before row `a+1 ≤ b` begins. -/
theorem tri_row {a b : Nat} (h : a < b) : a * (a - 1) / 2 + a ≤ b * (b - 1) / 2 := by
  have := tri_mono (show a + 1 ≤ b from h)
  rw [Nat.add_sub_cancel, tri_succ] at this; exact this

theorem triCell_lt {n x y : Nat} (hx : x < n) (hy : y < n) (hne : x ≠ y) :
    triCell x y < n * (n - 1) / 2 := by
  have := tri_row (show max x y < n by omega)
  unfold triCell; omega

theorem LowerTriangle.get_ne [RDist N] (t : LowerTriangle N) {x y : Nat} (h : x ≠ y) :
    t.get x y = idx t.data (triCell x y) := by
  unfold LowerTriangle.get triCell
  rcases Nat.lt_or_gt_of_ne h with h | h
  · have hc : compare x y = .lt := Nat.compare_eq_lt.mpr h
    rw [hc]; simp only [Nat.shiftRight_eq_div_pow, Nat.pow_one]
    rw [max_eq_right (le_of_lt h), min_eq_left (le_of_lt h)]
  · have hc : compare x y = .gt := Nat.compare_eq_gt.mpr h
    rw [hc]; simp only [Nat.shiftRight_eq_div_pow, Nat.pow_one]
    rw [max_eq_left (le_of_lt h), min_eq_right (le_of_lt h)]

/-- **C01.** If `is_square()` is true, `get` does not panic for indexes in range (any number type). -/
theorem C01_get_in_bounds [RDist N] (t : LowerTriangle N) (h : t.isSquare = .ok true) (x y : Nat)
    (hx : x < t.n) (hy : y < t.n) : ∃ v, t.get x y = .ok v := by
  by_cases hxy : x = y
  · subst hxy; exact ⟨RDist.zero, by simp [LowerTriangle.get]⟩
  · rw [t.get_ne hxy]
    have hl : t.data.length = t.n * (t.n - 1) / 2 := by
      unfold LowerTriangle.isSquare at h
      split at h
      · cases h
      · simpa [Nat.shiftRight_eq_div_pow] using h
    exact ⟨_, idx_lt (hl ▸ triCell_lt hx hy hxy)⟩

/-- **C01.** `is_square()` is true exactly if `data` holds `n(n-1)/2` cells, for every `n ≥ 1`. -/
theorem C01_is_square_iff (t : LowerTriangle N) (hn : 1 ≤ t.n) :
    (t.isSquare = .ok true ↔ 2 * t.data.length = t.n * (t.n - 1)) ∧
    (t.isSquare = .ok false ↔ 2 * t.data.length ≠ t.n * (t.n - 1)) := by
  have hev : t.n * (t.n - 1) % 2 = 0 := by
    obtain ⟨m, hm⟩ : ∃ m, t.n = m + 1 := ⟨t.n - 1, by omega⟩
    rw [hm, Nat.add_sub_cancel, Nat.mul_comm]
    exact Nat.even_iff.mp (Nat.even_mul_succ_self m)
  unfold LowerTriangle.isSquare
  rw [if_neg (by omega)]
  simp only [Nat.shiftRight_eq_div_pow, Nat.pow_one, Except.ok.injEq, beq_iff_eq, beq_eq_false_iff_ne]
  generalize t.n * (t.n - 1) = m at *
  constructor <;> constructor <;> omega

/-- **C01, finding.** For `n = 0` the underflow in `is_square` panics (overflow checks on). -/
theorem C01_is_square_zero (t : LowerTriangle N) (hn : t.n = 0) : t.isSquare = .error .arith := by
  simp [LowerTriangle.isSquare, hn]

/-- **C01.** The 64-bit products in `is_square` and `get` do not overflow for any size the crate
accepts (`n ≤ u32::MAX`, `x < n`), so computing them in unbounded naturals is exact. -/
theorem C01_no_usize_overflow (x n : Nat) (hn : n ≤ u32Max) (hx : x ≤ n) :
    x * (x - 1) ≤ usizeMax ∧ x * (x - 1) / 2 + x ≤ usizeMax := by
  have h1 : x * (x - 1) ≤ u32Max * u32Max := Nat.mul_le_mul (by omega) (by omega)
  have h2 : u32Max * u32Max ≤ usizeMax := by decide
  have h3 : u32Max * u32Max / 2 + u32Max ≤ usizeMax := by decide
  omega

/-- C01 hypotheses are met by the matrix of the crate's tests. -/
example : (⟨5, [1, 2, 3, 4, 5, 6, 7, 8, 9, 1]⟩ : LowerTriangle ℕ).isSquare = .ok true := by decide

/-- **C02.** `get` is symmetric, for every pair, in range or not (panics included). -/
theorem C02_symmetric [RDist N] (t : LowerTriangle N) (x y : Nat) : t.get x y = t.get y x := by
  by_cases h : x = y
  · rw [h]
  · rw [t.get_ne h, t.get_ne (Ne.symm h)]; simp [triCell, max_comm, min_comm]

/-- **C02.** The diagonal is zero. -/
theorem C02_diagonal [RDist N] (t : LowerTriangle N) (x : Nat) : t.get x x = .ok RDist.zero := by
  simp [LowerTriangle.get]

/-- **C02.** Off the diagonal `get` reads exactly the cell `triCell x y`. -/
theorem C02_cell [RDist N] (t : LowerTriangle N) {x y : Nat} (h : x ≠ y) :
    t.get x y = idx t.data (triCell x y) := t.get_ne h

/-- **C02.** Different unordered pairs never share a storage cell. -/
theorem C02_no_aliasing {x y x' y' : Nat} (h : x < y) (h' : x' < y')
    (hc : triCell x y = triCell x' y') : x = x' ∧ y = y' := by
  unfold triCell at hc
  rw [max_eq_right (le_of_lt h), max_eq_right (le_of_lt h'), min_eq_left (le_of_lt h),
    min_eq_left (le_of_lt h')] at hc
  rcases Nat.lt_trichotomy y y' with hy | hy | hy
  · have := tri_row hy; omega
  · subst hy; omega
  · have := tri_row hy; omega

/-- **C02.** Every one of the `n(n-1)/2` cells belongs to some pair of objects. -/
theorem C02_every_cell_used (n c : Nat) (hc : c < n * (n - 1) / 2) :
    ∃ x y, x < y ∧ y < n ∧ triCell x y = c := by
  induction n with
  | zero => simp at hc
  | succ n ih =>
    by_cases h : c < n * (n - 1) / 2
    · obtain ⟨x, y, h1, h2, h3⟩ := ih h; exact ⟨x, y, h1, by omega, h3⟩
    · rw [Nat.add_sub_cancel, tri_succ] at hc
      refine ⟨c - n * (n - 1) / 2, n, by omega, by omega, ?_⟩
      unfold triCell
      rw [max_eq_right (by omega), min_eq_left (by omega)]; omega

/-- The strict lower triangle of `d`, row by row: what a user stores in `LowerTriangle::data`. -/
def packLower (n : Nat) (d : Nat → Nat → N) : List N :=
  (List.range n).flatMap fun x => (List.range x).map (d x)

theorem packLower_succ (n : Nat) (d : Nat → Nat → N) :
    packLower (n + 1) d = packLower n d ++ (List.range n).map (d n) := by
  simp [packLower, List.range_succ]

theorem packLower_length (n : Nat) (d : Nat → Nat → N) :
    (packLower n d).length = n * (n - 1) / 2 := by
  induction n with
  | zero => rfl
  | succ n ih => rw [packLower_succ, List.length_append, ih, Nat.add_sub_cancel, tri_succ]; simp

theorem packLower_get (n : Nat) (d : Nat → Nat → N) {x y : Nat} (hy : y < x) (hx : x < n) :
    (packLower n d)[x * (x - 1) / 2 + y]? = some (d x y) := by
  induction n with
  | zero => omega
  | succ n ih =>
    rw [packLower_succ]
    by_cases h : x = n
    · subst h
      rw [List.getElem?_append_right (by rw [packLower_length]; omega), packLower_length]
      simp [hy]
    · have := tri_row (show x < n by omega)
      rw [List.getElem?_append_left (by rw [packLower_length]; omega)]
      exact ih (by omega)

/-- **C02.** Packing any symmetric zero-diagonal matrix and reading it back returns the matrix. -/
theorem C02_round_trip [RDist N] (n : Nat) (hn : 1 ≤ n) (d : Nat → Nat → N) (hs : Symm n d)
    (hd : ∀ x, x < n → d x x = RDist.zero) :
    IsMatrix (⟨n, packLower n d⟩ : LowerTriangle N).toMat n d := by
  refine ⟨rfl, ?_, ?_⟩
  · simp only [LowerTriangle.toMat, LowerTriangle.isSquare]
    rw [if_neg (by omega), packLower_length]; simp [Nat.shiftRight_eq_div_pow]
  · intro x y hx hy
    show LowerTriangle.get _ x y = _
    rcases Nat.lt_trichotomy x y with h | h | h
    · rw [LowerTriangle.get_ne _ (by omega), hs x y hx hy]
      apply idx_of_get; unfold triCell
      rw [max_eq_right (le_of_lt h), min_eq_left (le_of_lt h)]; exact packLower_get n d h hy
    · subst h; rw [C02_diagonal, hd x hx]
    · rw [LowerTriangle.get_ne _ (by omega)]
      apply idx_of_get; unfold triCell
      rw [max_eq_left (le_of_lt h), min_eq_right (le_of_lt h)]; exact packLower_get n d h hx

/-- C02 hypotheses: distances of points on a line. -/
example : Symm 7 (fun x y => (x - y) + (y - x)) ∧ ∀ x, x < 7 → (x - x) + (x - x) = (RDist.zero : ℕ) :=
  ⟨fun x y _ _ => by dsimp only; omega, fun x _ => by simp [RDist.zero]⟩

/-- **C02.** Conversely every square `LowerTriangle` presents some symmetric zero-diagonal matrix. -/
theorem C02_presents [RDist N] (t : LowerTriangle N) (h : t.isSquare = .ok true) :
    ∃ d, IsMatrix t.toMat t.n d ∧ Symm t.n d ∧ ∀ x, x < t.n → d x x = RDist.zero := by
  refine ⟨fun x y => (t.get x y).toOption.getD RDist.zero, ⟨rfl, h, ?_⟩, ?_, ?_⟩
  · intro x y hx hy
    obtain ⟨v, hv⟩ := C01_get_in_bounds t h x y hx hy
    show t.get x y = _
    simp [hv, Except.toOption]
  · intro x y _ _
    dsimp only; rw [C02_symmetric]
  · intro x _
    simp [C02_diagonal, Except.toOption]

/-- **C03.** `first_k(k)` has `k` pairwise distinct entries, and they are valid medoids of any data set
with at least `k` objects. -/
theorem C03_first_k (k n : Nat) (hs : Sizes n k) :
    (firstK k).length = k ∧ (firstK k).Nodup ∧ ValidMeds n (firstK k) := by
  have hl : (firstK k).length = k := by simp [firstK]
  refine ⟨hl, List.nodup_range, hl.symm ▸ hs, fun m hm => ?_⟩
  have := List.mem_range.mp hm; have := hs.le; omega

/-- **C03.** More precisely it is `0, 1, …, k-1`. -/
theorem C03_first_k_entries (k i : Nat) (hi : i < k) : (firstK k)[i]? = some i := by
  simp [firstK, hi]

/-- C03 hypotheses are satisfiable. -/
example : Sizes 5 3 := ⟨by decide, by decide, by decide, by decide⟩

end KMedoids
