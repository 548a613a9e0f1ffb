import Verif.Props.C08_C16
import Verif.Props.C17

/-!
# The assumptions on the matrix are needed

The exact properties of the PAM family assume a zero diagonal and no negative distances. Each theorem here is a
matrix that violates only one of the two and on which the property fails, in exact arithmetic.
-/

namespace KMedoids

open RFrom (conv)

/-- Entries of a matrix given by rows. -/
def scopeD {N : Type} [Zero N] (rows : List (List N)) (x y : Nat) : N := (rows.getD x []).getD y 0

/-- Distinct valid medoids for a matrix without negative entries, whose diagonal is not zero. -/
structure OffDiagonal (rows : List (List ℕ)) (n : Nat) (med : List Nat) : Prop where
  matrix : IsMatrix (ofRows rows) n (scopeD rows)
  meds : ValidMeds n med
  nodup : med.Nodup

/-- Distinct valid medoids for a matrix with zero diagonal that has negative entries. -/
structure Negative (rows : List (List ℚ)) (n : Nat) (med : List Nat) : Prop where
  matrix : IsMatrix (ofRows rows) n (scopeD rows)
  zero : ∀ x < n, scopeD rows x x = 0
  meds : ValidMeds n med
  nodup : med.Nodup

theorem offDiagonal {rows : List (List ℕ)} {n : Nat} {med : List Nat} (h0 : (ofRows rows).len = n)
    (h1 : (ofRows rows).isSquare = .ok true)
    (h2 : ∀ x < n, ∀ y < n, (ofRows rows).get x y = .ok (scopeD rows x y))
    (h3 : 1 ≤ med.length ∧ med.length ≤ n ∧ n ≤ 100) (h4 : ∀ m ∈ med, m < n) (h5 : med.Nodup) :
    OffDiagonal rows n med :=
  ⟨⟨h0, h1, fun x y hx hy => h2 x hx y hy⟩,
    ⟨⟨h3.1, h3.2.1, le_trans h3.2.2 (by decide), lt_of_le_of_lt (le_trans h3.2.1 h3.2.2) (by decide)⟩, h4⟩, h5⟩

theorem negative {rows : List (List ℚ)} {n : Nat} {med : List Nat} (h0 : (ofRows rows).len = n)
    (h1 : (ofRows rows).isSquare = .ok true)
    (h2 : ∀ x < n, ∀ y < n, (ofRows rows).get x y = .ok (scopeD rows x y)) (hz : ∀ x < n, scopeD rows x x = 0)
    (h3 : 1 ≤ med.length ∧ med.length ≤ n ∧ n ≤ 100) (h4 : ∀ m ∈ med, m < n) (h5 : med.Nodup) :
    Negative rows n med :=
  ⟨⟨h0, h1, fun x y hx hy => h2 x hx y hy⟩, hz,
    ⟨⟨h3.1, h3.2.1, le_trans h3.2.2 (by decide), lt_of_le_of_lt (le_trans h3.2.1 h3.2.2) (by decide)⟩, h4⟩, h5⟩

/-- **C06 needs the zero diagonal:** `fasterpam` returns medoid 1 twice. -/
theorem C06_needs_zero_diagonal : ∃ rows n med, OffDiagonal rows n med ∧
    ∃ r, fasterpam ℤ (ofRows rows) med 5 = .ok r ∧ ¬ r.med.Nodup :=
  ⟨[[1, 0, 3, 3, 2], [0, 2, 0, 3, 2], [1, 0, 2, 3, 3], [0, 0, 1, 2, 1], [3, 0, 2, 1, 0]], 5, [0, 1, 2],
    offDiagonal rfl rfl (by decide +kernel) (by decide) (by decide) (by decide),
    ⟨0, [1, 0, 0, 1, 1], 2, 2, [1, 1, 2]⟩, by decide +kernel, by decide⟩

/-- **C06 needs non-negative distances.** -/
theorem C06_needs_nonneg : ∃ rows n med, Negative rows n med ∧
    ∃ r, fasterpam ℚ (ofRows rows) med 5 = .ok r ∧ ¬ r.med.Nodup :=
  ⟨[[0, 2, 2, 0, -2], [-2, 0, 2, 0, -1], [2, 1, 0, 3, -1], [0, 3, -2, 0, 2], [-1, 3, -2, 2, 0]], 5, [0, 1, 2],
    negative rfl rfl (by decide +kernel) (by decide +kernel) (by decide) (by decide) (by decide),
    ⟨-6, [1, 1, 1, 2, 1], 2, 5, [2, 4, 2]⟩, by decide +kernel, by decide⟩

/-- **C08 and C09 need the zero diagonal:** `fasterpam` and `fastpam1` report loss 0, but the total deviation is
positive and larger than at the start. -/
theorem C09_needs_zero_diagonal : ∃ rows n med, OffDiagonal rows n med ∧
    ∃ r, fasterpam ℤ (ofRows rows) med 5 = .ok r ∧ fastpam1 ℤ (ofRows rows) med 5 = .ok r ∧
      r.loss ≠ totalDev (conv : ℕ → ℤ) n (scopeD rows) r.med ∧
      totalDev (conv : ℕ → ℤ) n (scopeD rows) med < totalDev (conv : ℕ → ℤ) n (scopeD rows) r.med :=
  ⟨[[0, 2, 2], [0, 3, 3], [3, 2, 3]], 3, [0, 1],
    offDiagonal rfl rfl (by decide +kernel) (by decide) (by decide) (by decide),
    ⟨0, [0, 0, 1], 2, 1, [0, 2]⟩, by decide +kernel, by decide +kernel, by decide +kernel, by decide +kernel⟩

/-- **C08 needs non-negative distances.** -/
theorem C08_needs_nonneg : ∃ rows n med, Negative rows n med ∧
    ∃ r, fasterpam ℚ (ofRows rows) med 5 = .ok r ∧
      r.loss ≠ totalDev (conv : ℚ → ℚ) n (scopeD rows) r.med :=
  ⟨[[0, -2, -2], [-1, 0, 0], [-1, -1, 0]], 3, [0, 1],
    negative rfl rfl (by decide +kernel) (by decide +kernel) (by decide) (by decide) (by decide),
    ⟨-3, [1, 0, 1], 1, 3, [0, 2]⟩, by decide +kernel, by decide +kernel⟩

/-- **C09 needs non-negative distances.** -/
theorem C09_needs_nonneg : ∃ rows n med, Negative rows n med ∧
    ∃ r, fasterpam ℚ (ofRows rows) med 5 = .ok r ∧
      totalDev (conv : ℚ → ℚ) n (scopeD rows) med < totalDev (conv : ℚ → ℚ) n (scopeD rows) r.med :=
  ⟨[[0, -1, 2], [-2, 0, 0], [0, 2, 0]], 3, [0, 1],
    negative rfl rfl (by decide +kernel) (by decide +kernel) (by decide) (by decide) (by decide),
    ⟨-2, [0, 0, 1], 2, 5, [0, 2]⟩, by decide +kernel, by decide +kernel⟩

/-- **C14 needs the zero diagonal:** `fastpam1` finds no swap, `pam_swap` makes one. -/
theorem C14_needs_zero_diagonal : ∃ rows n med, OffDiagonal rows n med ∧
    fastpam1 ℤ (ofRows rows) med 5 ≠ pamSwap ℤ (ofRows rows) med 5 :=
  ⟨[[0, 3, 2], [1, 0, 2], [3, 2, 2]], 3, [0, 1],
    offDiagonal rfl rfl (by decide +kernel) (by decide) (by decide) (by decide), by decide +kernel⟩

/-- **C14 needs non-negative distances.** -/
theorem C14_needs_nonneg : ∃ rows n med, Negative rows n med ∧
    fastpam1 ℚ (ofRows rows) med 5 ≠ pamSwap ℚ (ofRows rows) med 5 :=
  ⟨[[0, -2, -2], [-1, 0, 0], [-1, -1, 0]], 3, [0, 1],
    negative rfl rfl (by decide +kernel) (by decide +kernel) (by decide) (by decide) (by decide), by decide +kernel⟩

/-- **C17 needs the zero diagonal:** `par_do_swap` and `do_swap` try their cases in a different order, which shows
when the cache is wrong. One thread, so this is no effect of scheduling. -/
theorem C17_needs_zero_diagonal : ∃ rows n med, OffDiagonal rows n med ∧ ∃ sc : Sched, sc.Ok ∧ sc.parts = 1 ∧
    parFasterpam ℤ sc (fun _ _ => sc) (fun _ _ => sc) (ofRows rows) med 5 (List.range n) ≠
      randFasterpam ℤ (ofRows rows) med 5 (List.range n) :=
  ⟨[[0, 1, 3, 3], [0, 2, 1, 1], [0, 0, 0, 3], [1, 1, 2, 0]], 4, [0, 1, 2],
    offDiagonal rfl rfl (by decide +kernel) (by decide) (by decide) (by decide), ⟨1, [0], .leaf⟩,
    ⟨by decide, by decide⟩, rfl, by decide +kernel⟩

/-- **C17 needs non-negative distances.** -/
theorem C17_needs_nonneg : ∃ rows n med, Negative rows n med ∧ ∃ sc : Sched, sc.Ok ∧ sc.parts = 1 ∧
    parFasterpam ℚ sc (fun _ _ => sc) (fun _ _ => sc) (ofRows rows) med 5 (List.range n) ≠
      randFasterpam ℚ (ofRows rows) med 5 (List.range n) :=
  ⟨[[0, -2, -2, -1, 3], [1, 0, 1, 1, 0], [-1, -1, 0, -2, -1], [0, -2, -1, 0, 0], [3, 2, 3, -2, 0]], 5, [0, 1, 2],
    negative rfl rfl (by decide +kernel) (by decide +kernel) (by decide) (by decide) (by decide), ⟨1, [0], .leaf⟩,
    ⟨by decide, by decide⟩, rfl, by decide +kernel⟩

end KMedoids
