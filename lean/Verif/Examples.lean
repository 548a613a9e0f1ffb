import Verif.Instances
import Verif.Spec

/-!
# Concrete inputs

Used beside the theorems to show that their hypotheses can be met by non-trivial inputs.
-/

namespace KMedoids

/-- Six objects on a line at 0, 0, 1, 5, 6, 10; the first two are duplicates (distance 0). -/
def exRows : List (List ℕ) :=
  [[0, 0, 1, 5, 6, 10], [0, 0, 1, 5, 6, 10], [1, 1, 0, 4, 5, 9], [5, 5, 4, 0, 1, 5], [6, 6, 5, 1, 0, 4],
    [10, 10, 9, 5, 4, 0]]

def exMat : Mat ℕ := ofRows exRows

def exD (x y : Nat) : ℕ := (exRows.getD x []).getD y 0

theorem exMat_isMatrix : IsMatrix exMat 6 exD :=
  ⟨rfl, rfl, fun x y hx hy => by
    have : ∀ x < 6, ∀ y < 6, exMat.get x y = .ok (exD x y) := by decide +kernel
    exact this x hx y hy⟩

theorem exD_dissim : Dissim 6 exD :=
  ⟨by decide +kernel, fun _ _ _ _ => Nat.zero_le _⟩

theorem exD_symm : Symm 6 exD := by
  have : ∀ x < 6, ∀ y < 6, exD x y = exD y x := by decide +kernel
  exact fun x y hx hy => this x hx y hy

theorem ex_sizes {k : Nat} (h1 : 1 ≤ k) (h2 : k ≤ 6) : Sizes 6 k :=
  ⟨h1, h2, by decide, lt_of_le_of_lt h2 (by decide)⟩

theorem ex_valid {med : List Nat} (h1 : 1 ≤ med.length) (h2 : med.length ≤ 6) (h3 : ∀ m ∈ med, m < 6) :
    ValidMeds 6 med := ⟨ex_sizes h1 h2, h3⟩

/-- The same matrix with rational entries. -/
def exMatQ : Mat ℚ := ofRows (exRows.map (·.map (fun x => (x : ℚ))))

def exDQ (x y : Nat) : ℚ := exD x y

theorem exMatQ_isMatrix : IsMatrix exMatQ 6 exDQ :=
  ⟨rfl, rfl, fun x y hx hy => by
    have : ∀ x < 6, ∀ y < 6, exMatQ.get x y = .ok (exDQ x y) := by decide +kernel
    exact this x hx y hy⟩

theorem exDQ_dissim : Dissim 6 exDQ :=
  ⟨by decide +kernel, fun _ _ _ _ => Nat.cast_nonneg _⟩

theorem exDQ_symm : Symm 6 exDQ := fun x y hx hy => by rw [exDQ, exDQ, exD_symm x y hx hy]

end KMedoids
