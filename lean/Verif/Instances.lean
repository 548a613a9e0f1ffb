import Verif.Laws
import Verif.Spec
import Mathlib.Data.Rat.Defs
import Mathlib.Algebra.Field.Rat
import Mathlib.Algebra.Order.Ring.Rat
import Mathlib.Algebra.Order.Group.Int

/-!
# Concrete number types

Used in the replayed unit tests, in the examples next to the theorems, and to show that the
assumption classes of `Verif/Laws.lean` are satisfiable.
-/

namespace KMedoids

instance : RDist ℕ where
  pcmp a b := some (compare a b)
  zero := 0
  isZero a := decide (a = 0)
  add := (· + ·)

instance : RDist ℚ where
  pcmp a b := some (compare a b)
  zero := 0
  isZero a := decide (a = 0)
  add := (· + ·)

instance : RLoss ℤ where
  pcmp a b := some (compare a b)
  zero := 0
  one := 1
  add := (· + ·)
  sub := (· - ·)
  neg := (- ·)
  div := (· / ·)
  ofU32 n := n

instance : RLoss ℚ where
  pcmp a b := some (compare a b)
  zero := 0
  one := 1
  add := (· + ·)
  sub := (· - ·)
  neg := (- ·)
  div := (· / ·)
  ofU32 n := n

instance : RFrom ℕ ℤ := ⟨fun n => n⟩
instance : RFrom ℕ ℚ := ⟨fun n => n⟩
instance : RFrom ℚ ℚ := ⟨fun q => q⟩

instance : LawfulDist ℕ := ⟨fun _ _ => rfl, rfl, fun _ => rfl⟩
instance : LawfulDist ℚ := ⟨fun _ _ => rfl, rfl, fun _ => rfl⟩
instance : SaneZero ℤ := ⟨rfl⟩
instance : SaneZero ℚ := ⟨by decide⟩
instance : LawfulLoss ℤ := ⟨fun _ _ => rfl, rfl, fun _ _ => rfl, fun _ _ => rfl, fun _ => rfl⟩
instance : LawfulField ℚ :=
  { pcmp_eq := fun _ _ => rfl, zero_eq := rfl, add_eq := fun _ _ => rfl, sub_eq := fun _ _ => rfl,
    neg_eq := fun _ => rfl, one_eq := rfl, div_eq := fun _ _ _ => rfl, ofU32_eq := fun _ => rfl }
/-- Rationals with an absurd result of division by zero. -/
@[reducible] def junkDiv : RLoss ℚ :=
  { (inferInstance : RLoss ℚ) with div := fun a b => if b = 0 then 17 else a / b }

/-- `LawfulField` does not fix the result of a division by zero. -/
example : @LawfulField ℚ _ _ junkDiv :=
  letI := junkDiv
  { pcmp_eq := fun _ _ => rfl, zero_eq := rfl, add_eq := fun _ _ => rfl, sub_eq := fun _ _ => rfl,
    neg_eq := fun _ => rfl, one_eq := rfl, div_eq := fun _ _ h => if_neg h, ofU32_eq := fun _ => rfl }

instance : LawfulFrom ℕ ℤ := ⟨fun _ _ h => Int.ofNat_lt.mpr h, rfl⟩
instance : LawfulFrom ℕ ℚ := ⟨fun _ _ h => Nat.cast_lt.mpr h, rfl⟩
instance : LawfulFrom ℚ ℚ := ⟨fun _ _ h => h, rfl⟩

instance : LawfulAdd ℕ ℚ := ⟨fun a b => Nat.cast_add a b⟩
instance : LawfulAdd ℚ ℚ := ⟨fun _ _ => rfl⟩

/-- A toy floating-point-like type: `none` is NaN (incomparable to everything, itself included), and
addition saturates at `±3`. It satisfies no arithmetic law, only `SaneZero`. -/
abbrev Toy := Option ℤ

/-- saturation -/
def Toy.clamp (x : ℤ) : Toy := some (max (-3) (min 3 x))

instance : RDist Toy where
  pcmp a b := a.bind fun a => b.map fun b => compare a b
  zero := some 0
  isZero a := decide (a = some 0)
  add a b := a.bind fun a => b.bind fun b => Toy.clamp (a + b)

instance : RLoss Toy where
  pcmp a b := a.bind fun a => b.map fun b => compare a b
  zero := some 0
  one := some 1
  add a b := a.bind fun a => b.bind fun b => Toy.clamp (a + b)
  sub a b := a.bind fun a => b.bind fun b => Toy.clamp (a - b)
  neg a := a.map (- ·)
  div a b := a.bind fun a => b.bind fun b => if b = 0 then none else some (a / b)
  ofU32 n := Toy.clamp n

instance : RFrom Toy Toy := ⟨id⟩
instance : SaneZero Toy := ⟨rfl⟩

/-- A full matrix given by its rows. -/
def ofRows {N : Type} [Inhabited N] (rows : List (List N)) : Mat N :=
  (⟨rows.length, rows.length, fun x y => (rows.getD x []).getD y default⟩ : Array2 N).toMat

end KMedoids
