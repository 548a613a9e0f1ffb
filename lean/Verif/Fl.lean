import Verif.Instances

/-!
# A small floating-point type

Binary floating point with a significand of three bits and no bound on the exponent: every operation is the
exact one followed by rounding to nearest, ties to even. It rounds the way `f32` and `f64` do, only sooner, and
is used for counterexamples. (There is no NaN and no infinity; the quotient by zero is zero.)
-/

namespace KMedoids

structure Fl where
  v : ℚ
  deriving DecidableEq, Repr

/-- Round to the nearest multiple of `2 ^ e`, ties to even. -/
def Fl.roundAt (x : ℚ) (e : ℤ) : ℚ :=
  let u : ℚ := 2 ^ e
  let q := (x / u).floor
  let r := x / u - q
  (if r > 1 / 2 ∨ (r = 1 / 2 ∧ q % 2 = 1) then q + 1 else q) * u

/-- Round a positive number to three significant bits. -/
def Fl.roundPos (x : ℚ) : ℚ :=
  let e : ℤ := Nat.log2 x.num.natAbs - Nat.log2 x.den - 2
  Fl.roundAt x (if x < 4 * 2 ^ e then e - 1 else e)

def Fl.round (x : ℚ) : Fl :=
  ⟨if x = 0 then 0 else if x < 0 then -Fl.roundPos (-x) else Fl.roundPos x⟩

instance : RLoss Fl where
  pcmp a b := some (compare a.v b.v)
  zero := ⟨0⟩
  one := ⟨1⟩
  add a b := Fl.round (a.v + b.v)
  sub a b := Fl.round (a.v - b.v)
  neg a := ⟨-a.v⟩
  div a b := Fl.round (a.v / b.v)
  ofU32 n := Fl.round n

instance : RFrom ℕ Fl := ⟨fun n => Fl.round n⟩
instance : SaneZero Fl := ⟨by decide +kernel⟩

/-- 3/4, 7/8, 1, 10/8 are representable; 9/8 is not and is rounded to 1, 11/8 to 12/8. -/
example : [(3 / 4 : ℚ), 7 / 8, 1, 9 / 8, 10 / 8, 11 / 8, 13, 100].map (fun x => (Fl.round x).v) =
    [3 / 4, 7 / 8, 1, 1, 10 / 8, 12 / 8, 12, 96] := by decide +kernel

end KMedoids
