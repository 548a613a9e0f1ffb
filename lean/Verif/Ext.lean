import Verif.Instances
import Mathlib.Order.WithBot

/-!
# Floating point without rounding

The rationals with the infinities and NaN of IEEE 754 (but a single zero, and no rounding). Used for
counterexamples with infinite distances; the distances themselves are natural numbers and infinity, which are
linearly ordered.
-/

namespace KMedoids

inductive Ext where
  | fin (q : ℚ)
  | inf
  | negInf
  | nan
  deriving DecidableEq, Repr

namespace Ext

/-- Infinity with the sign of `q`; NaN if `q` is zero. -/
def infOf (q : ℚ) : Ext := if q = 0 then .nan else if q < 0 then .negInf else .inf

def neg : Ext → Ext
  | .fin q => .fin (-q)
  | .inf => .negInf
  | .negInf => .inf
  | .nan => .nan

def add : Ext → Ext → Ext
  | .fin p, .fin q => .fin (p + q)
  | .nan, _ => .nan
  | _, .nan => .nan
  | .inf, .negInf => .nan
  | .negInf, .inf => .nan
  | .inf, _ => .inf
  | _, .inf => .inf
  | .negInf, _ => .negInf
  | _, .negInf => .negInf

def div : Ext → Ext → Ext
  | .fin p, .fin q => if q = 0 then infOf p else .fin (p / q)
  | .fin _, .inf => .fin 0
  | .fin _, .negInf => .fin 0
  | .inf, .fin q => if q < 0 then .negInf else .inf
  | .negInf, .fin q => if q < 0 then .inf else .negInf
  | _, _ => .nan

def cmp : Ext → Ext → Option Ordering
  | .fin p, .fin q => some (compare p q)
  | .nan, _ => none
  | _, .nan => none
  | .inf, .inf => some .eq
  | .negInf, .negInf => some .eq
  | .inf, _ => some .gt
  | _, .inf => some .lt
  | .negInf, _ => some .lt
  | _, .negInf => some .gt

end Ext

instance : RLoss Ext where
  pcmp := Ext.cmp
  zero := .fin 0
  one := .fin 1
  add := Ext.add
  sub a b := Ext.add a b.neg
  neg := Ext.neg
  div := Ext.div
  ofU32 n := .fin n

instance : SaneZero Ext := ⟨by decide +kernel⟩

instance : RDist (WithTop ℕ) where
  pcmp a b := some (compare a b)
  zero := 0
  isZero a := decide (a = 0)
  add := (· + ·)

instance : LawfulDist (WithTop ℕ) := ⟨fun _ _ => rfl, rfl, fun _ => rfl⟩

instance : RFrom (WithTop ℕ) Ext :=
  ⟨fun x => match x with
    | some n => .fin n
    | none => .inf⟩

end KMedoids
