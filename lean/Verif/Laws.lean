import Verif.Model.Util
import Mathlib.Algebra.Order.Field.Basic
import Mathlib.Algebra.Order.BigOperators.Group.List

/-!
# Assumptions about number types

The model knows number types only as bags of operations. The theorems state which of the following
assumptions they need. All classes are `Prop`s about the raw operations; `Verif/Instances.lean` shows
that naturals, integers and rationals satisfy them.
-/

namespace KMedoids

/-- Level 1½: `0` is comparable to itself and equal. Satisfied by every Rust number type, floats
included. -/
class SaneZero (L : Type) [RLoss L] : Prop where
  pcmp_zero : pcmp (RLoss.zero : L) RLoss.zero = some .eq

/-- Level 2: distances are linearly ordered (no NaN) and `N::zero()` is `0`. -/
class LawfulDist (N : Type) [LinearOrder N] [Zero N] [RDist N] : Prop where
  pcmp_eq : ∀ a b : N, pcmp a b = some (compare a b)
  zero_eq : (RDist.zero : N) = 0
  isZero_eq : ∀ a : N, RDist.isZero a = decide (a = 0)

/-- Level 3: the loss type is an exact linearly ordered abelian group. -/
class LawfulLoss (L : Type) [AddCommGroup L] [LinearOrder L] [RLoss L] : Prop where
  pcmp_eq : ∀ a b : L, pcmp a b = some (compare a b)
  zero_eq : (RLoss.zero : L) = 0
  add_eq : ∀ a b : L, RLoss.add a b = a + b
  sub_eq : ∀ a b : L, RLoss.sub a b = a - b
  neg_eq : ∀ a : L, RLoss.neg a = -a

/-- Level 3: the conversion `L::from(N)` is strictly monotone and maps `0` to `0`. -/
class LawfulFrom (N L : Type) [LinearOrder N] [Zero N] [LinearOrder L] [Zero L] [RFrom N L] : Prop where
  strictMono : StrictMono (RFrom.conv : N → L)
  map_zero : RFrom.conv (0 : N) = (0 : L)

/-- Level 3: the conversion `L::from(N)` respects addition. Only needed for `find_best_swap` of
FasterMSC, which adds two distances before it converts them. -/
class LawfulAdd (N L : Type) [RDist N] [Add L] [RFrom N L] : Prop where
  map_add : ∀ a b : N, (RFrom.conv (RDist.add a b) : L) = RFrom.conv a + RFrom.conv b

/-- Level 3 with division: the loss type is an exact linearly ordered field. The result of a division by
zero is left open: no theorem may depend on it. -/
class LawfulField (L : Type) [Field L] [LinearOrder L] [RLoss L] : Prop extends LawfulLoss L where
  one_eq : (RLoss.one : L) = 1
  div_eq : ∀ a b : L, b ≠ 0 → RLoss.div a b = a / b
  ofU32_eq : ∀ n : Nat, (RLoss.ofU32 n : L) = n

end KMedoids
