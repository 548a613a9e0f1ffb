/-!
# The fragment of Rust semantics used by the crate

Everything here models the Rust language / core library / `num_traits`, not the crate itself.
No laws are assumed about the numeric operations: a number type is a bag of operations.
-/

namespace KMedoids

/-- Why a Rust call unwound. -/
inductive Panic where
  /-- a failed `assert!` with its message -/
  | assertion (msg : String)
  /-- slice / `Vec` / matrix index out of bounds -/
  | index
  /-- `Option::unwrap` on `None` -/
  | unwrapNone
  /-- arithmetic panic (`usize` underflow with overflow checks) -/
  | arith
  deriving DecidableEq, Repr

/-- Result of a Rust computation that may panic. -/
abbrev Res (α : Type) := Except Panic α

instance {α : Type} [DecidableEq α] : DecidableEq (Res α)
  | .ok a, .ok b => if h : a = b then isTrue (h ▸ rfl) else isFalse (fun e => h (Except.ok.inj e))
  | .error a, .error b =>
    if h : a = b then isTrue (h ▸ rfl) else isFalse (fun e => h (Except.error.inj e))
  | .ok _, .error _ => isFalse (fun e => nomatch e)
  | .error _, .ok _ => isFalse (fun e => nomatch e)

/-- `assert!(b, msg)` -/
def rassert (b : Bool) (msg : String) : Res Unit :=
  if b then .ok () else .error (.assertion msg)

/-- `a[i]` on a slice or `Vec`. -/
def idx {α : Type} (a : List α) (i : Nat) : Res α :=
  match a[i]? with
  | some x => .ok x
  | none => .error .index

/-- `a[i] = v` on a slice or `Vec`. -/
def setIdx {α : Type} (a : List α) (i : Nat) (v : α) : Res (List α) :=
  if i < a.length then .ok (a.set i v) else .error .index

/-- `Option::unwrap`. -/
def unwrapOpt {α : Type} : Option α → Res α
  | some x => .ok x
  | none => .error .unwrapNone

/-- `u32::MAX` -/
def u32Max : Nat := 4294967295

/-- `usize::MAX` (64-bit target) -/
def usizeMax : Nat := 18446744073709551615

/-- `m as u32` for `m : usize`. A `u32` is represented by its value. -/
def asU32 (m : Nat) : Nat := m % 4294967296

/-- `iter.map(f).collect()` where the closure may panic. -/
def mapRes {α β : Type} (f : α → Res β) : List α → Res (List β)
  | [] => .ok []
  | x :: xs => do
    let y ← f x
    let ys ← mapRes f xs
    .ok (y :: ys)

/-- `for x in xs { s = f(s, x) }` where the body may panic. -/
def foldRes {α σ : Type} (f : σ → α → Res σ) : σ → List α → Res σ
  | s, [] => .ok s
  | s, x :: xs => do
    let s' ← f s x
    foldRes f s' xs

/-- `PartialOrd`: all comparison operators are derived from `partial_cmp`. -/
class RPartialOrd (α : Type) where
  /-- `PartialOrd::partial_cmp` -/
  pcmp : α → α → Option Ordering

export RPartialOrd (pcmp)

section
variable {α : Type} [RPartialOrd α]
/-- `a < b` -/
def rlt (a b : α) : Bool := pcmp a b == some .lt
/-- `a > b` -/
def rgt (a b : α) : Bool := pcmp a b == some .gt
/-- `a <= b` -/
def rle (a b : α) : Bool := pcmp a b == some .lt || pcmp a b == some .eq
/-- `a >= b` -/
def rge (a b : α) : Bool := pcmp a b == some .gt || pcmp a b == some .eq
/-- `a == b` (Rust requires `PartialEq` to agree with `partial_cmp`) -/
def req (a b : α) : Bool := pcmp a b == some .eq
end

/-- Operations on a distance type `N: Zero + PartialOrd + Clone` (`Zero` requires `Add`). -/
class RDist (N : Type) extends RPartialOrd N where
  /-- `N::zero()` -/
  zero : N
  /-- `N::is_zero` -/
  isZero : N → Bool
  /-- `a + b` -/
  add : N → N → N

/-- Operations on a loss type `L: AddAssign + Signed + Zero + PartialOrd + Clone (+ Div + From<u32>)`.
Simplification: division is total, as it is for the float types the documentation asks for. -/
class RLoss (L : Type) extends RPartialOrd L where
  /-- `L::zero()` -/
  zero : L
  /-- `L::one()` -/
  one : L
  /-- `a + b` -/
  add : L → L → L
  /-- `a - b` -/
  sub : L → L → L
  /-- `-a` -/
  neg : L → L
  /-- `a / b` -/
  div : L → L → L
  /-- `L::from(x: u32)` -/
  ofU32 : Nat → L

/-- `L: From<N>` -/
class RFrom (N L : Type) where
  /-- `L::from(x)` -/
  conv : N → L

/-- `iter.reduce(L::add)`: sequential, left to right. -/
def reduceAdd {L : Type} [RLoss L] : List L → Option L
  | [] => none
  | x :: xs => some (xs.foldl RLoss.add x)

/-- `a[i] += v` -/
def addAt {L : Type} [RLoss L] (a : List L) (i : Nat) (v : L) : Res (List L) := do
  let x ← idx a i
  .ok (a.set i (RLoss.add x v))

end KMedoids
