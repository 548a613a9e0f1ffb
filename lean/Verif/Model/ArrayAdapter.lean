import Verif.Rust.Prelude

/-! # Model of `src/arrayadapter.rs` -/

namespace KMedoids

/-- The trait `ArrayAdapter<N>` (src/arrayadapter.rs:7-14): anything offering these three methods.
Each may panic. Methods take `&self`, so they are modelled as pure functions. -/
structure Mat (N : Type) where
  /-- `len()` -/
  len : Nat
  /-- `is_square()` -/
  isSquare : Res Bool
  /-- `get(x, y)` -/
  get : Nat → Nat → Res N

/-- `assert!(mat.is_square(), "Dissimilarity matrix is not square")` -/
def assertSquare {N : Type} (mat : Mat N) : Res Unit := do
  let s ← mat.isSquare
  rassert s "Dissimilarity matrix is not square"

/-- `ndarray::Array2` (src/arrayadapter.rs:16-35), given by its shape and contents.
Simplification: ndarray's own storage is not modelled; `self[[x, y]]` is in range iff
`x < shape[0]` and `y < shape[1]`, and panics otherwise. -/
structure Array2 (N : Type) where
  /-- `shape()[0]` -/
  rows : Nat
  /-- `shape()[1]` -/
  cols : Nat
  /-- contents -/
  val : Nat → Nat → N

/-- The adapter for `ndarray` (src/arrayadapter.rs:18-35). -/
def Array2.toMat {N : Type} (a : Array2 N) : Mat N where
  len := a.rows
  isSquare := .ok (a.rows == a.cols)
  get x y := if x < a.rows ∧ y < a.cols then .ok (a.val x y) else .error .index

/-- `LowerTriangle` (src/arrayadapter.rs:46-52). -/
structure LowerTriangle (N : Type) where
  /-- `n` -/
  n : Nat
  /-- `data` -/
  data : List N

/-- `LowerTriangle::is_square` (src/arrayadapter.rs:60-62).
`self.n - 1` underflows for `n = 0`, which panics with overflow checks (debug profile).
Simplification: `n * (n - 1)` is computed without 64-bit wrap-around (it does not overflow for
`n ≤ u32::MAX + 1`, and every algorithm asserts `n ≤ u32::MAX`). -/
def LowerTriangle.isSquare {N : Type} (t : LowerTriangle N) : Res Bool :=
  if t.n = 0 then .error .arith
  else .ok (t.data.length == (t.n * (t.n - 1)) >>> 1)

/-- `LowerTriangle::get` (src/arrayadapter.rs:64-70). In the `Less` arm `y > x ≥ 0`, in the `Greater`
arm `x > y ≥ 0`, so the subtractions do not underflow. -/
def LowerTriangle.get {N : Type} [RDist N] (t : LowerTriangle N) (x y : Nat) : Res N :=
  match compare x y with
  | .lt => idx t.data (((y * (y - 1)) >>> 1) + x)
  | .gt => idx t.data (((x * (x - 1)) >>> 1) + y)
  | .eq => .ok RDist.zero

/-- The adapter for `LowerTriangle` (src/arrayadapter.rs:54-71). -/
def LowerTriangle.toMat {N : Type} [RDist N] (t : LowerTriangle N) : Mat N where
  len := t.n
  isSquare := t.isSquare
  get := t.get

end KMedoids
