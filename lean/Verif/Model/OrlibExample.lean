import Verif.Model.FasterPam

/-! # Model of `examples/orlib-kmedoids.rs`

The example program reads a graph of the OR library, computes all shortest paths with Floyd's algorithm, and runs
`fasterpam`. Addition is a parameter of the model, because the program adds `i32` values: it may panic (overflow checks)
or wrap around (release profile). -/

namespace KMedoids

variable {N : Type}

/-- `mat[[x, y]]` of an `ndarray::Array2`. -/
def Array2.get (a : Array2 N) (x y : Nat) : Res N :=
  if x < a.rows ∧ y < a.cols then .ok (a.val x y) else .error .index

/-- `mat[[x, y]] = v` -/
def Array2.set (a : Array2 N) (x y : Nat) (v : N) : Res (Array2 N) :=
  if x < a.rows ∧ y < a.cols then
    .ok { a with val := fun p q => if p = x ∧ q = y then v else a.val p q }
  else .error .index

section
variable [RPartialOrd N]

/-- Body of the inner loop of `all_pairs_shortest_path` (examples/orlib-kmedoids.rs:29-33). -/
def apspCell (add : N → N → Res N) (i x : Nat) (a : Array2 N) (y : Nat) : Res (Array2 N) := do
  let p ← a.get x i
  let q ← a.get i y
  let m ← add p q
  let c ← a.get x y
  if rlt m c then do
    let a ← a.set y x m
    a.set x y m
  else .ok a

/-- `for y in (x + 1)..n` (examples/orlib-kmedoids.rs:28-34) -/
def apspRow (add : N → N → Res N) (n i : Nat) (a : Array2 N) (x : Nat) : Res (Array2 N) :=
  foldRes (apspCell add i x) a (List.range' (x + 1) (n - (x + 1)))

/-- `for x in 0..n` (examples/orlib-kmedoids.rs:27-35) -/
def apspPass (add : N → N → Res N) (n : Nat) (a : Array2 N) (i : Nat) : Res (Array2 N) :=
  foldRes (apspRow add n i) a (List.range n)

/-- `all_pairs_shortest_path` (examples/orlib-kmedoids.rs:19-37); the parameter is changed in place. -/
def allPairsShortestPath (add : N → N → Res N) (a : Array2 N) : Res (Array2 N) := do
  rassert (a.rows == a.cols) "assertion `left == right` failed"
  foldRes (apspPass add a.rows) a (List.range a.rows)

end

/-- `Problem` (examples/orlib-kmedoids.rs:14-17). -/
structure Problem (N : Type) where
  /-- `data` -/
  data : Array2 N
  /-- `k` -/
  k : Nat

/-- `iter.collect::<Result<Vec<_>, _>>()` -/
def collectOpt {α : Type} : List (Option α) → Option (List α)
  | [] => some []
  | none :: _ => none
  | some x :: xs => (collectOpt xs).map (x :: ·)

/-- `x - 1` for `usize`. Without overflow checks the result is `usize::MAX`, and the index panics instead. -/
def predUsize (x : Nat) : Res Nat := if x = 0 then .error .arith else .ok (x - 1)

/-- The loop body of `read_orlib` for one line, split at white space (examples/orlib-kmedoids.rs:64-71). The result is `none` if
the function returns an error, because something could not be parsed. -/
def orlibLine (parseUsize : String → Option Nat) (parse : String → Option N) (a : Array2 N) (line : List String) :
    Res (Option (Array2 N)) := do
  let t1 ← unwrapOpt line[0]?
  match parseUsize t1 with
  | none => .ok none
  | some x1 =>
    let t2 ← unwrapOpt line[1]?
    match parseUsize t2 with
    | none => .ok none
    | some x2 =>
      rassert (x1 != x2) "assertion `left != right` failed"
      let t3 ← unwrapOpt line[2]?
      match parse t3 with
      | none => .ok none
      | some d =>
        let u ← predUsize x1
        let v ← predUsize x2
        let a ← a.set u v d
        let v ← predUsize x2
        let u ← predUsize x1
        let a ← a.set v u d
        .ok (some a)

/-- `for line in buffer.lines()` (examples/orlib-kmedoids.rs:63-72); the first error ends the function. -/
def orlibLines (parseUsize : String → Option Nat) (parse : String → Option N) :
    Array2 N → List (List String) → Res (Option (Array2 N))
  | a, [] => .ok (some a)
  | a, l :: ls => do
    match ← orlibLine parseUsize parse a l with
    | none => .ok none
    | some a => orlibLines parseUsize parse a ls

/-- `read_orlib` (examples/orlib-kmedoids.rs:39-81). The file is given as lines of words; reading it, the conversion of words to
numbers and the printed times are not modelled. -/
def readOrlib [RPartialOrd N] (add : N → N → Res N) (zero : N) (parseUsize : String → Option Nat)
    (parse : String → Option N) (default : N) (header : List String) (lines : List (List String)) :
    Res (Option (Problem N)) :=
  match collectOpt (header.map parseUsize) with
  | none => .ok none
  | some first => do
    rassert (first.length == 3) "assertion `left == right` failed"
    let n ← idx first 0
    let k ← idx first 2
    match ← orlibLines parseUsize parse ⟨n, n, fun _ _ => default⟩ lines with
    | none => .ok none
    | some a =>
      let a ← foldRes (fun (a : Array2 N) x => a.set x x zero) a (List.range n)
      let a ← allPairsShortestPath add a
      .ok (some ⟨a, k⟩)

/-- `main` (examples/orlib-kmedoids.rs:83-97) without the output. `sample` stands for `random_initialization`. -/
def orlibMain [RDist N] (L : Type) [RLoss L] [RFrom N L] (add : N → N → Res N) (parseUsize : String → Option Nat)
    (parse : String → Option N) (default : N) (sample : Nat → Nat → List Nat) (header : List String)
    (lines : List (List String)) : Res (Option (SwapResult L)) := do
  match ← readOrlib add RDist.zero parseUsize parse default header lines with
  | none => .ok none
  | some prob => do
    let r ← fasterpam L prob.data.toMat (sample prob.data.rows prob.k) 100
    .ok (some r)

end KMedoids
