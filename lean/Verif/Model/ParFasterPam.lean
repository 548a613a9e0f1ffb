import Verif.Model.FasterPam

/-! # Model of `src/par_fasterpam.rs`

rayon's scheduling freedom is an explicit parameter (`Sched`): the number of threads, the order in
which the workers obtain the mutex, and the shape of the reduction trees. Closures of parallel maps
only read shared data and write their own record (enforced by Rust's borrow rules), so the order of
their execution is not visible. -/

namespace KMedoids

variable {N L : Type} [RDist N] [RLoss L] [RFrom N L]
open RFrom (conv)

/-- Shape of a rayon reduction: a leaf reduces its slice sequentially, a node splits its slice. -/
inductive RTree where
  /-- sequential -/
  | leaf
  /-- split the slice at a position and combine both results -/
  | node (split : Nat) (l r : RTree)

/-- `reduce_with(L::add)` along a tree; `None` for empty slices (rayon's `reduce_with`). -/
def reduceTree : RTree → List L → Option L
  | .leaf, xs => reduceAdd xs
  | .node s l r, xs =>
    match reduceTree l (xs.take s), reduceTree r (xs.drop s) with
    | some a, some b => some (RLoss.add a b)
    | some a, none => some a
    | none, some b => some b
    | none, none => none

/-- One resolution of all scheduling freedom in one parallel call. -/
structure Sched where
  /-- `rayon::current_num_threads()` -/
  parts : Nat
  /-- the order in which the workers lock the mutex -/
  order : List Nat
  /-- shape of the reduction -/
  tree : RTree

/-- `par_initial_assignment` (src/par_fasterpam.rs:95-130). -/
def parInitialAssignment (L : Type) [RLoss L] [RFrom N L] (sc : Sched) (mat : Mat N)
    (med : List Nat) : Res (L × List (Rec N)) := do
  assertSizes mat med.length
  let firstcenter ← idx med 0
  let data ← mapRes (initAssignRec mat med firstcenter) (List.range mat.len)
  let loss ← unwrapOpt (reduceTree sc.tree (data.map fun r => (conv r.near.d : L)))
  .ok (loss, data)

/-- Loop body of one worker (src/par_fasterpam.rs:155-166); state `(loss, lagg)`. -/
def parFindStep (mat : Mat N) (j : Nat) (st : List L × L) (p : Rec N × Nat) :
    Res (List L × L) := do
  let doj ← mat.get p.2 j
  if rlt doj p.1.near.d then
    let lagg := RLoss.add st.2 (RLoss.sub (conv doj) (conv p.1.near.d))
    let loss ← addAt st.1 p.1.near.i (RLoss.sub (conv p.1.near.d) (conv p.1.seco.d))
    .ok (loss, lagg)
  else if rlt doj p.1.seco.d then
    let loss ← addAt st.1 p.1.near.i (RLoss.sub (conv doj) (conv p.1.seco.d))
    .ok (loss, st.2)
  else .ok st

/-- The private result of worker `x` (src/par_fasterpam.rs:151-166). -/
def parWorker (L : Type) [RLoss L] [RFrom N L] (mat : Mat N) (length : Nat) (data : List (Rec N))
    (j parts x : Nat) : Res (List L × L) :=
  let n := mat.len
  let stepsize := (n + parts - 1) / parts
  let start := x * stepsize
  let end_ := min (start + stepsize) n
  foldRes (parFindStep mat j) (List.replicate length RLoss.zero, RLoss.zero)
    ((data.zipIdx.take end_).drop start)

/-- The critical section of a worker (src/par_fasterpam.rs:167-170). -/
def parMerge (shared : List L × L) (priv : List L × L) : List L × L :=
  (List.zipWith RLoss.add shared.1 priv.1, RLoss.add shared.2 priv.2)

/-- `par_find_best_swap` (src/par_fasterpam.rs:132-176). -/
def parFindBestSwap (sc : Sched) (mat : Mat N) (removalLoss : List L) (data : List (Rec N))
    (j : Nat) : Res (L × Nat) := do
  let st ← foldRes (fun (st : List L × L) (x : Nat) => do
    let w ← parWorker L mat removalLoss.length data j sc.parts x
    .ok (parMerge st w)) (removalLoss, RLoss.zero) sc.order
  let r ← findMin st.1
  .ok (RLoss.add r.2 st.2, r.1)

/-- Closure of `par_do_swap` (src/par_fasterpam.rs:198-228): the order of the last two tests differs
from `do_swap`. -/
def parSwapRec (mat : Mat N) (med : List Nat) (b j : Nat) (p : Rec N × Nat) : Res (Rec N × L) :=
  let reco := p.1
  let o := p.2
  if o = j then
    let reco := if reco.near.i ≠ asU32 b then { reco with seco := reco.near } else reco
    .ok ({ reco with near := .new b RDist.zero }, RLoss.zero)
  else do
    let doj ← mat.get o j
    let reco ←
      if reco.near.i = asU32 b then
        if rlt doj reco.seco.d then
          .ok { reco with near := .new b doj }
        else do
          let s ← updateSecondNearest mat med reco.seco.i b o doj
          .ok { near := reco.seco, seco := s }
      else if rlt doj reco.near.d then
        .ok { near := .new b doj, seco := reco.near }
      else if reco.seco.i = asU32 b then do
        let s ← updateSecondNearest mat med reco.near.i b o doj
        .ok { reco with seco := s }
      else if rlt doj reco.seco.d then
        .ok { reco with seco := .new b doj }
      else .ok reco
    .ok (reco, conv reco.near.d)

/-- `par_do_swap` (src/par_fasterpam.rs:178-231). -/
def parDoSwap (L : Type) [RLoss L] [RFrom N L] (sc : Sched) (mat : Mat N) (med : List Nat)
    (data : List (Rec N)) (b j : Nat) : Res (L × List Nat × List (Rec N)) := do
  rassert (b < med.length) "invalid medoid number"
  rassert (j < mat.len) "invalid object number"
  let med ← setIdx med b j
  let rs ← mapRes (parSwapRec (L := L) mat med b j) data.zipIdx
  let loss ← unwrapOpt (reduceTree sc.tree (rs.map (·.2)))
  .ok (loss, med, rs.map (·.1))

/-- The inner loop of `par_fasterpam` (src/par_fasterpam.rs:70-86); `scF j` and `scS j` resolve the
scheduling of the search and of the swap for object `j`. -/
def parPass (scF scS : Nat → Sched) (mat : Mat N) : List Nat → FPState N L → Res (FPState N L)
  | [], s => .ok s
  | j :: js, s =>
    if j = s.lastswap then .ok s
    else do
      let own ← isOwnMedoid s.med s.data j
      if own then parPass scF scS mat js s
      else
        let (change, b) ← parFindBestSwap (scF j) mat s.rem s.data j
        if rge change RLoss.zero then parPass scF scS mat js s
        else
          let (loss, med, data) ← parDoSwap L (scS j) mat s.med s.data b j
          let rem ← updateRemovalLoss L data s.rem.length
          parPass scF scS mat js ⟨med, data, rem, loss, j, s.nSwaps + 1⟩

/-- The outer loop of `par_fasterpam` (src/par_fasterpam.rs:67-90). -/
def parLoop (scF scS : Nat → Nat → Sched) (mat : Mat N) (seq : List Nat) :
    Nat → Nat → FPState N L → Res (FPState N L × Nat)
  | 0, iter, s => .ok (s, iter)
  | fuel + 1, iter, s => do
    let s' ← parPass (scF iter) (scS iter) mat seq s
    if s'.nSwaps == s.nSwaps || rge s'.loss s.loss then .ok (s', iter + 1)
    else parLoop scF scS mat seq fuel (iter + 1) s'

/-- `par_fasterpam` (src/par_fasterpam.rs:43-93). `sc0` schedules the initial assignment, `scF iter j` /
`scS iter j` the parallel calls for object `j` in iteration `iter`. -/
def parFasterpam (L : Type) [RLoss L] [RFrom N L] (sc0 : Sched) (scF scS : Nat → Nat → Sched)
    (mat : Mat N) (med : List Nat) (maxiter : Nat) (seq : List Nat) : Res (SwapResult L) :=
  if med.length = 1 then singleCluster L mat med
  else do
    let (loss, data) ← parInitialAssignment L sc0 mat med
    let rem ← updateRemovalLoss L data med.length
    let (s, iter) ← parLoop scF scS mat seq maxiter 0 ⟨med, data, rem, loss, mat.len, 0⟩
    .ok ⟨s.loss, s.data.map (·.near.i), iter, s.nSwaps, s.med⟩

end KMedoids
