import Verif.Model.Util

/-! # Model of `src/fasterpam.rs` -/

namespace KMedoids

variable {N L : Type} [RDist N] [RLoss L] [RFrom N L]
open RFrom (conv)

/-- The size assertions shared by `initial_assignment` (src/fasterpam.rs:182-185),
`assign_nearest`, `par_initial_assignment`, `pam`, `pam_build` and the MSC versions. -/
def assertSizes (mat : Mat N) (k : Nat) : Res Unit := do
  assertSquare mat
  rassert (mat.len ≤ u32Max) "N is too large"
  rassert (0 < k && k < u32Max) "invalid N"
  rassert (k ≤ mat.len) "k must be at most N"

/-- Body of the inner loop of `initial_assignment` (src/fasterpam.rs:194-202) for object `i`. -/
def initAssignStep (mat : Mat N) (i : Nat) (cur : Rec N) (p : Nat × Nat) : Res (Rec N) := do
  let d ← mat.get i p.1
  if rlt d cur.near.d || i == p.1 then
    .ok { near := ⟨asU32 p.2, d⟩, seco := cur.near }
  else if cur.seco.i == u32Max || rlt d cur.seco.d then
    .ok { cur with seco := ⟨asU32 p.2, d⟩ }
  else .ok cur

/-- Closure of `initial_assignment` (src/fasterpam.rs:192-204): the record of object `i`. -/
def initAssignRec (mat : Mat N) (med : List Nat) (firstcenter i : Nat) : Res (Rec N) := do
  let d ← mat.get i firstcenter
  foldRes (initAssignStep mat i) ⟨⟨0, d⟩, ⟨u32Max, RDist.zero⟩⟩ (med.zipIdx.drop 1)

/-- `initial_assignment` (src/fasterpam.rs:173-208). -/
def initialAssignment (L : Type) [RLoss L] [RFrom N L] (mat : Mat N) (med : List Nat) :
    Res (L × List (Rec N)) := do
  assertSizes mat med.length
  let firstcenter ← idx med 0
  let data ← mapRes (initAssignRec mat med firstcenter) (List.range mat.len)
  let loss ← unwrapOpt (reduceAdd (data.map fun r => (conv r.near.d : L)))
  .ok (loss, data)

/-- Body of the loop of `find_best_swap` (src/fasterpam.rs:226-237); state `(ploss, acc)`. -/
def findBestSwapStep (mat : Mat N) (j : Nat) (st : List L × L) (p : Rec N × Nat) :
    Res (List L × L) := do
  let doj ← mat.get p.2 j
  if rlt doj p.1.near.d then
    let acc := RLoss.add st.2 (RLoss.sub (conv doj) (conv p.1.near.d))
    let ploss ← addAt st.1 p.1.near.i (RLoss.sub (conv p.1.near.d) (conv p.1.seco.d))
    .ok (ploss, acc)
  else if rlt doj p.1.seco.d then
    let ploss ← addAt st.1 p.1.near.i (RLoss.sub (conv doj) (conv p.1.seco.d))
    .ok (ploss, st.2)
  else .ok st

/-- `find_best_swap` (src/fasterpam.rs:210-240). -/
def findBestSwap (mat : Mat N) (removalLoss : List L) (data : List (Rec N)) (j : Nat) :
    Res (L × Nat) := do
  let st ← foldRes (findBestSwapStep mat j) (removalLoss, RLoss.zero) data.zipIdx
  let r ← findMin st.1
  .ok (RLoss.add r.2 st.2, r.1)

/-- `update_removal_loss` (src/fasterpam.rs:242-253); the slice keeps its length `k`. -/
def updateRemovalLoss (L : Type) [RLoss L] [RFrom N L] (data : List (Rec N)) (k : Nat) :
    Res (List L) :=
  foldRes (fun (loss : List L) (r : Rec N) =>
    addAt loss r.near.i (RLoss.sub (conv r.seco.d) (conv r.near.d)))
    (List.replicate k RLoss.zero) data

/-- `update_second_nearest` (src/fasterpam.rs:255-281). -/
def updateSecondNearest (mat : Mat N) (med : List Nat) (n b o : Nat) (doj : N) :
    Res (DistancePair N) :=
  foldRes (fun (s : DistancePair N) (p : Nat × Nat) =>
    if p.2 = n ∨ p.2 = b then .ok s
    else do
      let d ← mat.get o p.1
      .ok (if rlt d s.d then .new p.2 d else s))
    (.new b doj) med.zipIdx

/-- Closure of `do_swap` (src/fasterpam.rs:303-333) for object `o`;
`med` already has `med[b] = j`. Returns the new record and the summand. -/
def doSwapRec (mat : Mat N) (med : List Nat) (b j : Nat) (p : Rec N × Nat) : Res (Rec N × L) :=
  let reco := p.1
  let o := p.2
  if o = j then
    let reco := if reco.near.i ≠ asU32 b then { reco with seco := reco.near } else reco
    .ok ({ reco with near := .new b RDist.zero }, RLoss.zero)
  else do
    let doj ← mat.get o j
    let reco ←
      if reco.near.i = asU32 b then
        if rlt doj reco.seco.d then
          .ok { reco with near := .new b doj }
        else do
          let s ← updateSecondNearest mat med reco.seco.i b o doj
          .ok { near := reco.seco, seco := s }
      else if rlt doj reco.near.d then
        .ok { near := .new b doj, seco := reco.near }
      else if rlt doj reco.seco.d then
        .ok { reco with seco := .new b doj }
      else if reco.seco.i = asU32 b then do
        let s ← updateSecondNearest mat med reco.near.i b o doj
        .ok { reco with seco := s }
      else .ok reco
    .ok (reco, conv reco.near.d)

/-- `do_swap` (src/fasterpam.rs:283-336); returns `(loss, med, data)`. -/
def doSwap (L : Type) [RLoss L] [RFrom N L] (mat : Mat N) (med : List Nat) (data : List (Rec N))
    (b j : Nat) : Res (L × List Nat × List (Rec N)) := do
  rassert (b < med.length) "invalid medoid number"
  rassert (j < mat.len) "invalid object number"
  let med ← setIdx med b j
  let rs ← mapRes (doSwapRec (L := L) mat med b j) data.zipIdx
  let loss ← unwrapOpt (reduceAdd (rs.map (·.2)))
  .ok (loss, med, rs.map (·.1))

/-- Local variables of `fasterpam` / `rand_fasterpam` that change in the loops. -/
structure FPState (N L : Type) where
  /-- `med` -/
  med : List Nat
  /-- `data` -/
  data : List (Rec N)
  /-- `removal_loss` -/
  rem : List L
  /-- `loss` -/
  loss : L
  /-- `lastswap` -/
  lastswap : Nat
  /-- `n_swaps` -/
  nSwaps : Nat

/-- The test `j == med[data[j].near.i as usize]` (src/fasterpam.rs:67). -/
def isOwnMedoid (med : List Nat) (data : List (Rec N)) (j : Nat) : Res Bool := do
  let r ← idx data j
  let m ← idx med r.near.i
  .ok (j == m)

/-- The inner `for j` loop of `fasterpam` (src/fasterpam.rs:63-79) and `rand_fasterpam`
(src/fasterpam.rs:148-164): the two differ only in the sequence of `j`. -/
def fpPass (mat : Mat N) : List Nat → FPState N L → Res (FPState N L)
  | [], s => .ok s
  | j :: js, s =>
    if j = s.lastswap then .ok s
    else do
      let own ← isOwnMedoid s.med s.data j
      if own then fpPass mat js s
      else
        let (change, b) ← findBestSwap mat s.rem s.data j
        if rge change RLoss.zero then fpPass mat js s
        else
          let (loss, med, data) ← doSwap L mat s.med s.data b j
          let rem ← updateRemovalLoss L data s.rem.length
          fpPass mat js ⟨med, data, rem, loss, j, s.nSwaps + 1⟩

/-- The outer `while iter < maxiter` loop (src/fasterpam.rs:60-83, 145-168).
First argument: `maxiter - iter`. Returns the final state and `iter`. -/
def fpLoop (mat : Mat N) (seq : List Nat) : Nat → Nat → FPState N L → Res (FPState N L × Nat)
  | 0, iter, s => .ok (s, iter)
  | fuel + 1, iter, s => do
    let s' ← fpPass mat seq s
    if s'.nSwaps == s.nSwaps || rge s'.loss s.loss then .ok (s', iter + 1)
    else fpLoop mat seq fuel (iter + 1) s'

/-- The special treatment of `k == 1` (src/fasterpam.rs:50-54, also in fastpam1, par_fasterpam,
rand_fasterpam, pam_optimize and the MSC variants). -/
def singleCluster (L : Type) [RLoss L] [RFrom N L] (mat : Mat N) (med : List Nat) :
    Res (SwapResult L) := do
  let assi := List.replicate mat.len 0
  let r ← chooseMedoidWithinPartition L mat assi med 0
  .ok ⟨r.1.2, assi, 1, if r.1.1 then 1 else 0, r.2⟩

/-- `rand_fasterpam` (src/fasterpam.rs:120-171). `seq` is the result of
`rand::seq::index::sample(rng, n, n)`, a parameter of the model. -/
def randFasterpam (L : Type) [RLoss L] [RFrom N L] (mat : Mat N) (med : List Nat) (maxiter : Nat)
    (seq : List Nat) : Res (SwapResult L) :=
  if med.length = 1 then singleCluster L mat med
  else do
    let (loss, data) ← initialAssignment L mat med
    let rem ← updateRemovalLoss L data med.length
    let (s, iter) ← fpLoop mat seq maxiter 0 ⟨med, data, rem, loss, mat.len, 0⟩
    .ok ⟨s.loss, s.data.map (·.near.i), iter, s.nSwaps, s.med⟩

/-- `fasterpam` (src/fasterpam.rs:39-86): as `rand_fasterpam`, with `j` running over `0..n`. -/
def fasterpam (L : Type) [RLoss L] [RFrom N L] (mat : Mat N) (med : List Nat) (maxiter : Nat) :
    Res (SwapResult L) :=
  if med.length = 1 then singleCluster L mat med
  else do
    let (loss, data) ← initialAssignment L mat med
    let rem ← updateRemovalLoss L data med.length
    let (s, iter) ← fpLoop mat (List.range mat.len) maxiter 0 ⟨med, data, rem, loss, mat.len, 0⟩
    .ok ⟨s.loss, s.data.map (·.near.i), iter, s.nSwaps, s.med⟩

end KMedoids
