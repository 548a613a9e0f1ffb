import Verif.Model.FasterPam

/-! # Model of `src/pam.rs` -/

namespace KMedoids

variable {N L : Type} [RDist N] [RLoss L] [RFrom N L]
open RFrom (conv)

/-- Inner loop body of `find_best_swap_pam` (src/pam.rs:211-229): accumulate the change for object
`o = p.2` when medoid `m` is replaced by `j`. -/
def findBestSwapPamStep (mat : Mat N) (m j : Nat) (acc : L) (p : Rec N × Nat) : Res L :=
  if p.2 = j then .ok acc
  else do
    let doj ← mat.get p.2 j
    if p.1.near.i = m then
      if rlt doj p.1.seco.d then
        .ok (RLoss.add acc (RLoss.sub (conv doj) (conv p.1.near.d)))
      else
        .ok (RLoss.add acc (RLoss.sub (conv p.1.seco.d) (conv p.1.near.d)))
    else if rlt doj p.1.near.d then
      .ok (RLoss.add acc (RLoss.sub (conv doj) (conv p.1.near.d)))
    else .ok acc

/-- `find_best_swap_pam` (src/pam.rs:199-235). -/
def findBestSwapPam (L : Type) [RLoss L] [RFrom N L] (mat : Mat N) (med : List Nat)
    (data : List (Rec N)) (j : Nat) : Res (L × Nat) := do
  let recj ← idx data j
  foldRes (fun (best : L × Nat) (m : Nat) => do
    let acc ← foldRes (findBestSwapPamStep mat m j) (RLoss.neg (conv recj.near.d) : L) data.zipIdx
    .ok (if rlt acc best.1 then (acc, m) else best))
    (RLoss.zero, usizeMax) (List.range med.length)

/-- Body of the `for j` loop of `pam_optimize` (src/pam.rs:173-182); `best = (change, b, j)`. -/
def pamScanStep (mat : Mat N) (med : List Nat) (data : List (Rec N)) (best : L × Nat × Nat)
    (j : Nat) : Res (L × Nat × Nat) := do
  let own ← isOwnMedoid med data j
  if own then .ok best
  else
    let (change, b) ← findBestSwapPam L mat med data j
    .ok (if rge change best.1 then best else (change, b, j))

/-- Local variables of `pam_optimize` / `fastpam1` that change in the loop. -/
structure PState (N L : Type) where
  /-- `med` -/
  med : List Nat
  /-- `data` -/
  data : List (Rec N)
  /-- `loss` -/
  loss : L
  /-- `n_swaps` -/
  nSwaps : Nat

/-- The `while iter < maxiter` loop of `pam_optimize` (src/pam.rs:170-194).
First argument: `maxiter - iter`. -/
def pamLoop (mat : Mat N) (k : Nat) : Nat → Nat → PState N L → Res (PState N L × Nat)
  | 0, iter, s => .ok (s, iter)
  | fuel + 1, iter, s => do
    let best ← foldRes (pamScanStep mat s.med s.data) ((RLoss.zero : L), k, usizeMax)
      (List.range mat.len)
    if rlt best.1 RLoss.zero then
      let (newloss, med, data) ← doSwap L mat s.med s.data best.2.1 best.2.2
      if rge newloss s.loss then .ok (⟨med, data, s.loss, s.nSwaps + 1⟩, iter + 1)
      else pamLoop mat k fuel (iter + 1) ⟨med, data, newloss, s.nSwaps + 1⟩
    else .ok (s, iter + 1)

/-- `pam_optimize` (src/pam.rs:149-197). -/
def pamOptimize (mat : Mat N) (med : List Nat) (data : List (Rec N)) (maxiter : Nat) (loss : L) :
    Res (SwapResult L) :=
  if med.length = 1 then singleCluster L mat med
  else do
    let (s, iter) ← pamLoop mat med.length maxiter 0 ⟨med, data, loss, 0⟩
    .ok ⟨s.loss, s.data.map (·.near.i), iter, s.nSwaps, s.med⟩

/-- `pam_swap` (src/pam.rs:40-52). -/
def pamSwap (L : Type) [RLoss L] [RFrom N L] (mat : Mat N) (med : List Nat) (maxiter : Nat) :
    Res (SwapResult L) := do
  let (loss, data) ← initialAssignment L mat med
  pamOptimize mat med data maxiter loss

/-- Sum of column `i` without the diagonal (src/pam.rs:254-259). -/
def buildFirstSum (L : Type) [RLoss L] [RFrom N L] (mat : Mat N) (i : Nat) : Res L :=
  foldRes (fun (sum : L) (j : Nat) =>
    if j ≠ i then do
      let x ← mat.get j i
      .ok (RLoss.add sum (conv x))
    else .ok sum) RLoss.zero (List.range mat.len)

/-- Choice of the first medoid in BUILD (src/pam.rs:252-263). -/
def buildFirst (L : Type) [RLoss L] [RFrom N L] (mat : Mat N) (k : Nat) : Res (L × Nat) :=
  foldRes (fun (best : L × Nat) (i : Nat) => do
    let sum ← buildFirstSum L mat i
    .ok (if i == 0 || rlt sum best.1 then (sum, i) else best))
    (RLoss.zero, k) (List.range mat.len)

/-- Gain of adding object `i` as medoid (src/pam.rs:273-281). `near` lists `data[j].near.d`. -/
def buildSum (L : Type) [RLoss L] [RFrom N L] (mat : Mat N) (near : List N) (i : Nat) : Res L := do
  let di ← idx near i
  foldRes (fun (sum : L) (p : N × Nat) =>
    if p.2 ≠ i then do
      let d ← mat.get p.2 i
      .ok (if rlt d p.1 then RLoss.add sum (RLoss.sub (conv d) (conv p.1)) else sum)
    else .ok sum) (RLoss.neg (conv di)) near.zipIdx

/-- Search for the next medoid (src/pam.rs:271-285). -/
def buildNext (L : Type) [RLoss L] [RFrom N L] (mat : Mat N) (near : List N) (k : Nat) :
    Res (L × Nat) :=
  foldRes (fun (best : L × Nat) (i : Nat) => do
    let sum ← buildSum L mat near i
    .ok (if i == 0 || rlt sum best.1 then (sum, i) else best))
    (RLoss.zero, k) (List.range near.length)

/-- Update of one record after medoid number `l` (object `c`) was added (src/pam.rs:289-301). -/
def buildUpdateRec (mat : Mat N) (l c : Nat) (p : Rec N × Nat) : Res (Rec N) :=
  if p.2 = c then .ok { near := .new l RDist.zero, seco := p.1.near }
  else do
    let dj ← mat.get p.2 c
    if rlt dj p.1.near.d then .ok { near := .new l dj, seco := p.1.near }
    else if p.1.seco.i == u32Max || rlt dj p.1.seco.d then .ok { p.1 with seco := .new l dj }
    else .ok p.1

/-- Loss recomputation while adding object `c` (src/pam.rs:288-303): `c` itself is skipped. -/
def buildLoss (L : Type) [RLoss L] [RFrom N L] (c : Nat) (data : List (Rec N)) : L :=
  data.zipIdx.foldl (fun (loss : L) p =>
    if p.2 = c then loss else RLoss.add loss (conv p.1.near.d)) RLoss.zero

/-- The loop `for l in 1..k` of BUILD (src/pam.rs:270-305); the list holds the remaining `l`. -/
def buildLoop (mat : Mat N) (k : Nat) :
    List Nat → List Nat → List (Rec N) → L → Res (List Nat × List (Rec N) × L)
  | [], meds, data, loss => .ok (meds, data, loss)
  | l :: ls, meds, data, loss => do
    let best ← buildNext L mat (data.map (·.near.d)) k
    if rge best.1 RLoss.zero then .ok (meds, data, loss)
    else
      let data ← mapRes (buildUpdateRec mat l best.2) data.zipIdx
      buildLoop mat k ls (meds ++ [best.2]) data (buildLoss L best.2 data)

/-- `pam_build_initialize` (src/pam.rs:237-307), returning `(meds, data, loss)`. -/
def pamBuildInitialize (L : Type) [RLoss L] [RFrom N L] (mat : Mat N) (k : Nat) :
    Res (List Nat × List (Rec N) × L) := do
  assertSquare mat
  let best ← buildFirst L mat k
  let data ← mapRes (fun j => do
    let d ← mat.get j best.2
    .ok (⟨⟨0, d⟩, ⟨u32Max, RDist.zero⟩⟩ : Rec N)) (List.range mat.len)
  buildLoop mat k ((List.range k).drop 1) [best.2] data best.1

/-- What `pam_build` returns. -/
structure BuildResult (L : Type) where
  /-- loss -/
  loss : L
  /-- assignment -/
  assi : List Nat
  /-- medoids -/
  med : List Nat
  deriving DecidableEq, Repr

/-- `pam_build` (src/pam.rs:82-98). -/
def pamBuild (L : Type) [RLoss L] [RFrom N L] (mat : Mat N) (k : Nat) : Res (BuildResult L) := do
  assertSizes mat k
  let (meds, data, loss) ← pamBuildInitialize L mat k
  .ok ⟨loss, data.map (·.near.i), meds⟩

/-- `pam` (src/pam.rs:131-147). -/
def pam (L : Type) [RLoss L] [RFrom N L] (mat : Mat N) (k maxiter : Nat) : Res (SwapResult L) := do
  assertSizes mat k
  let (meds, data, loss) ← pamBuildInitialize L mat k
  pamOptimize mat meds data maxiter loss

end KMedoids
