import Verif.Model.Bench

/-!
# The PAM family with overflow checks

A copy of the code of `util.rs`, `fasterpam.rs`, `pam.rs`, `fastpam1.rs`, `alternating.rs` and `par_fasterpam.rs` in which every
`+`, `-`, `+=` and unary `-` on losses may panic, as it does for integers in a debug build or with `overflow-checks = true`. Apart
from that the text is the one of the other model files; `Proofs/CheckedErase.lean` proves that both agree if no operation panics.
-/

namespace KMedoids

open RFrom (conv)

/-- A loss type whose operations may panic. -/
class KLoss (L : Type) extends RPartialOrd L where
  /-- `L::zero()` -/
  zero : L
  /-- `a + b`, also in `a += b` -/
  addK : L → L → Res L
  /-- `a - b` -/
  subK : L → L → Res L
  /-- `-a` -/
  negK : L → Res L

/-- Operations that never panic. -/
@[reducible] def KLoss.ofRLoss (L : Type) [RLoss L] : KLoss L where
  pcmp := pcmp
  zero := RLoss.zero
  addK a b := .ok (RLoss.add a b)
  subK a b := .ok (RLoss.sub a b)
  negK a := .ok (RLoss.neg a)

variable {N L : Type} [RDist N] [KLoss L] [RFrom N L]

/-- `iter.reduce(L::add)` -/
def reduceAddK : List L → Res (Option L)
  | [] => .ok none
  | x :: xs => do
    let s ← foldRes KLoss.addK x xs
    .ok (some s)

/-- `a[i] += v` -/
def addAtK (a : List L) (i : Nat) (v : L) : Res (List L) := do
  let x ← idx a i
  let y ← KLoss.addK x v
  .ok (a.set i y)

/-! ## src/util.rs -/

/-- The sums in `choose_medoid_within_partition` (src/util.rs:123-128 and 131-136). -/
def partitionSumK (L : Type) [KLoss L] [RFrom N L] (mat : Mat N) (assi : List Nat) (m c : Nat) : Res L :=
  foldRes (fun (sum : L) (p : Nat × Nat) =>
    if p.2 ≠ c ∧ p.1 = m then do
      let x ← mat.get c p.2
      KLoss.addK sum (conv x)
    else .ok sum) KLoss.zero assi.zipIdx

/-- Body of the candidate loop (src/util.rs:129-142). -/
def chooseMedoidStepK (mat : Mat N) (assi : List Nat) (m first : Nat) (st : Nat × L) (p : Nat × Nat) : Res (Nat × L) :=
  if p.2 ≠ first ∧ p.1 = m then do
    let sumj ← partitionSumK L mat assi m p.2
    .ok (if rlt sumj st.2 then (p.2, sumj) else st)
  else .ok st

/-- `choose_medoid_within_partition` (src/util.rs:108-145). -/
def chooseMedoidWithinPartitionK (L : Type) [KLoss L] [RFrom N L] (mat : Mat N) (assi : List Nat) (med : List Nat) (m : Nat) :
    Res ((Bool × L) × List Nat) := do
  let first ← idx med m
  let sumb ← partitionSumK L mat assi m first
  let r ← foldRes (chooseMedoidStepK mat assi m first) (first, sumb) assi.zipIdx
  let med ← setIdx med m r.1
  .ok ((r.1 != first, r.2), med)

/-! ## src/fasterpam.rs -/

/-- `initial_assignment` (src/fasterpam.rs:173-208). -/
def initialAssignmentK (L : Type) [KLoss L] [RFrom N L] (mat : Mat N) (med : List Nat) : Res (L × List (Rec N)) := do
  assertSizes mat med.length
  let firstcenter ← idx med 0
  let data ← mapRes (initAssignRec mat med firstcenter) (List.range mat.len)
  let sum ← reduceAddK (data.map fun r => (conv r.near.d : L))
  let loss ← unwrapOpt sum
  .ok (loss, data)

/-- Body of the loop of `find_best_swap` (src/fasterpam.rs:226-237). -/
def findBestSwapStepK (mat : Mat N) (j : Nat) (st : List L × L) (p : Rec N × Nat) : Res (List L × L) := do
  let doj ← mat.get p.2 j
  if rlt doj p.1.near.d then
    let x ← KLoss.subK (conv doj) (conv p.1.near.d)
    let acc ← KLoss.addK st.2 x
    let y ← KLoss.subK (conv p.1.near.d) (conv p.1.seco.d)
    let ploss ← addAtK st.1 p.1.near.i y
    .ok (ploss, acc)
  else if rlt doj p.1.seco.d then
    let y ← KLoss.subK (conv doj) (conv p.1.seco.d)
    let ploss ← addAtK st.1 p.1.near.i y
    .ok (ploss, st.2)
  else .ok st

/-- `find_best_swap` (src/fasterpam.rs:210-240). -/
def findBestSwapK (mat : Mat N) (removalLoss : List L) (data : List (Rec N)) (j : Nat) : Res (L × Nat) := do
  let st ← foldRes (findBestSwapStepK mat j) (removalLoss, KLoss.zero) data.zipIdx
  let r ← findMin st.1
  let s ← KLoss.addK r.2 st.2
  .ok (s, r.1)

/-- `update_removal_loss` (src/fasterpam.rs:242-253). -/
def updateRemovalLossK (L : Type) [KLoss L] [RFrom N L] (data : List (Rec N)) (k : Nat) : Res (List L) :=
  foldRes (fun (loss : List L) (r : Rec N) => do
    let y ← KLoss.subK (conv r.seco.d) (conv r.near.d)
    addAtK loss r.near.i y)
    (List.replicate k KLoss.zero) data

/-- Closure of `do_swap` (src/fasterpam.rs:303-333). -/
def doSwapRecK (mat : Mat N) (med : List Nat) (b j : Nat) (p : Rec N × Nat) : Res (Rec N × L) :=
  let reco := p.1
  let o := p.2
  if o = j then
    let reco := if reco.near.i ≠ asU32 b then { reco with seco := reco.near } else reco
    .ok ({ reco with near := .new b RDist.zero }, KLoss.zero)
  else do
    let doj ← mat.get o j
    let reco ←
      if reco.near.i = asU32 b then
        if rlt doj reco.seco.d then
          .ok { reco with near := .new b doj }
        else do
          let s ← updateSecondNearest mat med reco.seco.i b o doj
          .ok { near := reco.seco, seco := s }
      else if rlt doj reco.near.d then
        .ok { near := .new b doj, seco := reco.near }
      else if rlt doj reco.seco.d then
        .ok { reco with seco := .new b doj }
      else if reco.seco.i = asU32 b then do
        let s ← updateSecondNearest mat med reco.near.i b o doj
        .ok { reco with seco := s }
      else .ok reco
    .ok (reco, conv reco.near.d)

/-- `do_swap` (src/fasterpam.rs:283-336). -/
def doSwapK (L : Type) [KLoss L] [RFrom N L] (mat : Mat N) (med : List Nat) (data : List (Rec N)) (b j : Nat) :
    Res (L × List Nat × List (Rec N)) := do
  rassert (b < med.length) "invalid medoid number"
  rassert (j < mat.len) "invalid object number"
  let med ← setIdx med b j
  let rs ← mapRes (doSwapRecK (L := L) mat med b j) data.zipIdx
  let sum ← reduceAddK (rs.map (·.2))
  let loss ← unwrapOpt sum
  .ok (loss, med, rs.map (·.1))

/-- The inner `for j` loop of `fasterpam` and `rand_fasterpam` (src/fasterpam.rs:63-79, 148-164). -/
def fpPassK (mat : Mat N) : List Nat → FPState N L → Res (FPState N L)
  | [], s => .ok s
  | j :: js, s =>
    if j = s.lastswap then .ok s
    else do
      let own ← isOwnMedoid s.med s.data j
      if own then fpPassK mat js s
      else
        let (change, b) ← findBestSwapK mat s.rem s.data j
        if rge change KLoss.zero then fpPassK mat js s
        else
          let (loss, med, data) ← doSwapK L mat s.med s.data b j
          let rem ← updateRemovalLossK L data s.rem.length
          fpPassK mat js ⟨med, data, rem, loss, j, s.nSwaps + 1⟩

/-- The outer loop (src/fasterpam.rs:60-83, 145-168). -/
def fpLoopK (mat : Mat N) (seq : List Nat) : Nat → Nat → FPState N L → Res (FPState N L × Nat)
  | 0, iter, s => .ok (s, iter)
  | fuel + 1, iter, s => do
    let s' ← fpPassK mat seq s
    if s'.nSwaps == s.nSwaps || rge s'.loss s.loss then .ok (s', iter + 1)
    else fpLoopK mat seq fuel (iter + 1) s'

/-- `k == 1` (src/fasterpam.rs:50-54) -/
def singleClusterK (L : Type) [KLoss L] [RFrom N L] (mat : Mat N) (med : List Nat) : Res (SwapResult L) := do
  let assi := List.replicate mat.len 0
  let r ← chooseMedoidWithinPartitionK L mat assi med 0
  .ok ⟨r.1.2, assi, 1, if r.1.1 then 1 else 0, r.2⟩

/-- `rand_fasterpam` (src/fasterpam.rs:120-171). -/
def randFasterpamK (L : Type) [KLoss L] [RFrom N L] (mat : Mat N) (med : List Nat) (maxiter : Nat) (seq : List Nat) :
    Res (SwapResult L) :=
  if med.length = 1 then singleClusterK L mat med
  else do
    let (loss, data) ← initialAssignmentK L mat med
    let rem ← updateRemovalLossK L data med.length
    let (s, iter) ← fpLoopK mat seq maxiter 0 ⟨med, data, rem, loss, mat.len, 0⟩
    .ok ⟨s.loss, s.data.map (·.near.i), iter, s.nSwaps, s.med⟩

/-- `fasterpam` (src/fasterpam.rs:39-86). -/
def fasterpamK (L : Type) [KLoss L] [RFrom N L] (mat : Mat N) (med : List Nat) (maxiter : Nat) : Res (SwapResult L) :=
  if med.length = 1 then singleClusterK L mat med
  else do
    let (loss, data) ← initialAssignmentK L mat med
    let rem ← updateRemovalLossK L data med.length
    let (s, iter) ← fpLoopK mat (List.range mat.len) maxiter 0 ⟨med, data, rem, loss, mat.len, 0⟩
    .ok ⟨s.loss, s.data.map (·.near.i), iter, s.nSwaps, s.med⟩

/-! ## src/pam.rs -/

/-- Inner loop body of `find_best_swap_pam` (src/pam.rs:211-229). -/
def findBestSwapPamStepK (mat : Mat N) (m j : Nat) (acc : L) (p : Rec N × Nat) : Res L :=
  if p.2 = j then .ok acc
  else do
    let doj ← mat.get p.2 j
    if p.1.near.i = m then
      if rlt doj p.1.seco.d then
        let x ← KLoss.subK (conv doj) (conv p.1.near.d)
        KLoss.addK acc x
      else
        let x ← KLoss.subK (conv p.1.seco.d) (conv p.1.near.d)
        KLoss.addK acc x
    else if rlt doj p.1.near.d then
      let x ← KLoss.subK (conv doj) (conv p.1.near.d)
      KLoss.addK acc x
    else .ok acc

/-- `find_best_swap_pam` (src/pam.rs:199-235). -/
def findBestSwapPamK (L : Type) [KLoss L] [RFrom N L] (mat : Mat N) (med : List Nat) (data : List (Rec N)) (j : Nat) :
    Res (L × Nat) := do
  let recj ← idx data j
  foldRes (fun (best : L × Nat) (m : Nat) => do
    let start : L ← KLoss.negK (conv recj.near.d)
    let acc ← foldRes (findBestSwapPamStepK mat m j) start data.zipIdx
    .ok (if rlt acc best.1 then (acc, m) else best))
    (KLoss.zero, usizeMax) (List.range med.length)

/-- Body of the `for j` loop of `pam_optimize` (src/pam.rs:173-182). -/
def pamScanStepK (mat : Mat N) (med : List Nat) (data : List (Rec N)) (best : L × Nat × Nat) (j : Nat) :
    Res (L × Nat × Nat) := do
  let own ← isOwnMedoid med data j
  if own then .ok best
  else
    let (change, b) ← findBestSwapPamK L mat med data j
    .ok (if rge change best.1 then best else (change, b, j))

/-- The loop of `pam_optimize` (src/pam.rs:170-194). -/
def pamLoopK (mat : Mat N) (k : Nat) : Nat → Nat → PState N L → Res (PState N L × Nat)
  | 0, iter, s => .ok (s, iter)
  | fuel + 1, iter, s => do
    let best ← foldRes (pamScanStepK mat s.med s.data) ((KLoss.zero : L), k, usizeMax) (List.range mat.len)
    if rlt best.1 KLoss.zero then
      let (newloss, med, data) ← doSwapK L mat s.med s.data best.2.1 best.2.2
      if rge newloss s.loss then .ok (⟨med, data, s.loss, s.nSwaps + 1⟩, iter + 1)
      else pamLoopK mat k fuel (iter + 1) ⟨med, data, newloss, s.nSwaps + 1⟩
    else .ok (s, iter + 1)

/-- `pam_optimize` (src/pam.rs:149-197). -/
def pamOptimizeK (mat : Mat N) (med : List Nat) (data : List (Rec N)) (maxiter : Nat) (loss : L) : Res (SwapResult L) :=
  if med.length = 1 then singleClusterK L mat med
  else do
    let (s, iter) ← pamLoopK mat med.length maxiter 0 ⟨med, data, loss, 0⟩
    .ok ⟨s.loss, s.data.map (·.near.i), iter, s.nSwaps, s.med⟩

/-- `pam_swap` (src/pam.rs:40-52). -/
def pamSwapK (L : Type) [KLoss L] [RFrom N L] (mat : Mat N) (med : List Nat) (maxiter : Nat) : Res (SwapResult L) := do
  let (loss, data) ← initialAssignmentK L mat med
  pamOptimizeK mat med data maxiter loss

/-- Sum of column `i` (src/pam.rs:254-259). -/
def buildFirstSumK (L : Type) [KLoss L] [RFrom N L] (mat : Mat N) (i : Nat) : Res L :=
  foldRes (fun (sum : L) (j : Nat) =>
    if j ≠ i then do
      let x ← mat.get j i
      KLoss.addK sum (conv x)
    else .ok sum) KLoss.zero (List.range mat.len)

/-- Choice of the first medoid in BUILD (src/pam.rs:252-263). -/
def buildFirstK (L : Type) [KLoss L] [RFrom N L] (mat : Mat N) (k : Nat) : Res (L × Nat) :=
  foldRes (fun (best : L × Nat) (i : Nat) => do
    let sum ← buildFirstSumK L mat i
    .ok (if i == 0 || rlt sum best.1 then (sum, i) else best))
    (KLoss.zero, k) (List.range mat.len)

/-- Body of the loop over `j` (src/pam.rs:274-280). -/
def buildSumStepK (mat : Mat N) (i : Nat) (sum : L) (p : N × Nat) : Res L :=
  if p.2 ≠ i then do
    let d ← mat.get p.2 i
    if rlt d p.1 then
      let x ← KLoss.subK (conv d) (conv p.1)
      KLoss.addK sum x
    else .ok sum
  else .ok sum

/-- Gain of adding object `i` as medoid (src/pam.rs:273-281). -/
def buildSumK (L : Type) [KLoss L] [RFrom N L] (mat : Mat N) (near : List N) (i : Nat) : Res L := do
  let di ← idx near i
  let start : L ← KLoss.negK (conv di)
  foldRes (buildSumStepK mat i) start near.zipIdx

/-- Search for the next medoid (src/pam.rs:271-285). -/
def buildNextK (L : Type) [KLoss L] [RFrom N L] (mat : Mat N) (near : List N) (k : Nat) : Res (L × Nat) :=
  foldRes (fun (best : L × Nat) (i : Nat) => do
    let sum ← buildSumK L mat near i
    .ok (if i == 0 || rlt sum best.1 then (sum, i) else best))
    (KLoss.zero, k) (List.range near.length)

/-- Loss recomputation while adding object `c` (src/pam.rs:288-303). -/
def buildLossK (L : Type) [KLoss L] [RFrom N L] (c : Nat) (data : List (Rec N)) : Res L :=
  foldRes (fun (loss : L) (p : Rec N × Nat) =>
    if p.2 = c then .ok loss else KLoss.addK loss (conv p.1.near.d)) KLoss.zero data.zipIdx

/-- The loop `for l in 1..k` of BUILD (src/pam.rs:270-305). -/
def buildLoopK (mat : Mat N) (k : Nat) : List Nat → List Nat → List (Rec N) → L → Res (List Nat × List (Rec N) × L)
  | [], meds, data, loss => .ok (meds, data, loss)
  | l :: ls, meds, data, loss => do
    let best ← buildNextK L mat (data.map (·.near.d)) k
    if rge best.1 KLoss.zero then .ok (meds, data, loss)
    else
      let data ← mapRes (buildUpdateRec mat l best.2) data.zipIdx
      let loss ← buildLossK L best.2 data
      buildLoopK mat k ls (meds ++ [best.2]) data loss

/-- `pam_build_initialize` (src/pam.rs:237-307). -/
def pamBuildInitializeK (L : Type) [KLoss L] [RFrom N L] (mat : Mat N) (k : Nat) : Res (List Nat × List (Rec N) × L) := do
  assertSquare mat
  let best ← buildFirstK L mat k
  let data ← mapRes (fun j => do
    let d ← mat.get j best.2
    .ok (⟨⟨0, d⟩, ⟨u32Max, RDist.zero⟩⟩ : Rec N)) (List.range mat.len)
  buildLoopK mat k ((List.range k).drop 1) [best.2] data best.1

/-- `pam_build` (src/pam.rs:82-98). -/
def pamBuildK (L : Type) [KLoss L] [RFrom N L] (mat : Mat N) (k : Nat) : Res (BuildResult L) := do
  assertSizes mat k
  let (meds, data, loss) ← pamBuildInitializeK L mat k
  .ok ⟨loss, data.map (·.near.i), meds⟩

/-- `pam` (src/pam.rs:131-147). -/
def pamK (L : Type) [KLoss L] [RFrom N L] (mat : Mat N) (k maxiter : Nat) : Res (SwapResult L) := do
  assertSizes mat k
  let (meds, data, loss) ← pamBuildInitializeK L mat k
  pamOptimizeK mat meds data maxiter loss

/-! ## src/fastpam1.rs -/

/-- Body of the `for j` loop of `fastpam1` (src/fastpam1.rs:66-75). -/
def fastpam1ScanStepK (mat : Mat N) (med : List Nat) (data : List (Rec N)) (rem : List L) (best : L × Nat × Nat) (j : Nat) :
    Res (L × Nat × Nat) := do
  let own ← isOwnMedoid med data j
  if own then .ok best
  else
    let (change, b) ← findBestSwapK mat rem data j
    .ok (if rge change best.1 then best else (change, b, j))

/-- The loop of `fastpam1` (src/fastpam1.rs:62-87). -/
def fastpam1LoopK (mat : Mat N) (k : Nat) : Nat → Nat → PState N L → Res (PState N L × Nat)
  | 0, iter, s => .ok (s, iter)
  | fuel + 1, iter, s => do
    let rem ← updateRemovalLossK L s.data k
    let best ← foldRes (fastpam1ScanStepK mat s.med s.data rem) ((KLoss.zero : L), usizeMax, usizeMax) (List.range mat.len)
    if rlt best.1 KLoss.zero then
      let (newloss, med, data) ← doSwapK L mat s.med s.data best.2.1 best.2.2
      if rge newloss s.loss then .ok (⟨med, data, s.loss, s.nSwaps + 1⟩, iter + 1)
      else fastpam1LoopK mat k fuel (iter + 1) ⟨med, data, newloss, s.nSwaps + 1⟩
    else .ok (s, iter + 1)

/-- `fastpam1` (src/fastpam1.rs:42-90). -/
def fastpam1K (L : Type) [KLoss L] [RFrom N L] (mat : Mat N) (med : List Nat) (maxiter : Nat) : Res (SwapResult L) :=
  if med.length = 1 then singleClusterK L mat med
  else do
    let (loss, data) ← initialAssignmentK L mat med
    let (s, iter) ← fastpam1LoopK mat med.length maxiter 0 ⟨med, data, loss, 0⟩
    .ok ⟨s.loss, s.data.map (·.near.i), iter, s.nSwaps, s.med⟩

/-! ## src/alternating.rs -/

/-- `assign_nearest` (src/alternating.rs:63-95). -/
def assignNearestK (L : Type) [KLoss L] [RFrom N L] (mat : Mat N) (med : List Nat) : Res (L × List Nat) := do
  assertSizes mat med.length
  let firstcenter ← idx med 0
  let rs ← mapRes (assignNearestRec mat med firstcenter) (List.range mat.len)
  let sum ← reduceAddK (rs.map fun r => (conv r.2 : L))
  .ok (sum.getD KLoss.zero, rs.map (·.1))

/-- The loop over all partitions (src/alternating.rs:51-54). -/
def alternatingUpdateK (L : Type) [KLoss L] [RFrom N L] (mat : Mat N) (assi : List Nat) (med : List Nat) :
    Res (Bool × List Nat) :=
  foldRes (fun (st : Bool × List Nat) (i : Nat) => do
    let r ← chooseMedoidWithinPartitionK L mat assi st.2 i
    .ok (st.1 || r.1.1, r.2)) (false, med) (List.range med.length)

/-- The loop of `alternating` (src/alternating.rs:49-59). -/
def alternatingLoopK (mat : Mat N) : Nat → Nat → L → List Nat → List Nat → Res (AltResult L)
  | 0, iter, loss, assi, med => .ok ⟨loss, assi, iter, med⟩
  | fuel + 1, iter, loss, assi, med => do
    let r ← alternatingUpdateK L mat assi med
    if !r.1 then .ok ⟨loss, assi, iter + 1, r.2⟩
    else
      let (loss, assi) ← assignNearestK L mat r.2
      alternatingLoopK mat fuel (iter + 1) loss assi r.2

/-- `alternating` (src/alternating.rs:40-61). -/
def alternatingK (L : Type) [KLoss L] [RFrom N L] (mat : Mat N) (med : List Nat) (maxiter : Nat) : Res (AltResult L) := do
  let (loss, assi) ← assignNearestK L mat med
  alternatingLoopK mat maxiter 0 loss assi med

/-! ## src/par_fasterpam.rs -/

/-- `reduce_with(L::add)` along a tree -/
def reduceTreeK : RTree → List L → Res (Option L)
  | .leaf, xs => reduceAddK xs
  | .node s l r, xs => do
    let a ← reduceTreeK l (xs.take s)
    let b ← reduceTreeK r (xs.drop s)
    match a, b with
    | some a, some b => do
      let c ← KLoss.addK a b
      .ok (some c)
    | some a, none => .ok (some a)
    | none, some b => .ok (some b)
    | none, none => .ok none

/-- `par_initial_assignment` (src/par_fasterpam.rs:95-130). -/
def parInitialAssignmentK (L : Type) [KLoss L] [RFrom N L] (sc : Sched) (mat : Mat N) (med : List Nat) :
    Res (L × List (Rec N)) := do
  assertSizes mat med.length
  let firstcenter ← idx med 0
  let data ← mapRes (initAssignRec mat med firstcenter) (List.range mat.len)
  let sum ← reduceTreeK sc.tree (data.map fun r => (conv r.near.d : L))
  let loss ← unwrapOpt sum
  .ok (loss, data)

/-- Loop body of one worker (src/par_fasterpam.rs:155-166). -/
def parFindStepK (mat : Mat N) (j : Nat) (st : List L × L) (p : Rec N × Nat) : Res (List L × L) := do
  let doj ← mat.get p.2 j
  if rlt doj p.1.near.d then
    let x ← KLoss.subK (conv doj) (conv p.1.near.d)
    let lagg ← KLoss.addK st.2 x
    let y ← KLoss.subK (conv p.1.near.d) (conv p.1.seco.d)
    let loss ← addAtK st.1 p.1.near.i y
    .ok (loss, lagg)
  else if rlt doj p.1.seco.d then
    let y ← KLoss.subK (conv doj) (conv p.1.seco.d)
    let loss ← addAtK st.1 p.1.near.i y
    .ok (loss, st.2)
  else .ok st

/-- The private result of worker `x` (src/par_fasterpam.rs:151-166). -/
def parWorkerK (L : Type) [KLoss L] [RFrom N L] (mat : Mat N) (length : Nat) (data : List (Rec N)) (j parts x : Nat) :
    Res (List L × L) :=
  let n := mat.len
  let stepsize := (n + parts - 1) / parts
  let start := x * stepsize
  let end_ := min (start + stepsize) n
  foldRes (parFindStepK mat j) (List.replicate length KLoss.zero, KLoss.zero) ((data.zipIdx.take end_).drop start)

/-- `a += b` for all pairs of elements -/
def zipAddK : List L → List L → Res (List L)
  | x :: xs, y :: ys => do
    let z ← KLoss.addK x y
    let zs ← zipAddK xs ys
    .ok (z :: zs)
  | _, _ => .ok []

/-- The critical section of a worker (src/par_fasterpam.rs:167-170). -/
def parMergeK (shared : List L × L) (priv : List L × L) : Res (List L × L) := do
  let l ← zipAddK shared.1 priv.1
  let a ← KLoss.addK shared.2 priv.2
  .ok (l, a)

/-- `par_find_best_swap` (src/par_fasterpam.rs:132-176). -/
def parFindBestSwapK (sc : Sched) (mat : Mat N) (removalLoss : List L) (data : List (Rec N)) (j : Nat) : Res (L × Nat) := do
  let st ← foldRes (fun (st : List L × L) (x : Nat) => do
    let w ← parWorkerK L mat removalLoss.length data j sc.parts x
    parMergeK st w) (removalLoss, KLoss.zero) sc.order
  let r ← findMin st.1
  let s ← KLoss.addK r.2 st.2
  .ok (s, r.1)

/-- Closure of `par_do_swap` (src/par_fasterpam.rs:198-228). -/
def parSwapRecK (mat : Mat N) (med : List Nat) (b j : Nat) (p : Rec N × Nat) : Res (Rec N × L) :=
  let reco := p.1
  let o := p.2
  if o = j then
    let reco := if reco.near.i ≠ asU32 b then { reco with seco := reco.near } else reco
    .ok ({ reco with near := .new b RDist.zero }, KLoss.zero)
  else do
    let doj ← mat.get o j
    let reco ←
      if reco.near.i = asU32 b then
        if rlt doj reco.seco.d then
          .ok { reco with near := .new b doj }
        else do
          let s ← updateSecondNearest mat med reco.seco.i b o doj
          .ok { near := reco.seco, seco := s }
      else if rlt doj reco.near.d then
        .ok { near := .new b doj, seco := reco.near }
      else if reco.seco.i = asU32 b then do
        let s ← updateSecondNearest mat med reco.near.i b o doj
        .ok { reco with seco := s }
      else if rlt doj reco.seco.d then
        .ok { reco with seco := .new b doj }
      else .ok reco
    .ok (reco, conv reco.near.d)

/-- `par_do_swap` (src/par_fasterpam.rs:178-231). -/
def parDoSwapK (L : Type) [KLoss L] [RFrom N L] (sc : Sched) (mat : Mat N) (med : List Nat) (data : List (Rec N)) (b j : Nat) :
    Res (L × List Nat × List (Rec N)) := do
  rassert (b < med.length) "invalid medoid number"
  rassert (j < mat.len) "invalid object number"
  let med ← setIdx med b j
  let rs ← mapRes (parSwapRecK (L := L) mat med b j) data.zipIdx
  let sum ← reduceTreeK sc.tree (rs.map (·.2))
  let loss ← unwrapOpt sum
  .ok (loss, med, rs.map (·.1))

/-- The inner loop of `par_fasterpam` (src/par_fasterpam.rs:70-86). -/
def parPassK (scF scS : Nat → Sched) (mat : Mat N) : List Nat → FPState N L → Res (FPState N L)
  | [], s => .ok s
  | j :: js, s =>
    if j = s.lastswap then .ok s
    else do
      let own ← isOwnMedoid s.med s.data j
      if own then parPassK scF scS mat js s
      else
        let (change, b) ← parFindBestSwapK (scF j) mat s.rem s.data j
        if rge change KLoss.zero then parPassK scF scS mat js s
        else
          let (loss, med, data) ← parDoSwapK L (scS j) mat s.med s.data b j
          let rem ← updateRemovalLossK L data s.rem.length
          parPassK scF scS mat js ⟨med, data, rem, loss, j, s.nSwaps + 1⟩

/-- The outer loop of `par_fasterpam` (src/par_fasterpam.rs:67-90). -/
def parLoopK (scF scS : Nat → Nat → Sched) (mat : Mat N) (seq : List Nat) :
    Nat → Nat → FPState N L → Res (FPState N L × Nat)
  | 0, iter, s => .ok (s, iter)
  | fuel + 1, iter, s => do
    let s' ← parPassK (scF iter) (scS iter) mat seq s
    if s'.nSwaps == s.nSwaps || rge s'.loss s.loss then .ok (s', iter + 1)
    else parLoopK scF scS mat seq fuel (iter + 1) s'

/-- `par_fasterpam` (src/par_fasterpam.rs:43-93). -/
def parFasterpamK (L : Type) [KLoss L] [RFrom N L] (sc0 : Sched) (scF scS : Nat → Nat → Sched) (mat : Mat N) (med : List Nat)
    (maxiter : Nat) (seq : List Nat) : Res (SwapResult L) :=
  if med.length = 1 then singleClusterK L mat med
  else do
    let (loss, data) ← parInitialAssignmentK L sc0 mat med
    let rem ← updateRemovalLossK L data med.length
    let (s, iter) ← parLoopK scF scS mat seq maxiter 0 ⟨med, data, rem, loss, mat.len, 0⟩
    .ok ⟨s.loss, s.data.map (·.near.i), iter, s.nSwaps, s.med⟩

/-! ## benches/bench.rs -/

section
variable (L : Type) [KLoss L] [RFrom N L] (draw : Nat → N)

/-- `bench_fasterpam` (benches/bench.rs:14-30) -/
def benchFasterpamK : Res (SwapResult L) := do
  let a ← benchMat draw RDist.zero benchSize
  fasterpamK L a.toMat benchMeds 100

/-- `bench_rand_fasterpam` (benches/bench.rs:33-49) -/
def benchRandFasterpamK (seq : List Nat) : Res (SwapResult L) := do
  let a ← benchMat draw RDist.zero benchSize
  randFasterpamK L a.toMat benchMeds 100 seq

/-- `bench_par_fasterpam` (benches/bench.rs:53-69) -/
def benchParFasterpamK (sc0 : Sched) (scF scS : Nat → Nat → Sched) (seq : List Nat) : Res (SwapResult L) := do
  let a ← benchMat draw RDist.zero benchSize
  parFasterpamK L sc0 scF scS a.toMat benchMeds 100 seq

/-- `bench_fastpam1` (benches/bench.rs:72-88) -/
def benchFastpam1K : Res (SwapResult L) := do
  let a ← benchMat draw RDist.zero benchSize
  fastpam1K L a.toMat benchMeds 100

/-- `bench_pam_swap` (benches/bench.rs:91-107) -/
def benchPamSwapK : Res (SwapResult L) := do
  let a ← benchMat draw RDist.zero benchSize
  pamSwapK L a.toMat benchMeds 100

/-- `bench_pam_build` (benches/bench.rs:110-125) -/
def benchPamBuildK : Res (BuildResult L) := do
  let a ← benchMat draw RDist.zero benchSize
  pamBuildK L a.toMat 5

/-- `bench_pam` (benches/bench.rs:128-143) -/
def benchPamK : Res (SwapResult L) := do
  let a ← benchMat draw RDist.zero benchSize
  pamK L a.toMat 5 100

/-- `bench_alternating` (benches/bench.rs:146-162) -/
def benchAlternatingK : Res (AltResult L) := do
  let a ← benchMat draw RDist.zero benchSize
  alternatingK L a.toMat benchMeds 100

end

end KMedoids
