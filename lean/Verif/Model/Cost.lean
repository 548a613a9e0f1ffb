import Verif.Model.FastPam1
import Verif.Model.Alternating

/-!
# The work done by the PAM family

A second copy of the code of `fasterpam.rs`, `fastpam1.rs`, `pam.rs` and `alternating.rs` that also adds
up what a run costs. The matrix is passed as a `CMat`, whose entries can only be read through a `get` that
charges `read`; every execution of a loop body charges `step`. Apart from that the text is the one of the
other model files, and `Props/C85.lean` proves that the results are the same.
-/

namespace KMedoids

/-- Charges: `read` for one access to the matrix, `step` for one execution of a loop body. -/
structure Weights where
  /-- one call of `ArrayAdapter::get` -/
  read : Nat
  /-- one execution of a loop body -/
  step : Nat

/-- A computation that may panic and has a cost. -/
structure Cnt (α : Type) where
  /-- the result and the cost -/
  run : Except Panic (α × Nat)

/-- Return without cost. -/
def Cnt.pure {α : Type} (a : α) : Cnt α := ⟨.ok (a, 0)⟩

/-- Sequencing adds the costs. -/
def Cnt.bind {α β : Type} (x : Cnt α) (f : α → Cnt β) : Cnt β :=
  match x.run with
  | .error e => ⟨.error e⟩
  | .ok (a, c) =>
    match (f a).run with
    | .error e => ⟨.error e⟩
    | .ok (b, c') => ⟨.ok (b, c + c')⟩

instance : Monad Cnt where
  pure := Cnt.pure
  bind := Cnt.bind

/-- Code outside of loops and without access to the matrix is free. -/
def Cnt.lift {α : Type} : Res α → Cnt α
  | .ok a => ⟨.ok (a, 0)⟩
  | .error e => ⟨.error e⟩

instance : MonadLift (Except Panic) Cnt where
  monadLift := Cnt.lift

/-- Charge `c`. -/
def Cnt.tick (c : Nat) : Cnt Unit := ⟨.ok ((), c)⟩

/-- A matrix whose entries can be read at a price only. -/
structure CMat (N : Type) where
  /-- `len()` -/
  len : Nat
  /-- `is_square()` -/
  isSquare : Res Bool
  /-- `get(x, y)` -/
  get : Nat → Nat → Cnt N

/-- Charge for every access to the matrix. -/
def Mat.counted {N : Type} (w : Weights) (mat : Mat N) : CMat N where
  len := mat.len
  isSquare := mat.isSquare
  get x y := do
    Cnt.tick w.read
    mat.get x y

/-- `mapRes` with a charge for each element -/
def mapC {α β : Type} (w : Weights) (f : α → Cnt β) : List α → Cnt (List β)
  | [] => pure []
  | x :: xs => do
    Cnt.tick w.step
    let y ← f x
    let ys ← mapC w f xs
    pure (y :: ys)

/-- `foldRes` with a charge for each element -/
def foldC {α σ : Type} (w : Weights) (f : σ → α → Cnt σ) : σ → List α → Cnt σ
  | s, [] => pure s
  | s, x :: xs => do
    Cnt.tick w.step
    let s' ← f s x
    foldC w f s' xs

variable {N L : Type} [RDist N] [RLoss L] [RFrom N L]
open RFrom (conv)

/-- `find_min`: one step for each element -/
def findMinC (w : Weights) (l : List L) : Cnt (Nat × L) := do
  Cnt.tick (l.length * w.step)
  findMin l

/-- `assertSizes` -/
def assertSizesC (mat : CMat N) (k : Nat) : Cnt Unit := do
  let s ← mat.isSquare
  rassert s "Dissimilarity matrix is not square"
  rassert (mat.len ≤ u32Max) "N is too large"
  rassert (0 < k && k < u32Max) "invalid N"
  rassert (k ≤ mat.len) "k must be at most N"

/-- `initAssignStep` -/
def initAssignStepC (mat : CMat N) (i : Nat) (cur : Rec N) (p : Nat × Nat) : Cnt (Rec N) := do
  let d ← mat.get i p.1
  if rlt d cur.near.d || i == p.1 then
    pure { near := ⟨asU32 p.2, d⟩, seco := cur.near }
  else if cur.seco.i == u32Max || rlt d cur.seco.d then
    pure { cur with seco := ⟨asU32 p.2, d⟩ }
  else pure cur

/-- `initAssignRec` -/
def initAssignRecC (w : Weights) (mat : CMat N) (med : List Nat) (firstcenter i : Nat) : Cnt (Rec N) := do
  let d ← mat.get i firstcenter
  foldC w (initAssignStepC mat i) ⟨⟨0, d⟩, ⟨u32Max, RDist.zero⟩⟩ (med.zipIdx.drop 1)

/-- `initial_assignment` -/
def initialAssignmentC (L : Type) [RLoss L] [RFrom N L] (w : Weights) (mat : CMat N) (med : List Nat) :
    Cnt (L × List (Rec N)) := do
  assertSizesC mat med.length
  let firstcenter ← idx med 0
  let data ← mapC w (initAssignRecC w mat med firstcenter) (List.range mat.len)
  let loss ← unwrapOpt (reduceAdd (data.map fun r => (conv r.near.d : L)))
  pure (loss, data)

/-- body of the loop of `find_best_swap` -/
def findBestSwapStepC (mat : CMat N) (j : Nat) (st : List L × L) (p : Rec N × Nat) :
    Cnt (List L × L) := do
  let doj ← mat.get p.2 j
  if rlt doj p.1.near.d then
    let acc := RLoss.add st.2 (RLoss.sub (conv doj) (conv p.1.near.d))
    let ploss ← addAt st.1 p.1.near.i (RLoss.sub (conv p.1.near.d) (conv p.1.seco.d))
    pure (ploss, acc)
  else if rlt doj p.1.seco.d then
    let ploss ← addAt st.1 p.1.near.i (RLoss.sub (conv doj) (conv p.1.seco.d))
    pure (ploss, st.2)
  else pure st

/-- `find_best_swap`; `removal_loss.to_vec()` costs one step for each medoid -/
def findBestSwapC (w : Weights) (mat : CMat N) (removalLoss : List L) (data : List (Rec N)) (j : Nat) :
    Cnt (L × Nat) := do
  Cnt.tick (removalLoss.length * w.step)
  let st ← foldC w (findBestSwapStepC mat j) (removalLoss, RLoss.zero) data.zipIdx
  let r ← findMinC w st.1
  pure (RLoss.add r.2 st.2, r.1)

/-- `update_removal_loss`; clearing the vector costs one step for each medoid -/
def updateRemovalLossC (L : Type) [RLoss L] [RFrom N L] (w : Weights) (data : List (Rec N)) (k : Nat) :
    Cnt (List L) := do
  Cnt.tick (k * w.step)
  foldC w (fun (loss : List L) (r : Rec N) =>
    (addAt loss r.near.i (RLoss.sub (conv r.seco.d) (conv r.near.d)) : Res (List L)))
    (List.replicate k RLoss.zero) data

/-- `update_second_nearest` -/
def updateSecondNearestC (w : Weights) (mat : CMat N) (med : List Nat) (n b o : Nat) (doj : N) :
    Cnt (DistancePair N) :=
  foldC w (fun (s : DistancePair N) (p : Nat × Nat) =>
    if p.2 = n ∨ p.2 = b then pure s
    else do
      let d ← mat.get o p.1
      pure (if rlt d s.d then .new p.2 d else s))
    (.new b doj) med.zipIdx

/-- closure of `do_swap` -/
def doSwapRecC (w : Weights) (mat : CMat N) (med : List Nat) (b j : Nat) (p : Rec N × Nat) :
    Cnt (Rec N × L) :=
  let reco := p.1
  let o := p.2
  if o = j then
    let reco := if reco.near.i ≠ asU32 b then { reco with seco := reco.near } else reco
    pure ({ reco with near := .new b RDist.zero }, RLoss.zero)
  else do
    let doj ← mat.get o j
    let reco ←
      if reco.near.i = asU32 b then
        if rlt doj reco.seco.d then
          pure { reco with near := .new b doj }
        else do
          let s ← updateSecondNearestC w mat med reco.seco.i b o doj
          pure { near := reco.seco, seco := s }
      else if rlt doj reco.near.d then
        pure { near := .new b doj, seco := reco.near }
      else if rlt doj reco.seco.d then
        pure { reco with seco := .new b doj }
      else if reco.seco.i = asU32 b then do
        let s ← updateSecondNearestC w mat med reco.near.i b o doj
        pure { reco with seco := s }
      else pure reco
    pure (reco, conv reco.near.d)

/-- `do_swap` -/
def doSwapC (L : Type) [RLoss L] [RFrom N L] (w : Weights) (mat : CMat N) (med : List Nat)
    (data : List (Rec N)) (b j : Nat) : Cnt (L × List Nat × List (Rec N)) := do
  rassert (b < med.length) "invalid medoid number"
  rassert (j < mat.len) "invalid object number"
  let med ← setIdx med b j
  let rs ← mapC w (doSwapRecC (L := L) w mat med b j) data.zipIdx
  let loss ← unwrapOpt (reduceAdd (rs.map (·.2)))
  pure (loss, med, rs.map (·.1))

/-- the inner loop of `fasterpam` -/
def fpPassC (w : Weights) (mat : CMat N) : List Nat → FPState N L → Cnt (FPState N L)
  | [], s => pure s
  | j :: js, s => do
    Cnt.tick w.step
    if j = s.lastswap then pure s
    else
      let own ← isOwnMedoid s.med s.data j
      if own then fpPassC w mat js s
      else
        let (change, b) ← findBestSwapC w mat s.rem s.data j
        if rge change RLoss.zero then fpPassC w mat js s
        else
          let (loss, med, data) ← doSwapC L w mat s.med s.data b j
          let rem ← updateRemovalLossC L w data s.rem.length
          fpPassC w mat js ⟨med, data, rem, loss, j, s.nSwaps + 1⟩

/-- the outer loop of `fasterpam` -/
def fpLoopC (w : Weights) (mat : CMat N) (seq : List Nat) :
    Nat → Nat → FPState N L → Cnt (FPState N L × Nat)
  | 0, iter, s => pure (s, iter)
  | fuel + 1, iter, s => do
    Cnt.tick w.step
    let s' ← fpPassC w mat seq s
    if s'.nSwaps == s.nSwaps || rge s'.loss s.loss then pure (s', iter + 1)
    else fpLoopC w mat seq fuel (iter + 1) s'

/-- `partitionSum` -/
def partitionSumC (L : Type) [RLoss L] [RFrom N L] (w : Weights) (mat : CMat N) (assi : List Nat)
    (m c : Nat) : Cnt L :=
  foldC w (fun (sum : L) (p : Nat × Nat) =>
    if p.2 ≠ c ∧ p.1 = m then do
      let x ← mat.get c p.2
      pure (RLoss.add sum (conv x))
    else pure sum) RLoss.zero assi.zipIdx

/-- `chooseMedoidStep` -/
def chooseMedoidStepC (w : Weights) (mat : CMat N) (assi : List Nat) (m first : Nat)
    (st : Nat × L) (p : Nat × Nat) : Cnt (Nat × L) :=
  if p.2 ≠ first ∧ p.1 = m then do
    let sumj ← partitionSumC L w mat assi m p.2
    pure (if rlt sumj st.2 then (p.2, sumj) else st)
  else pure st

/-- `choose_medoid_within_partition` -/
def chooseMedoidWithinPartitionC (L : Type) [RLoss L] [RFrom N L] (w : Weights)
    (mat : CMat N) (assi : List Nat) (med : List Nat) (m : Nat) :
    Cnt ((Bool × L) × List Nat) := do
  let first ← idx med m
  let sumb ← partitionSumC L w mat assi m first
  let r ← foldC w (chooseMedoidStepC w mat assi m first) (first, sumb) assi.zipIdx
  let med ← setIdx med m r.1
  pure ((r.1 != first, r.2), med)

/-- the treatment of `k == 1`; filling `assi` costs one step for each object -/
def singleClusterC (L : Type) [RLoss L] [RFrom N L] (w : Weights) (mat : CMat N) (med : List Nat) :
    Cnt (SwapResult L) := do
  Cnt.tick (mat.len * w.step)
  let assi := List.replicate mat.len 0
  let r ← chooseMedoidWithinPartitionC L w mat assi med 0
  pure ⟨r.1.2, assi, 1, if r.1.1 then 1 else 0, r.2⟩

/-- `rand_fasterpam`; the final `collect` costs one step for each object -/
def randFasterpamC (L : Type) [RLoss L] [RFrom N L] (w : Weights) (mat : CMat N) (med : List Nat)
    (maxiter : Nat) (seq : List Nat) : Cnt (SwapResult L) :=
  if med.length = 1 then singleClusterC L w mat med
  else do
    let (loss, data) ← initialAssignmentC L w mat med
    let rem ← updateRemovalLossC L w data med.length
    let (s, iter) ← fpLoopC w mat seq maxiter 0 ⟨med, data, rem, loss, mat.len, 0⟩
    Cnt.tick (s.data.length * w.step)
    pure ⟨s.loss, s.data.map (·.near.i), iter, s.nSwaps, s.med⟩

/-- `fasterpam` -/
def fasterpamC (L : Type) [RLoss L] [RFrom N L] (w : Weights) (mat : CMat N) (med : List Nat)
    (maxiter : Nat) : Cnt (SwapResult L) :=
  if med.length = 1 then singleClusterC L w mat med
  else do
    let (loss, data) ← initialAssignmentC L w mat med
    let rem ← updateRemovalLossC L w data med.length
    let (s, iter) ← fpLoopC w mat (List.range mat.len) maxiter 0 ⟨med, data, rem, loss, mat.len, 0⟩
    Cnt.tick (s.data.length * w.step)
    pure ⟨s.loss, s.data.map (·.near.i), iter, s.nSwaps, s.med⟩

/-- body of the `for j` loop of `fastpam1` -/
def fastpam1ScanStepC (w : Weights) (mat : CMat N) (med : List Nat) (data : List (Rec N)) (rem : List L)
    (best : L × Nat × Nat) (j : Nat) : Cnt (L × Nat × Nat) := do
  let own ← isOwnMedoid med data j
  if own then pure best
  else
    let (change, b) ← findBestSwapC w mat rem data j
    pure (if rge change best.1 then best else (change, b, j))

/-- the loop of `fastpam1` -/
def fastpam1LoopC (w : Weights) (mat : CMat N) (k : Nat) :
    Nat → Nat → PState N L → Cnt (PState N L × Nat)
  | 0, iter, s => pure (s, iter)
  | fuel + 1, iter, s => do
    Cnt.tick w.step
    let rem ← updateRemovalLossC L w s.data k
    let best ← foldC w (fastpam1ScanStepC w mat s.med s.data rem) ((RLoss.zero : L), usizeMax, usizeMax)
      (List.range mat.len)
    if rlt best.1 RLoss.zero then
      let (newloss, med, data) ← doSwapC L w mat s.med s.data best.2.1 best.2.2
      if rge newloss s.loss then pure (⟨med, data, s.loss, s.nSwaps + 1⟩, iter + 1)
      else fastpam1LoopC w mat k fuel (iter + 1) ⟨med, data, newloss, s.nSwaps + 1⟩
    else pure (s, iter + 1)

/-- `fastpam1` -/
def fastpam1C (L : Type) [RLoss L] [RFrom N L] (w : Weights) (mat : CMat N) (med : List Nat)
    (maxiter : Nat) : Cnt (SwapResult L) :=
  if med.length = 1 then singleClusterC L w mat med
  else do
    let (loss, data) ← initialAssignmentC L w mat med
    let (s, iter) ← fastpam1LoopC w mat med.length maxiter 0 ⟨med, data, loss, 0⟩
    Cnt.tick (s.data.length * w.step)
    pure ⟨s.loss, s.data.map (·.near.i), iter, s.nSwaps, s.med⟩

/-- inner loop body of `find_best_swap_pam` -/
def findBestSwapPamStepC (mat : CMat N) (m j : Nat) (acc : L) (p : Rec N × Nat) : Cnt L :=
  if p.2 = j then pure acc
  else do
    let doj ← mat.get p.2 j
    if p.1.near.i = m then
      if rlt doj p.1.seco.d then
        pure (RLoss.add acc (RLoss.sub (conv doj) (conv p.1.near.d)))
      else
        pure (RLoss.add acc (RLoss.sub (conv p.1.seco.d) (conv p.1.near.d)))
    else if rlt doj p.1.near.d then
      pure (RLoss.add acc (RLoss.sub (conv doj) (conv p.1.near.d)))
    else pure acc

/-- `find_best_swap_pam` -/
def findBestSwapPamC (L : Type) [RLoss L] [RFrom N L] (w : Weights) (mat : CMat N) (med : List Nat)
    (data : List (Rec N)) (j : Nat) : Cnt (L × Nat) := do
  let recj ← idx data j
  foldC w (fun (best : L × Nat) (m : Nat) => do
    let acc ← foldC w (findBestSwapPamStepC mat m j) (RLoss.neg (conv recj.near.d) : L) data.zipIdx
    pure (if rlt acc best.1 then (acc, m) else best))
    (RLoss.zero, usizeMax) (List.range med.length)

/-- body of the `for j` loop of `pam_optimize` -/
def pamScanStepC (w : Weights) (mat : CMat N) (med : List Nat) (data : List (Rec N))
    (best : L × Nat × Nat) (j : Nat) : Cnt (L × Nat × Nat) := do
  let own ← isOwnMedoid med data j
  if own then pure best
  else
    let (change, b) ← findBestSwapPamC L w mat med data j
    pure (if rge change best.1 then best else (change, b, j))

/-- the loop of `pam_optimize` -/
def pamLoopC (w : Weights) (mat : CMat N) (k : Nat) :
    Nat → Nat → PState N L → Cnt (PState N L × Nat)
  | 0, iter, s => pure (s, iter)
  | fuel + 1, iter, s => do
    Cnt.tick w.step
    let best ← foldC w (pamScanStepC w mat s.med s.data) ((RLoss.zero : L), k, usizeMax)
      (List.range mat.len)
    if rlt best.1 RLoss.zero then
      let (newloss, med, data) ← doSwapC L w mat s.med s.data best.2.1 best.2.2
      if rge newloss s.loss then pure (⟨med, data, s.loss, s.nSwaps + 1⟩, iter + 1)
      else pamLoopC w mat k fuel (iter + 1) ⟨med, data, newloss, s.nSwaps + 1⟩
    else pure (s, iter + 1)

/-- `pam_optimize` -/
def pamOptimizeC (w : Weights) (mat : CMat N) (med : List Nat) (data : List (Rec N)) (maxiter : Nat)
    (loss : L) : Cnt (SwapResult L) :=
  if med.length = 1 then singleClusterC L w mat med
  else do
    let (s, iter) ← pamLoopC w mat med.length maxiter 0 ⟨med, data, loss, 0⟩
    Cnt.tick (s.data.length * w.step)
    pure ⟨s.loss, s.data.map (·.near.i), iter, s.nSwaps, s.med⟩

/-- `pam_swap` -/
def pamSwapC (L : Type) [RLoss L] [RFrom N L] (w : Weights) (mat : CMat N) (med : List Nat)
    (maxiter : Nat) : Cnt (SwapResult L) := do
  let (loss, data) ← initialAssignmentC L w mat med
  pamOptimizeC w mat med data maxiter loss

/-- `buildFirstSum` -/
def buildFirstSumC (L : Type) [RLoss L] [RFrom N L] (w : Weights) (mat : CMat N) (i : Nat) : Cnt L :=
  foldC w (fun (sum : L) (j : Nat) =>
    if j ≠ i then do
      let x ← mat.get j i
      pure (RLoss.add sum (conv x))
    else pure sum) RLoss.zero (List.range mat.len)

/-- choice of the first medoid in BUILD -/
def buildFirstC (L : Type) [RLoss L] [RFrom N L] (w : Weights) (mat : CMat N) (k : Nat) : Cnt (L × Nat) :=
  foldC w (fun (best : L × Nat) (i : Nat) => do
    let sum ← buildFirstSumC L w mat i
    pure (if i == 0 || rlt sum best.1 then (sum, i) else best))
    (RLoss.zero, k) (List.range mat.len)

/-- gain of adding object `i` as medoid -/
def buildSumC (L : Type) [RLoss L] [RFrom N L] (w : Weights) (mat : CMat N) (near : List N) (i : Nat) :
    Cnt L := do
  let di ← idx near i
  foldC w (fun (sum : L) (p : N × Nat) =>
    if p.2 ≠ i then do
      let d ← mat.get p.2 i
      pure (if rlt d p.1 then RLoss.add sum (RLoss.sub (conv d) (conv p.1)) else sum)
    else pure sum) (RLoss.neg (conv di)) near.zipIdx

/-- search for the next medoid -/
def buildNextC (L : Type) [RLoss L] [RFrom N L] (w : Weights) (mat : CMat N) (near : List N) (k : Nat) :
    Cnt (L × Nat) :=
  foldC w (fun (best : L × Nat) (i : Nat) => do
    let sum ← buildSumC L w mat near i
    pure (if i == 0 || rlt sum best.1 then (sum, i) else best))
    (RLoss.zero, k) (List.range near.length)

/-- update of one record in BUILD -/
def buildUpdateRecC (mat : CMat N) (l c : Nat) (p : Rec N × Nat) : Cnt (Rec N) :=
  if p.2 = c then pure { near := .new l RDist.zero, seco := p.1.near }
  else do
    let dj ← mat.get p.2 c
    if rlt dj p.1.near.d then pure { near := .new l dj, seco := p.1.near }
    else if p.1.seco.i == u32Max || rlt dj p.1.seco.d then pure { p.1 with seco := .new l dj }
    else pure p.1

/-- the loop of BUILD -/
def buildLoopC (w : Weights) (mat : CMat N) (k : Nat) :
    List Nat → List Nat → List (Rec N) → L → Cnt (List Nat × List (Rec N) × L)
  | [], meds, data, loss => pure (meds, data, loss)
  | l :: ls, meds, data, loss => do
    Cnt.tick w.step
    let best ← buildNextC L w mat (data.map (·.near.d)) k
    if rge best.1 RLoss.zero then pure (meds, data, loss)
    else
      let data ← mapC w (buildUpdateRecC mat l best.2) data.zipIdx
      buildLoopC w mat k ls (meds ++ [best.2]) data (buildLoss L best.2 data)

/-- `pam_build_initialize` -/
def pamBuildInitializeC (L : Type) [RLoss L] [RFrom N L] (w : Weights) (mat : CMat N) (k : Nat) :
    Cnt (List Nat × List (Rec N) × L) := do
  let s ← mat.isSquare
  rassert s "Dissimilarity matrix is not square"
  let best ← buildFirstC L w mat k
  let data ← mapC w (fun j => do
    let d ← mat.get j best.2
    pure (⟨⟨0, d⟩, ⟨u32Max, RDist.zero⟩⟩ : Rec N)) (List.range mat.len)
  buildLoopC w mat k ((List.range k).drop 1) [best.2] data best.1

/-- `pam_build` -/
def pamBuildC (L : Type) [RLoss L] [RFrom N L] (w : Weights) (mat : CMat N) (k : Nat) :
    Cnt (BuildResult L) := do
  assertSizesC mat k
  let (meds, data, loss) ← pamBuildInitializeC L w mat k
  Cnt.tick (data.length * w.step)
  pure ⟨loss, data.map (·.near.i), meds⟩

/-- `pam` -/
def pamC (L : Type) [RLoss L] [RFrom N L] (w : Weights) (mat : CMat N) (k maxiter : Nat) :
    Cnt (SwapResult L) := do
  assertSizesC mat k
  let (meds, data, loss) ← pamBuildInitializeC L w mat k
  pamOptimizeC w mat meds data maxiter loss

/-- `assignNearestRec` -/
def assignNearestRecC (w : Weights) (mat : CMat N) (med : List Nat) (firstcenter i : Nat) :
    Cnt (Nat × N) := do
  let d ← mat.get i firstcenter
  foldC w (fun (best : Nat × N) (p : Nat × Nat) => do
    let dm ← mat.get i p.1
    pure (if rlt dm best.2 || i == p.1 then (p.2, dm) else best))
    (0, d) (med.zipIdx.drop 1)

/-- `assign_nearest` -/
def assignNearestC (L : Type) [RLoss L] [RFrom N L] (w : Weights) (mat : CMat N) (med : List Nat) :
    Cnt (L × List Nat) := do
  assertSizesC mat med.length
  let firstcenter ← idx med 0
  let rs ← mapC w (assignNearestRecC w mat med firstcenter) (List.range mat.len)
  let loss := (reduceAdd (rs.map fun r => (conv r.2 : L))).getD RLoss.zero
  pure (loss, rs.map (·.1))

/-- the loop over all partitions -/
def alternatingUpdateC (L : Type) [RLoss L] [RFrom N L] (w : Weights) (mat : CMat N) (assi : List Nat)
    (med : List Nat) : Cnt (Bool × List Nat) :=
  foldC w (fun (st : Bool × List Nat) (i : Nat) => do
    let r ← chooseMedoidWithinPartitionC L w mat assi st.2 i
    pure (st.1 || r.1.1, r.2)) (false, med) (List.range med.length)

/-- the loop of `alternating` -/
def alternatingLoopC (w : Weights) (mat : CMat N) :
    Nat → Nat → L → List Nat → List Nat → Cnt (AltResult L)
  | 0, iter, loss, assi, med => pure ⟨loss, assi, iter, med⟩
  | fuel + 1, iter, loss, assi, med => do
    Cnt.tick w.step
    let r ← alternatingUpdateC L w mat assi med
    if !r.1 then pure ⟨loss, assi, iter + 1, r.2⟩
    else
      let (loss, assi) ← assignNearestC L w mat r.2
      alternatingLoopC w mat fuel (iter + 1) loss assi r.2

/-- `alternating` -/
def alternatingC (L : Type) [RLoss L] [RFrom N L] (w : Weights) (mat : CMat N) (med : List Nat)
    (maxiter : Nat) : Cnt (AltResult L) := do
  let (loss, assi) ← assignNearestC L w mat med
  alternatingLoopC w mat maxiter 0 loss assi med

end KMedoids
