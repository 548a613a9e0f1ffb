import Verif.Model.Assertions

/-!
# A repaired consistency check

Not a model of the code: `debug_assert_assignment_th` (src/util.rs:171-199) reads `med[u32::MAX]` if there are only two medoids (C53).
Here the two checks of the third nearest medoid are made only if there is a third medoid, that is, under `if med.len() > 2`.
-/

namespace KMedoids

variable {N : Type} [RDist N]

/-- The checks for one object; those of the third nearest medoid only if there are three. -/
def fixAssertRecTh (mat : Mat N) (med : List Nat) (data : List (Reco N)) (o : Nat) : Res Unit := do
  let r ← idx data o
  let m ← idx med r.near.i
  let x ← mat.get o m
  rassert (req x r.near.d) "primary assignment inconsistent"
  let m ← idx med r.seco.i
  let x ← mat.get o m
  rassert (req x r.seco.d) "secondary assignment inconsistent"
  rassert (rle r.near.d r.seco.d) "nearest is farther than second nearest"
  if 2 < med.length then
    let m ← idx med r.third.i
    let x ← mat.get o m
    rassert (req x r.third.d) "third assignment inconsistent"
    rassert (rle r.seco.d r.third.d) "second nearest is farther than third nearest"
  else .ok ()

/-- `debug_assert_assignment_th`, repaired. -/
def fixAssertAssignmentTh (mat : Mat N) (med : List Nat) (data : List (Reco N)) : Res Unit :=
  foldRes (fun (_ : Unit) o => fixAssertRecTh mat med data o) () (List.range mat.len)

variable {L : Type} [RLoss L] [RFrom N L]

/-- `fastermsc` with the repaired check. -/
def fastermscAFixed (L : Type) [RLoss L] [RFrom N L] (mat : Mat N) (med : List Nat) (maxiter : Nat) : Res (SwapResult L) :=
  if med.length = 1 then singleCluster L mat med
  else if med.length = 2 then fastermscK2 L mat med maxiter
  else do
    let (loss, data) ← mscInitialAssignment L mat med
    fixAssertAssignmentTh mat med data
    let rem ← mscUpdateRemovalLoss L data med.length
    let (s, iter) ← mscLoop mat maxiter 0 ⟨med, data, rem, loss, mat.len, 0⟩
    .ok ⟨toSilhouette s.loss mat.len, s.data.map (·.near.i), iter, s.nSwaps, s.med⟩

/-- `fastmsc` with the repaired check. -/
def fastmscAFixed (L : Type) [RLoss L] [RFrom N L] (mat : Mat N) (med : List Nat) (maxiter : Nat) : Res (SwapResult L) :=
  if med.length = 1 then singleCluster L mat med
  else if med.length = 2 then fastmscK2 L mat med maxiter
  else do
    let (loss, data) ← mscInitialAssignment L mat med
    fixAssertAssignmentTh mat med data
    let (s, iter) ← fastmscLoop mat med.length maxiter 0 ⟨med, data, loss, 0⟩
    .ok ⟨toSilhouette s.loss mat.len, s.data.map (·.near.i), iter, s.nSwaps, s.med⟩

/-- `pammedsil_optimize` with the repaired check. -/
def pammedsilOptimizeAFixed (mat : Mat N) (med : List Nat) (data : List (Reco N)) (maxiter : Nat) (loss : L) :
    Res (SwapResult L) :=
  if med.length = 1 then singleCluster L mat med
  else do
    fixAssertAssignmentTh mat med data
    let (s, iter) ← pmsLoop mat med.length maxiter 0 ⟨med, data, loss, 0⟩
    .ok ⟨toSilhouette s.loss mat.len, s.data.map (·.near.i), iter, s.nSwaps, s.med⟩

/-- `pammedsil_swap` with the repaired check. -/
def pammedsilSwapAFixed (L : Type) [RLoss L] [RFrom N L] (mat : Mat N) (med : List Nat) (maxiter : Nat) : Res (SwapResult L) := do
  let (loss, data) ← mscInitialAssignment L mat med
  pammedsilOptimizeAFixed mat med data maxiter loss

/-- `pammedsil` with the repaired check. -/
def pammedsilAFixed (L : Type) [RLoss L] [RFrom N L] (mat : Mat N) (k maxiter : Nat) : Res (SwapResult L) := do
  assertSizes mat k
  let (meds, data, loss) ← pammedsilBuildInitialize L mat k
  pammedsilOptimizeAFixed mat meds data maxiter loss

/-- `dynmsc` with the repaired check. -/
def dynmscAFixed (L : Type) [RLoss L] [RFrom N L] (mat : Mat N) (med : List Nat) (mink maxiter : Nat) : Res (DynResult L) := do
  let k := med.length
  let minK := min (max mink 1) k
  if k = 1 then
    let assi := List.replicate mat.len 0
    let r ← chooseMedoidWithinPartition L mat assi med 0
    .ok ⟨r.1.2, assi, 1, if r.1.1 then 1 else 0, r.2, [r.1.2]⟩
  else
    let (loss, data) ← mscInitialAssignment L mat med
    fixAssertAssignmentTh mat med data
    let s ← dynLoop mat maxiter minK k
      { med := med, data := data, rem := List.replicate k RLoss.zero, loss := loss
        bestLoss := RLoss.zero, retAssi := [0, mat.len], retMeds := med, retIter := 0, retSwaps := 0
        retLoss := List.replicate (k - minK + 1) RLoss.zero }
    dynFinish mat maxiter minK s

end KMedoids
