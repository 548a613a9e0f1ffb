import Verif.Model.Pam
import Verif.Model.FastPam1
import Verif.Model.ParFasterPam
import Verif.Model.FastMsc
import Verif.Model.PamMedSil
import Verif.Model.DynMsc

/-!
# The crate feature `assertions`

With the feature `assertions` (Cargo.toml:45) a debug build checks the cache of nearest medoids once,
before the search starts: `debug_assert_assignment` and `debug_assert_assignment_th`
(src/util.rs:145-199). The functions below are the optimisers as compiled with that feature: the same
code, with the check at the place where the source calls it. Without the feature the two helpers have an
empty body, and the optimisers are those of the other model files.
-/

namespace KMedoids

variable {N : Type} [RDist N]

/-- The three checks for one object (src/util.rs:155-166). -/
def debugAssertRec (mat : Mat N) (med : List Nat) (data : List (Rec N)) (o : Nat) : Res Unit := do
  let r ← idx data o
  let m ← idx med r.near.i
  let x ← mat.get o m
  rassert (req x r.near.d) "primary assignment inconsistent"
  let m ← idx med r.seco.i
  let x ← mat.get o m
  rassert (req x r.seco.d) "secondary assignment inconsistent"
  rassert (rle r.near.d r.seco.d) "nearest is farther than second nearest"

/-- `debug_assert_assignment` (src/util.rs:148-168). -/
def debugAssertAssignment (mat : Mat N) (med : List Nat) (data : List (Rec N)) : Res Unit :=
  foldRes (fun (_ : Unit) o => debugAssertRec mat med data o) () (List.range mat.len)

/-- The five checks for one object (src/util.rs:178-197). -/
def debugAssertRecTh (mat : Mat N) (med : List Nat) (data : List (Reco N)) (o : Nat) : Res Unit := do
  let r ← idx data o
  let m ← idx med r.near.i
  let x ← mat.get o m
  rassert (req x r.near.d) "primary assignment inconsistent"
  let m ← idx med r.seco.i
  let x ← mat.get o m
  rassert (req x r.seco.d) "secondary assignment inconsistent"
  let m ← idx med r.third.i
  let x ← mat.get o m
  rassert (req x r.third.d) "third assignment inconsistent"
  rassert (rle r.near.d r.seco.d) "nearest is farther than second nearest"
  rassert (rle r.seco.d r.third.d) "second nearest is farther than third nearest"

/-- `debug_assert_assignment_th` (src/util.rs:171-199). -/
def debugAssertAssignmentTh (mat : Mat N) (med : List Nat) (data : List (Reco N)) : Res Unit :=
  foldRes (fun (_ : Unit) o => debugAssertRecTh mat med data o) () (List.range mat.len)

variable {L : Type} [RLoss L] [RFrom N L]

/-- `rand_fasterpam` with the check at src/fasterpam.rs:139. -/
def randFasterpamA (L : Type) [RLoss L] [RFrom N L] (mat : Mat N) (med : List Nat) (maxiter : Nat)
    (seq : List Nat) : Res (SwapResult L) :=
  if med.length = 1 then singleCluster L mat med
  else do
    let (loss, data) ← initialAssignment L mat med
    debugAssertAssignment mat med data
    let rem ← updateRemovalLoss L data med.length
    let (s, iter) ← fpLoop mat seq maxiter 0 ⟨med, data, rem, loss, mat.len, 0⟩
    .ok ⟨s.loss, s.data.map (·.near.i), iter, s.nSwaps, s.med⟩

/-- `fasterpam` with the check at src/fasterpam.rs:56. -/
def fasterpamA (L : Type) [RLoss L] [RFrom N L] (mat : Mat N) (med : List Nat) (maxiter : Nat) :
    Res (SwapResult L) :=
  if med.length = 1 then singleCluster L mat med
  else do
    let (loss, data) ← initialAssignment L mat med
    debugAssertAssignment mat med data
    let rem ← updateRemovalLoss L data med.length
    let (s, iter) ← fpLoop mat (List.range mat.len) maxiter 0 ⟨med, data, rem, loss, mat.len, 0⟩
    .ok ⟨s.loss, s.data.map (·.near.i), iter, s.nSwaps, s.med⟩

/-- `par_fasterpam` with the check at src/par_fasterpam.rs:61. -/
def parFasterpamA (L : Type) [RLoss L] [RFrom N L] (sc0 : Sched) (scF scS : Nat → Nat → Sched)
    (mat : Mat N) (med : List Nat) (maxiter : Nat) (seq : List Nat) : Res (SwapResult L) :=
  if med.length = 1 then singleCluster L mat med
  else do
    let (loss, data) ← parInitialAssignment L sc0 mat med
    debugAssertAssignment mat med data
    let rem ← updateRemovalLoss L data med.length
    let (s, iter) ← parLoop scF scS mat seq maxiter 0 ⟨med, data, rem, loss, mat.len, 0⟩
    .ok ⟨s.loss, s.data.map (·.near.i), iter, s.nSwaps, s.med⟩

/-- `fastpam1` with the check at src/fastpam1.rs:59. -/
def fastpam1A (L : Type) [RLoss L] [RFrom N L] (mat : Mat N) (med : List Nat) (maxiter : Nat) :
    Res (SwapResult L) :=
  if med.length = 1 then singleCluster L mat med
  else do
    let (loss, data) ← initialAssignment L mat med
    debugAssertAssignment mat med data
    let (s, iter) ← fastpam1Loop mat med.length maxiter 0 ⟨med, data, loss, 0⟩
    .ok ⟨s.loss, s.data.map (·.near.i), iter, s.nSwaps, s.med⟩

/-- `pam_optimize` with the check at src/pam.rs:168. -/
def pamOptimizeA (mat : Mat N) (med : List Nat) (data : List (Rec N)) (maxiter : Nat) (loss : L) :
    Res (SwapResult L) :=
  if med.length = 1 then singleCluster L mat med
  else do
    debugAssertAssignment mat med data
    let (s, iter) ← pamLoop mat med.length maxiter 0 ⟨med, data, loss, 0⟩
    .ok ⟨s.loss, s.data.map (·.near.i), iter, s.nSwaps, s.med⟩

/-- `pam_swap` with the check in `pam_optimize`. -/
def pamSwapA (L : Type) [RLoss L] [RFrom N L] (mat : Mat N) (med : List Nat) (maxiter : Nat) :
    Res (SwapResult L) := do
  let (loss, data) ← initialAssignment L mat med
  pamOptimizeA mat med data maxiter loss

/-- `pam` with the check in `pam_optimize`. -/
def pamA (L : Type) [RLoss L] [RFrom N L] (mat : Mat N) (k maxiter : Nat) : Res (SwapResult L) := do
  assertSizes mat k
  let (meds, data, loss) ← pamBuildInitialize L mat k
  pamOptimizeA mat meds data maxiter loss

/-- `fastermsc` with the check at src/fastermsc.rs:68. -/
def fastermscA (L : Type) [RLoss L] [RFrom N L] (mat : Mat N) (med : List Nat) (maxiter : Nat) :
    Res (SwapResult L) :=
  if med.length = 1 then singleCluster L mat med
  else if med.length = 2 then fastermscK2 L mat med maxiter
  else do
    let (loss, data) ← mscInitialAssignment L mat med
    debugAssertAssignmentTh mat med data
    let rem ← mscUpdateRemovalLoss L data med.length
    let (s, iter) ← mscLoop mat maxiter 0 ⟨med, data, rem, loss, mat.len, 0⟩
    .ok ⟨toSilhouette s.loss mat.len, s.data.map (·.near.i), iter, s.nSwaps, s.med⟩

/-- `fastmsc` with the check at src/fastmsc.rs:63. -/
def fastmscA (L : Type) [RLoss L] [RFrom N L] (mat : Mat N) (med : List Nat) (maxiter : Nat) :
    Res (SwapResult L) :=
  if med.length = 1 then singleCluster L mat med
  else if med.length = 2 then fastmscK2 L mat med maxiter
  else do
    let (loss, data) ← mscInitialAssignment L mat med
    debugAssertAssignmentTh mat med data
    let (s, iter) ← fastmscLoop mat med.length maxiter 0 ⟨med, data, loss, 0⟩
    .ok ⟨toSilhouette s.loss mat.len, s.data.map (·.near.i), iter, s.nSwaps, s.med⟩

/-- `pammedsil_optimize` with the check at src/pammedsil.rs:128. -/
def pammedsilOptimizeA (mat : Mat N) (med : List Nat) (data : List (Reco N)) (maxiter : Nat)
    (loss : L) : Res (SwapResult L) :=
  if med.length = 1 then singleCluster L mat med
  else do
    debugAssertAssignmentTh mat med data
    let (s, iter) ← pmsLoop mat med.length maxiter 0 ⟨med, data, loss, 0⟩
    .ok ⟨toSilhouette s.loss mat.len, s.data.map (·.near.i), iter, s.nSwaps, s.med⟩

/-- `pammedsil_swap` with the check in `pammedsil_optimize`. -/
def pammedsilSwapA (L : Type) [RLoss L] [RFrom N L] (mat : Mat N) (med : List Nat) (maxiter : Nat) :
    Res (SwapResult L) := do
  let (loss, data) ← mscInitialAssignment L mat med
  pammedsilOptimizeA mat med data maxiter loss

/-- `pammedsil` with the check in `pammedsil_optimize`. -/
def pammedsilA (L : Type) [RLoss L] [RFrom N L] (mat : Mat N) (k maxiter : Nat) :
    Res (SwapResult L) := do
  assertSizes mat k
  let (meds, data, loss) ← pammedsilBuildInitialize L mat k
  pammedsilOptimizeA mat meds data maxiter loss

/-- `dynmsc` with the check at src/dynmsc.rs:76. -/
def dynmscA (L : Type) [RLoss L] [RFrom N L] (mat : Mat N) (med : List Nat) (mink maxiter : Nat) :
    Res (DynResult L) := do
  let k := med.length
  let minK := min (max mink 1) k
  if k = 1 then
    let assi := List.replicate mat.len 0
    let r ← chooseMedoidWithinPartition L mat assi med 0
    .ok ⟨r.1.2, assi, 1, if r.1.1 then 1 else 0, r.2, [r.1.2]⟩
  else
    let (loss, data) ← mscInitialAssignment L mat med
    debugAssertAssignmentTh mat med data
    let s ← dynLoop mat maxiter minK k
      { med := med, data := data, rem := List.replicate k RLoss.zero, loss := loss
        bestLoss := RLoss.zero, retAssi := [0, mat.len], retMeds := med, retIter := 0, retSwaps := 0
        retLoss := List.replicate (k - minK + 1) RLoss.zero }
    dynFinish mat maxiter minK s

end KMedoids
