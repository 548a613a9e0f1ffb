import Verif.Model.FasterPam

/-! # Model of `src/alternating.rs` -/

namespace KMedoids

variable {N L : Type} [RDist N] [RLoss L] [RFrom N L]
open RFrom (conv)

/-- Closure of `assign_nearest` (src/alternating.rs:82-92): `(label, distance)` of object `i`. -/
def assignNearestRec (mat : Mat N) (med : List Nat) (firstcenter i : Nat) : Res (Nat × N) := do
  let d ← mat.get i firstcenter
  foldRes (fun (best : Nat × N) (p : Nat × Nat) => do
    let dm ← mat.get i p.1
    .ok (if rlt dm best.2 || i == p.1 then (p.2, dm) else best))
    (0, d) (med.zipIdx.drop 1)

/-- `assign_nearest` (src/alternating.rs:63-95). The slice `data` always has length `mat.len()` at the
call sites; it is overwritten completely, so the model returns a fresh list. -/
def assignNearest (L : Type) [RLoss L] [RFrom N L] (mat : Mat N) (med : List Nat) :
    Res (L × List Nat) := do
  assertSizes mat med.length
  let firstcenter ← idx med 0
  let rs ← mapRes (assignNearestRec mat med firstcenter) (List.range mat.len)
  let loss := (reduceAdd (rs.map fun r => (conv r.2 : L))).getD RLoss.zero
  .ok (loss, rs.map (·.1))

/-- What `alternating` returns, plus the final medoids. -/
structure AltResult (L : Type) where
  /-- loss -/
  loss : L
  /-- assignment -/
  assi : List Nat
  /-- iterations -/
  nIter : Nat
  /-- medoids -/
  med : List Nat
  deriving DecidableEq, Repr

/-- The loop over all partitions (src/alternating.rs:51-54); state `(changed, med)`. -/
def alternatingUpdate (L : Type) [RLoss L] [RFrom N L] (mat : Mat N) (assi : List Nat)
    (med : List Nat) : Res (Bool × List Nat) :=
  foldRes (fun (st : Bool × List Nat) (i : Nat) => do
    let r ← chooseMedoidWithinPartition L mat assi st.2 i
    .ok (st.1 || r.1.1, r.2)) (false, med) (List.range med.length)

/-- The `while` loop of `alternating` (src/alternating.rs:49-59). -/
def alternatingLoop (mat : Mat N) : Nat → Nat → L → List Nat → List Nat → Res (AltResult L)
  | 0, iter, loss, assi, med => .ok ⟨loss, assi, iter, med⟩
  | fuel + 1, iter, loss, assi, med => do
    let r ← alternatingUpdate L mat assi med
    if !r.1 then .ok ⟨loss, assi, iter + 1, r.2⟩
    else
      let (loss, assi) ← assignNearest L mat r.2
      alternatingLoop mat fuel (iter + 1) loss assi r.2

/-- `alternating` (src/alternating.rs:40-61). -/
def alternating (L : Type) [RLoss L] [RFrom N L] (mat : Mat N) (med : List Nat) (maxiter : Nat) :
    Res (AltResult L) := do
  let (loss, assi) ← assignNearest L mat med
  alternatingLoop mat maxiter 0 loss assi med

end KMedoids
