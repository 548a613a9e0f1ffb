import Verif.Model.ArrayAdapter

/-! # Model of `src/util.rs` -/

namespace KMedoids

/-- `DistancePair<N>` (src/util.rs:5-15); `i` is the value of a `u32`. -/
structure DistancePair (N : Type) where
  /-- index -/
  i : Nat
  /-- distance -/
  d : N
  deriving DecidableEq, Repr

/-- `DistancePair::new(b as u32, d)` (src/util.rs:12-14 with the cast at the call sites). -/
def DistancePair.new {N : Type} (b : Nat) (d : N) : DistancePair N := ⟨asU32 b, d⟩

/-- `Rec<N>` (src/util.rs:25-38). -/
structure Rec (N : Type) where
  /-- nearest -/
  near : DistancePair N
  /-- second nearest -/
  seco : DistancePair N
  deriving DecidableEq, Repr

/-- `Reco<N>` (src/util.rs:48-63). -/
structure Reco (N : Type) where
  /-- nearest -/
  near : DistancePair N
  /-- second nearest -/
  seco : DistancePair N
  /-- third nearest -/
  third : DistancePair N
  deriving DecidableEq, Repr

/-- Loop of `find_min` (src/util.rs:83-87). -/
def findMinGo {L : Type} [RPartialOrd L] : List L → Nat → Nat × L → Nat × L
  | [], _, best => best
  | iv :: rest, ik, best => findMinGo rest (ik + 1) (if rlt iv best.2 then (ik, iv) else best)

/-- `find_min` (src/util.rs:74-89). -/
def findMin {L : Type} [RPartialOrd L] : List L → Res (Nat × L)
  | [] => .error .unwrapNone
  | x :: xs => .ok (findMinGo xs 1 (0, x))

/-- Loop of `find_max` (src/util.rs:100-104). -/
def findMaxGo {L : Type} [RPartialOrd L] : List L → Nat → Nat × L → Nat × L
  | [], _, best => best
  | iv :: rest, ik, best => findMaxGo rest (ik + 1) (if rgt iv best.2 then (ik, iv) else best)

/-- `find_max` (src/util.rs:91-106). -/
def findMax {L : Type} [RPartialOrd L] : List L → Res (Nat × L)
  | [] => .error .unwrapNone
  | x :: xs => .ok (findMaxGo xs 1 (0, x))

section
variable {N L : Type} [RDist N] [RLoss L] [RFrom N L]
open RFrom (conv)

/-- The sums in `choose_medoid_within_partition` (src/util.rs:123-128 and 131-136):
sum of `d(c, i)` over the members `i ≠ c` of partition `m`. -/
def partitionSum (L : Type) [RLoss L] [RFrom N L] (mat : Mat N) (assi : List Nat) (m c : Nat) : Res L :=
  foldRes (fun (sum : L) (p : Nat × Nat) =>
    if p.2 ≠ c ∧ p.1 = m then do
      let x ← mat.get c p.2
      .ok (RLoss.add sum (conv x))
    else .ok sum) RLoss.zero assi.zipIdx

/-- Body of the candidate loop (src/util.rs:129-142); state `(best, sumb)`. -/
def chooseMedoidStep (mat : Mat N) (assi : List Nat) (m first : Nat)
    (st : Nat × L) (p : Nat × Nat) : Res (Nat × L) :=
  if p.2 ≠ first ∧ p.1 = m then do
    let sumj ← partitionSum L mat assi m p.2
    .ok (if rlt sumj st.2 then (p.2, sumj) else st)
  else .ok st

/-- `choose_medoid_within_partition` (src/util.rs:108-145).
Returns `(changed, sum)` and the updated medoid list. -/
def chooseMedoidWithinPartition (L : Type) [RLoss L] [RFrom N L]
    (mat : Mat N) (assi : List Nat) (med : List Nat) (m : Nat) :
    Res ((Bool × L) × List Nat) := do
  let first ← idx med m
  let sumb ← partitionSum L mat assi m first
  let r ← foldRes (chooseMedoidStep mat assi m first) (first, sumb) assi.zipIdx
  let med ← setIdx med m r.1
  .ok ((r.1 != first, r.2), med)

end

/-- What the swap-based functions return, plus the final contents of `med: &mut [usize]`. -/
structure SwapResult (L : Type) where
  /-- the loss -/
  loss : L
  /-- the assignment -/
  assi : List Nat
  /-- iterations -/
  nIter : Nat
  /-- swaps -/
  nSwap : Nat
  /-- the medoids after the call -/
  med : List Nat
  deriving DecidableEq, Repr

end KMedoids
