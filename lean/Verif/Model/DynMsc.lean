import Verif.Model.FasterMsc

/-! # Model of `src/dynmsc.rs` -/

namespace KMedoids

variable {N L : Type} [RDist N] [RLoss L] [RFrom N L]
open RFrom (conv)

/-- `update_third_nearest_without_new` (src/dynmsc.rs:151-178). `b` doubles as "nothing found yet". -/
def updateThirdNearestWithoutNew (mat : Mat N) (med : List Nat) (n s b o : Nat) :
    Res (DistancePair N) :=
  foldRes (fun (dist : DistancePair N) (p : Nat × Nat) =>
    if p.2 = n ∨ p.2 = s then .ok dist
    else do
      let d ← mat.get o p.1
      .ok (if dist.i == asU32 b || rlt d dist.d then .new p.2 d else dist))
    (.new b RDist.zero) med.zipIdx

/-- `if p.i == l as u32 { p.i = b as u32 }` (src/dynmsc.rs:202-207 and similar). -/
def relabel (l b : Nat) (p : DistancePair N) : DistancePair N :=
  if p.i = asU32 l then { p with i := asU32 b } else p

/-- Closure of `remove_med` (src/dynmsc.rs:199-242) for object `o = p.2`;
`med` is the list after removal, `l` the old last position. -/
def removeMedRec (L : Type) [RLoss L] [RFrom N L] (mat : Mat N) (med : List Nat) (l b : Nat)
    (p : Reco N × Nat) : Res (Reco N × L) := do
  let reco := p.1
  let o := p.2
  let reco ←
    if reco.near.i = asU32 b then do
      let seco := relabel l b reco.seco
      let third := relabel l b reco.third
      let t ← updateThirdNearestWithoutNew mat med seco.i third.i b o
      .ok { near := seco, seco := third, third := t : Reco N }
    else if reco.seco.i = asU32 b then do
      let near := relabel l b reco.near
      let third := relabel l b reco.third
      let t ← updateThirdNearestWithoutNew mat med near.i third.i b o
      .ok { near := near, seco := third, third := t : Reco N }
    else if reco.third.i = asU32 b then do
      let near := relabel l b reco.near
      let seco := relabel l b reco.seco
      let t ← updateThirdNearestWithoutNew mat med near.i seco.i b o
      .ok { near := near, seco := seco, third := t : Reco N }
    else
      .ok { near := relabel l b reco.near, seco := relabel l b reco.seco,
            third := relabel l b reco.third : Reco N }
  .ok (reco, mscLoss L reco.near.d reco.seco.d)

/-- `remove_med` (src/dynmsc.rs:180-246); returns `(loss, med, data)`. -/
def removeMed (L : Type) [RLoss L] [RFrom N L] (mat : Mat N) (med : List Nat)
    (data : List (Reco N)) (b : Nat) : Res (L × List Nat × List (Reco N)) := do
  if med.length = 0 then .error .arith   -- `med.len() - 1` underflows
  let l := med.length - 1
  rassert (b < med.length) "invalid medoid number"
  let ml ← idx med l
  let med ← setIdx med b ml
  let med := med.eraseIdx l
  let rs ← mapRes (removeMedRec L mat med l b) data.zipIdx
  let loss ← unwrapOpt (reduceAdd (rs.map (·.2)))
  .ok (loss, med, rs.map (·.1))

/-- Choice of the medoid to remove (src/dynmsc.rs:115-120): position of the smallest entry. -/
def chooseRemoval (rem : List L) : L × Nat :=
  rem.zipIdx.foldl (fun (r : L × Nat) p => if p.2 == 0 || rlt p.1 r.1 then p else r)
    (RLoss.zero, usizeMax)

/-- Variables of `dynmsc` that live across the `while k >= 3` loop. -/
structure DynState (N L : Type) where
  /-- `med` -/
  med : List Nat
  /-- `data` -/
  data : List (Reco N)
  /-- `removal_loss` -/
  rem : List L
  /-- `loss` -/
  loss : L
  /-- `best_loss` -/
  bestLoss : L
  /-- `return_assi` -/
  retAssi : List Nat
  /-- `return_meds` -/
  retMeds : List Nat
  /-- `return_iter` -/
  retIter : Nat
  /-- `return_swaps` -/
  retSwaps : Nat
  /-- `return_loss` -/
  retLoss : List L

/-- One round of the `while k >= 3 && k >= minimum_k` loop (src/dynmsc.rs:87-133). -/
def dynRound (mat : Mat N) (maxiter minK : Nat) (s : DynState N L) : Res (DynState N L) := do
  let k := s.med.length
  let rem ← mscUpdateRemovalLoss L s.data s.rem.length
  let (m, iter) ← mscLoop mat maxiter 0 ⟨s.med, s.data, rem, s.loss, mat.len, 0⟩
  let r := chooseRemoval m.rem
  let loss := toSilhouette m.loss mat.len
  let retLoss ← setIdx s.retLoss (k - minK) loss
  let better := rgt loss s.bestLoss
  let (loss', med, data) ← removeMed L mat m.med m.data r.2
  if r.2 < m.rem.length then
    .ok { med := med, data := data, rem := m.rem.eraseIdx r.2, loss := loss'
          bestLoss := if better then loss else s.bestLoss
          retAssi := if better then m.data.map (·.near.i) else s.retAssi
          retMeds := if better then m.med else s.retMeds
          retIter := s.retIter + iter, retSwaps := s.retSwaps + m.nSwaps, retLoss := retLoss }
  else .error .index   -- `removal_loss.remove`

/-- The `while k >= 3 && k >= minimum_k` loop (src/dynmsc.rs:86-134). Fuel: `k` decreases by one each
round, so the initial `k` is enough fuel. -/
def dynLoop (mat : Mat N) (maxiter minK : Nat) : Nat → DynState N L → Res (DynState N L)
  | 0, s => .ok s
  | fuel + 1, s =>
    if 3 ≤ s.med.length ∧ minK ≤ s.med.length then do
      let s ← dynRound mat maxiter minK s
      dynLoop mat maxiter minK fuel s
    else .ok s

/-- What `dynmsc` returns. -/
structure DynResult (L : Type) where
  /-- loss -/
  loss : L
  /-- assignment -/
  assi : List Nat
  /-- iterations -/
  nIter : Nat
  /-- swaps -/
  nSwap : Nat
  /-- medoids -/
  med : List Nat
  /-- loss per number of clusters -/
  losses : List L
  deriving DecidableEq, Repr

/-- The part for `k = 2` and `k = 1` after the loop (src/dynmsc.rs:135-149). -/
def dynFinish (mat : Mat N) (maxiter minK : Nat) (s : DynState N L) : Res (DynResult L) := do
  let s ←
    if minK ≤ 2 then do
      let r ← fastermscK2 L mat s.med maxiter
      let retLoss ← setIdx s.retLoss (2 - minK) r.loss
      let better := rgt r.loss s.bestLoss
      .ok { s with
        med := r.med
        bestLoss := if better then r.loss else s.bestLoss
        retAssi := if better then r.assi else s.retAssi
        retMeds := if better then r.med else s.retMeds
        retIter := s.retIter + r.nIter, retSwaps := s.retSwaps + r.nSwap, retLoss := retLoss }
    else .ok s
  let retLoss ← if minK ≤ 1 then setIdx s.retLoss 0 RLoss.zero else .ok s.retLoss
  .ok ⟨s.bestLoss, s.retAssi, s.retIter, s.retSwaps, s.retMeds, retLoss⟩

/-- `dynmsc` (src/dynmsc.rs:53-149). Note `return_assi = vec![0, n]` (two elements). -/
def dynmsc (L : Type) [RLoss L] [RFrom N L] (mat : Mat N) (med : List Nat) (mink maxiter : Nat) :
    Res (DynResult L) := do
  let k := med.length
  let minK := min (max mink 1) k
  if k = 1 then
    let assi := List.replicate mat.len 0
    let r ← chooseMedoidWithinPartition L mat assi med 0
    .ok ⟨r.1.2, assi, 1, if r.1.1 then 1 else 0, r.2, [r.1.2]⟩
  else
    let (loss, data) ← mscInitialAssignment L mat med
    let s ← dynLoop mat maxiter minK k
      { med := med, data := data, rem := List.replicate k RLoss.zero, loss := loss
        bestLoss := RLoss.zero, retAssi := [0, mat.len], retMeds := med, retIter := 0, retSwaps := 0
        retLoss := List.replicate (k - minK + 1) RLoss.zero }
    dynFinish mat maxiter minK s

end KMedoids
