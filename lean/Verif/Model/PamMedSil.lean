import Verif.Model.FastMsc
import Verif.Model.Pam

/-! # Model of `src/pammedsil.rs` -/

namespace KMedoids

variable {N L : Type} [RDist N] [RLoss L] [RFrom N L]
open RFrom (conv)

/-- Inner loop body of `find_best_swap_pammedsil` (src/pammedsil.rs:176-207). -/
def pmsStep (mat : Mat N) (m j : Nat) (acc : L) (p : Reco N × Nat) : Res L :=
  if p.2 = j then .ok acc
  else do
    let doj ← mat.get p.2 j
    let n := p.1.near
    let s := p.1.seco
    let t := p.1.third
    let cur := mscLoss L n.d s.d
    if n.i = m then
      if rlt doj s.d then .ok (RLoss.add acc (RLoss.sub cur (mscLoss L doj s.d)))
      else if rlt doj t.d then .ok (RLoss.add acc (RLoss.sub cur (mscLoss L s.d doj)))
      else .ok (RLoss.add acc (RLoss.sub cur (mscLoss L s.d t.d)))
    else if s.i = m then
      if rlt doj n.d then .ok (RLoss.add acc (RLoss.sub cur (mscLoss L doj n.d)))
      else if rlt doj t.d then .ok (RLoss.add acc (RLoss.sub cur (mscLoss L n.d doj)))
      else .ok (RLoss.add acc (RLoss.sub cur (mscLoss L n.d t.d)))
    else
      if rlt doj n.d then .ok (RLoss.add acc (RLoss.sub cur (mscLoss L doj n.d)))
      else if rlt doj s.d then .ok (RLoss.add acc (RLoss.sub cur (mscLoss L n.d doj)))
      else .ok acc

/-- Inner loop body of `find_best_swap_pammedsil_k2` (src/pammedsil.rs:227-254). -/
def pmsStepK2 (mat : Mat N) (m j : Nat) (acc : L) (p : Reco N × Nat) : Res L :=
  if p.2 = j then .ok acc
  else do
    let doj ← mat.get p.2 j
    let n := p.1.near
    let s := p.1.seco
    let cur := mscLoss L n.d s.d
    if n.i = m then
      if rlt doj s.d then .ok (RLoss.add acc (RLoss.sub cur (mscLoss L doj s.d)))
      else .ok (RLoss.add acc (RLoss.sub cur (mscLoss L s.d doj)))
    else if s.i = m then
      if rlt doj n.d then .ok (RLoss.add acc (RLoss.sub cur (mscLoss L doj n.d)))
      else .ok (RLoss.add acc (RLoss.sub cur (mscLoss L n.d doj)))
    else
      if rlt doj n.d then .ok (RLoss.add acc (RLoss.sub cur (mscLoss L doj n.d)))
      else if rlt doj s.d then .ok (RLoss.add acc (RLoss.sub cur (mscLoss L n.d doj)))
      else .ok acc

/-- `find_best_swap_pammedsil` (src/pammedsil.rs:164-213) and `find_best_swap_pammedsil_k2`
(src/pammedsil.rs:215-260): same outer code around the two step functions. -/
def pmsFindBestSwap (L : Type) [RLoss L] [RFrom N L]
    (step : Mat N → Nat → Nat → L → Reco N × Nat → Res L) (mat : Mat N) (med : List Nat)
    (data : List (Reco N)) (j : Nat) : Res (L × Nat) := do
  let recj ← idx data j
  foldRes (fun (best : L × Nat) (m : Nat) => do
    let acc ← foldRes (step mat m j) (mscLoss L recj.near.d recj.seco.d) data.zipIdx
    .ok (if rgt acc best.1 then (acc, m) else best))
    (RLoss.zero, usizeMax) (List.range med.length)

/-- Body of the `for j` loop of `pammedsil_optimize` (src/pammedsil.rs:133-146). -/
def pmsScanStep (mat : Mat N) (k : Nat) (med : List Nat) (data : List (Reco N))
    (best : L × Nat × Nat) (j : Nat) : Res (L × Nat × Nat) := do
  let own ← mscIsOwnMedoid med data j
  if own then .ok best
  else
    let (change, b) ←
      if k = 2 then pmsFindBestSwap L pmsStepK2 mat med data j
      else pmsFindBestSwap L pmsStep mat med data j
    .ok (if rle change best.1 then best else (change, b, j))

/-- The `while` loop of `pammedsil_optimize` (src/pammedsil.rs:130-158). -/
def pmsLoop (mat : Mat N) (k : Nat) : Nat → Nat → MPState N L → Res (MPState N L × Nat)
  | 0, iter, s => .ok (s, iter)
  | fuel + 1, iter, s => do
    let best ← foldRes (pmsScanStep mat k s.med s.data) ((RLoss.zero : L), k, usizeMax)
      (List.range mat.len)
    if rgt best.1 RLoss.zero then
      let (newloss, med, data) ← mscDoSwap L mat s.med s.data best.2.1 best.2.2
      if rge newloss s.loss then .ok (⟨med, data, s.loss, s.nSwaps + 1⟩, iter + 1)
      else pmsLoop mat k fuel (iter + 1) ⟨med, data, newloss, s.nSwaps + 1⟩
    else .ok (s, iter + 1)

/-- `pammedsil_optimize` (src/pammedsil.rs:109-162). -/
def pammedsilOptimize (mat : Mat N) (med : List Nat) (data : List (Reco N)) (maxiter : Nat)
    (loss : L) : Res (SwapResult L) :=
  if med.length = 1 then singleCluster L mat med
  else do
    let (s, iter) ← pmsLoop mat med.length maxiter 0 ⟨med, data, loss, 0⟩
    .ok ⟨toSilhouette s.loss mat.len, s.data.map (·.near.i), iter, s.nSwaps, s.med⟩

/-- `pammedsil_swap` (src/pammedsil.rs:49-61). -/
def pammedsilSwap (L : Type) [RLoss L] [RFrom N L] (mat : Mat N) (med : List Nat) (maxiter : Nat) :
    Res (SwapResult L) := do
  let (loss, data) ← mscInitialAssignment L mat med
  pammedsilOptimize mat med data maxiter loss

/-- Search for the next medoid (src/pammedsil.rs:295-309): note `.skip(1)`, object 0 is never
considered. -/
def pmsBuildNext (L : Type) [RLoss L] [RFrom N L] (mat : Mat N) (near : List N) (k : Nat) :
    Res (L × Nat) :=
  foldRes (fun (best : L × Nat) (i : Nat) => do
    let sum ← buildSum L mat near i
    .ok (if i == 0 || rlt sum best.1 then (sum, i) else best))
    (RLoss.zero, k) ((List.range near.length).drop 1)

/-- Update of one record after medoid number `l` (object `c`) was added (src/pammedsil.rs:313-330). -/
def pmsBuildUpdateRec (mat : Mat N) (l c : Nat) (p : Reco N × Nat) : Res (Reco N) :=
  let r := p.1
  if p.2 = c then .ok { near := .new l RDist.zero, seco := r.near, third := r.seco }
  else do
    let dj ← mat.get p.2 c
    if rlt dj r.near.d then .ok { near := .new l dj, seco := r.near, third := r.seco }
    else if r.seco.i == u32Max || rlt dj r.seco.d then
      .ok { r with seco := .new l dj, third := r.seco }
    else if r.third.i == u32Max || rlt dj r.third.d then .ok { r with third := .new l dj }
    else .ok r

/-- Loss recomputation in BUILD (src/pammedsil.rs:312, 331). -/
def pmsBuildLoss (L : Type) [RLoss L] [RFrom N L] (data : List (Reco N)) : L :=
  data.foldl (fun (loss : L) r => RLoss.add loss (mscLoss L r.near.d r.seco.d)) RLoss.zero

/-- The loop `for l in 1..k` (src/pammedsil.rs:294-334). -/
def pmsBuildLoop (mat : Mat N) (k : Nat) :
    List Nat → List Nat → List (Reco N) → L → Res (List Nat × List (Reco N) × L)
  | [], meds, data, loss => .ok (meds, data, loss)
  | l :: ls, meds, data, loss => do
    let best ← pmsBuildNext L mat (data.map (·.near.d)) k
    if rge best.1 RLoss.zero then .ok (meds, data, loss)
    else
      let data ← mapRes (pmsBuildUpdateRec mat l best.2) data.zipIdx
      pmsBuildLoop mat k ls (meds ++ [best.2]) data (pmsBuildLoss L data)

/-- `pammedsil_build_initialize` (src/pammedsil.rs:262-336). The search for the first medoid
(src/pammedsil.rs:276-287) is the same code as in `pam_build_initialize`. -/
def pammedsilBuildInitialize (L : Type) [RLoss L] [RFrom N L] (mat : Mat N) (k : Nat) :
    Res (List Nat × List (Reco N) × L) := do
  let best ← buildFirst L mat k
  let data ← mapRes (fun j => do
    let d ← mat.get j best.2
    .ok (⟨⟨0, d⟩, ⟨u32Max, RDist.zero⟩, ⟨u32Max, RDist.zero⟩⟩ : Reco N)) (List.range mat.len)
  pmsBuildLoop mat k ((List.range k).drop 1) [best.2] data best.1

/-- `pammedsil` (src/pammedsil.rs:91-107). -/
def pammedsil (L : Type) [RLoss L] [RFrom N L] (mat : Mat N) (k maxiter : Nat) :
    Res (SwapResult L) := do
  assertSizes mat k
  let (meds, data, loss) ← pammedsilBuildInitialize L mat k
  pammedsilOptimize mat meds data maxiter loss

end KMedoids
