import Verif.Model.Cost
import Verif.Model.FastMsc
import Verif.Model.PamSil
import Verif.Model.DynMsc
import Verif.Model.PamMedSil

/-!
# The work done by the silhouette family

The copy of `fastermsc.rs`, `fastmsc.rs`, `pammedsil.rs`, `dynmsc.rs`, `silhouette.rs` and `pamsil.rs` that
adds up costs in the same way as `Model/Cost.lean`; `Props/C88.lean` proves that the results are the same.
-/

namespace KMedoids

variable {N L : Type} [RDist N] [RLoss L] [RFrom N L]
open RFrom (conv)

/-- `find_max`: one step for each element -/
def findMaxC (w : Weights) (l : List L) : Cnt (Nat × L) := do
  Cnt.tick (l.length * w.step)
  findMax l

/-- `mscInitStep` -/
def mscInitStepC (mat : CMat N) (i : Nat) (cur : Reco N) (p : Nat × Nat) : Cnt (Reco N) := do
  let d ← mat.get i p.1
  if rlt d cur.near.d || i == p.1 then
    pure { near := ⟨asU32 p.2, d⟩, seco := cur.near, third := cur.seco }
  else if cur.seco.i == u32Max || rlt d cur.seco.d then
    pure { cur with seco := ⟨asU32 p.2, d⟩, third := cur.seco }
  else if cur.third.i == u32Max || rlt d cur.third.d then
    pure { cur with third := ⟨asU32 p.2, d⟩ }
  else pure cur

/-- `mscInitRec` -/
def mscInitRecC (w : Weights) (mat : CMat N) (med : List Nat) (firstcenter i : Nat) : Cnt (Reco N) := do
  let d ← mat.get i firstcenter
  foldC w (mscInitStepC mat i) ⟨⟨0, d⟩, ⟨u32Max, RDist.zero⟩, ⟨u32Max, RDist.zero⟩⟩
    (med.zipIdx.drop 1)

/-- `mscInitialAssignment` -/
def mscInitialAssignmentC (L : Type) [RLoss L] [RFrom N L] (w : Weights) (mat : CMat N) (med : List Nat) :
    Cnt (L × List (Reco N)) := do
  assertSizesC mat med.length
  let firstcenter ← idx med 0
  let data ← mapC w (mscInitRecC w mat med firstcenter) (List.range mat.len)
  let loss ← unwrapOpt (reduceAdd (data.map fun r => mscLoss L r.near.d r.seco.d))
  pure (loss, data)

/-- `mscFindStep` -/
def mscFindStepC (mat : CMat N) (j : Nat) (st : List L × L) (p : Reco N × Nat) :
    Cnt (List L × L) := do
  let doj ← mat.get p.2 j
  let n := p.1.near
  let s := p.1.seco
  let t := p.1.third
  if rlt doj n.d then
    let acc := RLoss.add st.2 (RLoss.sub (mscLoss L n.d s.d) (mscLoss L doj n.d))
    let ploss ← addAt st.1 n.i (RLoss.sub (RLoss.add (mscLoss L doj n.d) (mscLoss L s.d t.d))
      (mscLoss L (RDist.add n.d doj) s.d))
    let ploss ← addAt ploss s.i (RLoss.sub (mscLoss L n.d t.d) (mscLoss L n.d s.d))
    pure (ploss, acc)
  else if rlt doj s.d then
    let acc := RLoss.add st.2 (RLoss.sub (mscLoss L n.d s.d) (mscLoss L n.d doj))
    let ploss ← addAt st.1 n.i (RLoss.sub (RLoss.add (mscLoss L n.d doj) (mscLoss L s.d t.d))
      (mscLoss L (RDist.add n.d doj) s.d))
    let ploss ← addAt ploss s.i (RLoss.sub (mscLoss L n.d t.d) (mscLoss L n.d s.d))
    pure (ploss, acc)
  else if rlt doj t.d then
    let ploss ← addAt st.1 n.i (RLoss.sub (mscLoss L s.d t.d) (mscLoss L s.d doj))
    let ploss ← addAt ploss s.i (RLoss.sub (mscLoss L n.d t.d) (mscLoss L n.d doj))
    pure (ploss, st.2)
  else pure st

/-- `mscFindBestSwap`; `removal_loss.to_vec()` costs one step for each medoid -/
def mscFindBestSwapC (w : Weights) (mat : CMat N) (removalLoss : List L) (data : List (Reco N)) (j : Nat) :
    Cnt (L × Nat) := do
  Cnt.tick (removalLoss.length * w.step)
  let st ← foldC w (mscFindStepC mat j) (removalLoss, RLoss.zero) data.zipIdx
  let r ← findMaxC w st.1
  pure (RLoss.add r.2 st.2, r.1)

/-- `mscUpdateRemovalLoss`; clearing the vector costs one step for each medoid -/
def mscUpdateRemovalLossC (L : Type) [RLoss L] [RFrom N L] (w : Weights) (data : List (Reco N)) (k : Nat) :
    Cnt (List L) := do
  Cnt.tick (k * w.step)
  foldC w (fun (loss : List L) (r : Reco N) => do
    let loss ← addAt loss r.near.i
      (RLoss.sub (mscLoss L r.near.d r.seco.d) (mscLoss L r.seco.d r.third.d))
    addAt loss r.seco.i
      (RLoss.sub (mscLoss L r.near.d r.seco.d) (mscLoss L r.near.d r.third.d)))
    (List.replicate k RLoss.zero) data

/-- `updateThirdNearest` -/
def updateThirdNearestC (w : Weights) (mat : CMat N) (med : List Nat) (n s b o : Nat) (doj : N) :
    Cnt (DistancePair N) :=
  foldC w (fun (dist : DistancePair N) (p : Nat × Nat) =>
    if p.2 = n ∨ p.2 = b ∨ p.2 = s then pure dist
    else do
      let d ← mat.get o p.1
      pure (if rlt d dist.d then .new p.2 d else dist))
    (.new b doj) med.zipIdx

/-- `mscSwapRec` -/
def mscSwapRecC (L : Type) [RLoss L] [RFrom N L] (w : Weights) (mat : CMat N) (med : List Nat) (b j : Nat)
    (p : Reco N × Nat) : Cnt (Reco N × L) :=
  let reco := p.1
  let o := p.2
  if o = j then
    let reco :=
      if reco.near.i ≠ asU32 b then
        let reco := if reco.seco.i ≠ asU32 b then { reco with third := reco.seco } else reco
        { reco with seco := reco.near }
      else reco
    pure ({ reco with near := .new b RDist.zero }, RLoss.zero)
  else do
    let doj ← mat.get o j
    let reco ←
      if reco.near.i = asU32 b then
        if rlt doj reco.seco.d then
          pure { reco with near := .new b doj }
        else if reco.third.i == u32Max || rlt doj reco.third.d then
          pure { reco with near := reco.seco, seco := .new b doj }
        else do
          let t ← updateThirdNearestC w mat med reco.seco.i reco.third.i b o doj
          pure { near := reco.seco, seco := reco.third, third := t }
      else if reco.seco.i = asU32 b then
        if rlt doj reco.near.d then
          pure { reco with near := .new b doj, seco := reco.near }
        else if reco.third.i == u32Max || rlt doj reco.third.d then
          pure { reco with seco := .new b doj }
        else do
          let t ← updateThirdNearestC w mat med reco.near.i reco.third.i b o doj
          pure { reco with seco := reco.third, third := t }
      else
        if rlt doj reco.near.d then
          pure { near := .new b doj, seco := reco.near, third := reco.seco }
        else if rlt doj reco.seco.d then
          pure { reco with seco := .new b doj, third := reco.seco }
        else if reco.third.i == u32Max || rlt doj reco.third.d then
          pure { reco with third := .new b doj }
        else if reco.third.i = asU32 b then do
          let t ← updateThirdNearestC w mat med reco.near.i reco.seco.i b o doj
          pure { reco with third := t }
        else pure reco
    pure (reco, mscLoss L reco.near.d reco.seco.d)

/-- `mscDoSwap` -/
def mscDoSwapC (L : Type) [RLoss L] [RFrom N L] (w : Weights) (mat : CMat N) (med : List Nat)
    (data : List (Reco N)) (b j : Nat) : Cnt (L × List Nat × List (Reco N)) := do
  rassert (b < med.length) "invalid medoid number"
  rassert (j < mat.len) "invalid object number"
  let med ← setIdx med b j
  let rs ← mapC w (mscSwapRecC L w mat med b j) data.zipIdx
  let loss ← unwrapOpt (reduceAdd (rs.map (·.2)))
  pure (loss, med, rs.map (·.1))

/-- `mscPass` -/
def mscPassC (w : Weights) (mat : CMat N) : List Nat → MSCState N L → Cnt (MSCState N L)
  | [], s => pure s
  | j :: js, s => do
    Cnt.tick w.step
    if j = s.lastswap then pure s
    else
      let own ← mscIsOwnMedoid s.med s.data j
      if own then mscPassC w mat js s
      else
        let (change, b) ← mscFindBestSwapC w mat s.rem s.data j
        if rle change RLoss.zero then mscPassC w mat js s
        else
          let (loss, med, data) ← mscDoSwapC L w mat s.med s.data b j
          let rem ← mscUpdateRemovalLossC L w data s.rem.length
          mscPassC w mat js ⟨med, data, rem, loss, j, s.nSwaps + 1⟩

/-- `mscLoop` -/
def mscLoopC (w : Weights) (mat : CMat N) : Nat → Nat → MSCState N L → Cnt (MSCState N L × Nat)
  | 0, iter, s => pure (s, iter)
  | fuel + 1, iter, s => do
    Cnt.tick w.step
    let s' ← mscPassC w mat (List.range mat.len) s
    if s'.nSwaps == s.nSwaps || rge s'.loss s.loss then pure (s', iter + 1)
    else mscLoopC w mat fuel (iter + 1) s'

/-- `k2InitRec` -/
def k2InitRecC (L : Type) [RLoss L] [RFrom N L] (mat : CMat N) (med : List Nat) (i : Nat) :
    Cnt (Nat × (N × N) × L) := do
  let m0 ← idx med 0
  let d0 ← mat.get i m0
  let m1 ← idx med 1
  let d1 ← mat.get i m1
  if rlt d0 d1 then pure (0, (d0, d1), mscLoss L d0 d1)
  else pure (1, (d0, d1), mscLoss L d1 d0)

/-- `k2InitialAssignment` -/
def k2InitialAssignmentC (L : Type) [RLoss L] [RFrom N L] (w : Weights) (mat : CMat N) (med : List Nat) :
    Cnt (L × List Nat × List (N × N)) := do
  let sq ← mat.isSquare
  rassert sq "Dissimilarity matrix is not square"
  rassert (mat.len ≤ u32Max) "N is too large"
  rassert (med.length == 2) "k must be 2"
  let rs ← mapC w (k2InitRecC L mat med) (List.range mat.len)
  let loss ← unwrapOpt (reduceAdd (rs.map (·.2.2)))
  pure (loss, rs.map (·.1), rs.map (·.2.1))

/-- `k2FindStep` -/
def k2FindStepC (mat : CMat N) (j : Nat) (pl : L × L) (p : (N × N) × Nat) : Cnt (L × L) := do
  let doj ← mat.get p.2 j
  let d := p.1
  pure (RLoss.add pl.1 (if rlt doj d.2 then mscLoss L doj d.2 else mscLoss L d.2 doj),
       RLoss.add pl.2 (if rlt doj d.1 then mscLoss L doj d.1 else mscLoss L d.1 doj))

/-- `k2FindBestSwap` -/
def k2FindBestSwapC (L : Type) [RLoss L] [RFrom N L] (w : Weights) (mat : CMat N) (data : List (N × N)) (j : Nat) :
    Cnt (L × Nat) := do
  let pl ← foldC w (k2FindStepC mat j) ((RLoss.zero : L), (RLoss.zero : L)) data.zipIdx
  let r ← findMinC w [pl.1, pl.2]
  pure (r.2, r.1)

/-- `k2SwapRec` -/
def k2SwapRecC (L : Type) [RLoss L] [RFrom N L] (mat : CMat N) (b j : Nat)
    (p : (Nat × (N × N)) × Nat) : Cnt (Nat × (N × N) × L) :=
  let a := p.1.1
  let d := p.1.2
  let o := p.2
  if b = 0 then
    if o = j then pure (0, (RDist.zero, d.2), RLoss.zero)
    else do
      let doj ← mat.get o j
      if rlt doj d.2 || (req doj d.2 && a == 0) then pure (0, (doj, d.2), mscLoss L doj d.2)
      else pure (1, (doj, d.2), mscLoss L d.2 doj)
  else
    if o = j then pure (1, (d.1, RDist.zero), RLoss.zero)
    else do
      let doj ← mat.get o j
      if rlt doj d.1 || (req doj d.1 && a == 1) then pure (1, (d.1, doj), mscLoss L doj d.1)
      else pure (0, (d.1, doj), mscLoss L d.1 doj)

/-- `k2DoSwap` -/
def k2DoSwapC (L : Type) [RLoss L] [RFrom N L] (w : Weights) (mat : CMat N) (med assi : List Nat)
    (data : List (N × N)) (b j : Nat) : Cnt (L × List Nat × List Nat × List (N × N)) := do
  rassert (b < med.length) "invalid medoid number"
  rassert (j < mat.len) "invalid object number"
  let med ← setIdx med b j
  let rs ← mapC w (k2SwapRecC L mat b j) (assi.zip data).zipIdx
  let loss ← unwrapOpt (reduceAdd (rs.map (·.2.2)))
  pure (loss, med, rs.map (·.1), rs.map (·.2.1))

/-- `k2Pass` -/
def k2PassC (w : Weights) (mat : CMat N) : List Nat → K2State N L → Cnt (K2State N L)
  | [], s => pure s
  | j :: js, s => do
    Cnt.tick w.step
    if j = s.lastswap then pure s
    else
      let own ← k2IsOwnMedoid s.med s.assi j
      if own then k2PassC w mat js s
      else
        let (newloss, b) ← k2FindBestSwapC L w mat s.data j
        if rge newloss s.loss then k2PassC w mat js s
        else
          let (loss, med, assi, data) ← k2DoSwapC L w mat s.med s.assi s.data b j
          k2PassC w mat js ⟨med, assi, data, loss, j, s.nSwaps + 1⟩

/-- `k2Loop` -/
def k2LoopC (w : Weights) (mat : CMat N) : Nat → Nat → K2State N L → Cnt (K2State N L × Nat)
  | 0, iter, s => pure (s, iter)
  | fuel + 1, iter, s => do
    Cnt.tick w.step
    let s' ← k2PassC w mat (List.range mat.len) s
    if s'.nSwaps == s.nSwaps || rge s'.loss s.loss then pure (s', iter + 1)
    else k2LoopC w mat fuel (iter + 1) s'

/-- `fastermscK2` -/
def fastermscK2C (L : Type) [RLoss L] [RFrom N L] (w : Weights) (mat : CMat N) (med : List Nat) (maxiter : Nat) :
    Cnt (SwapResult L) := do
  rassert (med.length == 2) "Only valid for k=2"
  let (loss, assi, data) ← k2InitialAssignmentC L w mat med
  let (s, iter) ← k2LoopC w mat maxiter 0 ⟨med, assi, data, loss, mat.len, 0⟩
  pure ⟨toSilhouette s.loss mat.len, s.assi, iter, s.nSwaps, s.med⟩

/-- `fastermsc` -/
def fastermscC (L : Type) [RLoss L] [RFrom N L] (w : Weights) (mat : CMat N) (med : List Nat) (maxiter : Nat) :
    Cnt (SwapResult L) :=
  if med.length = 1 then singleClusterC L w mat med
  else if med.length = 2 then fastermscK2C L w mat med maxiter
  else do
    let (loss, data) ← mscInitialAssignmentC L w mat med
    let rem ← mscUpdateRemovalLossC L w data med.length
    let (s, iter) ← mscLoopC w mat maxiter 0 ⟨med, data, rem, loss, mat.len, 0⟩
    Cnt.tick (s.data.length * w.step)
    pure ⟨toSilhouette s.loss mat.len, s.data.map (·.near.i), iter, s.nSwaps, s.med⟩

/-- `fastmscScanStep` -/
def fastmscScanStepC (w : Weights) (mat : CMat N) (med : List Nat) (data : List (Reco N)) (rem : List L)
    (best : L × Nat × Nat) (j : Nat) : Cnt (L × Nat × Nat) := do
  let own ← mscIsOwnMedoid med data j
  if own then pure best
  else
    let (change, b) ← mscFindBestSwapC w mat rem data j
    pure (if rle change best.1 then best else (change, b, j))

/-- `fastmscLoop` -/
def fastmscLoopC (w : Weights) (mat : CMat N) (k : Nat) : Nat → Nat → MPState N L → Cnt (MPState N L × Nat)
  | 0, iter, s => pure (s, iter)
  | fuel + 1, iter, s => do
    Cnt.tick w.step
    let rem ← mscUpdateRemovalLossC L w s.data k
    let best ← foldC w (fastmscScanStepC w mat s.med s.data rem) ((RLoss.zero : L), usizeMax, usizeMax)
      (List.range mat.len)
    if rgt best.1 RLoss.zero then
      let (newloss, med, data) ← mscDoSwapC L w mat s.med s.data best.2.1 best.2.2
      if rge newloss s.loss then pure (⟨med, data, s.loss, s.nSwaps + 1⟩, iter + 1)
      else fastmscLoopC w mat k fuel (iter + 1) ⟨med, data, newloss, s.nSwaps + 1⟩
    else pure (s, iter + 1)

/-- `fastmscK2ScanStep` -/
def fastmscK2ScanStepC (w : Weights) (mat : CMat N) (med assi : List Nat) (data : List (N × N))
    (best : L × Nat × Nat) (j : Nat) : Cnt (L × Nat × Nat) := do
  let own ← k2IsOwnMedoid med assi j
  if own then pure best
  else
    let (newloss, b) ← k2FindBestSwapC L w mat data j
    pure (if best.2.2 == usizeMax || rlt newloss best.1 then (newloss, b, j) else best)

/-- `fastmscK2Loop` -/
def fastmscK2LoopC (w : Weights) (mat : CMat N) (k : Nat) : Nat → Nat → K2State N L → Cnt (K2State N L × Nat)
  | 0, iter, s => pure (s, iter)
  | fuel + 1, iter, s => do
    Cnt.tick w.step
    let best ← foldC w (fastmscK2ScanStepC w mat s.med s.assi s.data) ((RLoss.zero : L), k, usizeMax)
      (List.range mat.len)
    if !rlt best.1 s.loss then pure (s, iter + 1)
    else
      let (newloss, med, assi, data) ← k2DoSwapC L w mat s.med s.assi s.data best.2.1 best.2.2
      if !rlt newloss s.loss then
        pure (⟨med, assi, data, s.loss, s.lastswap, s.nSwaps + 1⟩, iter + 1)
      else fastmscK2LoopC w mat k fuel (iter + 1) ⟨med, assi, data, newloss, s.lastswap, s.nSwaps + 1⟩

/-- `fastmscK2` -/
def fastmscK2C (L : Type) [RLoss L] [RFrom N L] (w : Weights) (mat : CMat N) (med : List Nat) (maxiter : Nat) :
    Cnt (SwapResult L) := do
  rassert (med.length == 2) "Only valid for k=2"
  let (loss, assi, data) ← k2InitialAssignmentC L w mat med
  let (s, iter) ← fastmscK2LoopC w mat med.length maxiter 0 ⟨med, assi, data, loss, 0, 0⟩
  pure ⟨toSilhouette s.loss mat.len, s.assi, iter, s.nSwaps, s.med⟩

/-- `fastmsc` -/
def fastmscC (L : Type) [RLoss L] [RFrom N L] (w : Weights) (mat : CMat N) (med : List Nat) (maxiter : Nat) :
    Cnt (SwapResult L) :=
  if med.length = 1 then singleClusterC L w mat med
  else if med.length = 2 then fastmscK2C L w mat med maxiter
  else do
    let (loss, data) ← mscInitialAssignmentC L w mat med
    let (s, iter) ← fastmscLoopC w mat med.length maxiter 0 ⟨med, data, loss, 0⟩
    Cnt.tick (s.data.length * w.step)
    pure ⟨toSilhouette s.loss mat.len, s.data.map (·.near.i), iter, s.nSwaps, s.med⟩

/-- `pmsStep` -/
def pmsStepC (mat : CMat N) (m j : Nat) (acc : L) (p : Reco N × Nat) : Cnt L :=
  if p.2 = j then pure acc
  else do
    let doj ← mat.get p.2 j
    let n := p.1.near
    let s := p.1.seco
    let t := p.1.third
    let cur := mscLoss L n.d s.d
    if n.i = m then
      if rlt doj s.d then pure (RLoss.add acc (RLoss.sub cur (mscLoss L doj s.d)))
      else if rlt doj t.d then pure (RLoss.add acc (RLoss.sub cur (mscLoss L s.d doj)))
      else pure (RLoss.add acc (RLoss.sub cur (mscLoss L s.d t.d)))
    else if s.i = m then
      if rlt doj n.d then pure (RLoss.add acc (RLoss.sub cur (mscLoss L doj n.d)))
      else if rlt doj t.d then pure (RLoss.add acc (RLoss.sub cur (mscLoss L n.d doj)))
      else pure (RLoss.add acc (RLoss.sub cur (mscLoss L n.d t.d)))
    else
      if rlt doj n.d then pure (RLoss.add acc (RLoss.sub cur (mscLoss L doj n.d)))
      else if rlt doj s.d then pure (RLoss.add acc (RLoss.sub cur (mscLoss L n.d doj)))
      else pure acc

/-- `pmsStepK2` -/
def pmsStepK2C (mat : CMat N) (m j : Nat) (acc : L) (p : Reco N × Nat) : Cnt L :=
  if p.2 = j then pure acc
  else do
    let doj ← mat.get p.2 j
    let n := p.1.near
    let s := p.1.seco
    let cur := mscLoss L n.d s.d
    if n.i = m then
      if rlt doj s.d then pure (RLoss.add acc (RLoss.sub cur (mscLoss L doj s.d)))
      else pure (RLoss.add acc (RLoss.sub cur (mscLoss L s.d doj)))
    else if s.i = m then
      if rlt doj n.d then pure (RLoss.add acc (RLoss.sub cur (mscLoss L doj n.d)))
      else pure (RLoss.add acc (RLoss.sub cur (mscLoss L n.d doj)))
    else
      if rlt doj n.d then pure (RLoss.add acc (RLoss.sub cur (mscLoss L doj n.d)))
      else if rlt doj s.d then pure (RLoss.add acc (RLoss.sub cur (mscLoss L n.d doj)))
      else pure acc

/-- `pmsFindBestSwap` -/
def pmsFindBestSwapC (L : Type) [RLoss L] [RFrom N L]
    (w : Weights) (step : CMat N → Nat → Nat → L → Reco N × Nat → Cnt L) (mat : CMat N) (med : List Nat)
    (data : List (Reco N)) (j : Nat) : Cnt (L × Nat) := do
  let recj ← idx data j
  foldC w (fun (best : L × Nat) (m : Nat) => do
    let acc ← foldC w (step mat m j) (mscLoss L recj.near.d recj.seco.d) data.zipIdx
    pure (if rgt acc best.1 then (acc, m) else best))
    (RLoss.zero, usizeMax) (List.range med.length)

/-- `pmsScanStep` -/
def pmsScanStepC (w : Weights) (mat : CMat N) (k : Nat) (med : List Nat) (data : List (Reco N))
    (best : L × Nat × Nat) (j : Nat) : Cnt (L × Nat × Nat) := do
  let own ← mscIsOwnMedoid med data j
  if own then pure best
  else
    let (change, b) ←
      if k = 2 then pmsFindBestSwapC L w pmsStepK2C mat med data j
      else pmsFindBestSwapC L w pmsStepC mat med data j
    pure (if rle change best.1 then best else (change, b, j))

/-- `pmsLoop` -/
def pmsLoopC (w : Weights) (mat : CMat N) (k : Nat) : Nat → Nat → MPState N L → Cnt (MPState N L × Nat)
  | 0, iter, s => pure (s, iter)
  | fuel + 1, iter, s => do
    Cnt.tick w.step
    let best ← foldC w (pmsScanStepC w mat k s.med s.data) ((RLoss.zero : L), k, usizeMax)
      (List.range mat.len)
    if rgt best.1 RLoss.zero then
      let (newloss, med, data) ← mscDoSwapC L w mat s.med s.data best.2.1 best.2.2
      if rge newloss s.loss then pure (⟨med, data, s.loss, s.nSwaps + 1⟩, iter + 1)
      else pmsLoopC w mat k fuel (iter + 1) ⟨med, data, newloss, s.nSwaps + 1⟩
    else pure (s, iter + 1)

/-- `pammedsilOptimize` -/
def pammedsilOptimizeC (w : Weights) (mat : CMat N) (med : List Nat) (data : List (Reco N)) (maxiter : Nat)
    (loss : L) : Cnt (SwapResult L) :=
  if med.length = 1 then singleClusterC L w mat med
  else do
    let (s, iter) ← pmsLoopC w mat med.length maxiter 0 ⟨med, data, loss, 0⟩
    Cnt.tick (s.data.length * w.step)
    pure ⟨toSilhouette s.loss mat.len, s.data.map (·.near.i), iter, s.nSwaps, s.med⟩

/-- `pammedsilSwap` -/
def pammedsilSwapC (L : Type) [RLoss L] [RFrom N L] (w : Weights) (mat : CMat N) (med : List Nat) (maxiter : Nat) :
    Cnt (SwapResult L) := do
  let (loss, data) ← mscInitialAssignmentC L w mat med
  pammedsilOptimizeC w mat med data maxiter loss

/-- `pmsBuildNext` -/
def pmsBuildNextC (L : Type) [RLoss L] [RFrom N L] (w : Weights) (mat : CMat N) (near : List N) (k : Nat) :
    Cnt (L × Nat) :=
  foldC w (fun (best : L × Nat) (i : Nat) => do
    let sum ← buildSumC L w mat near i
    pure (if i == 0 || rlt sum best.1 then (sum, i) else best))
    (RLoss.zero, k) ((List.range near.length).drop 1)

/-- `pmsBuildUpdateRec` -/
def pmsBuildUpdateRecC (mat : CMat N) (l c : Nat) (p : Reco N × Nat) : Cnt (Reco N) :=
  let r := p.1
  if p.2 = c then pure { near := .new l RDist.zero, seco := r.near, third := r.seco }
  else do
    let dj ← mat.get p.2 c
    if rlt dj r.near.d then pure { near := .new l dj, seco := r.near, third := r.seco }
    else if r.seco.i == u32Max || rlt dj r.seco.d then
      pure { r with seco := .new l dj, third := r.seco }
    else if r.third.i == u32Max || rlt dj r.third.d then pure { r with third := .new l dj }
    else pure r

/-- `pmsBuildLoop` -/
def pmsBuildLoopC (w : Weights) (mat : CMat N) (k : Nat) :
    List Nat → List Nat → List (Reco N) → L → Cnt (List Nat × List (Reco N) × L)
  | [], meds, data, loss => pure (meds, data, loss)
  | l :: ls, meds, data, loss => do
    Cnt.tick w.step
    let best ← pmsBuildNextC L w mat (data.map (·.near.d)) k
    if rge best.1 RLoss.zero then pure (meds, data, loss)
    else
      let data ← mapC w (pmsBuildUpdateRecC mat l best.2) data.zipIdx
      pmsBuildLoopC w mat k ls (meds ++ [best.2]) data (pmsBuildLoss L data)

/-- `pammedsilBuildInitialize` -/
def pammedsilBuildInitializeC (L : Type) [RLoss L] [RFrom N L] (w : Weights) (mat : CMat N) (k : Nat) :
    Cnt (List Nat × List (Reco N) × L) := do
  let best ← buildFirstC L w mat k
  let data ← mapC w (fun j => do
    let d ← mat.get j best.2
    pure (⟨⟨0, d⟩, ⟨u32Max, RDist.zero⟩, ⟨u32Max, RDist.zero⟩⟩ : Reco N)) (List.range mat.len)
  pmsBuildLoopC w mat k ((List.range k).drop 1) [best.2] data best.1

/-- `pammedsil` -/
def pammedsilC (L : Type) [RLoss L] [RFrom N L] (w : Weights) (mat : CMat N) (k maxiter : Nat) :
    Cnt (SwapResult L) := do
  assertSizesC mat k
  let (meds, data, loss) ← pammedsilBuildInitializeC L w mat k
  pammedsilOptimizeC w mat meds data maxiter loss

/-- `updateThirdNearestWithoutNew` -/
def updateThirdNearestWithoutNewC (w : Weights) (mat : CMat N) (med : List Nat) (n s b o : Nat) :
    Cnt (DistancePair N) :=
  foldC w (fun (dist : DistancePair N) (p : Nat × Nat) =>
    if p.2 = n ∨ p.2 = s then pure dist
    else do
      let d ← mat.get o p.1
      pure (if dist.i == asU32 b || rlt d dist.d then .new p.2 d else dist))
    (.new b RDist.zero) med.zipIdx

/-- `removeMedRec` -/
def removeMedRecC (L : Type) [RLoss L] [RFrom N L] (w : Weights) (mat : CMat N) (med : List Nat) (l b : Nat)
    (p : Reco N × Nat) : Cnt (Reco N × L) := do
  let reco := p.1
  let o := p.2
  let reco ←
    if reco.near.i = asU32 b then do
      let seco := relabel l b reco.seco
      let third := relabel l b reco.third
      let t ← updateThirdNearestWithoutNewC w mat med seco.i third.i b o
      pure { near := seco, seco := third, third := t : Reco N }
    else if reco.seco.i = asU32 b then do
      let near := relabel l b reco.near
      let third := relabel l b reco.third
      let t ← updateThirdNearestWithoutNewC w mat med near.i third.i b o
      pure { near := near, seco := third, third := t : Reco N }
    else if reco.third.i = asU32 b then do
      let near := relabel l b reco.near
      let seco := relabel l b reco.seco
      let t ← updateThirdNearestWithoutNewC w mat med near.i seco.i b o
      pure { near := near, seco := seco, third := t : Reco N }
    else
      pure { near := relabel l b reco.near, seco := relabel l b reco.seco,
             third := relabel l b reco.third : Reco N }
  pure (reco, mscLoss L reco.near.d reco.seco.d)

/-- `removeMed` -/
def removeMedC (L : Type) [RLoss L] [RFrom N L] (w : Weights) (mat : CMat N) (med : List Nat)
    (data : List (Reco N)) (b : Nat) : Cnt (L × List Nat × List (Reco N)) := do
  if med.length = 0 then (.error .arith : Res Unit)
  let l := med.length - 1
  rassert (b < med.length) "invalid medoid number"
  let ml ← idx med l
  let med ← setIdx med b ml
  let med := med.eraseIdx l
  let rs ← mapC w (removeMedRecC L w mat med l b) data.zipIdx
  let loss ← unwrapOpt (reduceAdd (rs.map (·.2)))
  pure (loss, med, rs.map (·.1))

/-- `dynRound`; charges for the search for the medoid to remove, for collecting the labels, and for `remove` -/
def dynRoundC (w : Weights) (mat : CMat N) (maxiter minK : Nat) (s : DynState N L) : Cnt (DynState N L) := do
  let k := s.med.length
  let rem ← mscUpdateRemovalLossC L w s.data s.rem.length
  let (m, iter) ← mscLoopC w mat maxiter 0 ⟨s.med, s.data, rem, s.loss, mat.len, 0⟩
  Cnt.tick (m.rem.length * w.step)
  let r := chooseRemoval m.rem
  let loss := toSilhouette m.loss mat.len
  let retLoss ← setIdx s.retLoss (k - minK) loss
  Cnt.tick (m.data.length * w.step)
  let better := rgt loss s.bestLoss
  let (loss', med, data) ← removeMedC L w mat m.med m.data r.2
  Cnt.tick (m.rem.length * w.step)
  if r.2 < m.rem.length then
    pure { med := med, data := data, rem := m.rem.eraseIdx r.2, loss := loss'
           bestLoss := if better then loss else s.bestLoss
           retAssi := if better then m.data.map (·.near.i) else s.retAssi
           retMeds := if better then m.med else s.retMeds
           retIter := s.retIter + iter, retSwaps := s.retSwaps + m.nSwaps, retLoss := retLoss }
  else (.error .index : Res (DynState N L))

/-- `dynLoop` -/
def dynLoopC (w : Weights) (mat : CMat N) (maxiter minK : Nat) : Nat → DynState N L → Cnt (DynState N L)
  | 0, s => pure s
  | fuel + 1, s =>
    if 3 ≤ s.med.length ∧ minK ≤ s.med.length then do
      Cnt.tick w.step
      let s ← dynRoundC w mat maxiter minK s
      dynLoopC w mat maxiter minK fuel s
    else pure s

/-- `dynFinish` -/
def dynFinishC (w : Weights) (mat : CMat N) (maxiter minK : Nat) (s : DynState N L) : Cnt (DynResult L) := do
  let s ←
    if minK ≤ 2 then do
      let r ← fastermscK2C L w mat s.med maxiter
      let retLoss ← setIdx s.retLoss (2 - minK) r.loss
      let better := rgt r.loss s.bestLoss
      pure { s with
        med := r.med
        bestLoss := if better then r.loss else s.bestLoss
        retAssi := if better then r.assi else s.retAssi
        retMeds := if better then r.med else s.retMeds
        retIter := s.retIter + r.nIter, retSwaps := s.retSwaps + r.nSwap, retLoss := retLoss }
    else pure s
  let retLoss ← if minK ≤ 1 then setIdx s.retLoss 0 RLoss.zero else pure s.retLoss
  pure ⟨s.bestLoss, s.retAssi, s.retIter, s.retSwaps, s.retMeds, retLoss⟩

/-- `dynmsc`; filling the vectors costs a step for each element -/
def dynmscC (L : Type) [RLoss L] [RFrom N L] (w : Weights) (mat : CMat N) (med : List Nat) (mink maxiter : Nat) :
    Cnt (DynResult L) := do
  let k := med.length
  let minK := min (max mink 1) k
  if k = 1 then
    Cnt.tick (mat.len * w.step)
    let assi := List.replicate mat.len 0
    let r ← chooseMedoidWithinPartitionC L w mat assi med 0
    pure ⟨r.1.2, assi, 1, if r.1.1 then 1 else 0, r.2, [r.1.2]⟩
  else
    let (loss, data) ← mscInitialAssignmentC L w mat med
    Cnt.tick ((k - minK + 1 + k) * w.step)
    let s ← dynLoopC w mat maxiter minK k
      { med := med, data := data, rem := List.replicate k RLoss.zero, loss := loss
        bestLoss := RLoss.zero, retAssi := [0, mat.len], retMeds := med, retIter := 0, retSwaps := 0
        retLoss := List.replicate (k - minK + 1) RLoss.zero }
    dynFinishC w mat maxiter minK s

/-- `silBufStep`; growing the table costs one step for each new entry -/
def silBufStepC (w : Weights) (mat : CMat N) (i : Nat) (buf : List (Nat × L)) (p : Nat × Nat) :
    Cnt (List (Nat × L)) := do
  Cnt.tick ((p.1 + 1 - buf.length) * w.step)
  let buf := growBuf buf p.1
  if i ≠ p.2 then
    let x ← mat.get i p.2
    let c ← idx buf p.1
    setIdx buf p.1 (c.1 + 1, RLoss.add c.2 (conv x))
  else pure buf

/-- `silBuf` -/
def silBufC (L : Type) [RLoss L] [RFrom N L] (w : Weights) (mat : CMat N) (assi : List Nat) (i : Nat) :
    Cnt (List (Nat × L)) :=
  foldC w (silBufStepC w mat i) [] assi.zipIdx

/-- `silGo`; `silValue` is a loop over the table -/
def silGoC (w : Weights) (mat : CMat N) (assi : List Nat) (samples : Bool) :
    List (Nat × Nat) → L → List L → Cnt (L × List L)
  | [], lsum, sil => do
    if samples then rassert (sil.length == assi.length) "Length not as expected."
    pure (RLoss.div lsum (RLoss.ofU32 (asU32 assi.length)), sil)
  | p :: rest, lsum, sil => do
    Cnt.tick w.step
    let buf ← silBufC L w mat assi p.2
    if buf.length = 1 then pure (RLoss.zero, sil)
    else
      Cnt.tick (buf.length * w.step)
      let s ← silValue buf p.1
      let sil ← if samples then setIdx sil p.2 s else pure sil
      silGoC w mat assi samples rest (RLoss.add lsum s) sil

/-- `silhouette` -/
def silhouetteC (L : Type) [RLoss L] [RFrom N L] (w : Weights) (mat : CMat N) (assi : List Nat) (samples : Bool) :
    Cnt (L × List L) := do
  let sq ← mat.isSquare
  rassert sq "Dissimilarity matrix is not square"
  Cnt.tick ((if samples then assi.length else 0) * w.step)
  silGoC w mat assi samples assi.zipIdx RLoss.zero
    (List.replicate (if samples then assi.length else 0) RLoss.zero)

/-- `twoNearest` -/
def twoNearestC (w : Weights) (mat : CMat N) (meds : List Nat) (i : Nat) : Cnt (N × N) := do
  let m0 ← idx meds 0
  let d1 ← mat.get i m0
  let m1 ← idx meds 1
  let d2 ← mat.get i m1
  foldC w (fun (best : N × N) (m : Nat) => do
    let d ← mat.get i m
    pure (if rlt d best.1 then (d, best.1)
      else if rlt d best.2 then (best.1, d) else best))
    (if rlt d1 d2 then (d1, d2) else (d2, d1)) (meds.drop 2)

/-- `medoidSilStep` -/
def medoidSilStepC (w : Weights) (mat : CMat N) (meds : List Nat) (samples : Bool) (st : L × List L) (i : Nat) :
    Cnt (L × List L) := do
  let best ← twoNearestC w mat meds i
  if !RDist.isZero best.1 then
    let s : L := RLoss.div (conv best.1) (conv best.2)
    let sil ← if samples then setIdx st.2 i (RLoss.sub RLoss.one s) else pure st.2
    pure (RLoss.add st.1 s, sil)
  else pure st

/-- `medoidSilhouette` -/
def medoidSilhouetteC (L : Type) [RLoss L] [RFrom N L] (w : Weights) (mat : CMat N) (meds : List Nat)
    (samples : Bool) : Cnt (L × List L) := do
  let sq ← mat.isSquare
  rassert sq "Dissimilarity matrix is not square"
  rassert (mat.len ≤ u32Max) "N is too large"
  Cnt.tick ((if samples then mat.len else 0) * w.step)
  let sil := List.replicate (if samples then mat.len else 0) (RLoss.one : L)
  if meds.length = 1 then pure (RLoss.one, sil)
  else
    rassert (meds.length ≤ mat.len) "invalid k, must be over 1 and at most N"
    let st ← foldC w (medoidSilStepC w mat meds samples) (RLoss.zero, sil) (List.range mat.len)
    pure (RLoss.sub RLoss.one (RLoss.div st.1 (RLoss.ofU32 (asU32 mat.len))), st.2)

/-- `pamsilScanStep` -/
def pamsilScanStepC (w : Weights) (mat : CMat N) (m medm : Nat) (st : PSScan L) (j : Nat) : Cnt (PSScan L) := do
  if j = medm then pure st
  else
    let a ← idx st.assi j
    let mm ← idx st.med a
    if j = mm then pure st
    else
      let med ← setIdx st.med m j
      let (_, assi) ← assignNearestC L w mat med
      let (siltemp, _) ← silhouetteC L w mat assi false
      pure ⟨med, assi, if rle siltemp st.best.1 then st.best else (siltemp, m, j)⟩

/-- `pamsilScanMed` -/
def pamsilScanMedC (w : Weights) (mat : CMat N) (st : PSScan L) (m : Nat) : Cnt (PSScan L) := do
  let medm ← idx st.med m
  let st ← foldC w (pamsilScanStepC w mat m medm) st (List.range mat.len)
  let med ← setIdx st.med m medm
  pure { st with med := med }

/-- `pamsilLoop` -/
def pamsilLoopC (w : Weights) (mat : CMat N) (k : Nat) :
    Nat → Nat → L → List Nat → List Nat → Nat → Cnt (L × List Nat × Nat × Nat)
  | 0, iter, sil, med, _, nSwaps => pure (sil, med, iter, nSwaps)
  | fuel + 1, iter, sil, med, assi, nSwaps => do
    Cnt.tick w.step
    let st ← foldC w (pamsilScanMedC w mat) (⟨med, assi, ((RLoss.zero : L), k, usizeMax)⟩ : PSScan L)
      (List.range k)
    if rle st.best.1 sil then pure (sil, st.med, iter + 1, nSwaps)
    else
      let med ← setIdx st.med st.best.2.1 st.best.2.2
      pamsilLoopC w mat k fuel (iter + 1) st.best.1 med st.assi (nSwaps + 1)

/-- `pamsilOptimize` -/
def pamsilOptimizeC (L : Type) [RLoss L] [RFrom N L] (w : Weights) (mat : CMat N) (med assi : List Nat)
    (maxiter : Nat) : Cnt (SwapResult L) :=
  if med.length = 1 then do
    let r ← chooseMedoidWithinPartitionC L w mat assi med 0
    pure ⟨r.1.2, assi, 1, if r.1.1 then 1 else 0, r.2⟩
  else do
    let (sil, _) ← silhouetteC L w mat assi false
    let (sil, med, iter, nSwaps) ← pamsilLoopC w mat med.length maxiter 0 sil med assi 0
    let (_, assi) ← assignNearestC L w mat med
    pure ⟨sil, assi, iter, nSwaps, med⟩

/-- `pamsilSwap` -/
def pamsilSwapC (L : Type) [RLoss L] [RFrom N L] (w : Weights) (mat : CMat N) (med : List Nat) (maxiter : Nat) :
    Cnt (SwapResult L) := do
  let (_, assi) ← assignNearestC L w mat med
  pamsilOptimizeC L w mat med assi maxiter

/-- `psBuildUpdate` -/
def psBuildUpdateC (mat : CMat N) (c : Nat) (p : N × Nat) : Cnt N :=
  if p.2 = c then pure RDist.zero
  else do
    let dj ← mat.get p.2 c
    pure (if rlt dj p.1 then dj else p.1)

/-- `psBuildLoop` -/
def psBuildLoopC (L : Type) [RLoss L] [RFrom N L] (w : Weights) (mat : CMat N) (k : Nat) :
    Nat → List Nat → List N → Cnt (List Nat)
  | 0, meds, _ => pure meds
  | fuel + 1, meds, near => do
    Cnt.tick w.step
    let best ← buildNextC L w mat near k
    rassert (rle best.1 RLoss.zero) "assertion failed: best.0 <= L::zero()"
    let near ← mapC w (psBuildUpdateC mat best.2) near.zipIdx
    psBuildLoopC L w mat k fuel (meds ++ [best.2]) near

/-- `pamsilBuildInitialize` -/
def pamsilBuildInitializeC (L : Type) [RLoss L] [RFrom N L] (w : Weights) (mat : CMat N) (k : Nat) :
    Cnt (List Nat) := do
  let best ← buildFirstC L w mat k
  let near ← mapC w (fun j => mat.get j best.2) (List.range mat.len)
  psBuildLoopC L w mat k (k - 1) [best.2] near

/-- `pamsil` -/
def pamsilC (L : Type) [RLoss L] [RFrom N L] (w : Weights) (mat : CMat N) (k maxiter : Nat) :
    Cnt (SwapResult L) := do
  assertSizesC mat k
  let meds ← pamsilBuildInitializeC L w mat k
  Cnt.tick (mat.len * w.step)
  pamsilOptimizeC L w mat meds (List.replicate mat.len 0) maxiter

end KMedoids
