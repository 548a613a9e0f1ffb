import Verif.Model.DynMsc
import Verif.Model.PamSil

/-!
# Variants with repairs

**This is not the code.** First, the model of `src/dynmsc.rs` with two small changes, for C118:

* `update_third_nearest_without_new` (src/dynmsc.rs:151-178) uses `u32::MAX` for "nothing found yet" instead of `b`, which is a valid
  position once the last medoid has moved there;
* the medoid to remove (src/dynmsc.rs:115-120) is the one with the largest instead of the smallest entry of `removal_loss`.

Everything else is as in `DynMsc.lean`. Then PAMSIL with three changes, for C119.
-/

namespace KMedoids

variable {N L : Type} [RDist N] [RLoss L] [RFrom N L]

/-- `update_third_nearest_without_new`, repaired: `u32::MAX` is "nothing found yet". -/
def fixThird (mat : Mat N) (med : List Nat) (n s o : Nat) : Res (DistancePair N) :=
  foldRes (fun (dist : DistancePair N) (p : Nat × Nat) =>
    if p.2 = n ∨ p.2 = s then .ok dist
    else do
      let d ← mat.get o p.1
      .ok (if dist.i == u32Max || rlt d dist.d then .new p.2 d else dist))
    ⟨u32Max, RDist.zero⟩ med.zipIdx

/-- Closure of `remove_med` with `fixThird`. -/
def fixRemoveMedRec (L : Type) [RLoss L] [RFrom N L] (mat : Mat N) (med : List Nat) (l b : Nat)
    (p : Reco N × Nat) : Res (Reco N × L) := do
  let reco := p.1
  let o := p.2
  let reco ←
    if reco.near.i = asU32 b then do
      let seco := relabel l b reco.seco
      let third := relabel l b reco.third
      let t ← fixThird mat med seco.i third.i o
      .ok { near := seco, seco := third, third := t : Reco N }
    else if reco.seco.i = asU32 b then do
      let near := relabel l b reco.near
      let third := relabel l b reco.third
      let t ← fixThird mat med near.i third.i o
      .ok { near := near, seco := third, third := t : Reco N }
    else if reco.third.i = asU32 b then do
      let near := relabel l b reco.near
      let seco := relabel l b reco.seco
      let t ← fixThird mat med near.i seco.i o
      .ok { near := near, seco := seco, third := t : Reco N }
    else
      .ok { near := relabel l b reco.near, seco := relabel l b reco.seco,
            third := relabel l b reco.third : Reco N }
  .ok (reco, mscLoss L reco.near.d reco.seco.d)

/-- `remove_med` with `fixThird`; returns `(loss, med, data)`. -/
def fixRemoveMed (L : Type) [RLoss L] [RFrom N L] (mat : Mat N) (med : List Nat)
    (data : List (Reco N)) (b : Nat) : Res (L × List Nat × List (Reco N)) := do
  if med.length = 0 then .error .arith
  let l := med.length - 1
  rassert (b < med.length) "invalid medoid number"
  let ml ← idx med l
  let med ← setIdx med b ml
  let med := med.eraseIdx l
  let rs ← mapRes (fixRemoveMedRec L mat med l b) data.zipIdx
  let loss ← unwrapOpt (reduceAdd (rs.map (·.2)))
  .ok (loss, med, rs.map (·.1))

/-- Choice of the medoid to remove, repaired: position of the largest entry. -/
def fixChoose (rem : List L) : L × Nat :=
  rem.zipIdx.foldl (fun (r : L × Nat) p => if p.2 == 0 || rgt p.1 r.1 then p else r)
    (RLoss.zero, usizeMax)

/-- One round of the `while k >= 3 && k >= minimum_k` loop with the repairs. -/
def fixRound (mat : Mat N) (maxiter minK : Nat) (s : DynState N L) : Res (DynState N L) := do
  let k := s.med.length
  let rem ← mscUpdateRemovalLoss L s.data s.rem.length
  let (m, iter) ← mscLoop mat maxiter 0 ⟨s.med, s.data, rem, s.loss, mat.len, 0⟩
  let r := fixChoose m.rem
  let loss := toSilhouette m.loss mat.len
  let retLoss ← setIdx s.retLoss (k - minK) loss
  let better := rgt loss s.bestLoss
  let (loss', med, data) ← fixRemoveMed L mat m.med m.data r.2
  if r.2 < m.rem.length then
    .ok { med := med, data := data, rem := m.rem.eraseIdx r.2, loss := loss'
          bestLoss := if better then loss else s.bestLoss
          retAssi := if better then m.data.map (·.near.i) else s.retAssi
          retMeds := if better then m.med else s.retMeds
          retIter := s.retIter + iter, retSwaps := s.retSwaps + m.nSwaps, retLoss := retLoss }
  else .error .index

/-- The `while k >= 3 && k >= minimum_k` loop with the repairs. -/
def fixLoop (mat : Mat N) (maxiter minK : Nat) : Nat → DynState N L → Res (DynState N L)
  | 0, s => .ok s
  | fuel + 1, s =>
    if 3 ≤ s.med.length ∧ minK ≤ s.med.length then do
      let s ← fixRound mat maxiter minK s
      fixLoop mat maxiter minK fuel s
    else .ok s

/-- `dynmsc` with the repairs. -/
def dynmscFixed (L : Type) [RLoss L] [RFrom N L] (mat : Mat N) (med : List Nat) (mink maxiter : Nat) :
    Res (DynResult L) := do
  let k := med.length
  let minK := min (max mink 1) k
  if k = 1 then
    let assi := List.replicate mat.len 0
    let r ← chooseMedoidWithinPartition L mat assi med 0
    .ok ⟨r.1.2, assi, 1, if r.1.1 then 1 else 0, r.2, [r.1.2]⟩
  else
    let (loss, data) ← mscInitialAssignment L mat med
    let s ← fixLoop mat maxiter minK k
      { med := med, data := data, rem := List.replicate k RLoss.zero, loss := loss
        bestLoss := RLoss.zero, retAssi := [0, mat.len], retMeds := med, retIter := 0, retSwaps := 0
        retLoss := List.replicate (k - minK + 1) RLoss.zero }
    dynFinish mat maxiter minK s

/-! ## PAMSIL

Three changes to `src/pamsil.rs`: whether `j` is a medoid is looked up in the medoids (`med.contains(&j)`) and not in the labels of the
previous candidate (lines 125-127); the search starts with the silhouette of the current medoids, not with 0, and an exchange is made
only if it is better (lines 121, 138-140); `pamsil` assigns the objects to the medoids of BUILD before the search (line 95). -/

/-- `pamsilScanStep`, repaired. -/
def fixPsStep (mat : Mat N) (m medm : Nat) (st : PSScan L) (j : Nat) : Res (PSScan L) :=
  if j = medm ∨ j ∈ st.med then .ok st
  else do
    let med ← setIdx st.med m j
    let (_, assi) ← assignNearest L mat med
    let (siltemp, _) ← silhouette L mat assi false
    .ok ⟨med, assi, if rle siltemp st.best.1 then st.best else (siltemp, m, j)⟩

/-- `pamsilScanMed` with `fixPsStep`. -/
def fixPsMed (mat : Mat N) (st : PSScan L) (m : Nat) : Res (PSScan L) := do
  let medm ← idx st.med m
  let st ← foldRes (fixPsStep mat m medm) st (List.range mat.len)
  let med ← setIdx st.med m medm
  .ok { st with med := med }

/-- `pamsilLoop`, repaired. -/
def fixPsLoop (mat : Mat N) (k : Nat) :
    Nat → Nat → L → List Nat → List Nat → Nat → Res (L × List Nat × Nat × Nat)
  | 0, iter, sil, med, _, nSwaps => .ok (sil, med, iter, nSwaps)
  | fuel + 1, iter, sil, med, assi, nSwaps => do
    let st ← foldRes (fixPsMed mat) (⟨med, assi, (sil, k, usizeMax)⟩ : PSScan L) (List.range k)
    if rgt st.best.1 sil then
      let med ← setIdx st.med st.best.2.1 st.best.2.2
      fixPsLoop mat k fuel (iter + 1) st.best.1 med st.assi (nSwaps + 1)
    else .ok (sil, st.med, iter + 1, nSwaps)

/-- `pamsil_swap` with the repairs. -/
def pamsilSwapFixed (L : Type) [RLoss L] [RFrom N L] (mat : Mat N) (med : List Nat) (maxiter : Nat) :
    Res (SwapResult L) := do
  let (_, assi) ← assignNearest L mat med
  if med.length = 1 then
    let r ← chooseMedoidWithinPartition L mat assi med 0
    .ok ⟨r.1.2, assi, 1, if r.1.1 then 1 else 0, r.2⟩
  else
    let (sil, _) ← silhouette L mat assi false
    let (sil, med, iter, nSwaps) ← fixPsLoop mat med.length maxiter 0 sil med assi 0
    let (_, assi) ← assignNearest L mat med
    .ok ⟨sil, assi, iter, nSwaps, med⟩

/-- `pamsil` with the repairs: BUILD, then `pamsilSwapFixed`. -/
def pamsilFixed (L : Type) [RLoss L] [RFrom N L] (mat : Mat N) (k maxiter : Nat) :
    Res (SwapResult L) := do
  assertSizes mat k
  let meds ← pamsilBuildInitialize L mat k
  pamsilSwapFixed L mat meds maxiter

end KMedoids
