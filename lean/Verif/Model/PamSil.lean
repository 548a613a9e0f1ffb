import Verif.Model.Alternating
import Verif.Model.Silhouette
import Verif.Model.Pam

/-! # Model of `src/pamsil.rs` -/

namespace KMedoids

variable {N L : Type} [RDist N] [RLoss L] [RFrom N L]
open RFrom (conv)

/-- State of the scan in `pamsil_optimize`: `med`, `assi`, `best = (sil, m, j)`. -/
structure PSScan (L : Type) where
  /-- `med` -/
  med : List Nat
  /-- `assi`, overwritten by every candidate -/
  assi : List Nat
  /-- `best` -/
  best : L × Nat × Nat

/-- Body of the `for j` loop (src/pamsil.rs:124-135) for medoid position `m` with old value `medm`. -/
def pamsilScanStep (mat : Mat N) (m medm : Nat) (st : PSScan L) (j : Nat) : Res (PSScan L) := do
  if j = medm then .ok st
  else
    let a ← idx st.assi j
    let mm ← idx st.med a
    if j = mm then .ok st
    else
      let med ← setIdx st.med m j
      let (_, assi) ← assignNearest L mat med
      let (siltemp, _) ← silhouette L mat assi false
      .ok ⟨med, assi, if rle siltemp st.best.1 then st.best else (siltemp, m, j)⟩

/-- Body of the `for m` loop (src/pamsil.rs:122-137). -/
def pamsilScanMed (mat : Mat N) (st : PSScan L) (m : Nat) : Res (PSScan L) := do
  let medm ← idx st.med m
  let st ← foldRes (pamsilScanStep mat m medm) st (List.range mat.len)
  let med ← setIdx st.med m medm
  .ok { st with med := med }

/-- The `while` loop of `pamsil_optimize` (src/pamsil.rs:119-144);
returns `(sil, med, iter, n_swaps)`. -/
def pamsilLoop (mat : Mat N) (k : Nat) :
    Nat → Nat → L → List Nat → List Nat → Nat → Res (L × List Nat × Nat × Nat)
  | 0, iter, sil, med, _, nSwaps => .ok (sil, med, iter, nSwaps)
  | fuel + 1, iter, sil, med, assi, nSwaps => do
    let st ← foldRes (pamsilScanMed mat) (⟨med, assi, ((RLoss.zero : L), k, usizeMax)⟩ : PSScan L)
      (List.range k)
    if rle st.best.1 sil then .ok (sil, st.med, iter + 1, nSwaps)
    else
      let med ← setIdx st.med st.best.2.1 st.best.2.2
      pamsilLoop mat k fuel (iter + 1) st.best.1 med st.assi (nSwaps + 1)

/-- `pamsil_optimize` (src/pamsil.rs:100-147). -/
def pamsilOptimize (L : Type) [RLoss L] [RFrom N L] (mat : Mat N) (med assi : List Nat)
    (maxiter : Nat) : Res (SwapResult L) :=
  if med.length = 1 then do
    let r ← chooseMedoidWithinPartition L mat assi med 0
    .ok ⟨r.1.2, assi, 1, if r.1.1 then 1 else 0, r.2⟩
  else do
    let (sil, _) ← silhouette L mat assi false
    let (sil, med, iter, nSwaps) ← pamsilLoop mat med.length maxiter 0 sil med assi 0
    let (_, assi) ← assignNearest L mat med
    .ok ⟨sil, assi, iter, nSwaps, med⟩

/-- `pamsil_swap` (src/pamsil.rs:37-52). -/
def pamsilSwap (L : Type) [RLoss L] [RFrom N L] (mat : Mat N) (med : List Nat) (maxiter : Nat) :
    Res (SwapResult L) := do
  let (_, assi) ← assignNearest L mat med
  pamsilOptimize L mat med assi maxiter

/-- Update of the nearest distances (src/pamsil.rs:202-212), without the unused loss. -/
def psBuildUpdate (mat : Mat N) (c : Nat) (p : N × Nat) : Res N :=
  if p.2 = c then .ok RDist.zero
  else do
    let dj ← mat.get p.2 c
    .ok (if rlt dj p.1 then dj else p.1)

/-- The loop `for _ in 1..k` of `pamsil_build_initialize` (src/pamsil.rs:183-214). The returned loss is
ignored by the caller and not modelled. -/
def psBuildLoop (L : Type) [RLoss L] [RFrom N L] (mat : Mat N) (k : Nat) :
    Nat → List Nat → List N → Res (List Nat)
  | 0, meds, _ => .ok meds
  | fuel + 1, meds, near => do
    let best ← buildNext L mat near k
    rassert (rle best.1 RLoss.zero) "assertion failed: best.0 <= L::zero()"
    let near ← mapRes (psBuildUpdate mat best.2) near.zipIdx
    psBuildLoop L mat k fuel (meds ++ [best.2]) near

/-- `pamsil_build_initialize` (src/pamsil.rs:149-216): the medoids; `assi` is filled with 0. The search
for the first medoid is the same code as in `pam_build_initialize`. -/
def pamsilBuildInitialize (L : Type) [RLoss L] [RFrom N L] (mat : Mat N) (k : Nat) :
    Res (List Nat) := do
  let best ← buildFirst L mat k
  let near ← mapRes (fun j => mat.get j best.2) (List.range mat.len)
  psBuildLoop L mat k (k - 1) [best.2] near

/-- `pamsil` (src/pamsil.rs:82-98). Note that `assi` is all 0 when `pamsil_optimize` starts. -/
def pamsil (L : Type) [RLoss L] [RFrom N L] (mat : Mat N) (k maxiter : Nat) :
    Res (SwapResult L) := do
  assertSizes mat k
  let meds ← pamsilBuildInitialize L mat k
  pamsilOptimize L mat meds (List.replicate mat.len 0) maxiter

end KMedoids
