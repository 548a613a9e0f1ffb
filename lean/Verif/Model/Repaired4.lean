import Verif.Model.PamMedSil

/-!
# PAMMEDSIL with object 0 considered in BUILD

**This is not the code.** One change, for C122: `.skip(1)` in the search for further medoids (src/pammedsil.rs:296) is removed.
-/

namespace KMedoids

variable {N L : Type} [RDist N] [RLoss L] [RFrom N L]

/-- `pmsBuildLoop`, repaired: all objects are considered. -/
def fixPmsBuildLoop (mat : Mat N) (k : Nat) :
    List Nat → List Nat → List (Reco N) → L → Res (List Nat × List (Reco N) × L)
  | [], meds, data, loss => .ok (meds, data, loss)
  | l :: ls, meds, data, loss => do
    let best ← buildNext L mat (data.map (·.near.d)) k
    if rge best.1 RLoss.zero then .ok (meds, data, loss)
    else
      let data ← mapRes (pmsBuildUpdateRec mat l best.2) data.zipIdx
      fixPmsBuildLoop mat k ls (meds ++ [best.2]) data (pmsBuildLoss L data)

/-- `pammedsil_build_initialize`, repaired. -/
def pammedsilBuildFixed (L : Type) [RLoss L] [RFrom N L] (mat : Mat N) (k : Nat) :
    Res (List Nat × List (Reco N) × L) := do
  let best ← buildFirst L mat k
  let data ← mapRes (fun j => do
    let d ← mat.get j best.2
    .ok (⟨⟨0, d⟩, ⟨u32Max, RDist.zero⟩, ⟨u32Max, RDist.zero⟩⟩ : Reco N)) (List.range mat.len)
  fixPmsBuildLoop mat k ((List.range k).drop 1) [best.2] data best.1

/-- `pammedsil`, repaired. -/
def pammedsilFixed (L : Type) [RLoss L] [RFrom N L] (mat : Mat N) (k maxiter : Nat) :
    Res (SwapResult L) := do
  assertSizes mat k
  let (meds, data, loss) ← pammedsilBuildFixed L mat k
  pammedsilOptimize mat meds data maxiter loss

end KMedoids
