import Verif.Model.FastPam1
import Verif.Model.PamMedSil

/-!
# PAM, FastPAM1, FastMSC and PAMMEDSIL with the loss of the last exchange

**This is not the code.** One change, for C120: the loss after an exchange is stored before the loop is left, that is, `loss = newloss`
comes before `if newloss >= loss { break; }` with the old value compared (src/pam.rs:186-190, src/fastpam1.rs:79-83,
src/fastmsc.rs:84-88 and 131-136, src/pammedsil.rs:150-154).
In `fastmsc_k2` the loop is also left when the search has found no candidate, `best.1 == k` (src/fastmsc.rs:126).
-/

namespace KMedoids

variable {N L : Type} [RDist N] [RLoss L] [RFrom N L]

/-- `pamLoop`, repaired. -/
def fixPamLoop (mat : Mat N) (k : Nat) : Nat → Nat → PState N L → Res (PState N L × Nat)
  | 0, iter, s => .ok (s, iter)
  | fuel + 1, iter, s => do
    let best ← foldRes (pamScanStep mat s.med s.data) ((RLoss.zero : L), k, usizeMax)
      (List.range mat.len)
    if rlt best.1 RLoss.zero then
      let (newloss, med, data) ← doSwap L mat s.med s.data best.2.1 best.2.2
      if rge newloss s.loss then .ok (⟨med, data, newloss, s.nSwaps + 1⟩, iter + 1)
      else fixPamLoop mat k fuel (iter + 1) ⟨med, data, newloss, s.nSwaps + 1⟩
    else .ok (s, iter + 1)

/-- `pam_swap`, repaired. -/
def pamSwapFixed (L : Type) [RLoss L] [RFrom N L] (mat : Mat N) (med : List Nat) (maxiter : Nat) :
    Res (SwapResult L) := do
  let (loss, data) ← initialAssignment L mat med
  if med.length = 1 then singleCluster L mat med
  else
    let (s, iter) ← fixPamLoop mat med.length maxiter 0 ⟨med, data, loss, 0⟩
    .ok ⟨s.loss, s.data.map (·.near.i), iter, s.nSwaps, s.med⟩

/-- `fastpam1Loop`, repaired. -/
def fixFastpam1Loop (mat : Mat N) (k : Nat) : Nat → Nat → PState N L → Res (PState N L × Nat)
  | 0, iter, s => .ok (s, iter)
  | fuel + 1, iter, s => do
    let rem ← updateRemovalLoss L s.data k
    let best ← foldRes (fastpam1ScanStep mat s.med s.data rem) ((RLoss.zero : L), usizeMax, usizeMax)
      (List.range mat.len)
    if rlt best.1 RLoss.zero then
      let (newloss, med, data) ← doSwap L mat s.med s.data best.2.1 best.2.2
      if rge newloss s.loss then .ok (⟨med, data, newloss, s.nSwaps + 1⟩, iter + 1)
      else fixFastpam1Loop mat k fuel (iter + 1) ⟨med, data, newloss, s.nSwaps + 1⟩
    else .ok (s, iter + 1)

/-- `fastpam1`, repaired. -/
def fastpam1Fixed (L : Type) [RLoss L] [RFrom N L] (mat : Mat N) (med : List Nat) (maxiter : Nat) :
    Res (SwapResult L) :=
  if med.length = 1 then singleCluster L mat med
  else do
    let (loss, data) ← initialAssignment L mat med
    let (s, iter) ← fixFastpam1Loop mat med.length maxiter 0 ⟨med, data, loss, 0⟩
    .ok ⟨s.loss, s.data.map (·.near.i), iter, s.nSwaps, s.med⟩

/-- `fastmscLoop`, repaired. -/
def fixFastmscLoop (mat : Mat N) (k : Nat) : Nat → Nat → MPState N L → Res (MPState N L × Nat)
  | 0, iter, s => .ok (s, iter)
  | fuel + 1, iter, s => do
    let rem ← mscUpdateRemovalLoss L s.data k
    let best ← foldRes (fastmscScanStep mat s.med s.data rem) ((RLoss.zero : L), usizeMax, usizeMax)
      (List.range mat.len)
    if rgt best.1 RLoss.zero then
      let (newloss, med, data) ← mscDoSwap L mat s.med s.data best.2.1 best.2.2
      if rge newloss s.loss then .ok (⟨med, data, newloss, s.nSwaps + 1⟩, iter + 1)
      else fixFastmscLoop mat k fuel (iter + 1) ⟨med, data, newloss, s.nSwaps + 1⟩
    else .ok (s, iter + 1)

/-- `fastmscK2Loop`, repaired. -/
def fixFastmscK2Loop (mat : Mat N) (k : Nat) : Nat → Nat → K2State N L → Res (K2State N L × Nat)
  | 0, iter, s => .ok (s, iter)
  | fuel + 1, iter, s => do
    let best ← foldRes (fastmscK2ScanStep mat s.med s.assi s.data) ((RLoss.zero : L), k, usizeMax)
      (List.range mat.len)
    if best.2.1 == k || !rlt best.1 s.loss then .ok (s, iter + 1)
    else
      let (newloss, med, assi, data) ← k2DoSwap L mat s.med s.assi s.data best.2.1 best.2.2
      if !rlt newloss s.loss then
        .ok (⟨med, assi, data, newloss, s.lastswap, s.nSwaps + 1⟩, iter + 1)
      else fixFastmscK2Loop mat k fuel (iter + 1) ⟨med, assi, data, newloss, s.lastswap, s.nSwaps + 1⟩

/-- `fastmsc`, repaired. -/
def fastmscFixed (L : Type) [RLoss L] [RFrom N L] (mat : Mat N) (med : List Nat) (maxiter : Nat) :
    Res (SwapResult L) :=
  if med.length = 1 then singleCluster L mat med
  else if med.length = 2 then do
    let (loss, assi, data) ← k2InitialAssignment L mat med
    let (s, iter) ← fixFastmscK2Loop mat med.length maxiter 0 ⟨med, assi, data, loss, 0, 0⟩
    .ok ⟨toSilhouette s.loss mat.len, s.assi, iter, s.nSwaps, s.med⟩
  else do
    let (loss, data) ← mscInitialAssignment L mat med
    let (s, iter) ← fixFastmscLoop mat med.length maxiter 0 ⟨med, data, loss, 0⟩
    .ok ⟨toSilhouette s.loss mat.len, s.data.map (·.near.i), iter, s.nSwaps, s.med⟩

/-- `pmsLoop`, repaired. -/
def fixPmsLoop (mat : Mat N) (k : Nat) : Nat → Nat → MPState N L → Res (MPState N L × Nat)
  | 0, iter, s => .ok (s, iter)
  | fuel + 1, iter, s => do
    let best ← foldRes (pmsScanStep mat k s.med s.data) ((RLoss.zero : L), k, usizeMax)
      (List.range mat.len)
    if rgt best.1 RLoss.zero then
      let (newloss, med, data) ← mscDoSwap L mat s.med s.data best.2.1 best.2.2
      if rge newloss s.loss then .ok (⟨med, data, newloss, s.nSwaps + 1⟩, iter + 1)
      else fixPmsLoop mat k fuel (iter + 1) ⟨med, data, newloss, s.nSwaps + 1⟩
    else .ok (s, iter + 1)

/-- `pammedsil_swap`, repaired. -/
def pammedsilSwapFixed (L : Type) [RLoss L] [RFrom N L] (mat : Mat N) (med : List Nat) (maxiter : Nat) :
    Res (SwapResult L) := do
  let (loss, data) ← mscInitialAssignment L mat med
  if med.length = 1 then singleCluster L mat med
  else
    let (s, iter) ← fixPmsLoop mat med.length maxiter 0 ⟨med, data, loss, 0⟩
    .ok ⟨toSilhouette s.loss mat.len, s.data.map (·.near.i), iter, s.nSwaps, s.med⟩

end KMedoids
