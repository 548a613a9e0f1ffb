import Verif.Model.FasterMsc

/-! # Model of `src/fastmsc.rs` -/

namespace KMedoids

variable {N L : Type} [RDist N] [RLoss L] [RFrom N L]

/-- Local variables of `fastmsc` / `pammedsil_optimize` that change in the loop. -/
structure MPState (N L : Type) where
  /-- `med` -/
  med : List Nat
  /-- `data` -/
  data : List (Reco N)
  /-- `loss` -/
  loss : L
  /-- `n_swaps` -/
  nSwaps : Nat

/-- Body of the `for j` loop of `fastmsc` (src/fastmsc.rs:71-80). -/
def fastmscScanStep (mat : Mat N) (med : List Nat) (data : List (Reco N)) (rem : List L)
    (best : L × Nat × Nat) (j : Nat) : Res (L × Nat × Nat) := do
  let own ← mscIsOwnMedoid med data j
  if own then .ok best
  else
    let (change, b) ← mscFindBestSwap mat rem data j
    .ok (if rle change best.1 then best else (change, b, j))

/-- The `while` loop of `fastmsc` (src/fastmsc.rs:67-92). -/
def fastmscLoop (mat : Mat N) (k : Nat) : Nat → Nat → MPState N L → Res (MPState N L × Nat)
  | 0, iter, s => .ok (s, iter)
  | fuel + 1, iter, s => do
    let rem ← mscUpdateRemovalLoss L s.data k
    let best ← foldRes (fastmscScanStep mat s.med s.data rem) ((RLoss.zero : L), usizeMax, usizeMax)
      (List.range mat.len)
    if rgt best.1 RLoss.zero then
      let (newloss, med, data) ← mscDoSwap L mat s.med s.data best.2.1 best.2.2
      if rge newloss s.loss then .ok (⟨med, data, s.loss, s.nSwaps + 1⟩, iter + 1)
      else fastmscLoop mat k fuel (iter + 1) ⟨med, data, newloss, s.nSwaps + 1⟩
    else .ok (s, iter + 1)

/-- Body of the `for j` loop of `fastmsc_k2` (src/fastmsc.rs:116-124). -/
def fastmscK2ScanStep (mat : Mat N) (med assi : List Nat) (data : List (N × N))
    (best : L × Nat × Nat) (j : Nat) : Res (L × Nat × Nat) := do
  let own ← k2IsOwnMedoid med assi j
  if own then .ok best
  else
    let (newloss, b) ← k2FindBestSwap L mat data j
    .ok (if best.2.2 == usizeMax || rlt newloss best.1 then (newloss, b, j) else best)

/-- The `while` loop of `fastmsc_k2` (src/fastmsc.rs:113-137). -/
def fastmscK2Loop (mat : Mat N) (k : Nat) : Nat → Nat → K2State N L → Res (K2State N L × Nat)
  | 0, iter, s => .ok (s, iter)
  | fuel + 1, iter, s => do
    let best ← foldRes (fastmscK2ScanStep mat s.med s.assi s.data) ((RLoss.zero : L), k, usizeMax)
      (List.range mat.len)
    if !rlt best.1 s.loss then .ok (s, iter + 1)
    else
      let (newloss, med, assi, data) ← k2DoSwap L mat s.med s.assi s.data best.2.1 best.2.2
      if !rlt newloss s.loss then
        .ok (⟨med, assi, data, s.loss, s.lastswap, s.nSwaps + 1⟩, iter + 1)
      else fastmscK2Loop mat k fuel (iter + 1) ⟨med, assi, data, newloss, s.lastswap, s.nSwaps + 1⟩

/-- `fastmsc_k2` (src/fastmsc.rs:98-140). -/
def fastmscK2 (L : Type) [RLoss L] [RFrom N L] (mat : Mat N) (med : List Nat) (maxiter : Nat) :
    Res (SwapResult L) := do
  rassert (med.length == 2) "Only valid for k=2"
  let (loss, assi, data) ← k2InitialAssignment L mat med
  let (s, iter) ← fastmscK2Loop mat med.length maxiter 0 ⟨med, assi, data, loss, 0, 0⟩
  .ok ⟨toSilhouette s.loss mat.len, s.assi, iter, s.nSwaps, s.med⟩

/-- `fastmsc` (src/fastmsc.rs:43-96). -/
def fastmsc (L : Type) [RLoss L] [RFrom N L] (mat : Mat N) (med : List Nat) (maxiter : Nat) :
    Res (SwapResult L) :=
  if med.length = 1 then singleCluster L mat med
  else if med.length = 2 then fastmscK2 L mat med maxiter
  else do
    let (loss, data) ← mscInitialAssignment L mat med
    let (s, iter) ← fastmscLoop mat med.length maxiter 0 ⟨med, data, loss, 0⟩
    .ok ⟨toSilhouette s.loss mat.len, s.data.map (·.near.i), iter, s.nSwaps, s.med⟩

end KMedoids
