import Verif.Model.Pam

/-! # Model of `src/fastpam1.rs` -/

namespace KMedoids

variable {N L : Type} [RDist N] [RLoss L] [RFrom N L]

/-- Body of the `for j` loop of `fastpam1` (src/fastpam1.rs:66-75). -/
def fastpam1ScanStep (mat : Mat N) (med : List Nat) (data : List (Rec N)) (rem : List L)
    (best : L × Nat × Nat) (j : Nat) : Res (L × Nat × Nat) := do
  let own ← isOwnMedoid med data j
  if own then .ok best
  else
    let (change, b) ← findBestSwap mat rem data j
    .ok (if rge change best.1 then best else (change, b, j))

/-- The `while` loop of `fastpam1` (src/fastpam1.rs:62-87). -/
def fastpam1Loop (mat : Mat N) (k : Nat) : Nat → Nat → PState N L → Res (PState N L × Nat)
  | 0, iter, s => .ok (s, iter)
  | fuel + 1, iter, s => do
    let rem ← updateRemovalLoss L s.data k
    let best ← foldRes (fastpam1ScanStep mat s.med s.data rem) ((RLoss.zero : L), usizeMax, usizeMax)
      (List.range mat.len)
    if rlt best.1 RLoss.zero then
      let (newloss, med, data) ← doSwap L mat s.med s.data best.2.1 best.2.2
      if rge newloss s.loss then .ok (⟨med, data, s.loss, s.nSwaps + 1⟩, iter + 1)
      else fastpam1Loop mat k fuel (iter + 1) ⟨med, data, newloss, s.nSwaps + 1⟩
    else .ok (s, iter + 1)

/-- `fastpam1` (src/fastpam1.rs:42-90). -/
def fastpam1 (L : Type) [RLoss L] [RFrom N L] (mat : Mat N) (med : List Nat) (maxiter : Nat) :
    Res (SwapResult L) :=
  if med.length = 1 then singleCluster L mat med
  else do
    let (loss, data) ← initialAssignment L mat med
    let (s, iter) ← fastpam1Loop mat med.length maxiter 0 ⟨med, data, loss, 0⟩
    .ok ⟨s.loss, s.data.map (·.near.i), iter, s.nSwaps, s.med⟩

end KMedoids
