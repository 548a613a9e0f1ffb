import Verif.Model.Silhouette

/-!
# The silhouette with empty clusters skipped

**This is not the code.** One change to the value of an object, for C121 (src/silhouette.rs:75-83 and the same lines of
src/par_silhouette.rs): the average distance is taken only to clusters with at least one object, `.filter(|&(i, p)| i != ai && p.0 > 0)`,
and the value is 0 if there is no other cluster. The early return for a single cluster (src/silhouette.rs:70-72) is then not needed.
-/

namespace KMedoids

variable {N L : Type} [RDist N] [RLoss L] [RFrom N L]

/-- `silValue`, repaired. -/
def fixSilValue (buf : List (Nat × L)) (ai : Nat) : Res L := do
  let own ← idx buf ai
  if 0 < own.1 then
    let a := checkedDiv own.2 (RLoss.ofU32 own.1)
    match (buf.zipIdx.filter (fun p => p.2 ≠ ai ∧ 0 < p.1.1)).map (fun p => checkedDiv p.1.2 (RLoss.ofU32 p.1.1)) with
    | [] => .ok RLoss.zero
    | x :: xs =>
      let b := xs.foldl (fun x y => if rlt y x then y else x) x
      .ok (checkedDiv (RLoss.sub b a) (if rgt a b then a else b))
  else .ok RLoss.zero

/-- `silGo` with `fixSilValue`. -/
def fixSilGo (mat : Mat N) (assi : List Nat) (samples : Bool) :
    List (Nat × Nat) → L → List L → Res (L × List L)
  | [], lsum, sil => do
    if samples then rassert (sil.length == assi.length) "Length not as expected."
    .ok (RLoss.div lsum (RLoss.ofU32 (asU32 assi.length)), sil)
  | p :: rest, lsum, sil => do
    let buf ← silBuf L mat assi p.2
    let s ← fixSilValue buf p.1
    let sil ← if samples then setIdx sil p.2 s else .ok sil
    fixSilGo mat assi samples rest (RLoss.add lsum s) sil

/-- `silhouette`, repaired. -/
def silhouetteFixed (L : Type) [RLoss L] [RFrom N L] (mat : Mat N) (assi : List Nat) (samples : Bool) :
    Res (L × List L) := do
  assertSquare mat
  fixSilGo mat assi samples assi.zipIdx RLoss.zero
    (List.replicate (if samples then assi.length else 0) RLoss.zero)

/-- `par_silhouette`, repaired. -/
def parSilhouetteFixed (L : Type) [RLoss L] [RFrom N L] (mat : Mat N) (assi : List Nat) : Res L := do
  assertSquare mat
  let vals ← mapRes (fun (p : Nat × Nat) => do
    let buf ← silBuf L mat assi p.2
    fixSilValue buf p.1) assi.zipIdx
  .ok (RLoss.div (vals.foldl RLoss.add RLoss.zero) (RLoss.ofU32 (asU32 assi.length)))

end KMedoids
