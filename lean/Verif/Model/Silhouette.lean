import Verif.Model.FasterPam

/-! # Model of `src/silhouette.rs` and `src/par_silhouette.rs` -/

namespace KMedoids

variable {N L : Type} [RDist N] [RLoss L] [RFrom N L]
open RFrom (conv)

/-- `checked_div` (src/silhouette.rs:179-189). -/
def checkedDiv (x y : L) : L :=
  if rgt y RLoss.zero then RLoss.div x y else RLoss.zero

/-- `while aj >= buf.len() { buf.push((0, L::zero())); }` (src/silhouette.rs:62-64). -/
def growBuf (buf : List (Nat × L)) (aj : Nat) : List (Nat × L) :=
  buf ++ List.replicate (aj + 1 - buf.length) (0, RLoss.zero)

/-- Body of the inner loop of `silhouette` (src/silhouette.rs:61-69), `p = (aj, j)`.
Simplification: the `u32` counter does not wrap around. -/
def silBufStep (mat : Mat N) (i : Nat) (buf : List (Nat × L)) (p : Nat × Nat) :
    Res (List (Nat × L)) := do
  let buf := growBuf buf p.1
  if i ≠ p.2 then
    let x ← mat.get i p.2
    let c ← idx buf p.1
    setIdx buf p.1 (c.1 + 1, RLoss.add c.2 (conv x))
  else .ok buf

/-- The bucket table of object `i` (src/silhouette.rs:60-69). -/
def silBuf (L : Type) [RLoss L] [RFrom N L] (mat : Mat N) (assi : List Nat) (i : Nat) :
    Res (List (Nat × L)) :=
  foldRes (silBufStep mat i) [] assi.zipIdx

/-- The silhouette value of an object with label `ai` (src/silhouette.rs:73-86). -/
def silValue (buf : List (Nat × L)) (ai : Nat) : Res L := do
  let own ← idx buf ai
  if 0 < own.1 then
    let a := checkedDiv own.2 (RLoss.ofU32 own.1)
    let tmp := (buf.zipIdx.filter (fun p => p.2 ≠ ai)).map
      (fun p => checkedDiv p.1.2 (RLoss.ofU32 p.1.1))
    let tmp2 := tmp.head?.getD RLoss.zero
    let b := tmp.tail.foldl (fun x y => if rlt y x then y else x) tmp2
    .ok (checkedDiv (RLoss.sub b a) (if rgt a b then a else b))
  else .ok RLoss.zero

/-- The outer loop of `silhouette` (src/silhouette.rs:59-95), including the early return for a single
cluster (70-72) and the final division. -/
def silGo (mat : Mat N) (assi : List Nat) (samples : Bool) :
    List (Nat × Nat) → L → List L → Res (L × List L)
  | [], lsum, sil => do
    if samples then rassert (sil.length == assi.length) "Length not as expected."
    .ok (RLoss.div lsum (RLoss.ofU32 (asU32 assi.length)), sil)
  | p :: rest, lsum, sil => do
    let buf ← silBuf L mat assi p.2
    if buf.length = 1 then .ok (RLoss.zero, sil)
    else
      let s ← silValue buf p.1
      let sil ← if samples then setIdx sil p.2 s else .ok sil
      silGo mat assi samples rest (RLoss.add lsum s) sil

/-- `silhouette` (src/silhouette.rs:41-96). -/
def silhouette (L : Type) [RLoss L] [RFrom N L] (mat : Mat N) (assi : List Nat) (samples : Bool) :
    Res (L × List L) := do
  assertSquare mat
  silGo mat assi samples assi.zipIdx RLoss.zero
    (List.replicate (if samples then assi.length else 0) RLoss.zero)

/-- The two smallest medoid distances of object `i` (src/silhouette.rs:158-168). -/
def twoNearest (mat : Mat N) (meds : List Nat) (i : Nat) : Res (N × N) := do
  let m0 ← idx meds 0
  let d1 ← mat.get i m0
  let m1 ← idx meds 1
  let d2 ← mat.get i m1
  foldRes (fun (best : N × N) (m : Nat) => do
    let d ← mat.get i m
    .ok (if rlt d best.1 then (d, best.1)
      else if rlt d best.2 then (best.1, d) else best))
    (if rlt d1 d2 then (d1, d2) else (d2, d1)) (meds.drop 2)

/-- Body of the main loop of `medoid_silhouette` (src/silhouette.rs:157-174); state `(loss, sil)`. -/
def medoidSilStep (mat : Mat N) (meds : List Nat) (samples : Bool) (st : L × List L) (i : Nat) :
    Res (L × List L) := do
  let best ← twoNearest mat meds i
  if !RDist.isZero best.1 then
    let s : L := RLoss.div (conv best.1) (conv best.2)
    let sil ← if samples then setIdx st.2 i (RLoss.sub RLoss.one s) else .ok st.2
    .ok (RLoss.add st.1 s, sil)
  else .ok st

/-- `medoid_silhouette` (src/silhouette.rs:135-177). -/
def medoidSilhouette (L : Type) [RLoss L] [RFrom N L] (mat : Mat N) (meds : List Nat)
    (samples : Bool) : Res (L × List L) := do
  assertSquare mat
  rassert (mat.len ≤ u32Max) "N is too large"
  let sil := List.replicate (if samples then mat.len else 0) (RLoss.one : L)
  if meds.length = 1 then .ok (RLoss.one, sil)
  else
    rassert (meds.length ≤ mat.len) "invalid k, must be over 1 and at most N"
    let st ← foldRes (medoidSilStep mat meds samples) (RLoss.zero, sil) (List.range mat.len)
    .ok (RLoss.sub RLoss.one (RLoss.div st.1 (RLoss.ofU32 (asU32 mat.len))), st.2)

/-- `par_silhouette` (src/par_silhouette.rs:44-95). The parallel map is collected in index order and
summed sequentially, so no schedule is visible. There is no early return for a single cluster. -/
def parSilhouette (L : Type) [RLoss L] [RFrom N L] (mat : Mat N) (assi : List Nat) : Res L := do
  assertSquare mat
  let vals ← mapRes (fun (p : Nat × Nat) => do
    let buf ← silBuf L mat assi p.2
    silValue buf p.1) assi.zipIdx
  .ok (RLoss.div (vals.foldl RLoss.add RLoss.zero) (RLoss.ofU32 (asU32 assi.length)))

end KMedoids
