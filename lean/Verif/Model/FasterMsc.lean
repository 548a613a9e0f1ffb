import Verif.Model.FasterPam

/-! # Model of `src/fastermsc.rs` -/

namespace KMedoids

variable {N L : Type} [RDist N] [RLoss L] [RFrom N L]
open RFrom (conv)

/-- `_loss` (src/fastermsc.rs:7-14; identical copies in src/pammedsil.rs:8-15, src/dynmsc.rs:9-16). -/
def mscLoss (L : Type) [RLoss L] [RFrom N L] (a b : N) : L :=
  if RDist.isZero a || RDist.isZero b then RLoss.zero else RLoss.div (conv a) (conv b)

/-- Body of the inner loop of `initial_assignment` (src/fastermsc.rs:122-134) for object `i`. -/
def mscInitStep (mat : Mat N) (i : Nat) (cur : Reco N) (p : Nat × Nat) : Res (Reco N) := do
  let d ← mat.get i p.1
  if rlt d cur.near.d || i == p.1 then
    .ok { near := ⟨asU32 p.2, d⟩, seco := cur.near, third := cur.seco }
  else if cur.seco.i == u32Max || rlt d cur.seco.d then
    .ok { cur with seco := ⟨asU32 p.2, d⟩, third := cur.seco }
  else if cur.third.i == u32Max || rlt d cur.third.d then
    .ok { cur with third := ⟨asU32 p.2, d⟩ }
  else .ok cur

/-- Closure of `initial_assignment` (src/fastermsc.rs:120-136): the record of object `i`. -/
def mscInitRec (mat : Mat N) (med : List Nat) (firstcenter i : Nat) : Res (Reco N) := do
  let d ← mat.get i firstcenter
  foldRes (mscInitStep mat i) ⟨⟨0, d⟩, ⟨u32Max, RDist.zero⟩, ⟨u32Max, RDist.zero⟩⟩
    (med.zipIdx.drop 1)

/-- `initial_assignment` (src/fastermsc.rs:102-140). -/
def mscInitialAssignment (L : Type) [RLoss L] [RFrom N L] (mat : Mat N) (med : List Nat) :
    Res (L × List (Reco N)) := do
  assertSizes mat med.length
  let firstcenter ← idx med 0
  let data ← mapRes (mscInitRec mat med firstcenter) (List.range mat.len)
  let loss ← unwrapOpt (reduceAdd (data.map fun r => mscLoss L r.near.d r.seco.d))
  .ok (loss, data)

/-- Body of the loop of `find_best_swap` (src/fastermsc.rs:158-177); state `(ploss, acc)`. -/
def mscFindStep (mat : Mat N) (j : Nat) (st : List L × L) (p : Reco N × Nat) :
    Res (List L × L) := do
  let doj ← mat.get p.2 j
  let n := p.1.near
  let s := p.1.seco
  let t := p.1.third
  if rlt doj n.d then
    let acc := RLoss.add st.2 (RLoss.sub (mscLoss L n.d s.d) (mscLoss L doj n.d))
    let ploss ← addAt st.1 n.i (RLoss.sub (RLoss.add (mscLoss L doj n.d) (mscLoss L s.d t.d))
      (mscLoss L (RDist.add n.d doj) s.d))
    let ploss ← addAt ploss s.i (RLoss.sub (mscLoss L n.d t.d) (mscLoss L n.d s.d))
    .ok (ploss, acc)
  else if rlt doj s.d then
    let acc := RLoss.add st.2 (RLoss.sub (mscLoss L n.d s.d) (mscLoss L n.d doj))
    let ploss ← addAt st.1 n.i (RLoss.sub (RLoss.add (mscLoss L n.d doj) (mscLoss L s.d t.d))
      (mscLoss L (RDist.add n.d doj) s.d))
    let ploss ← addAt ploss s.i (RLoss.sub (mscLoss L n.d t.d) (mscLoss L n.d s.d))
    .ok (ploss, acc)
  else if rlt doj t.d then
    let ploss ← addAt st.1 n.i (RLoss.sub (mscLoss L s.d t.d) (mscLoss L s.d doj))
    let ploss ← addAt ploss s.i (RLoss.sub (mscLoss L n.d t.d) (mscLoss L n.d doj))
    .ok (ploss, st.2)
  else .ok st

/-- `find_best_swap` (src/fastermsc.rs:142-180). -/
def mscFindBestSwap (mat : Mat N) (removalLoss : List L) (data : List (Reco N)) (j : Nat) :
    Res (L × Nat) := do
  let st ← foldRes (mscFindStep mat j) (removalLoss, RLoss.zero) data.zipIdx
  let r ← findMax st.1
  .ok (RLoss.add r.2 st.2, r.1)

/-- `update_removal_loss` (src/fastermsc.rs:182-194); the slice keeps its length `k`. -/
def mscUpdateRemovalLoss (L : Type) [RLoss L] [RFrom N L] (data : List (Reco N)) (k : Nat) :
    Res (List L) :=
  foldRes (fun (loss : List L) (r : Reco N) => do
    let loss ← addAt loss r.near.i
      (RLoss.sub (mscLoss L r.near.d r.seco.d) (mscLoss L r.seco.d r.third.d))
    addAt loss r.seco.i
      (RLoss.sub (mscLoss L r.near.d r.seco.d) (mscLoss L r.near.d r.third.d)))
    (List.replicate k RLoss.zero) data

/-- `update_third_nearest` (src/fastermsc.rs:196-223). -/
def updateThirdNearest (mat : Mat N) (med : List Nat) (n s b o : Nat) (doj : N) :
    Res (DistancePair N) :=
  foldRes (fun (dist : DistancePair N) (p : Nat × Nat) =>
    if p.2 = n ∨ p.2 = b ∨ p.2 = s then .ok dist
    else do
      let d ← mat.get o p.1
      .ok (if rlt d dist.d then .new p.2 d else dist))
    (.new b doj) med.zipIdx

/-- Closure of `do_swap` (src/fastermsc.rs:245-296) for object `o = p.2`; `med[b] = j` already. -/
def mscSwapRec (L : Type) [RLoss L] [RFrom N L] (mat : Mat N) (med : List Nat) (b j : Nat)
    (p : Reco N × Nat) : Res (Reco N × L) :=
  let reco := p.1
  let o := p.2
  if o = j then
    let reco :=
      if reco.near.i ≠ asU32 b then
        let reco := if reco.seco.i ≠ asU32 b then { reco with third := reco.seco } else reco
        { reco with seco := reco.near }
      else reco
    .ok ({ reco with near := .new b RDist.zero }, RLoss.zero)
  else do
    let doj ← mat.get o j
    let reco ←
      if reco.near.i = asU32 b then
        if rlt doj reco.seco.d then
          .ok { reco with near := .new b doj }
        else if reco.third.i == u32Max || rlt doj reco.third.d then
          .ok { reco with near := reco.seco, seco := .new b doj }
        else do
          let t ← updateThirdNearest mat med reco.seco.i reco.third.i b o doj
          .ok { near := reco.seco, seco := reco.third, third := t }
      else if reco.seco.i = asU32 b then
        if rlt doj reco.near.d then
          .ok { reco with near := .new b doj, seco := reco.near }
        else if reco.third.i == u32Max || rlt doj reco.third.d then
          .ok { reco with seco := .new b doj }
        else do
          let t ← updateThirdNearest mat med reco.near.i reco.third.i b o doj
          .ok { reco with seco := reco.third, third := t }
      else
        if rlt doj reco.near.d then
          .ok { near := .new b doj, seco := reco.near, third := reco.seco }
        else if rlt doj reco.seco.d then
          .ok { reco with seco := .new b doj, third := reco.seco }
        else if reco.third.i == u32Max || rlt doj reco.third.d then
          .ok { reco with third := .new b doj }
        else if reco.third.i = asU32 b then do
          let t ← updateThirdNearest mat med reco.near.i reco.seco.i b o doj
          .ok { reco with third := t }
        else .ok reco
    .ok (reco, mscLoss L reco.near.d reco.seco.d)

/-- `do_swap` (src/fastermsc.rs:225-299); returns `(loss, med, data)`. -/
def mscDoSwap (L : Type) [RLoss L] [RFrom N L] (mat : Mat N) (med : List Nat)
    (data : List (Reco N)) (b j : Nat) : Res (L × List Nat × List (Reco N)) := do
  rassert (b < med.length) "invalid medoid number"
  rassert (j < mat.len) "invalid object number"
  let med ← setIdx med b j
  let rs ← mapRes (mscSwapRec L mat med b j) data.zipIdx
  let loss ← unwrapOpt (reduceAdd (rs.map (·.2)))
  .ok (loss, med, rs.map (·.1))

/-- Local variables of `fastermsc` (and of the inner loops of `dynmsc`) that change in the loops. -/
structure MSCState (N L : Type) where
  /-- `med` -/
  med : List Nat
  /-- `data` -/
  data : List (Reco N)
  /-- `removal_loss` -/
  rem : List L
  /-- `loss` -/
  loss : L
  /-- `lastswap` -/
  lastswap : Nat
  /-- `n_swaps` -/
  nSwaps : Nat

/-- The test `j == med[data[j].near.i as usize]` (src/fastermsc.rs:80). -/
def mscIsOwnMedoid (med : List Nat) (data : List (Reco N)) (j : Nat) : Res Bool := do
  let r ← idx data j
  let m ← idx med r.near.i
  .ok (j == m)

/-- The inner `for j` loop of `fastermsc` (src/fastermsc.rs:76-92) and of `dynmsc`
(src/dynmsc.rs:94-110), which is the same code. -/
def mscPass (mat : Mat N) : List Nat → MSCState N L → Res (MSCState N L)
  | [], s => .ok s
  | j :: js, s =>
    if j = s.lastswap then .ok s
    else do
      let own ← mscIsOwnMedoid s.med s.data j
      if own then mscPass mat js s
      else
        let (change, b) ← mscFindBestSwap mat s.rem s.data j
        if rle change RLoss.zero then mscPass mat js s
        else
          let (loss, med, data) ← mscDoSwap L mat s.med s.data b j
          let rem ← mscUpdateRemovalLoss L data s.rem.length
          mscPass mat js ⟨med, data, rem, loss, j, s.nSwaps + 1⟩

/-- The `while iter < maxiter` loop of `fastermsc` (src/fastermsc.rs:73-96) and of `dynmsc`
(src/dynmsc.rs:91-114). First argument: `maxiter - iter`. -/
def mscLoop (mat : Mat N) : Nat → Nat → MSCState N L → Res (MSCState N L × Nat)
  | 0, iter, s => .ok (s, iter)
  | fuel + 1, iter, s => do
    let s' ← mscPass mat (List.range mat.len) s
    if s'.nSwaps == s.nSwaps || rge s'.loss s.loss then .ok (s', iter + 1)
    else mscLoop mat fuel (iter + 1) s'

/-- `L::one() - loss / L::from(n as u32)` (src/fastermsc.rs:98 and similar). -/
def toSilhouette (loss : L) (n : Nat) : L :=
  RLoss.sub RLoss.one (RLoss.div loss (RLoss.ofU32 (asU32 n)))

/-- Closure of `initial_assignment_k2` (src/fastermsc.rs:359-368): `(label, (d0, d1), summand)`. -/
def k2InitRec (L : Type) [RLoss L] [RFrom N L] (mat : Mat N) (med : List Nat) (i : Nat) :
    Res (Nat × (N × N) × L) := do
  let m0 ← idx med 0
  let d0 ← mat.get i m0
  let m1 ← idx med 1
  let d1 ← mat.get i m1
  if rlt d0 d1 then .ok (0, (d0, d1), mscLoss L d0 d1)
  else .ok (1, (d0, d1), mscLoss L d1 d0)

/-- `initial_assignment_k2` (src/fastermsc.rs:343-372). There is no check `k <= n` here. -/
def k2InitialAssignment (L : Type) [RLoss L] [RFrom N L] (mat : Mat N) (med : List Nat) :
    Res (L × List Nat × List (N × N)) := do
  assertSquare mat
  rassert (mat.len ≤ u32Max) "N is too large"
  rassert (med.length == 2) "k must be 2"
  let rs ← mapRes (k2InitRec L mat med) (List.range mat.len)
  let loss ← unwrapOpt (reduceAdd (rs.map (·.2.2)))
  .ok (loss, rs.map (·.1), rs.map (·.2.1))

/-- Body of the loop of `find_best_swap_k2` (src/fastermsc.rs:387-392). -/
def k2FindStep (mat : Mat N) (j : Nat) (pl : L × L) (p : (N × N) × Nat) : Res (L × L) := do
  let doj ← mat.get p.2 j
  let d := p.1
  .ok (RLoss.add pl.1 (if rlt doj d.2 then mscLoss L doj d.2 else mscLoss L d.2 doj),
       RLoss.add pl.2 (if rlt doj d.1 then mscLoss L doj d.1 else mscLoss L d.1 doj))

/-- `find_best_swap_k2` (src/fastermsc.rs:374-395). -/
def k2FindBestSwap (L : Type) [RLoss L] [RFrom N L] (mat : Mat N) (data : List (N × N)) (j : Nat) :
    Res (L × Nat) := do
  let pl ← foldRes (k2FindStep mat j) ((RLoss.zero : L), (RLoss.zero : L)) data.zipIdx
  let r ← findMin [pl.1, pl.2]
  .ok (r.2, r.1)

/-- Closures of `do_swap_k2` (src/fastermsc.rs:420-435 for `b == 0`, 441-456 otherwise);
`p = ((label, (d0, d1)), o)`. -/
def k2SwapRec (L : Type) [RLoss L] [RFrom N L] (mat : Mat N) (b j : Nat)
    (p : (Nat × (N × N)) × Nat) : Res (Nat × (N × N) × L) :=
  let a := p.1.1
  let d := p.1.2
  let o := p.2
  if b = 0 then
    if o = j then .ok (0, (RDist.zero, d.2), RLoss.zero)
    else do
      let doj ← mat.get o j
      if rlt doj d.2 || (req doj d.2 && a == 0) then .ok (0, (doj, d.2), mscLoss L doj d.2)
      else .ok (1, (doj, d.2), mscLoss L d.2 doj)
  else
    if o = j then .ok (1, (d.1, RDist.zero), RLoss.zero)
    else do
      let doj ← mat.get o j
      if rlt doj d.1 || (req doj d.1 && a == 1) then .ok (1, (d.1, doj), mscLoss L doj d.1)
      else .ok (0, (d.1, doj), mscLoss L d.1 doj)

/-- `do_swap_k2` (src/fastermsc.rs:397-460); returns `(loss, med, assi, data)`. -/
def k2DoSwap (L : Type) [RLoss L] [RFrom N L] (mat : Mat N) (med assi : List Nat)
    (data : List (N × N)) (b j : Nat) : Res (L × List Nat × List Nat × List (N × N)) := do
  rassert (b < med.length) "invalid medoid number"
  rassert (j < mat.len) "invalid object number"
  let med ← setIdx med b j
  let rs ← mapRes (k2SwapRec L mat b j) (assi.zip data).zipIdx
  let loss ← unwrapOpt (reduceAdd (rs.map (·.2.2)))
  .ok (loss, med, rs.map (·.1), rs.map (·.2.1))

/-- Local variables of `fastermsc_k2` / `fastmsc_k2` that change in the loops. -/
structure K2State (N L : Type) where
  /-- `med` -/
  med : List Nat
  /-- `assi` -/
  assi : List Nat
  /-- `data` -/
  data : List (N × N)
  /-- `loss` -/
  loss : L
  /-- `lastswap` (unused by `fastmsc_k2`) -/
  lastswap : Nat
  /-- `n_swaps` -/
  nSwaps : Nat

/-- The test `j == med[assi[j]]` (src/fastermsc.rs:323, src/fastmsc.rs:117). -/
def k2IsOwnMedoid (med assi : List Nat) (j : Nat) : Res Bool := do
  let a ← idx assi j
  let m ← idx med a
  .ok (j == m)

/-- The inner `for j` loop of `fastermsc_k2` (src/fastermsc.rs:319-334). -/
def k2Pass (mat : Mat N) : List Nat → K2State N L → Res (K2State N L)
  | [], s => .ok s
  | j :: js, s =>
    if j = s.lastswap then .ok s
    else do
      let own ← k2IsOwnMedoid s.med s.assi j
      if own then k2Pass mat js s
      else
        let (newloss, b) ← k2FindBestSwap L mat s.data j
        if rge newloss s.loss then k2Pass mat js s
        else
          let (loss, med, assi, data) ← k2DoSwap L mat s.med s.assi s.data b j
          k2Pass mat js ⟨med, assi, data, loss, j, s.nSwaps + 1⟩

/-- The outer loop of `fastermsc_k2` (src/fastermsc.rs:316-338). -/
def k2Loop (mat : Mat N) : Nat → Nat → K2State N L → Res (K2State N L × Nat)
  | 0, iter, s => .ok (s, iter)
  | fuel + 1, iter, s => do
    let s' ← k2Pass mat (List.range mat.len) s
    if s'.nSwaps == s.nSwaps || rge s'.loss s.loss then .ok (s', iter + 1)
    else k2Loop mat fuel (iter + 1) s'

/-- `fastermsc_k2` (src/fastermsc.rs:301-341). -/
def fastermscK2 (L : Type) [RLoss L] [RFrom N L] (mat : Mat N) (med : List Nat) (maxiter : Nat) :
    Res (SwapResult L) := do
  rassert (med.length == 2) "Only valid for k=2"
  let (loss, assi, data) ← k2InitialAssignment L mat med
  let (s, iter) ← k2Loop mat maxiter 0 ⟨med, assi, data, loss, mat.len, 0⟩
  .ok ⟨toSilhouette s.loss mat.len, s.assi, iter, s.nSwaps, s.med⟩

/-- `fastermsc` (src/fastermsc.rs:48-100). -/
def fastermsc (L : Type) [RLoss L] [RFrom N L] (mat : Mat N) (med : List Nat) (maxiter : Nat) :
    Res (SwapResult L) :=
  if med.length = 1 then singleCluster L mat med
  else if med.length = 2 then fastermscK2 L mat med maxiter
  else do
    let (loss, data) ← mscInitialAssignment L mat med
    let rem ← mscUpdateRemovalLoss L data med.length
    let (s, iter) ← mscLoop mat maxiter 0 ⟨med, data, rem, loss, mat.len, 0⟩
    .ok ⟨toSilhouette s.loss mat.len, s.data.map (·.near.i), iter, s.nSwaps, s.med⟩

end KMedoids
