import Verif.Model.PamMedSil
import Verif.Proofs.PureMsc
import Mathlib.Data.List.Induction
import Mathlib.Data.List.Perm.Subperm

/-! # Panic-free form of FasterMSC for k = 2, FastMSC and PAMMEDSIL -/

set_option linter.unusedSectionVars false
set_option linter.unusedSimpArgs false

namespace KMedoids

variable {N L : Type} [RDist N] [RLoss L] [RFrom N L]
open RFrom (conv)

/-! ## k = 2 -/

/-- pure `k2InitRec` -/
def k2InitRecP (L : Type) [RLoss L] [RFrom N L] (d : Nat → Nat → N) (m0 m1 i : Nat) :
    Nat × (N × N) × L :=
  if rlt (d i m0) (d i m1) then (0, (d i m0, d i m1), mscLoss L (d i m0) (d i m1))
  else (1, (d i m0, d i m1), mscLoss L (d i m1) (d i m0))

/-- pure state of the k = 2 functions before the first pass -/
def k2InitP (L : Type) [RLoss L] [RFrom N L] (d : Nat → Nat → N) (n m0 m1 last : Nat) : K2State N L :=
  let rs := (List.range n).map (k2InitRecP L d m0 m1)
  ⟨[m0, m1], rs.map (·.1), rs.map (·.2.1), sumP (rs.map (·.2.2)), last, 0⟩

/-- Sizes and index ranges of the state of the k = 2 functions. -/
structure K2Shape (n : Nat) (s : K2State N L) : Prop where
  medLen : s.med.length = 2
  medRange : ∀ m ∈ s.med, m < n
  assiLen : s.assi.length = n
  label : ∀ a ∈ s.assi, a < 2
  dataLen : s.data.length = n

theorem k2InitP_shape {n m0 m1 : Nat} (d : Nat → Nat → N) (h0 : m0 < n) (h1 : m1 < n) (last : Nat) :
    K2Shape n (k2InitP L d n m0 m1 last) := by
  refine ⟨rfl, by simp [k2InitP, h0, h1], by simp [k2InitP], ?_, by simp [k2InitP]⟩
  intro a ha
  simp only [k2InitP, List.map_map, List.mem_map, Function.comp] at ha
  obtain ⟨i, -, rfl⟩ := ha
  unfold k2InitRecP
  split <;> simp

theorem k2InitialAssignment_eq {mat : Mat N} {n m0 m1 : Nat} {d : Nat → Nat → N} (hm : IsMatrix mat n d)
    (hn : n ≤ u32Max) (h0 : m0 < n) (h1 : m1 < n) (last : Nat) :
    k2InitialAssignment L mat [m0, m1] =
      .ok ((k2InitP L d n m0 m1 last).loss, (k2InitP L d n m0 m1 last).assi,
        (k2InitP L d n m0 m1 last).data) := by
  have hmap : mapRes (k2InitRec L mat [m0, m1]) (List.range n) =
      .ok ((List.range n).map (k2InitRecP L d m0 m1)) := by
    refine mapRes_eq fun i hi => ?_
    have hi := List.mem_range.mp hi
    simp only [k2InitRec, idx, List.getElem?_cons_zero, List.getElem?_cons_succ, ok_bind,
      hm.get _ _ hi h0, hm.get _ _ hi h1, k2InitRecP]
    split <;> rfl
  have hne : (((List.range n).map (k2InitRecP L d m0 m1)).map (·.2.2)) ≠ [] := by
    intro h; have := congrArg List.length h; simp at this; omega
  simp only [k2InitialAssignment, assertSquare, hm.square, hm.len, ok_bind, rassert_true, hn, decide_true,
    hmap, unwrap_reduceAdd hne, k2InitP, List.length_cons, List.length_nil, Nat.zero_add,
    Nat.reduceAdd, beq_self_eq_true]

/-- pure `k2FindStep` -/
def k2FindStepP (d : Nat → Nat → N) (j : Nat) (pl : L × L) (p : (N × N) × Nat) : L × L :=
  (RLoss.add pl.1 (if rlt (d p.2 j) p.1.2 then mscLoss L (d p.2 j) p.1.2 else mscLoss L p.1.2 (d p.2 j)),
   RLoss.add pl.2 (if rlt (d p.2 j) p.1.1 then mscLoss L (d p.2 j) p.1.1 else mscLoss L p.1.1 (d p.2 j)))

/-- pure `k2FindBestSwap` -/
def k2FbsP (L : Type) [RLoss L] [RFrom N L] (d : Nat → Nat → N) (data : List (N × N)) (j : Nat) :
    L × Nat :=
  let pl := data.zipIdx.foldl (k2FindStepP d j) ((RLoss.zero : L), (RLoss.zero : L))
  let r := findMinP [pl.1, pl.2]
  (r.2, r.1)

theorem k2FindBestSwap_eq {mat : Mat N} {n : Nat} {d : Nat → Nat → N} (hm : IsMatrix mat n d)
    {data : List (N × N)} {j : Nat} (hj : j < n) (hl : data.length = n) :
    k2FindBestSwap L mat data j = .ok (k2FbsP L d data j) := by
  have h1 : foldRes (k2FindStep mat j) ((RLoss.zero : L), (RLoss.zero : L)) data.zipIdx =
      .ok (data.zipIdx.foldl (k2FindStepP d j) ((RLoss.zero : L), (RLoss.zero : L))) := by
    refine foldRes_eq' (fun s p hp => ?_) _
    have hpn : p.2 < n := hl ▸ mem_zipIdx_lt hp
    simp only [k2FindStep, hm.get _ _ hpn hj, ok_bind, k2FindStepP]
  simp only [k2FindBestSwap, h1, ok_bind, k2FbsP, findMin_eq (List.cons_ne_nil _ _)]

theorem k2FbsP_lt (d : Nat → Nat → N) (data : List (N × N)) (j : Nat) : (k2FbsP L d data j).2 < 2 :=
  findMinP_lt (List.cons_ne_nil _ _)

/-- pure `k2SwapRec` -/
def k2SwapRecP (L : Type) [RLoss L] [RFrom N L] (d : Nat → Nat → N) (b j : Nat)
    (p : (Nat × (N × N)) × Nat) : Nat × (N × N) × L :=
  let a := p.1.1
  let dd := p.1.2
  let o := p.2
  let doj := d o j
  if b = 0 then
    if o = j then (0, (RDist.zero, dd.2), RLoss.zero)
    else if rlt doj dd.2 || (req doj dd.2 && a == 0) then (0, (doj, dd.2), mscLoss L doj dd.2)
    else (1, (doj, dd.2), mscLoss L dd.2 doj)
  else
    if o = j then (1, (dd.1, RDist.zero), RLoss.zero)
    else if rlt doj dd.1 || (req doj dd.1 && a == 1) then (1, (dd.1, doj), mscLoss L doj dd.1)
    else (0, (dd.1, doj), mscLoss L dd.1 doj)

theorem k2SwapRec_eq {mat : Mat N} {n : Nat} {d : Nat → Nat → N} (hm : IsMatrix mat n d) {b j : Nat}
    (hj : j < n) {p : (Nat × (N × N)) × Nat} (hp : p.2 < n) :
    k2SwapRec L mat b j p = .ok (k2SwapRecP L d b j p) ∧ (k2SwapRecP L d b j p).1 < 2 := by
  unfold k2SwapRec k2SwapRecP
  simp only [hm.get _ _ hp hj, ok_bind]
  constructor
  · split
    · split
      · rfl
      · split <;> rfl
    · split
      · rfl
      · split <;> rfl
  · split
    · split
      · simp
      · split <;> simp
    · split
      · simp
      · split <;> simp

/-- pure swap of the k = 2 functions; new `lastswap` and `loss` are given -/
def k2SwapP (d : Nat → Nat → N) (s : K2State N L) (b j last : Nat) : K2State N L :=
  let rs := (s.assi.zip s.data).zipIdx.map (k2SwapRecP L d b j)
  ⟨s.med.set b j, rs.map (·.1), rs.map (·.2.1), sumP (rs.map (·.2.2)), last, s.nSwaps + 1⟩

theorem k2DoSwap_eq {mat : Mat N} {n : Nat} {d : Nat → Nat → N} (hm : IsMatrix mat n d)
    {s : K2State N L} (hs : K2Shape n s) {b j : Nat} (hb : b < 2) (hj : j < n) (last : Nat) :
    k2DoSwap L mat s.med s.assi s.data b j =
        .ok ((k2SwapP d s b j last).loss, (k2SwapP d s b j last).med, (k2SwapP d s b j last).assi,
          (k2SwapP d s b j last).data) ∧
      K2Shape n (k2SwapP d s b j last) := by
  have hzl : (s.assi.zip s.data).length = n := by simp [hs.assiLen, hs.dataLen]
  have hrec : ∀ p ∈ (s.assi.zip s.data).zipIdx, k2SwapRec L mat b j p = .ok (k2SwapRecP L d b j p) :=
    fun p hp => (k2SwapRec_eq hm hj (hzl ▸ mem_zipIdx_lt hp)).1
  have hmap := mapRes_eq hrec
  have hne : (((s.assi.zip s.data).zipIdx.map (k2SwapRecP L d b j)).map (·.2.2)) ≠ [] := by
    intro h; have := congrArg List.length h; simp [hs.assiLen, hs.dataLen] at this; omega
  refine ⟨?_, by simp [k2SwapP, hs.medLen], set_range hs.medRange hj,
    by simp [k2SwapP, hs.assiLen, hs.dataLen], ?_, by simp [k2SwapP, hs.assiLen, hs.dataLen]⟩
  · have hb' : b < s.med.length := hs.medLen ▸ hb
    have hj' : j < mat.len := hm.len ▸ hj
    simp only [k2DoSwap, hb', hj', decide_true, rassert_true, ok_bind, setIdx_lt hb', hmap,
      unwrap_reduceAdd hne, k2SwapP]
  · intro a ha
    simp only [k2SwapP, List.map_map, List.mem_map, Function.comp] at ha
    obtain ⟨p, hp, rfl⟩ := ha
    exact (k2SwapRec_eq (L := L) hm hj (hzl ▸ mem_zipIdx_lt hp)).2

/-- pure `k2IsOwnMedoid` -/
def k2OwnP (med assi : List Nat) (j : Nat) : Bool :=
  match assi[j]? with
  | some a => med[a]? == some j
  | none => false

theorem k2IsOwnMedoid_eq {n : Nat} {s : K2State N L} (hs : K2Shape n s) {j : Nat} (hj : j < n) :
    k2IsOwnMedoid s.med s.assi j = .ok (k2OwnP s.med s.assi j) := by
  have hjl : j < s.assi.length := hs.assiLen ▸ hj
  have hi : s.assi[j] < s.med.length := hs.medLen ▸ hs.label _ (List.getElem_mem hjl)
  simp only [k2IsOwnMedoid, idx_lt hjl, ok_bind, idx_lt hi, k2OwnP, List.getElem?_eq_getElem hjl,
    List.getElem?_eq_getElem hi]
  congr 1
  rw [Bool.eq_iff_iff]; simp only [beq_iff_eq, Option.some.injEq]; exact eq_comm

/-- pure candidate of `k2Pass` -/
def k2CandP (d : Nat → Nat → N) (s : K2State N L) (j : Nat) : Option (K2State N L) :=
  if k2OwnP s.med s.assi j then none
  else
    let r := k2FbsP L d s.data j
    if rge r.1 s.loss then none else some (k2SwapP d s r.2 j j)

/-- pure `k2Pass` -/
def k2PassP (d : Nat → Nat → N) (js : List Nat) (s : K2State N L) : K2State N L :=
  passG (·.lastswap) (k2CandP d) js s

theorem k2Pass_eq {mat : Mat N} {n : Nat} {d : Nat → Nat → N} (hm : IsMatrix mat n d) {js : List Nat}
    (hjs : ∀ j ∈ js, j < n) {s : K2State N L} (hs : K2Shape n s) :
    k2Pass mat js s = .ok (k2PassP d js s) ∧ K2Shape n (k2PassP d js s) := by
  unfold k2PassP
  induction js generalizing s with
  | nil => exact ⟨rfl, hs⟩
  | cons j js ih =>
    have hj : j < n := hjs j (by simp)
    have ih' := fun {s : K2State N L} (h : K2Shape n s) => ih (fun j hj => hjs j (by simp [hj])) h
    have hf := k2FindBestSwap_eq (L := L) hm hj hs.dataLen
    have hsw := k2DoSwap_eq (L := L) hm hs (k2FbsP_lt (L := L) d s.data j) hj j
    unfold k2Pass passG
    by_cases h1 : j = s.lastswap
    · simp only [h1, if_true]; exact ⟨trivial, hs⟩
    · simp only [h1, if_false, k2IsOwnMedoid_eq hs hj, ok_bind, k2CandP]
      by_cases h2 : k2OwnP s.med s.assi j = true
      · simp only [h2, if_true]; exact ih' hs
      · simp only [h2, hf, ok_bind, Bool.false_eq_true, if_false]
        by_cases h3 : rge (k2FbsP L d s.data j).1 s.loss = true
        · simp only [h3, if_true]; exact ih' hs
        · simp only [h3, hsw.1, ok_bind, Bool.false_eq_true, if_false]
          exact ih' hsw.2

/-- pure `k2Loop` -/
def k2LoopP (d : Nat → Nat → N) (n : Nat) (fuel iter : Nat) (s : K2State N L) : K2State N L × Nat :=
  loopG (k2PassP d (List.range n)) (·.nSwaps) (·.loss) fuel iter s

theorem k2Loop_eq {mat : Mat N} {n : Nat} {d : Nat → Nat → N} (hm : IsMatrix mat n d)
    {fuel iter : Nat} {s : K2State N L} (hs : K2Shape n s) :
    k2Loop mat fuel iter s = .ok (k2LoopP d n fuel iter s) ∧
      K2Shape n (k2LoopP d n fuel iter s).1 ∧ (k2LoopP d n fuel iter s).2 ≤ iter + fuel := by
  refine ⟨?_, loopG_inv (K2Shape n) (fun s hs => (k2Pass_eq hm (fun j hj => List.mem_range.mp hj) hs).2) hs⟩
  unfold k2LoopP
  induction fuel generalizing iter s with
  | zero => rfl
  | succ fuel ih =>
    obtain ⟨h1, h2⟩ := k2Pass_eq hm (js := List.range n) (fun j hj => List.mem_range.mp hj) hs
    unfold k2Loop loopG
    simp only [hm.len, h1, ok_bind]
    split
    · rfl
    · exact ih h2

/-- the tuple returned by the k = 2 functions -/
def k2ResultP (n : Nat) (r : K2State N L × Nat) : SwapResult L :=
  ⟨toSilhouette r.1.loss n, r.1.assi, r.2, r.1.nSwaps, r.1.med⟩

/-- pure `fastermscK2` -/
def fastermscK2P (L : Type) [RLoss L] [RFrom N L] (d : Nat → Nat → N) (n m0 m1 maxiter : Nat) :
    SwapResult L :=
  k2ResultP n (k2LoopP d n maxiter 0 (k2InitP L d n m0 m1 n))

theorem fastermscK2_eq {mat : Mat N} {n m0 m1 : Nat} {d : Nat → Nat → N} (hm : IsMatrix mat n d)
    (hn : n ≤ u32Max) (h0 : m0 < n) (h1 : m1 < n) (maxiter : Nat) :
    fastermscK2 L mat [m0, m1] maxiter = .ok (fastermscK2P L d n m0 m1 maxiter) := by
  have hl := k2Loop_eq hm (fuel := maxiter) (iter := 0) (k2InitP_shape (L := L) d h0 h1 n)
  simp only [fastermscK2, List.length_cons, List.length_nil, Nat.zero_add, Nat.reduceAdd,
    beq_self_eq_true, rassert_true, ok_bind, k2InitialAssignment_eq (L := L) hm hn h0 h1 n, hm.len]
  rw [show (⟨[m0, m1], (k2InitP L d n m0 m1 n).assi, (k2InitP L d n m0 m1 n).data,
    (k2InitP L d n m0 m1 n).loss, n, 0⟩ : K2State N L) = k2InitP L d n m0 m1 n from rfl, hl.1]
  rfl

/-! ## fastmsc, k = 2 -/

/-- pure scan of `fastmscK2Loop` -/
def fastmscK2ScanP (d : Nat → Nat → N) (n k : Nat) (s : K2State N L) : L × Nat × Nat :=
  (List.range n).foldl (fun (best : L × Nat × Nat) (j : Nat) =>
    if k2OwnP s.med s.assi j then best
    else
      let r := k2FbsP L d s.data j
      if best.2.2 == usizeMax || rlt r.1 best.1 then (r.1, r.2, j) else best) (RLoss.zero, k, usizeMax)

/-- pure step of `fastmscK2Loop` -/
def fastmscK2StepP (d : Nat → Nat → N) (n k : Nat) (s : K2State N L) : Option (K2State N L × Bool) :=
  let best := fastmscK2ScanP d n k s
  if !rlt best.1 s.loss then none
  else
    let s' := k2SwapP d s best.2.1 best.2.2 s.lastswap
    if !rlt s'.loss s.loss then some ({ s' with loss := s.loss }, true) else some (s', false)

/-- The scan found a candidate. -/
def Found (n k : Nat) (best : L × Nat × Nat) : Prop := best.2.1 < k ∧ best.2.2 < n

theorem fastmscK2Scan_eq {mat : Mat N} {n k : Nat} {d : Nat → Nat → N} (hm : IsMatrix mat n d)
    {s : K2State N L} (hs : K2Shape n s) :
    foldRes (fastmscK2ScanStep mat s.med s.assi s.data) ((RLoss.zero : L), k, usizeMax)
      (List.range mat.len) = .ok (fastmscK2ScanP d n k s) := by
  rw [hm.len]
  refine foldRes_eq' (fun b j hj => ?_) _
  have hj := List.mem_range.mp hj
  simp only [fastmscK2ScanStep, k2IsOwnMedoid_eq hs hj, ok_bind, k2FindBestSwap_eq (L := L) hm hj hs.dataLen]
  split <;> rfl

/-- If some object is not recognised as a medoid, then the scan returns a valid candidate. -/
theorem fastmscK2ScanP_found {n k : Nat} (d : Nat → Nat → N) (hk : 2 ≤ k) (hn : n ≤ u32Max)
    {s : K2State N L} (h : ∃ j, j < n ∧ k2OwnP s.med s.assi j = false) :
    Found n k (fastmscK2ScanP d n k s) := by
  have hg : ∀ js : List Nat, (∀ j ∈ js, j < n) →
      let best := js.foldl (fun (best : L × Nat × Nat) (j : Nat) =>
        if k2OwnP s.med s.assi j then best
        else
          let r := k2FbsP L d s.data j
          if best.2.2 == usizeMax || rlt r.1 best.1 then (r.1, r.2, j) else best) (RLoss.zero, k, usizeMax)
      (best.2.2 = usizeMax ∨ Found n k best) ∧
      (best.2.2 = usizeMax → ∀ j ∈ js, k2OwnP s.med s.assi j = true) := by
    intro js
    induction js using List.reverseRecOn with
    | nil => intro _; simp
    | append_singleton js j ih =>
      intro hjs
      obtain ⟨i1, i2⟩ := ih (fun x hx => hjs x (by simp [hx]))
      have hj : j < n := hjs j (by simp)
      have hju : j ≠ usizeMax := by unfold u32Max at hn; unfold usizeMax; omega
      rw [List.foldl_append, List.foldl_cons, List.foldl_nil]
      generalize js.foldl _ ((RLoss.zero : L), k, usizeMax) = best at *
      dsimp only at *
      by_cases hown : k2OwnP s.med s.assi j = true
      · simp only [hown, if_true]
        refine ⟨i1, fun h x hx => ?_⟩
        rcases List.mem_append.mp hx with hx | hx
        · exact i2 h x hx
        · rw [List.mem_singleton.mp hx]; exact hown
      · simp only [hown, Bool.false_eq_true, if_false]
        split
        · refine ⟨Or.inr ⟨?_, hj⟩, fun h => absurd h hju⟩
          have := k2FbsP_lt (L := L) d s.data j
          dsimp only; omega
        · rename_i hc
          simp only [Bool.or_eq_true, beq_iff_eq, not_or] at hc
          exact ⟨i1, fun h => absurd h hc.1⟩
  obtain ⟨g1, g2⟩ := hg (List.range n) (fun j hj => List.mem_range.mp hj)
  rcases g1 with g1 | g1
  · obtain ⟨j, hj, hown⟩ := h
    have := g2 g1 j (List.mem_range.mpr hj)
    simp [hown] at this
  · exact g1

/-- With three objects not all can be one of two medoids. -/
theorem exists_not_own {n : Nat} (hn : 3 ≤ n) {s : K2State N L} (hs : K2Shape n s) :
    ∃ j, j < n ∧ k2OwnP s.med s.assi j = false := by
  by_contra hc
  have hall : ∀ j, j < n → j ∈ s.med := by
    intro j hj
    have h : k2OwnP s.med s.assi j = true := by
      by_contra h'; exact hc ⟨j, hj, by simpa using h'⟩
    unfold k2OwnP at h
    split at h
    · exact List.mem_of_getElem? (beq_iff_eq.mp h)
    · cases h
  have hsub : List.range 3 ⊆ s.med := fun j hj => hall j (by have := List.mem_range.mp hj; omega)
  have hsp := List.subperm_of_subset (List.nodup_range (n := 3)) hsub
  have := hsp.length_le
  rw [hs.medLen] at this
  simp at this

/-- A step of `fastmscK2Loop` that will be taken is in range. -/
def K2StepOk (n k : Nat) (d : Nat → Nat → N) (s : K2State N L) : Prop :=
  rlt (fastmscK2ScanP d n k s).1 s.loss = true → Found n k (fastmscK2ScanP d n k s)

theorem fastmscK2Loop_eq {mat : Mat N} {n : Nat} {d : Nat → Nat → N} (hm : IsMatrix mat n d)
    (I : K2State N L → Prop) (hI : ∀ s, I s → K2Shape n s ∧ K2StepOk n 2 d s)
    (hstep : ∀ s s', I s → fastmscK2StepP d n 2 s = some (s', false) → I s')
    {fuel iter : Nat} {s : K2State N L} (hs : I s) :
    fastmscK2Loop mat 2 fuel iter s = .ok (loopB (fastmscK2StepP d n 2) fuel iter s) := by
  induction fuel generalizing iter s with
  | zero => rfl
  | succ fuel ih =>
    obtain ⟨h1, h2⟩ := hI s hs
    have h3 := fun s' => hstep s s' hs
    unfold fastmscK2Loop loopB
    simp only [fastmscK2Scan_eq (L := L) hm h1, ok_bind]
    unfold fastmscK2StepP at h3 ⊢
    by_cases hc : rlt (fastmscK2ScanP d n 2 s).1 s.loss = true
    · have hf := h2 hc
      have hsw := (k2DoSwap_eq (L := L) hm h1 hf.1 hf.2 s.lastswap).1
      simp only [hc, Bool.not_true, Bool.false_eq_true, if_false, hsw, ok_bind] at h3 ⊢
      by_cases hc2 : rlt (k2SwapP d s (fastmscK2ScanP d n 2 s).2.1 (fastmscK2ScanP d n 2 s).2.2
          s.lastswap).loss s.loss = true
      · simp only [hc2, Bool.not_true, Bool.false_eq_true, if_false] at h3 ⊢
        exact ih (h3 _ rfl)
      · have hc2 : rlt (k2SwapP d s (fastmscK2ScanP d n 2 s).2.1 (fastmscK2ScanP d n 2 s).2.2
          s.lastswap).loss s.loss = false := by simpa using hc2
        simp only [hc2, Bool.not_false, if_true]
        rfl
    · have hc : rlt (fastmscK2ScanP d n 2 s).1 s.loss = false := by simpa using hc
      simp only [hc, Bool.not_false, if_true]

/-- pure `fastmscK2` -/
def fastmscK2P (L : Type) [RLoss L] [RFrom N L] (d : Nat → Nat → N) (n m0 m1 maxiter : Nat) :
    SwapResult L :=
  k2ResultP n (loopB (fastmscK2StepP d n 2) maxiter 0 (k2InitP L d n m0 m1 0))

theorem fastmscK2_eq {mat : Mat N} {n m0 m1 : Nat} {d : Nat → Nat → N} (hm : IsMatrix mat n d)
    (hn : n ≤ u32Max) (h0 : m0 < n) (h1 : m1 < n)
    (I : K2State N L → Prop) (hI : ∀ s, I s → K2Shape n s ∧ K2StepOk n 2 d s)
    (hstep : ∀ s s', I s → fastmscK2StepP d n 2 s = some (s', false) → I s')
    (hinit : I (k2InitP L d n m0 m1 0)) (maxiter : Nat) :
    fastmscK2 L mat [m0, m1] maxiter = .ok (fastmscK2P L d n m0 m1 maxiter) := by
  simp only [fastmscK2, List.length_cons, List.length_nil, Nat.zero_add, Nat.reduceAdd,
    beq_self_eq_true, rassert_true, ok_bind, k2InitialAssignment_eq (L := L) hm hn h0 h1 0, hm.len]
  rw [show (⟨[m0, m1], (k2InitP L d n m0 m1 0).assi, (k2InitP L d n m0 m1 0).data,
    (k2InitP L d n m0 m1 0).loss, 0, 0⟩ : K2State N L) = k2InitP L d n m0 m1 0 from rfl,
    fastmscK2Loop_eq hm I hI hstep hinit]
  rfl

theorem fastmscK2StepP_shape {mat : Mat N} {n : Nat} {d : Nat → Nat → N} (hm : IsMatrix mat n d)
    {s s' : K2State N L} {b : Bool} (hs : K2Shape n s) (hok : K2StepOk n 2 d s)
    (h : fastmscK2StepP d n 2 s = some (s', b)) : K2Shape n s' := by
  unfold fastmscK2StepP at h
  dsimp only at h
  split at h
  · cases h
  · rename_i hc
    have hf := hok (by simpa using hc)
    have hsw := (k2DoSwap_eq (L := L) hm hs hf.1 hf.2 s.lastswap).2
    split at h
    · cases h; exact ⟨hsw.1, hsw.2, hsw.3, hsw.4, hsw.5⟩
    · cases h; exact hsw

/-- With at least three objects `fastmscK2` never panics. -/
theorem fastmscK2_eq3 {mat : Mat N} {n m0 m1 : Nat} {d : Nat → Nat → N} (hm : IsMatrix mat n d)
    (hn : n ≤ u32Max) (h3 : 3 ≤ n) (h0 : m0 < n) (h1 : m1 < n) (maxiter : Nat) :
    fastmscK2 L mat [m0, m1] maxiter = .ok (fastmscK2P L d n m0 m1 maxiter) ∧
      K2Shape n (loopB (fastmscK2StepP d n 2) maxiter 0 (k2InitP L d n m0 m1 0)).1 := by
  have hok : ∀ s : K2State N L, K2Shape n s → K2StepOk n 2 d s := fun s hs _ =>
    fastmscK2ScanP_found d le_rfl hn (exists_not_own h3 hs)
  have hstep : ∀ (s s' : K2State N L) b, K2Shape n s → fastmscK2StepP d n 2 s = some (s', b) →
      K2Shape n s' := fun s s' b hs h => fastmscK2StepP_shape hm hs (hok s hs) h
  exact ⟨fastmscK2_eq hm hn h0 h1 (K2Shape n) (fun s hs => ⟨hs, hok s hs⟩) (fun s s' => hstep s s' false)
    (k2InitP_shape d h0 h1 0) maxiter, (loopB_inv _ hstep (k2InitP_shape d h0 h1 0)).1⟩

theorem loopB_inv2 {S : Type} {step : S → Option (S × Bool)} (I J : S → Prop) (hIJ : ∀ s, I s → J s)
    (h1 : ∀ s s', I s → step s = some (s', false) → I s')
    (h2 : ∀ s s' b, I s → step s = some (s', b) → J s') {fuel iter : Nat} {s : S} (hs : I s) :
    J (loopB step fuel iter s).1 := by
  induction fuel generalizing iter s with
  | zero => exact hIJ s hs
  | succ fuel ih =>
    unfold loopB
    cases hst : step s with
    | none => exact hIJ s hs
    | some p =>
      obtain ⟨s', b⟩ := p
      cases b with
      | true => exact h2 s s' true hs hst
      | false => exact ih (h1 s s' hs hst)

section two
variable [SaneZero L]

/-- Invariant of `fastmscK2` on two objects: the distance of a medoid to itself is zero, and so is the
loss once both objects are medoids. -/
structure K2Two (s : K2State N L) : Prop where
  shape : K2Shape 2 s
  self0 : ∀ o x, s.med[0]? = some o → s.data[o]? = some x → RDist.isZero x.1 = true
  self1 : ∀ o x, s.med[1]? = some o → s.data[o]? = some x → RDist.isZero x.2 = true
  loss : (∀ o, o < 2 → o ∈ s.med) → s.loss = RLoss.zero

theorem mscLoss_zero_left {a b : N} (h : RDist.isZero a = true) : mscLoss L a b = RLoss.zero := by
  simp [mscLoss, h]

theorem mscLoss_zero_right {a b : N} (h : RDist.isZero b = true) : mscLoss L a b = RLoss.zero := by
  simp [mscLoss, h]

theorem sum_zero_two (ha : (RLoss.add RLoss.zero RLoss.zero : L) = RLoss.zero) {l : List L}
    (hl : l.length = 2) (h : ∀ x ∈ l, x = RLoss.zero) : sumP l = RLoss.zero := by
  obtain ⟨a, b, rfl⟩ := List.length_eq_two.mp hl
  rw [h a (by simp), h b (by simp)]
  simp [sumP, reduceAdd, ha]

theorem two_med {s : K2State N L} (hs : K2Shape 2 s) (h : ∀ o, o < 2 → o ∈ s.med) {o : Nat} (ho : o < 2) :
    s.med[0]? = some o ∨ s.med[1]? = some o := by
  obtain ⟨a, b, e⟩ := List.length_eq_two.mp hs.medLen
  have := h o ho
  rw [e] at this ⊢
  rcases List.mem_pair.mp this with rfl | rfl <;> simp

theorem k2InitP_two {d : Nat → Nat → N} (hz : ∀ x, x < 2 → RDist.isZero (d x x) = true)
    (ha : (RLoss.add RLoss.zero RLoss.zero : L) = RLoss.zero) {m0 m1 : Nat} (h0 : m0 < 2) (h1 : m1 < 2)
    (last : Nat) : K2Two (k2InitP L d 2 m0 m1 last) := by
  have hsh := k2InitP_shape (L := L) d h0 h1 last
  have hdat : ∀ o x, o < 2 → (k2InitP L d 2 m0 m1 last).data[o]? = some x → x = (d o m0, d o m1) := by
    intro o x ho hx
    simp only [k2InitP, List.map_map, List.getElem?_map, List.getElem?_range ho, Option.map_some,
      Option.some.injEq, Function.comp, k2InitRecP] at hx
    rw [← hx]; split <;> rfl
  refine ⟨hsh, fun o x ho hx => ?_, fun o x ho hx => ?_, fun hall => ?_⟩
  · have : m0 = o := by simpa [k2InitP] using ho
    subst this
    rw [hdat m0 x h0 hx]; exact hz m0 h0
  · have : m1 = o := by simpa [k2InitP] using ho
    subst this
    rw [hdat m1 x h1 hx]; exact hz m1 h1
  · change sumP (((List.range 2).map (k2InitRecP L d m0 m1)).map (·.2.2)) = _
    refine sum_zero_two ha (by simp) fun y hy => ?_
    simp only [List.map_map, List.mem_map, List.mem_range, Function.comp] at hy
    obtain ⟨o, ho, rfl⟩ := hy
    have ho0 := hz o ho
    rcases List.mem_pair.mp (show o ∈ [m0, m1] from hall o ho) with rfl | rfl
    · unfold k2InitRecP; split
      · exact mscLoss_zero_left ho0
      · exact mscLoss_zero_right ho0
    · unfold k2InitRecP; split
      · exact mscLoss_zero_right ho0
      · exact mscLoss_zero_left ho0

theorem k2SwapP_two {mat : Mat N} {d : Nat → Nat → N} (hm : IsMatrix mat 2 d)
    (hn0 : RDist.isZero (RDist.zero : N) = true)
    (ha : (RLoss.add RLoss.zero RLoss.zero : L) = RLoss.zero) {s : K2State N L} (hs : K2Two s) {b j : Nat}
    (hb : b < 2) (hj : j < 2) (last : Nat) : K2Two (k2SwapP d s b j last) := by
  have hsh := (k2DoSwap_eq (L := L) hm hs.shape hb hj last).2
  obtain ⟨m0, m1, hmed⟩ := List.length_eq_two.mp hs.shape.medLen
  have hb2 : b = 0 ∨ b = 1 := by omega
  have hget : ∀ (o : Nat) (r : Nat × (N × N) × L),
      (((s.assi.zip s.data).zipIdx.map (k2SwapRecP L d b j))[o]? = some r) →
      ∃ a x, s.data[o]? = some x ∧ r = k2SwapRecP L d b j ((a, x), o) := by
    intro o r hr
    simp only [List.getElem?_map, List.getElem?_zipIdx, Option.map_map, Option.map_eq_some_iff,
      Nat.zero_add] at hr
    obtain ⟨p, hp, rfl⟩ := hr
    rw [List.getElem?_zip_eq_some] at hp
    exact ⟨p.1, p.2, hp.2, rfl⟩
  have hdat : ∀ o x', (k2SwapP d s b j last).data[o]? = some x' → ∃ x, s.data[o]? = some x ∧
      (b = 0 → (o = j → RDist.isZero x'.1 = true) ∧ x'.2 = x.2) ∧
      (b = 1 → (o = j → RDist.isZero x'.2 = true) ∧ x'.1 = x.1) := by
    intro o x' hx'
    simp only [k2SwapP] at hx'
    rw [List.getElem?_map, Option.map_eq_some_iff] at hx'
    obtain ⟨r, hr, rfl⟩ := hx'
    obtain ⟨a, x, hx, rfl⟩ := hget o r hr
    refine ⟨x, hx, ?_, ?_⟩
    · rintro rfl
      unfold k2SwapRecP
      simp only [if_true]
      split
      · exact ⟨fun _ => hn0, rfl⟩
      · rename_i h; split
        · exact ⟨fun h' => absurd h' h, rfl⟩
        · exact ⟨fun h' => absurd h' h, rfl⟩
    · rintro rfl
      unfold k2SwapRecP
      simp only [Nat.one_ne_zero, if_false]
      split
      · exact ⟨fun _ => hn0, rfl⟩
      · rename_i h; split
        · exact ⟨fun h' => absurd h' h, rfl⟩
        · exact ⟨fun h' => absurd h' h, rfl⟩
  have hmed' : (k2SwapP d s b j last).med = [m0, m1].set b j := by simp [k2SwapP, hmed]
  refine ⟨hsh, fun o x' ho hx' => ?_, fun o x' ho hx' => ?_, fun hall => ?_⟩
  · obtain ⟨x, hx, g0, g1⟩ := hdat o x' hx'
    rw [hmed'] at ho
    rcases hb2 with rfl | rfl
    · have : j = o := by simpa using ho
      exact (g0 rfl).1 this.symm
    · rw [(g1 rfl).2]
      exact hs.self0 o x (by rw [hmed]; simpa using ho) hx
  · obtain ⟨x, hx, g0, g1⟩ := hdat o x' hx'
    rw [hmed'] at ho
    rcases hb2 with rfl | rfl
    · rw [(g0 rfl).2]
      exact hs.self1 o x (by rw [hmed]; simpa using ho) hx
    · have : j = o := by simpa using ho
      exact (g1 rfl).1 this.symm
  · change sumP (((s.assi.zip s.data).zipIdx.map (k2SwapRecP L d b j)).map (·.2.2)) = _
    refine sum_zero_two ha (by simp [hs.shape.assiLen, hs.shape.dataLen]) fun y hy => ?_
    obtain ⟨r, hr, rfl⟩ := List.mem_map.mp hy
    obtain ⟨o, ho, e⟩ := List.mem_iff_getElem.mp hr
    obtain ⟨a, x, hx, rfl⟩ := hget o r (by rw [List.getElem?_eq_getElem ho, e])
    have ho2 : o < 2 := by
      simp [hs.shape.assiLen, hs.shape.dataLen] at ho; exact ho
    have hom := hall o ho2
    rw [hmed'] at hom
    unfold k2SwapRecP
    rcases hb2 with rfl | rfl
    · simp only [if_true]
      split
      · rfl
      · rename_i hoj
        have hom1 : o = m1 := by
          rcases List.mem_pair.mp hom with h | h
          · exact absurd h hoj
          · exact h
        have hz1 := hs.self1 o x (by rw [hmed, hom1]; rfl) hx
        split
        · exact mscLoss_zero_right hz1
        · exact mscLoss_zero_left hz1
    · simp only [Nat.one_ne_zero, if_false]
      split
      · rfl
      · rename_i hoj
        have hom0 : o = m0 := by
          rcases List.mem_pair.mp hom with h | h
          · exact h
          · exact absurd h hoj
        have hz0 := hs.self0 o x (by rw [hmed, hom0]; rfl) hx
        split
        · exact mscLoss_zero_right hz0
        · exact mscLoss_zero_left hz0

theorem K2Two.stepOk {d : Nat → Nat → N} {s : K2State N L} (hs : K2Two s) : K2StepOk 2 2 d s := by
  intro hlt
  by_cases h : ∃ j, j < 2 ∧ k2OwnP s.med s.assi j = false
  · exact fastmscK2ScanP_found d le_rfl (by decide) h
  · exfalso
    have hown : ∀ j, j < 2 → k2OwnP s.med s.assi j = true := fun j hj => by
      by_contra hc; exact h ⟨j, hj, by simpa using hc⟩
    have hall : ∀ j, j < 2 → j ∈ s.med := fun j hj => by
      have := hown j hj
      unfold k2OwnP at this
      split at this
      · exact List.mem_of_getElem? (beq_iff_eq.mp this)
      · cases this
    have hscan : fastmscK2ScanP d 2 2 s = ((RLoss.zero : L), 2, usizeMax) := by
      unfold fastmscK2ScanP
      rw [show List.range 2 = [0, 1] from rfl]
      simp only [List.foldl_cons, List.foldl_nil, hown 0 (by omega), hown 1 (by omega), if_true]
    rw [hscan, hs.loss hall] at hlt
    simp [rlt, SaneZero.pcmp_zero] at hlt

/-- On two objects with zero diagonal `fastmscK2` never panics. -/
theorem fastmscK2_eqTwo {mat : Mat N} {m0 m1 : Nat} {d : Nat → Nat → N} (hm : IsMatrix mat 2 d)
    (hz : ∀ x, x < 2 → RDist.isZero (d x x) = true) (hn0 : RDist.isZero (RDist.zero : N) = true)
    (ha : (RLoss.add RLoss.zero RLoss.zero : L) = RLoss.zero)
    (h0 : m0 < 2) (h1 : m1 < 2) (maxiter : Nat) :
    fastmscK2 L mat [m0, m1] maxiter = .ok (fastmscK2P L d 2 m0 m1 maxiter) ∧
      K2Shape 2 (loopB (fastmscK2StepP d 2 2) maxiter 0 (k2InitP L d 2 m0 m1 0)).1 := by
  have hstep : ∀ s s' : K2State N L, K2Two s → fastmscK2StepP d 2 2 s = some (s', false) → K2Two s' := by
    intro s s' hs h
    have hok := hs.stepOk (d := d)
    unfold fastmscK2StepP at h
    dsimp only at h
    split at h
    · cases h
    · rename_i hc
      have hf := hok (by simpa using hc)
      split at h
      · cases h
      · cases h
        exact k2SwapP_two hm hn0 ha hs hf.1 hf.2 _
  have hinit := k2InitP_two (L := L) hz ha h0 h1 0
  exact ⟨fastmscK2_eq hm (by decide) h0 h1 K2Two (fun s hs => ⟨hs.shape, hs.stepOk⟩) hstep hinit maxiter,
    loopB_inv2 K2Two (K2Shape 2) (fun s hs => hs.shape) hstep
      (fun s s' b hs h => fastmscK2StepP_shape hm hs.shape hs.stepOk h) hinit⟩

end two

/-! ## fasterMSC, whole function -/

/-- the tuple returned by `fastermsc` -/
def mscResultP (n : Nat) (r : MSCState N L × Nat) : SwapResult L :=
  ⟨toSilhouette r.1.loss n, r.1.data.map (·.near.i), r.2, r.1.nSwaps, r.1.med⟩

/-- pure `fastermsc` -/
def fastermscP (L : Type) [RLoss L] [RFrom N L] (d : Nat → Nat → N) (n : Nat) (med : List Nat)
    (maxiter : Nat) : SwapResult L :=
  match med with
  | [c] => singleP L d n c
  | [m0, m1] => fastermscK2P L d n m0 m1 maxiter
  | med => mscResultP n (mscLoopP d n maxiter 0 (mscInitP L d n med))

theorem fastermscP_many (d : Nat → Nat → N) (n : Nat) {med : List Nat} (hk : 3 ≤ med.length)
    (maxiter : Nat) : fastermscP L d n med maxiter =
      mscResultP n (mscLoopP d n maxiter 0 (mscInitP L d n med)) := by
  match med, hk with
  | a :: b :: c :: t, _ => rfl

theorem fastermsc_eq {mat : Mat N} {n : Nat} {d : Nat → Nat → N} (hm : IsMatrix mat n d)
    {med : List Nat} (hv : ValidMeds n med) (maxiter : Nat) :
    fastermsc L mat med maxiter = .ok (fastermscP L d n med maxiter) := by
  have hpos := hv.sizes.pos
  by_cases h1 : med.length = 1
  · obtain ⟨c, rfl⟩ := List.length_eq_one_iff.mp h1
    simp only [fastermsc, h1, if_true, (singleCluster_eq hm (hv.range c (by simp))).1, fastermscP]
  · by_cases h2 : med.length = 2
    · obtain ⟨m0, m1, rfl⟩ := List.length_eq_two.mp h2
      simp only [fastermsc, h2, if_true]
      rw [if_neg (by omega), fastermscK2_eq hm hv.sizes.n_le (hv.range m0 (by simp)) (hv.range m1 (by simp))]
      rfl
    · have hk : 3 ≤ med.length := by omega
      have hsh := mscInitP_shape (L := L) d hv (by omega)
      have hloop := mscLoop_eq hm hv.sizes.k_lt (by omega) (fuel := maxiter) (iter := 0) hsh
      simp only [fastermsc, h1, h2, if_false, mscInitialAssignment_eq hm hv, ok_bind,
        mscUpdateRemovalLoss_eq (mscInitDataP_shape d hv (by omega)).recIdx, hm.len]
      rw [show (⟨med, mscInitDataP d n med, mscRemP L (mscInitDataP d n med) med.length,
        mscLossP L (mscInitDataP d n med), n, 0⟩ : MSCState N L) = mscInitP L d n med from rfl,
        hloop.1, fastermscP_many d n hk]
      rfl

/-! ## fastmsc and pammedsil: scans -/

theorem rgt_zero_zero [SaneZero L] : rgt (RLoss.zero : L) RLoss.zero = false := by
  simp [rgt, SaneZero.pcmp_zero]

/-- One candidate in the scan for the best exchange (maximum). -/
def scanMaxP (fbs : Nat → L × Nat) (own : Nat → Bool) (best : L × Nat × Nat) (j : Nat) :
    L × Nat × Nat :=
  if own j then best
  else if rle (fbs j).1 best.1 then best else ((fbs j).1, (fbs j).2, j)

/-- A scan result that will be used is in range. -/
def ScanMaxOk (n k : Nat) (b : L × Nat × Nat) : Prop :=
  rgt b.1 RLoss.zero = true → b.2.1 < k ∧ b.2.2 < n

theorem scanMax_fold (fbs : Nat → L × Nat) (own : Nat → Bool) (js : List Nat) (b0 : L × Nat × Nat) :
    js.foldl (scanMaxP fbs own) b0 = b0 ∨
      ∃ j ∈ js, own j = false ∧ js.foldl (scanMaxP fbs own) b0 = ((fbs j).1, (fbs j).2, j) := by
  induction js using List.reverseRecOn with
  | nil => left; rfl
  | append_singleton js j ih =>
    rw [List.foldl_append, List.foldl_cons, List.foldl_nil]
    have ih' : js.foldl (scanMaxP fbs own) b0 = b0 ∨ ∃ j' ∈ js ++ [j], own j' = false ∧
        js.foldl (scanMaxP fbs own) b0 = ((fbs j').1, (fbs j').2, j') := by
      rcases ih with ih | ⟨j', h1, h2⟩
      · exact Or.inl ih
      · exact Or.inr ⟨j', by simp [h1], h2⟩
    unfold scanMaxP at ih' ⊢
    split
    · exact ih'
    · rename_i hown
      split
      · exact ih'
      · right; exact ⟨j, by simp, by simpa using hown, rfl⟩

/-- pure scan of `fastmscLoop` -/
def fastmscScanP (d : Nat → Nat → N) (n k : Nat) (med : List Nat) (data : List (Reco N)) :
    L × Nat × Nat :=
  (List.range n).foldl (scanMaxP (mscFbsP d (mscRemP L data k) data) (mscOwnP med data))
    (RLoss.zero, usizeMax, usizeMax)

theorem fastmscScan_eq {mat : Mat N} {n k : Nat} {d : Nat → Nat → N} (hm : IsMatrix mat n d)
    (hk : 1 ≤ k) {med : List Nat} {data : List (Reco N)} (hs : MShape n k med data) :
    foldRes (fastmscScanStep mat med data (mscRemP L data k)) ((RLoss.zero : L), usizeMax, usizeMax)
      (List.range mat.len) = .ok (fastmscScanP d n k med data) := by
  rw [hm.len]
  refine foldRes_eq' (fun b j hj => ?_) _
  have hj := List.mem_range.mp hj
  have h1 := mscFindBestSwap_eq (L := L) hm hj hs.dataLen (rem := mscRemP L data k)
    (by rw [mscRemP_length]; exact hk) (by rw [mscRemP_length]; exact hs.recIdx)
  simp only [fastmscScanStep, mscIsOwnMedoid_eq hs hj, ok_bind, h1, scanMaxP]
  split <;> rfl

theorem fastmscScanP_ok [SaneZero L] (d : Nat → Nat → N) (n : Nat) {k : Nat} (hk : 1 ≤ k) (med : List Nat)
    (data : List (Reco N)) : ScanMaxOk n k (fastmscScanP d n k med data : L × Nat × Nat) := by
  intro hgt
  rcases scanMax_fold (mscFbsP d (mscRemP L data k) data) (mscOwnP med data) (List.range n)
    (RLoss.zero, usizeMax, usizeMax) with h | ⟨j, hj, -, h⟩
  · rw [fastmscScanP, h] at hgt; simp [rgt_zero_zero] at hgt
  · rw [fastmscScanP, h]
    refine ⟨?_, List.mem_range.mp hj⟩
    have := mscFbsP_lt d (rem := mscRemP L data k) data j (by rw [mscRemP_length]; exact hk)
    rw [mscRemP_length] at this; exact this

/-- pure `pmsStep` -/
def pmsStepP (d : Nat → Nat → N) (m j : Nat) (acc : L) (p : Reco N × Nat) : L :=
  if p.2 = j then acc
  else
    let doj := d p.2 j
    let n := p.1.near
    let s := p.1.seco
    let t := p.1.third
    let cur := mscLoss L n.d s.d
    if n.i = m then
      if rlt doj s.d then RLoss.add acc (RLoss.sub cur (mscLoss L doj s.d))
      else if rlt doj t.d then RLoss.add acc (RLoss.sub cur (mscLoss L s.d doj))
      else RLoss.add acc (RLoss.sub cur (mscLoss L s.d t.d))
    else if s.i = m then
      if rlt doj n.d then RLoss.add acc (RLoss.sub cur (mscLoss L doj n.d))
      else if rlt doj t.d then RLoss.add acc (RLoss.sub cur (mscLoss L n.d doj))
      else RLoss.add acc (RLoss.sub cur (mscLoss L n.d t.d))
    else
      if rlt doj n.d then RLoss.add acc (RLoss.sub cur (mscLoss L doj n.d))
      else if rlt doj s.d then RLoss.add acc (RLoss.sub cur (mscLoss L n.d doj))
      else acc

/-- pure `pmsStepK2` -/
def pmsStepK2P (d : Nat → Nat → N) (m j : Nat) (acc : L) (p : Reco N × Nat) : L :=
  if p.2 = j then acc
  else
    let doj := d p.2 j
    let n := p.1.near
    let s := p.1.seco
    let cur := mscLoss L n.d s.d
    if n.i = m then
      if rlt doj s.d then RLoss.add acc (RLoss.sub cur (mscLoss L doj s.d))
      else RLoss.add acc (RLoss.sub cur (mscLoss L s.d doj))
    else if s.i = m then
      if rlt doj n.d then RLoss.add acc (RLoss.sub cur (mscLoss L doj n.d))
      else RLoss.add acc (RLoss.sub cur (mscLoss L n.d doj))
    else
      if rlt doj n.d then RLoss.add acc (RLoss.sub cur (mscLoss L doj n.d))
      else if rlt doj s.d then RLoss.add acc (RLoss.sub cur (mscLoss L n.d doj))
      else acc

/-- the step used for `k` medoids -/
def pmsStepKP (k : Nat) (d : Nat → Nat → N) (m j : Nat) (acc : L) (p : Reco N × Nat) : L :=
  if k = 2 then pmsStepK2P d m j acc p else pmsStepP d m j acc p

/-- `mscLoss` of `data[j]` -/
def mscLossAtP (L : Type) [RLoss L] [RFrom N L] (data : List (Reco N)) (j : Nat) : L :=
  match data[j]? with
  | some r => mscLoss L r.near.d r.seco.d
  | none => RLoss.zero

/-- pure change computed by PAMMEDSIL -/
def pmsChangeP (L : Type) [RLoss L] [RFrom N L] (k : Nat) (d : Nat → Nat → N) (data : List (Reco N))
    (j m : Nat) : L :=
  data.zipIdx.foldl (pmsStepKP k d m j) (mscLossAtP L data j)

/-- pure `pmsFindBestSwap` -/
def pmsFbsP (L : Type) [RLoss L] [RFrom N L] (d : Nat → Nat → N) (k : Nat) (data : List (Reco N))
    (j : Nat) : L × Nat :=
  (List.range k).foldl (fun (best : L × Nat) (m : Nat) =>
    if rgt (pmsChangeP L k d data j m) best.1 then (pmsChangeP L k d data j m, m) else best)
    (RLoss.zero, usizeMax)

theorem pmsFindBestSwap_eq {mat : Mat N} {n : Nat} {d : Nat → Nat → N}
    (hm : IsMatrix mat n d) {med : List Nat} {data : List (Reco N)} (hl : data.length = n) {j : Nat}
    (hj : j < n) :
    (if med.length = 2 then pmsFindBestSwap L pmsStepK2 mat med data j
      else pmsFindBestSwap L pmsStep mat med data j) = .ok (pmsFbsP L d med.length data j) := by
  have hjl : j < data.length := hl ▸ hj
  have hnd : mscLoss L data[j].near.d data[j].seco.d = mscLossAtP L data j := by
    simp [mscLossAtP, List.getElem?_eq_getElem hjl]
  by_cases hk : med.length = 2
  · rw [if_pos hk]
    simp only [pmsFindBestSwap, idx_lt hjl, ok_bind, hnd]
    refine foldRes_eq' (fun b m hmem => ?_) _
    have : foldRes (pmsStepK2 mat m j) (mscLossAtP L data j) data.zipIdx =
        .ok (pmsChangeP L med.length d data j m) := by
      refine foldRes_eq' (fun s p hp => ?_) _
      unfold pmsStepK2 pmsStepKP pmsStepK2P
      rw [if_pos hk]
      by_cases h : p.2 = j
      · simp [h]
      · simp only [h, if_false, hm.get _ _ (hl ▸ mem_zipIdx_lt hp) hj, ok_bind]
        split
        · split <;> rfl
        · split
          · split <;> rfl
          · split
            · rfl
            · split <;> rfl
    simp only [this, ok_bind]
  · rw [if_neg hk]
    simp only [pmsFindBestSwap, idx_lt hjl, ok_bind, hnd]
    refine foldRes_eq' (fun b m hmem => ?_) _
    have : foldRes (pmsStep mat m j) (mscLossAtP L data j) data.zipIdx =
        .ok (pmsChangeP L med.length d data j m) := by
      refine foldRes_eq' (fun s p hp => ?_) _
      unfold pmsStep pmsStepKP pmsStepP
      rw [if_neg hk]
      by_cases h : p.2 = j
      · simp [h]
      · simp only [h, if_false, hm.get _ _ (hl ▸ mem_zipIdx_lt hp) hj, ok_bind]
        split
        · split
          · rfl
          · split <;> rfl
        · split
          · split
            · rfl
            · split <;> rfl
          · split
            · rfl
            · split <;> rfl
    simp only [this, ok_bind]

theorem pmsFbsP_lt [SaneZero L] (d : Nat → Nat → N) (k : Nat) (data : List (Reco N)) (j : Nat)
    (h : rgt (pmsFbsP L d k data j).1 RLoss.zero = true) : (pmsFbsP L d k data j).2 < k := by
  revert h
  refine foldl_inv (fun b : L × Nat => rgt b.1 RLoss.zero = true → b.2 < k) (fun b m hm hb => ?_)
    (by simp [rgt_zero_zero])
  split
  · intro _; exact List.mem_range.mp hm
  · exact hb

/-- pure scan of `pmsLoop` -/
def pmsScanP (d : Nat → Nat → N) (n k : Nat) (med : List Nat) (data : List (Reco N)) : L × Nat × Nat :=
  (List.range n).foldl (scanMaxP (pmsFbsP L d k data) (mscOwnP med data)) (RLoss.zero, k, usizeMax)

theorem pmsScan_eq {mat : Mat N} {n k : Nat} {d : Nat → Nat → N} (hm : IsMatrix mat n d)
    {med : List Nat} {data : List (Reco N)} (hs : MShape n k med data) :
    foldRes (pmsScanStep mat k med data) ((RLoss.zero : L), k, usizeMax) (List.range mat.len) =
      .ok (pmsScanP d n k med data) := by
  rw [hm.len]
  refine foldRes_eq' (fun b j hj => ?_) _
  have hj := List.mem_range.mp hj
  have h1 := pmsFindBestSwap_eq (L := L) hm (med := med) hs.dataLen hj
  rw [hs.medLen] at h1
  simp only [pmsScanStep, mscIsOwnMedoid_eq hs hj, ok_bind, scanMaxP]
  split
  · rfl
  · by_cases hk : k = 2
    · rw [if_pos hk] at h1 ⊢
      simp only [h1, ok_bind]
    · rw [if_neg hk] at h1 ⊢
      simp only [h1, ok_bind]

theorem pmsScanP_ok [SaneZero L] (d : Nat → Nat → N) (n k : Nat) (med : List Nat)
    (data : List (Reco N)) : ScanMaxOk n k (pmsScanP d n k med data : L × Nat × Nat) := by
  intro hgt
  rcases scanMax_fold (pmsFbsP L d k data) (mscOwnP med data) (List.range n)
    (RLoss.zero, k, usizeMax) with h | ⟨j, hj, -, h⟩
  · rw [pmsScanP, h] at hgt; simp [rgt_zero_zero] at hgt
  · rw [pmsScanP, h] at hgt ⊢
    exact ⟨pmsFbsP_lt d k data j hgt, List.mem_range.mp hj⟩

/-! ## fastmsc and pammedsil: loops -/

/-- pure step of `fastmscLoop` / `pmsLoop`, given the scan -/
def mpStepP (d : Nat → Nat → N) (scan : List Nat → List (Reco N) → L × Nat × Nat) (s : MPState N L) :
    Option (MPState N L × Bool) :=
  let best := scan s.med s.data
  if rgt best.1 RLoss.zero then
    let data := mscSwapDataP d s.med s.data best.2.1 best.2.2
    let newloss := mscSwapSumP L best.2.2 data
    if rge newloss s.loss then some (⟨s.med.set best.2.1 best.2.2, data, s.loss, s.nSwaps + 1⟩, true)
    else some (⟨s.med.set best.2.1 best.2.2, data, newloss, s.nSwaps + 1⟩, false)
  else none

theorem mpStepP_shape {mat : Mat N} {n k : Nat} {d : Nat → Nat → N} (hm : IsMatrix mat n d)
    (hk : k < u32Max) {scan : List Nat → List (Reco N) → L × Nat × Nat}
    (hscan : ∀ med data, ScanMaxOk n k (scan med data)) {s s' : MPState N L} {b : Bool}
    (hs : MShape n k s.med s.data) (h : mpStepP d scan s = some (s', b)) : MShape n k s'.med s'.data := by
  unfold mpStepP at h
  dsimp only at h
  split at h
  · rename_i hgt
    obtain ⟨hb, hj⟩ := hscan s.med s.data hgt
    have := (mscDoSwap_eq (L := L) hm hs hk hb hj).2
    split at h
    · cases h; exact this
    · cases h; exact this
  · cases h

theorem fastmscLoop_eq [SaneZero L] {mat : Mat N} {n k : Nat} {d : Nat → Nat → N}
    (hm : IsMatrix mat n d) (hk : k < u32Max) (hk1 : 1 ≤ k) {fuel iter : Nat} {s : MPState N L}
    (hs : MShape n k s.med s.data) :
    fastmscLoop mat k fuel iter s = .ok (loopB (mpStepP d (fastmscScanP d n k)) fuel iter s) := by
  induction fuel generalizing iter s with
  | zero => rfl
  | succ fuel ih =>
    have h2 := fastmscScanP_ok (L := L) d n hk1 s.med s.data
    have h5 := fun s' b => mpStepP_shape (L := L) hm hk
      (fun med data => fastmscScanP_ok (L := L) d n hk1 med data) (s' := s') (b := b) hs
    unfold fastmscLoop loopB
    unfold mpStepP at h5 ⊢
    simp only [mscUpdateRemovalLoss_eq (L := L) hs.recIdx, fastmscScan_eq (L := L) hm hk1 hs, ok_bind]
    by_cases hgt : rgt (fastmscScanP d n k s.med s.data : L × Nat × Nat).1 RLoss.zero = true
    · obtain ⟨hb, hj⟩ := h2 hgt
      obtain ⟨h3, h4⟩ := mscDoSwap_eq (L := L) hm hs hk hb hj
      simp only [hgt, if_true, h3, ok_bind] at h5 ⊢
      by_cases hc : rge (mscSwapSumP L (fastmscScanP (L := L) d n k s.med s.data).2.2
          (mscSwapDataP d s.med s.data (fastmscScanP (L := L) d n k s.med s.data).2.1
            (fastmscScanP (L := L) d n k s.med s.data).2.2)) s.loss = true
      · simp only [hc, if_true]
      · simp only [hc, Bool.false_eq_true, if_false] at h5 ⊢
        exact ih h4
    · simp only [hgt, Bool.false_eq_true, if_false]

theorem pmsLoop_eq [SaneZero L] {mat : Mat N} {n k : Nat} {d : Nat → Nat → N}
    (hm : IsMatrix mat n d) (hk : k < u32Max) {fuel iter : Nat} {s : MPState N L}
    (hs : MShape n k s.med s.data) :
    pmsLoop mat k fuel iter s = .ok (loopB (mpStepP d (pmsScanP d n k)) fuel iter s) := by
  induction fuel generalizing iter s with
  | zero => rfl
  | succ fuel ih =>
    have h2 := pmsScanP_ok (L := L) d n k s.med s.data
    unfold pmsLoop loopB mpStepP
    simp only [pmsScan_eq (L := L) hm hs, ok_bind]
    by_cases hgt : rgt (pmsScanP d n k s.med s.data : L × Nat × Nat).1 RLoss.zero = true
    · obtain ⟨hb, hj⟩ := h2 hgt
      obtain ⟨h3, h4⟩ := mscDoSwap_eq (L := L) hm hs hk hb hj
      simp only [hgt, if_true, h3, ok_bind]
      by_cases hc : rge (mscSwapSumP L (pmsScanP (L := L) d n k s.med s.data).2.2
          (mscSwapDataP d s.med s.data (pmsScanP (L := L) d n k s.med s.data).2.1
            (pmsScanP (L := L) d n k s.med s.data).2.2)) s.loss = true
      · simp only [hc, if_true]
      · simp only [hc, Bool.false_eq_true, if_false]
        exact ih h4
    · simp only [hgt, Bool.false_eq_true, if_false]

/-- the returned tuple -/
def mpResultP (n : Nat) (r : MPState N L × Nat) : SwapResult L :=
  ⟨toSilhouette r.1.loss n, r.1.data.map (·.near.i), r.2, r.1.nSwaps, r.1.med⟩

/-- initial state of `fastmsc` and `pammedsil_swap` -/
def mpInitP (L : Type) [RLoss L] [RFrom N L] (d : Nat → Nat → N) (n : Nat) (med : List Nat) :
    MPState N L :=
  ⟨med, mscInitDataP d n med, mscLossP L (mscInitDataP d n med), 0⟩

/-- pure `fastmsc` -/
def fastmscP (L : Type) [RLoss L] [RFrom N L] (d : Nat → Nat → N) (n : Nat) (med : List Nat)
    (maxiter : Nat) : SwapResult L :=
  match med with
  | [c] => singleP L d n c
  | [m0, m1] => fastmscK2P L d n m0 m1 maxiter
  | med => mpResultP n (loopB (mpStepP d (fastmscScanP d n med.length)) maxiter 0 (mpInitP L d n med))

theorem fastmscP_many (d : Nat → Nat → N) (n : Nat) {med : List Nat} (hk : 3 ≤ med.length)
    (maxiter : Nat) : fastmscP L d n med maxiter =
      mpResultP n (loopB (mpStepP d (fastmscScanP d n med.length)) maxiter 0 (mpInitP L d n med)) := by
  match med, hk with
  | a :: b :: c :: t, _ => rfl

theorem fastmsc_eq_ne2 [SaneZero L] {mat : Mat N} {n : Nat} {d : Nat → Nat → N} (hm : IsMatrix mat n d)
    {med : List Nat} (hv : ValidMeds n med) (h2 : med.length ≠ 2) (maxiter : Nat) :
    fastmsc L mat med maxiter = .ok (fastmscP L d n med maxiter) := by
  have hpos := hv.sizes.pos
  by_cases h1 : med.length = 1
  · obtain ⟨c, rfl⟩ := List.length_eq_one_iff.mp h1
    simp only [fastmsc, h1, if_true, (singleCluster_eq hm (hv.range c (by simp))).1, fastmscP]
  · have hk : 3 ≤ med.length := by omega
    have hloop := fastmscLoop_eq (L := L) hm hv.sizes.k_lt (by omega) (fuel := maxiter) (iter := 0)
      (s := mpInitP L d n med) (mscInitDataP_shape d hv (by omega))
    simp only [fastmsc, h1, h2, if_false, mscInitialAssignment_eq hm hv, ok_bind, hm.len]
    rw [show (⟨med, mscInitDataP d n med, mscLossP L (mscInitDataP d n med), 0⟩ : MPState N L) =
      mpInitP L d n med from rfl, hloop, fastmscP_many d n hk]
    rfl

theorem fastmsc_eq_2 {mat : Mat N} {n m0 m1 : Nat} {d : Nat → Nat → N} {maxiter : Nat}
    (h : fastmscK2 L mat [m0, m1] maxiter = .ok (fastmscK2P L d n m0 m1 maxiter)) :
    fastmsc L mat [m0, m1] maxiter = .ok (fastmscP L d n [m0, m1] maxiter) := by
  simp only [fastmsc, List.length_cons, List.length_nil, Nat.zero_add, Nat.reduceAdd, if_true, h, fastmscP]
  rfl

/-- pure `pammedsil_optimize` from given caches -/
def pmsOptP (d : Nat → Nat → N) (n : Nat) (s : MPState N L) (maxiter : Nat) : SwapResult L :=
  match s.med with
  | [c] => singleP L d n c
  | _ => mpResultP n (loopB (mpStepP d (pmsScanP d n s.med.length)) maxiter 0 s)

theorem pmsOptP_many (d : Nat → Nat → N) (n : Nat) {s : MPState N L} (hk : 2 ≤ s.med.length)
    (maxiter : Nat) : pmsOptP d n s maxiter =
      mpResultP n (loopB (mpStepP d (pmsScanP d n s.med.length)) maxiter 0 s) := by
  obtain ⟨med, data, loss, ns⟩ := s
  match med, hk with
  | a :: b :: t, _ => rfl

theorem pammedsilOptimize_eq [SaneZero L] {mat : Mat N} {n : Nat} {d : Nat → Nat → N}
    (hm : IsMatrix mat n d) {med : List Nat} (hv : ValidMeds n med) {data : List (Reco N)}
    (hs : 2 ≤ med.length → MShape n med.length med data) (maxiter : Nat) (loss : L) :
    pammedsilOptimize mat med data maxiter loss = .ok (pmsOptP d n ⟨med, data, loss, 0⟩ maxiter) := by
  by_cases h1 : med.length = 1
  · obtain ⟨c, rfl⟩ := List.length_eq_one_iff.mp h1
    simp only [pammedsilOptimize, h1, if_true, (singleCluster_eq hm (hv.range c (by simp))).1, pmsOptP]
  · have hk : 2 ≤ med.length := by have := hv.sizes.pos; omega
    have h := pmsLoop_eq (L := L) hm hv.sizes.k_lt (fuel := maxiter) (iter := 0)
      (s := ⟨med, data, loss, 0⟩) (hs hk)
    simp only [pammedsilOptimize, h1, if_false, h, ok_bind, hm.len]
    rw [pmsOptP_many d n (s := ⟨med, data, loss, 0⟩) hk]
    rfl

/-- pure `pammedsilSwap` -/
def pammedsilSwapP (L : Type) [RLoss L] [RFrom N L] (d : Nat → Nat → N) (n : Nat) (med : List Nat)
    (maxiter : Nat) : SwapResult L :=
  pmsOptP d n (mpInitP L d n med) maxiter

theorem pammedsilSwap_eq [SaneZero L] {mat : Mat N} {n : Nat} {d : Nat → Nat → N}
    (hm : IsMatrix mat n d) {med : List Nat} (hv : ValidMeds n med) (maxiter : Nat) :
    pammedsilSwap L mat med maxiter = .ok (pammedsilSwapP L d n med maxiter) := by
  simp only [pammedsilSwap, mscInitialAssignment_eq hm hv, ok_bind]
  exact pammedsilOptimize_eq hm hv (mscInitDataP_shape d hv) maxiter _

end KMedoids
