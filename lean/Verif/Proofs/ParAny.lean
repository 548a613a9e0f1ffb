import Verif.Proofs.Par

/-! # Parallel FasterPAM, any arithmetic

Pure form of `parFasterpam` for a fixed resolution of the scheduling freedom. -/

set_option linter.unusedSectionVars false

namespace KMedoids

open RFrom (conv)

variable {N L : Type} [RDist N] [RLoss L] [RFrom N L]

/-- pure `reduce_with(L::add)` along a tree -/
def treeSumP (t : RTree) (xs : List L) : L := (reduceTree t xs).getD RLoss.zero

theorem reduceTree_some (t : RTree) {xs : List L} (h : xs ≠ []) : ∃ y, reduceTree t xs = some y := by
  induction t generalizing xs with
  | leaf =>
    cases xs with
    | nil => exact absurd rfl h
    | cons x xs => exact ⟨_, rfl⟩
  | node s l r ihl ihr =>
    rw [reduceTree]
    by_cases h1 : xs.take s = []
    · have h2 : xs.drop s ≠ [] := fun h2 => h (by rw [← List.take_append_drop s xs, h1, h2]; rfl)
      obtain ⟨b, hb⟩ := ihr h2
      rw [hb]
      cases reduceTree l (xs.take s) <;> exact ⟨_, rfl⟩
    · obtain ⟨a, ha⟩ := ihl h1
      rw [ha]
      cases reduceTree r (xs.drop s) <;> exact ⟨_, rfl⟩

theorem unwrap_reduceTree_any (t : RTree) {xs : List L} (h : xs ≠ []) :
    unwrapOpt (reduceTree t xs) = .ok (treeSumP t xs) := by
  obtain ⟨y, hy⟩ := reduceTree_some t h
  simp only [treeSumP, hy, unwrapOpt, Option.getD_some]

/-! ## search -/

/-- accumulators of `par_find_best_swap` after all merges -/
def parAccP (sc : Sched) (d : Nat → Nat → N) (n : Nat) (rem : List L) (data : List (Rec N)) (j : Nat) :
    List L × L :=
  sc.order.foldl (fun st x => parMerge st (workerP L d n rem.length data j sc.parts x)) (rem, RLoss.zero)

/-- pure `parFindBestSwap` -/
def parFbsP (sc : Sched) (d : Nat → Nat → N) (n : Nat) (rem : List L) (data : List (Rec N)) (j : Nat) :
    L × Nat :=
  (RLoss.add (findMinP (parAccP sc d n rem data j).1).2 (parAccP sc d n rem data j).2,
    (findMinP (parAccP sc d n rem data j).1).1)

theorem fbsStepP_length (d : Nat → Nat → N) (j : Nat) (st : List L × L) (p : Rec N × Nat) :
    (fbsStepP d j st p).1.length = st.1.length := by
  unfold fbsStepP
  split
  · simp
  · split
    · simp
    · rfl

theorem workerP_length (d : Nat → Nat → N) (n k : Nat) (data : List (Rec N)) (j parts x : Nat) :
    (workerP L d n k data j parts x).1.length = k := by
  have h : ∀ (xs : List (Rec N × Nat)) (st : List L × L), st.1.length = k →
      (xs.foldl (fbsStepP d j) st).1.length = k := by
    intro xs
    induction xs with
    | nil => intro st h; exact h
    | cons p xs ih => intro st h; exact ih _ ((fbsStepP_length d j st p).trans h)
  exact h _ _ (by simp)

theorem parAccP_length (sc : Sched) (d : Nat → Nat → N) (n : Nat) (rem : List L) (data : List (Rec N))
    (j : Nat) : (parAccP sc d n rem data j).1.length = rem.length := by
  have h : ∀ (xs : List Nat) (st : List L × L), st.1.length = rem.length →
      (xs.foldl (fun st x => parMerge st (workerP L d n rem.length data j sc.parts x)) st).1.length =
        rem.length := by
    intro xs
    induction xs with
    | nil => intro st h; exact h
    | cons x xs ih =>
      intro st h
      refine ih _ ?_
      simp [parMerge, h, workerP_length]
  exact h _ _ rfl

theorem parFindBestSwap_any (sc : Sched) {mat : Mat N} {n : Nat} {d : Nat → Nat → N}
    (hm : IsMatrix mat n d) {rem : List L} {data : List (Rec N)} {j : Nat} (hj : j < n)
    (hl : data.length = n) (hk : 1 ≤ rem.length) (hidx : ∀ r ∈ data, RecIdx rem.length r) :
    parFindBestSwap sc mat rem data j = .ok (parFbsP sc d n rem data j) ∧
      (parFbsP sc d n rem data j).2 < rem.length := by
  have hfold : foldRes (fun (st : List L × L) (x : Nat) => do
      let w ← parWorker L mat rem.length data j sc.parts x
      .ok (parMerge st w)) (rem, RLoss.zero) sc.order = .ok (parAccP sc d n rem data j) := by
    refine foldRes_eq' (fun s x _ => ?_) _
    simp only [parWorker_eq hm hj hl hidx, ok_bind]
  have hlen := parAccP_length sc d n rem data j
  have hne : (parAccP sc d n rem data j).1 ≠ [] := by
    intro h; rw [h] at hlen; simp at hlen; omega
  refine ⟨by simp only [parFindBestSwap, hfold, ok_bind, findMin_eq hne, parFbsP], ?_⟩
  have := findMinP_lt hne
  simp only [parFbsP]; omega

/-! ## swap -/

/-- pure record part of `parSwapRec` -/
def parSwapRecP (d : Nat → Nat → N) (med : List Nat) (b j : Nat) (p : Rec N × Nat) : Rec N :=
  let reco := p.1
  let o := p.2
  if o = j then
    { near := ⟨b, RDist.zero⟩, seco := if reco.near.i ≠ b then reco.near else reco.seco }
  else
    let doj := d o j
    if reco.near.i = b then
      if rlt doj reco.seco.d then { reco with near := ⟨b, doj⟩ }
      else { near := reco.seco, seco := usnP d med reco.seco.i b o doj }
    else if rlt doj reco.near.d then { near := ⟨b, doj⟩, seco := reco.near }
    else if reco.seco.i = b then { reco with seco := usnP d med reco.near.i b o doj }
    else if rlt doj reco.seco.d then { reco with seco := ⟨b, doj⟩ }
    else reco

theorem parSwapRec_any {mat : Mat N} {n k : Nat} {d : Nat → Nat → N} (hm : IsMatrix mat n d)
    {med : List Nat} (hlen : med.length = k) (hk : k < u32Max) (hr : ∀ m ∈ med, m < n)
    {b j : Nat} (hb : b < k) (hj : j < n) {p : Rec N × Nat} (hp : p.2 < n) (hi : RecIdx k p.1) :
    parSwapRec (L := L) mat med b j p =
        .ok (parSwapRecP d med b j p, swapLossP L j (parSwapRecP d med b j p, p.2)) ∧
      RecIdx k (parSwapRecP d med b j p) := by
  have hbu : ∀ x : N, DistancePair.new b x = ⟨b, x⟩ := fun x => by
    simp [DistancePair.new, asU32_lt (lt_trans hb hk)]
  have hbu' : asU32 b = b := asU32_lt (lt_trans hb hk)
  have husn := fun (nn : Nat) (doj : N) =>
    updateSecondNearest_eq hm hlen hk hr (nn := nn) hb hp doj
  unfold parSwapRec parSwapRecP swapLossP
  by_cases ho : p.2 = j
  · simp only [ho, if_true, hbu, hbu']
    by_cases hc : p.1.near.i = b
    · simp [hc, RecIdx, hb, hi.2]
    · simp [hc, RecIdx, hb, hi.1]
  · simp only [ho, if_false, hbu, hbu', hm.get _ _ hp hj, ok_bind]
    by_cases h1 : p.1.near.i = b
    · by_cases h2 : rlt (d p.2 j) p.1.seco.d = true
      · simp [h1, h2, RecIdx, hb, hi.2]
      · simp [h1, h2, RecIdx, hi.2, (husn p.1.seco.i (d p.2 j)).1, (husn p.1.seco.i (d p.2 j)).2]
    · by_cases h2 : rlt (d p.2 j) p.1.near.d = true
      · simp [h1, h2, RecIdx, hb, hi.1]
      · by_cases h4 : p.1.seco.i = b
        · simp [h1, h2, h4, RecIdx, hi.1, (husn p.1.near.i (d p.2 j)).1,
              (husn p.1.near.i (d p.2 j)).2]
        · by_cases h3 : rlt (d p.2 j) p.1.seco.d = true
          · simp [h1, h2, h3, h4, RecIdx, hb, hi.1]
          · simp [h1, h2, h3, h4, RecIdx, hi.1, hi.2]

/-- pure data of `parDoSwap`; `med` is the list before the swap -/
def parSwapDataP (d : Nat → Nat → N) (med : List Nat) (data : List (Rec N)) (b j : Nat) : List (Rec N) :=
  data.zipIdx.map (parSwapRecP d (med.set b j) b j)

theorem parDoSwap_any (sc : Sched) {mat : Mat N} {n k : Nat} {d : Nat → Nat → N} (hm : IsMatrix mat n d)
    {med : List Nat} {data : List (Rec N)} (hs : Shape n k med data) (hk : k < u32Max)
    {b j : Nat} (hb : b < k) (hj : j < n) :
    parDoSwap L sc mat med data b j =
        .ok (treeSumP sc.tree ((parSwapDataP d med data b j).zipIdx.map (swapLossP L j)), med.set b j,
          parSwapDataP d med data b j) ∧
      Shape n k (med.set b j) (parSwapDataP d med data b j) := by
  have hlen : (med.set b j).length = k := by simp [hs.medLen]
  have hr : ∀ m ∈ med.set b j, m < n := by
    intro m hmem
    rcases List.mem_or_eq_of_mem_set hmem with h | h
    · exact hs.medRange m h
    · omega
  have hrec : ∀ p ∈ data.zipIdx, parSwapRec (L := L) mat (med.set b j) b j p = .ok
      (parSwapRecP d (med.set b j) b j p, swapLossP L j (parSwapRecP d (med.set b j) b j p, p.2)) :=
    fun p hp => (parSwapRec_any hm hlen hk hr hb hj (hs.dataLen ▸ mem_zipIdx_lt hp)
      (hs.recIdx _ (mem_zipIdx_mem hp))).1
  have hmap := mapRes_eq hrec
  have hsum : (data.zipIdx.map fun p => (parSwapRecP d (med.set b j) b j p,
      swapLossP L j (parSwapRecP d (med.set b j) b j p, p.2))).map (·.2) =
      (parSwapDataP d med data b j).zipIdx.map (swapLossP L j) := by
    simp [parSwapDataP, zipIdx_map_zipIdx]
  have hne : (parSwapDataP d med data b j).zipIdx.map (swapLossP L j) ≠ [] := by
    intro h; have := congrArg List.length h; simp [parSwapDataP, hs.dataLen] at this; omega
  refine ⟨?_, hlen, hr, by simp [parSwapDataP, hs.dataLen], ?_⟩
  · have hb' : b < med.length := hs.medLen ▸ hb
    have hj' : j < mat.len := hm.len ▸ hj
    simp only [parDoSwap, hb', hj', decide_true, rassert_true, ok_bind, setIdx_lt hb', hmap, hsum,
      unwrap_reduceTree_any sc.tree hne]
    simp [parSwapDataP, Function.comp_def]
  · intro r hr'
    obtain ⟨p, hp, rfl⟩ := List.mem_map.mp hr'
    exact (parSwapRec_any (L := L) hm hlen hk hr hb hj (hs.dataLen ▸ mem_zipIdx_lt hp)
      (hs.recIdx _ (mem_zipIdx_mem hp))).2

/-! ## loops -/

theorem parFbsP_lt (sc : Sched) (d : Nat → Nat → N) (n : Nat) {rem : List L} (data : List (Rec N)) (j : Nat)
    (hk : 1 ≤ rem.length) : (parFbsP sc d n rem data j).2 < rem.length := by
  have h2 := parAccP_length sc d n rem data j
  have hne : (parAccP sc d n rem data j).1 ≠ [] := by
    intro h; rw [h] at h2; simp at h2; omega
  have := findMinP_lt hne
  simp only [parFbsP]; omega

/-- pure swap step of `parPass` -/
def parSwapP (sc : Sched) (d : Nat → Nat → N) (s : FPState N L) (b j : Nat) : FPState N L :=
  let data := parSwapDataP d s.med s.data b j
  ⟨s.med.set b j, data, remP L data s.rem.length,
    treeSumP sc.tree (data.zipIdx.map (swapLossP L j)), j, s.nSwaps + 1⟩

theorem parSwapP_shape (sc : Sched) {mat : Mat N} {n k : Nat} {d : Nat → Nat → N} (hm : IsMatrix mat n d)
    {s : FPState N L} (hs : FPShape n k s) (hk : k < u32Max) {b j : Nat} (hb : b < k) (hj : j < n) :
    FPShape n k (parSwapP sc d s b j) := by
  have h := (parDoSwap_any (L := L) sc hm hs.shape hk hb hj).2
  refine ⟨h, ?_⟩
  show (remP L (parSwapDataP d s.med s.data b j) s.rem.length).length = k
  rw [hs.remLen]; exact (updateRemovalLoss_eq h.recIdx).2

/-- pure `parPass` -/
def parPassP (scF scS : Nat → Sched) (d : Nat → Nat → N) (n : Nat) : List Nat → FPState N L → FPState N L
  | [], s => s
  | j :: js, s =>
    if j = s.lastswap then s
    else if ownP s.med s.data j then parPassP scF scS d n js s
    else
      let r := parFbsP (scF j) d n s.rem s.data j
      if rge r.1 RLoss.zero then parPassP scF scS d n js s
      else parPassP scF scS d n js (parSwapP (scS j) d s r.2 j)

theorem parPass_any (scF scS : Nat → Sched) {mat : Mat N} {n k : Nat} {d : Nat → Nat → N}
    (hm : IsMatrix mat n d) (hk : k < u32Max) (hk1 : 1 ≤ k) {js : List Nat} (hjs : ∀ j ∈ js, j < n)
    {s : FPState N L} (hs : FPShape n k s) :
    parPass scF scS mat js s = .ok (parPassP scF scS d n js s) ∧ FPShape n k (parPassP scF scS d n js s) := by
  induction js generalizing s with
  | nil => exact ⟨rfl, hs⟩
  | cons j js ih =>
    have hj : j < n := hjs j (by simp)
    have ih' := fun {s : FPState N L} (h : FPShape n k s) => ih (fun j hj => hjs j (by simp [hj])) h
    obtain ⟨hf, hfb⟩ := parFindBestSwap_any (scF j) hm hj hs.shape.dataLen (by rw [hs.remLen]; exact hk1)
      (fun r hr => by rw [hs.remLen]; exact hs.shape.recIdx r hr)
    rw [hs.remLen] at hfb
    have hsw := parDoSwap_any (L := L) (scS j) hm hs.shape hk hfb hj
    have hrem := updateRemovalLoss_eq (L := L) hsw.2.recIdx
    have hfs := parSwapP_shape (scS j) hm hs hk hfb hj
    unfold parPass parPassP
    by_cases h1 : j = s.lastswap
    · simp only [h1, if_true]; exact ⟨trivial, hs⟩
    · simp only [h1, if_false, isOwnMedoid_eq hs.shape hj, ok_bind]
      by_cases h2 : ownP s.med s.data j = true
      · simp only [h2, if_true]; exact ih' hs
      · simp only [h2, hf, ok_bind, Bool.false_eq_true, if_false]
        by_cases h3 : rge (parFbsP (scF j) d n s.rem s.data j).1 RLoss.zero = true
        · simp only [h3, if_true]; exact ih' hs
        · simp only [h3, hsw.1, ok_bind, hs.remLen, hrem.1, Bool.false_eq_true, if_false]
          have := ih' hfs
          simpa only [parSwapP, hs.remLen] using this

/-- pure `parLoop` -/
def parLoopP (scF scS : Nat → Nat → Sched) (d : Nat → Nat → N) (n : Nat) (seq : List Nat) :
    Nat → Nat → FPState N L → FPState N L × Nat
  | 0, iter, s => (s, iter)
  | fuel + 1, iter, s =>
    let s' := parPassP (scF iter) (scS iter) d n seq s
    if s'.nSwaps == s.nSwaps || rge s'.loss s.loss then (s', iter + 1)
    else parLoopP scF scS d n seq fuel (iter + 1) s'

theorem parLoop_any (scF scS : Nat → Nat → Sched) {mat : Mat N} {n k : Nat} {d : Nat → Nat → N}
    (hm : IsMatrix mat n d) (hk : k < u32Max) (hk1 : 1 ≤ k) {seq : List Nat} (hseq : ∀ j ∈ seq, j < n)
    {fuel iter : Nat} {s : FPState N L} (hs : FPShape n k s) :
    parLoop scF scS mat seq fuel iter s = .ok (parLoopP scF scS d n seq fuel iter s) ∧
      FPShape n k (parLoopP scF scS d n seq fuel iter s).1 := by
  induction fuel generalizing iter s with
  | zero => exact ⟨rfl, hs⟩
  | succ fuel ih =>
    obtain ⟨h1, h2⟩ := parPass_any (scF iter) (scS iter) hm hk hk1 hseq hs
    unfold parLoop parLoopP
    simp only [h1, ok_bind]
    split
    · exact ⟨rfl, h2⟩
    · exact ih h2

/-- pure initial state of `par_fasterpam` -/
def parInitP (L : Type) [RLoss L] [RFrom N L] (sc : Sched) (d : Nat → Nat → N) (n : Nat) (med : List Nat) :
    FPState N L :=
  let data := initDataP d n med
  ⟨med, data, remP L data med.length, treeSumP sc.tree (data.map fun r => (conv r.near.d : L)), n, 0⟩

theorem parInitialAssignment_any (sc : Sched) {mat : Mat N} {n : Nat} {d : Nat → Nat → N} {med : List Nat}
    (hm : IsMatrix mat n d) (hv : ValidMeds n med) :
    parInitialAssignment L sc mat med =
      .ok (treeSumP sc.tree ((initDataP d n med).map fun r => (conv r.near.d : L)), initDataP d n med) := by
  have hlen : 0 < med.length := hv.sizes.pos
  have hn : 0 < n := lt_of_lt_of_le hlen hv.sizes.le
  have h0 : med[0]? = some med[0] := by simp [hlen]
  have hmap : mapRes (initAssignRec mat med med[0]) (List.range n) = .ok (initDataP d n med) :=
    mapRes_eq fun i hi => initAssignRec_eq hm hv (List.mem_range.mp hi) h0
  have hne : (initDataP d n med).map (fun r => (conv r.near.d : L)) ≠ [] := by
    intro h; have := congrArg List.length h; simp [initDataP] at this; omega
  simp only [parInitialAssignment, assertSizes_ok hm hv.sizes, idx_of_get h0, ok_bind, hm.len, hmap,
    unwrap_reduceTree_any sc.tree hne]

/-- pure `parFasterpam` -/
def parP (L : Type) [RLoss L] [RFrom N L] (sc0 : Sched) (scF scS : Nat → Nat → Sched) (d : Nat → Nat → N)
    (n : Nat) (med : List Nat) (maxiter : Nat) (seq : List Nat) : SwapResult L :=
  match med with
  | [c] => singleP L d n c
  | med =>
    let r := parLoopP scF scS d n seq maxiter 0 (parInitP L sc0 d n med)
    ⟨r.1.loss, r.1.data.map (·.near.i), r.2, r.1.nSwaps, r.1.med⟩

theorem parFasterpam_any (sc0 : Sched) (scF scS : Nat → Nat → Sched) {mat : Mat N} {n : Nat}
    {d : Nat → Nat → N} (hm : IsMatrix mat n d) {med : List Nat} (hv : ValidMeds n med) (maxiter : Nat)
    {seq : List Nat} (hseq : ∀ j ∈ seq, j < n) :
    parFasterpam L sc0 scF scS mat med maxiter seq = .ok (parP L sc0 scF scS d n med maxiter seq) ∧
    (2 ≤ med.length → FPShape n med.length (parLoopP scF scS d n seq maxiter 0 (parInitP L sc0 d n med)).1) ∧
    (2 ≤ med.length → parP L sc0 scF scS d n med maxiter seq =
      ⟨(parLoopP scF scS d n seq maxiter 0 (parInitP L sc0 d n med)).1.loss,
        (parLoopP scF scS d n seq maxiter 0 (parInitP L sc0 d n med)).1.data.map (·.near.i),
        (parLoopP scF scS d n seq maxiter 0 (parInitP L sc0 d n med)).2,
        (parLoopP scF scS d n seq maxiter 0 (parInitP L sc0 d n med)).1.nSwaps,
        (parLoopP scF scS d n seq maxiter 0 (parInitP L sc0 d n med)).1.med⟩) := by
  by_cases h1 : med.length = 1
  · obtain ⟨c, rfl⟩ := List.length_eq_one_iff.mp h1
    refine ⟨?_, fun h => absurd h (by simp), fun h => absurd h (by simp)⟩
    simp only [parFasterpam, h1, if_true, (singleCluster_eq hm (hv.range c (by simp))).1, parP]
  · have hk : 2 ≤ med.length := by have := hv.sizes.pos; omega
    have hsh : FPShape n med.length (parInitP L sc0 d n med) :=
      ⟨initDataP_shape d hv hk, (updateRemovalLoss_eq (initDataP_shape d hv hk).recIdx).2⟩
    have hloop := parLoop_any (L := L) scF scS hm hv.sizes.k_lt (by omega) hseq (fuel := maxiter)
      (iter := 0) hsh
    have hmany : parP L sc0 scF scS d n med maxiter seq =
      ⟨(parLoopP scF scS d n seq maxiter 0 (parInitP L sc0 d n med)).1.loss,
        (parLoopP scF scS d n seq maxiter 0 (parInitP L sc0 d n med)).1.data.map (·.near.i),
        (parLoopP scF scS d n seq maxiter 0 (parInitP L sc0 d n med)).2,
        (parLoopP scF scS d n seq maxiter 0 (parInitP L sc0 d n med)).1.nSwaps,
        (parLoopP scF scS d n seq maxiter 0 (parInitP L sc0 d n med)).1.med⟩ := by
      match med, hk with
      | a :: b :: t, _ => rfl
    refine ⟨?_, fun _ => hloop.2, fun _ => hmany⟩
    simp only [parFasterpam, h1, if_false, parInitialAssignment_any sc0 hm hv, ok_bind,
      (updateRemovalLoss_eq (initDataP_shape d hv hk).recIdx).1, hm.len]
    rw [show (⟨med, initDataP d n med, remP L (initDataP d n med) med.length,
      treeSumP sc0.tree ((initDataP d n med).map fun r => (conv r.near.d : L)), n, 0⟩ : FPState N L) =
      parInitP L sc0 d n med from rfl, hloop.1, hmany]
    rfl

end KMedoids
