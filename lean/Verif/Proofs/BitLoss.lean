import Verif.Proofs.CacheLoops
import Verif.Proofs.Build
import Verif.Proofs.ParAny

/-!
# The reported loss, operation by operation

Level 2 (linearly ordered distances), arbitrary loss arithmetic: additions may round, saturate or not be
associative, so the order of the additions matters.
-/

set_option linter.unusedSectionVars false

namespace KMedoids

variable {N L : Type} [LinearOrder N] [Zero N] [RDist N] [LawfulDist N] [RLoss L] [RFrom N L]
open RFrom (conv)

/-- The numbers that make up the loss, in the order of the objects. -/
def devs (L : Type) [RFrom N L] (n : Nat) (d : Nat → Nat → N) (med : List Nat) : List L :=
  (List.range n).map fun o => conv (minDist d o med)

/-- Sum from left to right, starting with the first number. -/
def leftSum : List L → L
  | [] => RLoss.zero
  | x :: xs => xs.foldl RLoss.add x

/-- `v` is the sum of `xs` in the given order, with some bracketing. -/
inductive BracketSum : List L → L → Prop
  | one (x : L) : BracketSum [x] x
  | join {xs ys : List L} {a b : L} (h : BracketSum xs a) (h' : BracketSum ys b) :
      BracketSum (xs ++ ys) (RLoss.add a b)

theorem sumP_leftSum (xs : List L) : sumP xs = leftSum xs := by
  cases xs <;> rfl

theorem leftSum_bracket {xs : List L} (h : xs ≠ []) : BracketSum xs (leftSum xs) := by
  cases xs with
  | nil => exact absurd rfl h
  | cons x xs =>
    have : ∀ (ys zs : List L) (a : L), BracketSum zs a → BracketSum (zs ++ ys) (ys.foldl RLoss.add a) := by
      intro ys
      induction ys with
      | nil => intro zs a h; simpa using h
      | cons y ys ih =>
        intro zs a h
        have := ih (zs ++ [y]) (RLoss.add a y) (h.join (.one y))
        simpa using this
    simpa [leftSum] using this xs [x] x (.one x)

theorem reduceTree_bracket (t : RTree) {xs : List L} {v : L} (h : reduceTree t xs = some v) :
    BracketSum xs v := by
  induction t generalizing xs v with
  | leaf =>
    cases xs with
    | nil => simp [reduceTree, reduceAdd] at h
    | cons x xs =>
      have h' := leftSum_bracket (L := L) (xs := x :: xs) (by simp)
      have : leftSum (x :: xs) = v := by simpa [reduceTree, reduceAdd, leftSum] using h
      exact this ▸ h'
  | node s l r ihl ihr =>
    have hempty : ∀ (t : RTree) (ys : List L), reduceTree t ys = none → ys = [] := by
      intro t ys hn
      by_contra hne
      obtain ⟨y, hy⟩ := reduceTree_some t hne
      simp [hn] at hy
    have hsplit := List.take_append_drop s xs
    cases hl : reduceTree l (xs.take s) with
    | none =>
      have e := hempty _ _ hl
      cases hr : reduceTree r (xs.drop s) with
      | none => simp [reduceTree, hl, hr] at h
      | some b =>
        simp only [reduceTree, hl, hr, Option.some.injEq] at h
        have := ihr hr
        rw [e, List.nil_append] at hsplit
        rw [hsplit] at this
        exact h ▸ this
    | some a =>
      cases hr : reduceTree r (xs.drop s) with
      | none =>
        have e := hempty _ _ hr
        simp only [reduceTree, hl, hr, Option.some.injEq] at h
        have := ihl hl
        rw [e, List.append_nil] at hsplit
        rw [hsplit] at this
        exact h ▸ this
      | some b =>
        simp only [reduceTree, hl, hr, Option.some.injEq] at h
        have := (ihl hl).join (ihr hr)
        rw [hsplit] at this
        exact h ▸ this

theorem treeSumP_bracket (t : RTree) {xs : List L} (h : xs ≠ []) : BracketSum xs (treeSumP t xs) := by
  obtain ⟨y, hy⟩ := reduceTree_some t h
  have := reduceTree_bracket t hy
  simpa [treeSumP, hy] using this

/-! ## The summands -/

theorem zipIdx_snd_range {α β : Type} (data : List α) (f : Nat → β) :
    (data.zipIdx.map fun p => f p.2) = (List.range data.length).map f := by
  rw [List.range_eq_range', ← List.zipIdx_map_snd 0 data, List.map_map]; rfl

theorem nearMap_devs {n : Nat} {d : Nat → Nat → N} {med : List Nat} {data : List (Rec N)}
    (h : CacheOk n d med data) : (data.map fun r => (conv r.near.d : L)) = devs L n d med := by
  have h1 : (data.zipIdx.map fun p => (conv p.1.near.d : L)) =
      data.zipIdx.map fun p => (conv (minDist d p.2 med) : L) :=
    List.map_congr_left fun p hp => by rw [(h.recs p hp).minDist_eq]
  rw [zipIdx_snd_range data (fun o => (conv (minDist d o med) : L)), h.len] at h1
  rw [devs, ← h1, ← map_zipIdx_fst data (fun r => (conv r.near.d : L))]

theorem swapMap_devs (hz : (conv (0 : N) : L) = RLoss.zero) {n : Nat} {d : Nat → Nat → N}
    (hd : Dissim n d) {med : List Nat} {data : List (Rec N)} (h : CacheOk n d med data) {j : Nat}
    (hj : j ∈ med) : data.zipIdx.map (swapLossP L j) = devs L n d med := by
  have h1 : data.zipIdx.map (swapLossP L j) =
      data.zipIdx.map fun p => (conv (minDist d p.2 med) : L) := by
    refine List.map_congr_left fun p hp => ?_
    have hpn : p.2 < n := h.len ▸ mem_zipIdx_lt hp
    unfold swapLossP
    split
    · rename_i he
      have : minDist d p.2 med = 0 := by
        have h0 : minDist d p.2 med = d p.2 j := by
          refine minDist_eq hj fun c hc => ?_
          rw [he, hd.diag j (h.range j hj)]
          exact hd.nonneg j c (h.range j hj) (h.range c hc)
        rw [h0, he, hd.diag j (h.range j hj)]
      rw [this, hz]
    · rw [(h.recs p hp).minDist_eq]
  rw [h1, zipIdx_snd_range data (fun o => (conv (minDist d o med) : L)), h.len, devs]

theorem mem_set_self {α : Type} {l : List α} {b : Nat} (hb : b < l.length) (x : α) : x ∈ l.set b x :=
  List.mem_of_getElem? (i := b) (by simp [hb])

/-! ## FasterPAM -/

/-- The FasterPAM loop, with the loss. -/
theorem fpPassP_loss (hz : (conv (0 : N) : L) = RLoss.zero) {n k : Nat} {d : Nat → Nat → N}
    (hd : Dissim n d) (hk : 1 ≤ k) {js : List Nat} (hjs : ∀ j ∈ js, j < n) {s : FPState N L}
    (hs : FPOk n k d s) (hl : s.loss = leftSum (devs L n d s.med)) :
    (fpPassP d js s).loss = leftSum (devs L n d (fpPassP d js s).med) := by
  induction js generalizing s with
  | nil => exact hl
  | cons j js ih =>
    have hj : j < n := hjs j (by simp)
    have ih' := fun {s : FPState N L} (h : FPOk n k d s) h2 =>
      ih (s := s) (fun j hj => hjs j (by simp [hj])) h h2
    unfold fpPassP
    split
    · exact hl
    · split
      · exact ih' hs hl
      · rename_i hown
        dsimp only
        split
        · exact ih' hs hl
        · have hb := fbsP_lt d (rem := s.rem) s.data j (by rw [hs.remLen]; exact hk)
          rw [hs.remLen] at hb
          have hok := fpSwapP_ok hd hs hb hj (fun h => hown ((ownP_iff hs.cache hj).mpr h))
          refine ih' hok ?_
          show swapSumP L j _ = _
          rw [swapSumP, sumP_leftSum]
          have := swapMap_devs (L := L) hz hd hok.cache (j := j)
            (mem_set_self (hs.medLen ▸ hb) j)
          exact congrArg leftSum this

theorem fpLoopP_loss (hz : (conv (0 : N) : L) = RLoss.zero) {n k : Nat} {d : Nat → Nat → N}
    (hd : Dissim n d) (hk : 1 ≤ k) {seq : List Nat} (hseq : ∀ j ∈ seq, j < n) {fuel iter : Nat}
    {s : FPState N L} (hs : FPOk n k d s) (hl : s.loss = leftSum (devs L n d s.med)) :
    (fpLoopP d seq fuel iter s).1.loss = leftSum (devs L n d (fpLoopP d seq fuel iter s).1.med) := by
  induction fuel generalizing iter s with
  | zero => exact hl
  | succ fuel ih =>
    have h := fpPassP_ok hd hk hseq hs
    have h2 := fpPassP_loss hz hd hk hseq hs hl
    unfold fpLoopP
    dsimp only
    split
    · exact h2
    · exact ih h h2

theorem nearLossP_leftSum {n : Nat} {d : Nat → Nat → N} {med : List Nat} {data : List (Rec N)}
    (h : CacheOk n d med data) : nearLossP L data = leftSum (devs L n d med) := by
  rw [nearLossP, sumP_leftSum, nearMap_devs h]

/-! ## Parallel FasterPAM -/

theorem parSwapRecP_eq {n : Nat} {d : Nat → Nat → N} {med : List Nat} {data : List (Rec N)}
    (hc : CacheOk n d med data) {b j : Nat} {p : Rec N × Nat} (hp : p ∈ data.zipIdx) :
    parSwapRecP d (med.set b j) b j p = swapRecP d (med.set b j) b j p := by
  have hrec := hc.recs p hp
  unfold parSwapRecP swapRecP
  by_cases ho : p.2 = j
  · simp only [ho, if_true]
  · simp only [ho, if_false]
    by_cases h1 : p.1.near.i = b
    · simp only [h1, if_true]
    · simp only [h1, if_false]
      by_cases h2 : rlt (d p.2 j) p.1.near.d = true
      · simp only [h2, if_true]
      · simp only [h2, Bool.false_eq_true, if_false]
        by_cases h3 : p.1.seco.i = b
        · simp only [h3, if_true]
          by_cases h4 : rlt (d p.2 j) p.1.seco.d = true
          · have h4' : d p.2 j < p.1.seco.d := by simpa [rltN] using h4
            simp only [h4, if_true, usnP_new d h4' hrec.rest]
          · simp only [h4, Bool.false_eq_true, if_false]
        · simp only [h3, if_false]

theorem parSwapDataP_any {n : Nat} {d : Nat → Nat → N} {med : List Nat} {data : List (Rec N)}
    (hc : CacheOk n d med data) (b j : Nat) : parSwapDataP d med data b j = swapDataP d med data b j :=
  List.map_congr_left fun _ hp => parSwapRecP_eq hc hp

/-- The invariant of the parallel loop. -/
structure ParOk (n k : Nat) (d : Nat → Nat → N) (s : FPState N L) : Prop extends FPOk n k d s where
  loss : (conv (0 : N) : L) = RLoss.zero → BracketSum (devs L n d s.med) s.loss

theorem parSwapP_any (sc : Sched) {n k : Nat} {d : Nat → Nat → N}
    (hd : Dissim n d) {s : FPState N L} (hs : FPOk n k d s) {b j : Nat} (hb : b < k) (hj : j < n)
    (hjm : j ∉ s.med) : ParOk n k d (parSwapP sc d s b j) := by
  have hok := fpSwapP_ok hd hs hb hj hjm
  have hc := hok.cache
  have he := parSwapDataP_any hs.cache b j
  have hdv (hz : (conv (0 : N) : L) = RLoss.zero) :
      (parSwapDataP d s.med s.data b j).zipIdx.map (swapLossP L j) = devs L n d (s.med.set b j) := by
    rw [he]; exact swapMap_devs (L := L) hz hd hc (mem_set_self (hs.medLen ▸ hb) j)
  refine ⟨⟨?_, ?_, ?_⟩, fun hz => ?_⟩
  · show CacheOk n d (s.med.set b j) (parSwapDataP d s.med s.data b j)
    rw [he]; exact hc
  · exact hok.medLen
  · show (remP L (parSwapDataP d s.med s.data b j) s.rem.length).length = k
    rw [he]; exact hok.remLen
  · show BracketSum (devs L n d (s.med.set b j))
      (treeSumP sc.tree ((parSwapDataP d s.med s.data b j).zipIdx.map (swapLossP L j)))
    rw [hdv hz]
    refine treeSumP_bracket _ ?_
    intro h; have := congrArg List.length h; simp [devs] at this; omega

theorem parPassP_any (scF scS : Nat → Sched) {n k : Nat} {d : Nat → Nat → N} (hd : Dissim n d) (hk : 1 ≤ k) {js : List Nat} (hjs : ∀ j ∈ js, j < n)
    {s : FPState N L} (hs : ParOk n k d s) : ParOk n k d (parPassP scF scS d n js s) := by
  induction js generalizing s with
  | nil => exact hs
  | cons j js ih =>
    have hj : j < n := hjs j (by simp)
    have ih' := fun {s : FPState N L} (h : ParOk n k d s) => ih (fun j hj => hjs j (by simp [hj])) h
    unfold parPassP
    split
    · exact hs
    · split
      · exact ih' hs
      · rename_i hown
        dsimp only
        split
        · exact ih' hs
        · have hb := parFbsP_lt (scF j) d n (rem := s.rem) s.data j (by rw [hs.remLen]; exact hk)
          rw [hs.remLen] at hb
          exact ih' (parSwapP_any (scS j) hd hs.toFPOk hb hj
            (fun h => hown ((ownP_iff hs.cache hj).mpr h)))

theorem parLoopP_any (scF scS : Nat → Nat → Sched) {n k : Nat}
    {d : Nat → Nat → N} (hd : Dissim n d) (hk : 1 ≤ k) {seq : List Nat} (hseq : ∀ j ∈ seq, j < n)
    {fuel iter : Nat} {s : FPState N L} (hs : ParOk n k d s) :
    ParOk n k d (parLoopP scF scS d n seq fuel iter s).1 := by
  induction fuel generalizing iter s with
  | zero => exact hs
  | succ fuel ih =>
    have h := parPassP_any (scF iter) (scS iter) hd hk hseq hs
    unfold parLoopP
    dsimp only
    split
    · exact h
    · exact ih h

theorem parInitP_ok (sc : Sched) {n : Nat} {d : Nat → Nat → N} (hd : Dissim n d) {med : List Nat}
    (hv : ValidMeds n med) (hk : 2 ≤ med.length) (hnd : med.Nodup) :
    ParOk n med.length d (parInitP L sc d n med) := by
  have h := fpInitP_ok (L := L) hd hv hk hnd
  refine ⟨⟨h.cache, h.medLen, h.remLen⟩, fun _ => ?_⟩
  show BracketSum (devs L n d med) (treeSumP sc.tree ((initDataP d n med).map fun r => (conv r.near.d : L)))
  rw [nearMap_devs (initDataP_ok hd hk hv hnd)]
  refine treeSumP_bracket _ ?_
  have := hv.sizes.le
  intro h; have := congrArg List.length h; simp [devs] at this; omega

/-! ## PAM and FastPAM1 -/

/-- What PAM and FastPAM1 report: the loss of the final medoids, or, if the last exchange did not lower
the computed loss, the loss before that exchange. -/
def LossUpToLast (n : Nat) (d : Nat → Nat → N) (med : List Nat) (loss : L) : Prop :=
  loss = leftSum (devs L n d med) ∨
    ∃ (before : List Nat) (b j : Nat), (∀ m ∈ before, m < n) ∧ b < before.length ∧ j < n ∧ j ∉ before ∧ before.Nodup ∧
      med = before.set b j ∧ loss = leftSum (devs L n d before) ∧
      rge (leftSum (devs L n d med)) loss = true

theorem pLoopP_loss (hz : (conv (0 : N) : L) = RLoss.zero) {n k : Nat} {d : Nat → Nat → N}
    (hd : Dissim n d) {scan : List Nat → List (Rec N) → L × Nat × Nat} (hscan : ScanSound n k d scan)
    {fuel iter : Nat} {s : PState N L} (hs : CacheOk n d s.med s.data) (hlen : s.med.length = k)
    (hl : s.loss = leftSum (devs L n d s.med)) :
    LossUpToLast n d (pLoopP d scan fuel iter s).1.med (pLoopP d scan fuel iter s).1.loss := by
  induction fuel generalizing iter s with
  | zero => exact Or.inl hl
  | succ fuel ih =>
    unfold pLoopP
    dsimp only
    split
    · rename_i hlt
      obtain ⟨h1, h2, h3⟩ := hscan _ _ hs hlen hlt
      have h := swapDataP_ok hd hs (hlen ▸ h1) h2 h3
      have hsum : swapSumP L (scan s.med s.data).2.2
          (swapDataP d s.med s.data (scan s.med s.data).2.1 (scan s.med s.data).2.2) =
          leftSum (devs L n d (s.med.set (scan s.med s.data).2.1 (scan s.med s.data).2.2)) := by
        rw [swapSumP, sumP_leftSum]
        exact congrArg leftSum (swapMap_devs (L := L) hz hd h (mem_set_self (hlen ▸ h1) _))
      split
      · rename_i hge
        refine Or.inr ⟨s.med, _, _, hs.range, hlen ▸ h1, h2, h3, hs.nodup, rfl, hl, ?_⟩
        rw [hsum] at hge
        exact hge
      · exact ih (s := pSwapP d s _ _ _) h (by simp [pSwapP, hlen]) hsum
    · exact Or.inl hl

/-! ## Alternating -/

theorem nearAssiLossP_leftSum {n : Nat} {d : Nat → Nat → N} (hd : Dissim n d) {med : List Nat}
    (hv : ValidMeds n med) (hnd : med.Nodup) : nearAssiLossP L d n med = leftSum (devs L n d med) := by
  have hne : med ≠ [] := by intro h; have := hv.sizes.pos; simp [h] at this
  unfold nearAssiLossP devs
  rw [sumP_leftSum]
  congr 1
  refine List.map_congr_left fun o ho => ?_
  rw [nearRecP_eq, initRecP_minDist hd (List.mem_range.mp ho) hne hv.range hnd (le_of_lt hv.sizes.k_lt)]

theorem altLoopP_loss {n : Nat} {d : Nat → Nat → N} (hd : Dissim n d) {fuel iter : Nat} {loss : L}
    {assi med : List Nat} (hv : ValidMeds n med) (hnd : med.Nodup)
    (ha : NearestAssignment n d med assi) (hl : loss = leftSum (devs L n d med)) :
    (altLoopP d n fuel iter loss assi med).loss =
      leftSum (devs L n d (altLoopP d n fuel iter loss assi med).med) := by
  induction fuel generalizing iter loss assi med with
  | zero => exact hl
  | succ fuel ih =>
    unfold altLoopP
    dsimp only
    split
    · rename_i h
      rw [altUpdateP_unchanged (by simpa using h)]
      exact hl
    · have hnd' := altUpdateP_nodup (L := L) ha
      have hv' : ValidMeds n (altUpdateP L d assi med).2 := by
        rw [altUpdateP_eq]
        refine ⟨by simpa using hv.sizes, fun m hm => ?_⟩
        obtain ⟨p, hp, rfl⟩ := List.mem_map.mp hm
        rcases chooseP_mem (L := L) d assi p.2 p.1 with h | h
        · rw [h]; exact hv.range _ (mem_zipIdx_mem hp)
        · exact ha.length ▸ (List.getElem?_eq_some_iff.mp h).1
      exact ih hv' hnd' (nearAssiP_ok hd hv' hnd') (nearAssiLossP_leftSum hd hv' hnd')

/-! ## A single medoid -/

/-- Sum of the distances from `c` to the other objects, from left to right, starting with zero. -/
def rowSum (L : Type) [RLoss L] [RFrom N L] (n : Nat) (d : Nat → Nat → N) (c : Nat) : L :=
  ((List.range n).filter (· ≠ c)).foldl (fun s o => RLoss.add s (conv (d c o))) RLoss.zero

theorem partSumP_rowSum (n : Nat) (d : Nat → Nat → N) (c : Nat) :
    partSumP L d (List.replicate n 0) 0 c = rowSum L n d c := by
  unfold partSumP rowSum
  have h1 : (List.replicate n 0).zipIdx = (List.range n).map fun i => ((0 : Nat), i) := by
    refine List.ext_getElem (by simp) fun i h1 h2 => ?_
    simp
  rw [h1, List.foldl_map, List.foldl_filter]
  simp

theorem chooseP_sum (d : Nat → Nat → N) (assi : List Nat) (m first : Nat) :
    (chooseP L d assi m first).2 = partSumP L d assi m (chooseP L d assi m first).1 := by
  unfold chooseP
  refine foldl_inv (fun st : Nat × L => st.2 = partSumP L d assi m st.1) (fun st p _ h => ?_) rfl
  split
  · split
    · rfl
    · exact h
  · exact h

theorem singleP_rowSum (n : Nat) (d : Nat → Nat → N) (c : Nat) :
    ∃ c', (singleP L d n c).med = [c'] ∧ (singleP L d n c).loss = rowSum L n d c' :=
  ⟨_, rfl, by rw [← partSumP_rowSum]; exact chooseP_sum d _ 0 c⟩

end KMedoids
