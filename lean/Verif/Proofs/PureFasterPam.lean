import Verif.Model.FasterPam
import Verif.Spec
import Verif.Proofs.Basic
import Verif.Laws

/-!
# Panic-free form of the FasterPAM functions

For a matrix `d` and in-range caches, each model function equals `.ok` of a pure function (suffix `P`)
that reads `d` directly. No law about the number types is used here.
-/

set_option linter.unusedSectionVars false
set_option linter.unusedSimpArgs false

namespace KMedoids

variable {N L : Type} [RDist N] [RLoss L] [RFrom N L]
open RFrom (conv)

theorem assertSizes_ok {mat : Mat N} {n k : Nat} {d : Nat → Nat → N} (hm : IsMatrix mat n d)
    (hs : Sizes n k) : assertSizes mat k = .ok () := by
  have h1 := hs.pos; have h2 := hs.le; have h3 := hs.n_le; have h4 := hs.k_lt
  simp [assertSizes, assertSquare, hm.square, hm.len, h2, h3, h4, h1, show 0 < k by omega]

/-- pure `reduceAdd(..).unwrap()` -/
def sumP (xs : List L) : L := (reduceAdd xs).getD RLoss.zero

theorem unwrap_reduceAdd {xs : List L} (h : xs ≠ []) : unwrapOpt (reduceAdd xs) = .ok (sumP xs) := by
  cases xs with
  | nil => exact absurd rfl h
  | cons x xs => rfl

/-- pure `addAt` -/
def addAtP (a : List L) (i : Nat) (v : L) : List L := a.modify i (RLoss.add · v)

theorem addAt_eq {a : List L} {i : Nat} {v : L} (h : i < a.length) : addAt a i v = .ok (addAtP a i v) := by
  simp only [addAt, idx_lt h, ok_bind, addAtP, List.modify_eq_set_getElem?]
  simp [h]

@[simp] theorem addAtP_length (a : List L) (i : Nat) (v : L) : (addAtP a i v).length = a.length := by
  simp [addAtP]

/-! ## initial assignment -/

/-- pure `initAssignStep` -/
def initStepP (d : Nat → Nat → N) (i : Nat) (cur : Rec N) (p : Nat × Nat) : Rec N :=
  if rlt (d i p.1) cur.near.d || i == p.1 then
    { near := ⟨p.2, d i p.1⟩, seco := cur.near }
  else if cur.seco.i == u32Max || rlt (d i p.1) cur.seco.d then
    { cur with seco := ⟨p.2, d i p.1⟩ }
  else cur

/-- pure `initAssignRec` -/
def initRecP (d : Nat → Nat → N) (med : List Nat) (i : Nat) : Rec N :=
  (med.zipIdx.drop 1).foldl (initStepP d i) ⟨⟨0, d i (med.headD 0)⟩, ⟨u32Max, RDist.zero⟩⟩

/-- pure data of `initialAssignment` -/
def initDataP (d : Nat → Nat → N) (n : Nat) (med : List Nat) : List (Rec N) :=
  (List.range n).map (initRecP d med)

/-- pure loss of a record list -/
def nearLossP (L : Type) [RLoss L] [RFrom N L] (data : List (Rec N)) : L :=
  sumP (data.map fun r => (conv r.near.d : L))

theorem mem_drop_zipIdx {med : List Nat} {p : Nat × Nat} (hp : p ∈ med.zipIdx.drop 1) :
    p.1 ∈ med ∧ p.2 < med.length ∧ 1 ≤ p.2 ∧ med[p.2]? = some p.1 := by
  have h1 := List.mem_of_mem_drop hp
  refine ⟨mem_zipIdx_mem h1, mem_zipIdx_lt h1, ?_, mem_zipIdx_get h1⟩
  cases med with
  | nil => simp at hp
  | cons a t =>
    simp only [List.zipIdx_cons, List.drop_succ_cons, List.drop_zero] at hp
    have := List.mem_zipIdx_iff_le_and_getElem?_sub.mp hp
    omega

theorem initAssignRec_eq {mat : Mat N} {n : Nat} {d : Nat → Nat → N} {med : List Nat}
    (hm : IsMatrix mat n d) (hv : ValidMeds n med) {i fc : Nat} (hi : i < n)
    (hfc : med[0]? = some fc) : initAssignRec mat med fc i = .ok (initRecP d med i) := by
  have hfcn : fc < n := hv.range fc (List.mem_of_getElem? hfc)
  have hhead : med.headD 0 = fc := by
    cases med <;> simp_all
  simp only [initAssignRec, hm.get i fc hi hfcn, ok_bind, initRecP, hhead]
  refine foldRes_eq' (fun s p hp => ?_) _
  obtain ⟨h1, h2, _, _⟩ := mem_drop_zipIdx hp
  have hu : asU32 p.2 = p.2 := asU32_lt (lt_of_lt_of_le h2 (le_of_lt hv.sizes.k_lt))
  simp only [initAssignStep, hm.get i p.1 hi (hv.range _ h1), ok_bind, hu, initStepP]
  split
  · rfl
  · split <;> rfl

theorem initialAssignment_eq {mat : Mat N} {n : Nat} {d : Nat → Nat → N} {med : List Nat}
    (hm : IsMatrix mat n d) (hv : ValidMeds n med) :
    initialAssignment L mat med = .ok (nearLossP L (initDataP d n med), initDataP d n med) := by
  have hlen : 0 < med.length := hv.sizes.pos
  have hn : 0 < n := lt_of_lt_of_le hlen hv.sizes.le
  have h0 : med[0]? = some med[0] := by simp [hlen]
  have hmap : mapRes (initAssignRec mat med med[0]) (List.range n) = .ok (initDataP d n med) :=
    mapRes_eq fun i hi => initAssignRec_eq hm hv (List.mem_range.mp hi) h0
  have hne : (initDataP d n med).map (fun r => (conv r.near.d : L)) ≠ [] := by
    intro h; have := congrArg List.length h; simp [initDataP] at this; omega
  simp only [initialAssignment, assertSizes_ok hm hv.sizes, idx_of_get h0, ok_bind, hm.len, hmap,
    unwrap_reduceAdd hne, nearLossP]

/-! ## shape of the cache -/

/-- The cached indexes are valid medoid positions. -/
def RecIdx (k : Nat) (r : Rec N) : Prop := r.near.i < k ∧ r.seco.i < k

/-- Sizes and index ranges of `med` and `data`. -/
structure Shape (n k : Nat) (med : List Nat) (data : List (Rec N)) : Prop where
  medLen : med.length = k
  medRange : ∀ m ∈ med, m < n
  dataLen : data.length = n
  recIdx : ∀ r ∈ data, RecIdx k r

theorem initRecP_idx (d : Nat → Nat → N) {med : List Nat} (hk : 2 ≤ med.length) (i : Nat) :
    RecIdx med.length (initRecP d med i) := by
  obtain ⟨a, b, t, rfl⟩ : ∃ a b t, med = a :: b :: t := by
    match med, hk with
    | a :: b :: t, _ => exact ⟨a, b, t, rfl⟩
  unfold initRecP
  rw [List.zipIdx_cons, List.zipIdx_cons, List.drop_one, List.tail_cons, List.foldl_cons]
  refine foldl_inv (RecIdx _) (fun s p hp hs => ?_) ?_
  · have hp' := List.mem_zipIdx_iff_le_and_getElem?_sub.mp hp
    have hlt : p.2 < (a :: b :: t).length := by
      have := (List.getElem?_eq_some_iff.mp hp'.2).1; simp; omega
    unfold initStepP
    split
    · exact ⟨hlt, hs.1⟩
    · split
      · exact ⟨hs.1, hlt⟩
      · exact hs
  · unfold initStepP
    split
    · exact ⟨by simp, by simp⟩
    · simp [RecIdx]

theorem initDataP_shape {n : Nat} (d : Nat → Nat → N) {med : List Nat} (hv : ValidMeds n med)
    (hk : 2 ≤ med.length) : Shape n med.length med (initDataP d n med) := by
  refine ⟨rfl, hv.range, by simp [initDataP], ?_⟩
  intro r hr
  obtain ⟨i, -, rfl⟩ := List.mem_map.mp hr
  exact initRecP_idx d hk i

/-! ## find_best_swap -/

/-- pure `findBestSwapStep` -/
def fbsStepP (d : Nat → Nat → N) (j : Nat) (st : List L × L) (p : Rec N × Nat) : List L × L :=
  if rlt (d p.2 j) p.1.near.d then
    (addAtP st.1 p.1.near.i (RLoss.sub (conv p.1.near.d) (conv p.1.seco.d)),
      RLoss.add st.2 (RLoss.sub (conv (d p.2 j)) (conv p.1.near.d)))
  else if rlt (d p.2 j) p.1.seco.d then
    (addAtP st.1 p.1.near.i (RLoss.sub (conv (d p.2 j)) (conv p.1.seco.d)), st.2)
  else st

/-- pure `findMin` -/
def findMinP (l : List L) : Nat × L := match l with
  | [] => (0, RLoss.zero)
  | x :: xs => findMinGo xs 1 (0, x)

theorem findMin_eq {l : List L} (h : l ≠ []) : findMin l = .ok (findMinP l) := by
  cases l with
  | nil => exact absurd rfl h
  | cons x xs => rfl

theorem findMinGo_lt (l : List L) (i : Nat) (b : Nat × L) (h : b.1 < i) :
    (findMinGo l i b).1 < i + l.length := by
  induction l generalizing i b with
  | nil => simpa [findMinGo] using h
  | cons x xs ih =>
    simp only [findMinGo, List.length_cons]
    have := ih (i + 1) (if rlt x b.2 then (i, x) else b) (by split <;> omega)
    omega

theorem findMinP_lt {l : List L} (h : l ≠ []) : (findMinP l).1 < l.length := by
  cases l with
  | nil => exact absurd rfl h
  | cons x xs => have := findMinGo_lt xs 1 (0, x) (by simp); simp only [findMinP, List.length_cons]; omega

/-- pure `findBestSwap` -/
def fbsP (d : Nat → Nat → N) (rem : List L) (data : List (Rec N)) (j : Nat) : L × Nat :=
  let st := data.zipIdx.foldl (fbsStepP d j) (rem, RLoss.zero)
  (RLoss.add (findMinP st.1).2 st.2, (findMinP st.1).1)

theorem fbs_fold_eq {mat : Mat N} {n : Nat} {d : Nat → Nat → N} (hm : IsMatrix mat n d)
    {rem : List L} {data : List (Rec N)} {j : Nat} (hj : j < n) (hl : data.length = n)
    (hidx : ∀ r ∈ data, RecIdx rem.length r) :
    foldRes (findBestSwapStep mat j) (rem, RLoss.zero) data.zipIdx =
        .ok (data.zipIdx.foldl (fbsStepP d j) (rem, RLoss.zero)) ∧
      (data.zipIdx.foldl (fbsStepP d j) (rem, RLoss.zero)).1.length = rem.length := by
  refine foldRes_eq (fun st : List L × L => st.1.length = rem.length) (fun st p hp hst => ?_) rfl
  have hpn : p.2 < n := hl ▸ mem_zipIdx_lt hp
  have hi : p.1.near.i < st.1.length := hst ▸ (hidx _ (mem_zipIdx_mem hp)).1
  simp only [findBestSwapStep, hm.get _ _ hpn hj, ok_bind, fbsStepP]
  split
  · simp [addAt_eq hi, hst]
  · split
    · simp [addAt_eq hi, hst]
    · exact ⟨rfl, hst⟩

theorem findBestSwap_eq {mat : Mat N} {n : Nat} {d : Nat → Nat → N} (hm : IsMatrix mat n d)
    {rem : List L} {data : List (Rec N)} {j : Nat} (hj : j < n) (hl : data.length = n)
    (hk : 1 ≤ rem.length) (hidx : ∀ r ∈ data, RecIdx rem.length r) :
    findBestSwap mat rem data j = .ok (fbsP d rem data j) ∧ (fbsP d rem data j).2 < rem.length := by
  obtain ⟨h1, h2⟩ := fbs_fold_eq hm hj hl hidx
  have hne : (data.zipIdx.foldl (fbsStepP d j) (rem, RLoss.zero)).1 ≠ [] := by
    intro h; rw [h] at h2; simp at h2; omega
  refine ⟨by simp only [findBestSwap, h1, ok_bind, findMin_eq hne, fbsP], ?_⟩
  have := findMinP_lt hne
  simp only [fbsP]; omega

/-! ## update_removal_loss -/

/-- pure `updateRemovalLoss` -/
def remP (L : Type) [RLoss L] [RFrom N L] (data : List (Rec N)) (k : Nat) : List L :=
  data.foldl (fun (loss : List L) (r : Rec N) =>
    addAtP loss r.near.i (RLoss.sub (conv r.seco.d) (conv r.near.d))) (List.replicate k RLoss.zero)

theorem updateRemovalLoss_eq {data : List (Rec N)} {k : Nat} (hidx : ∀ r ∈ data, RecIdx k r) :
    updateRemovalLoss L data k = .ok (remP L data k) ∧ (remP L data k).length = k := by
  refine foldRes_eq (fun st : List L => st.length = k) (fun st r hr hst => ?_) (by simp)
  have hi : r.near.i < st.length := hst ▸ (hidx _ hr).1
  simp [addAt_eq hi, hst]

/-! ## do_swap -/

/-- pure `updateSecondNearest` -/
def usnP (d : Nat → Nat → N) (med : List Nat) (n b o : Nat) (doj : N) : DistancePair N :=
  med.zipIdx.foldl (fun (s : DistancePair N) (p : Nat × Nat) =>
    if p.2 = n ∨ p.2 = b then s else if rlt (d o p.1) s.d then ⟨p.2, d o p.1⟩ else s) ⟨b, doj⟩

theorem updateSecondNearest_eq {mat : Mat N} {n k : Nat} {d : Nat → Nat → N} (hm : IsMatrix mat n d)
    {med : List Nat} (hlen : med.length = k) (hk : k < u32Max) (hr : ∀ m ∈ med, m < n)
    {nn b o : Nat} (hb : b < k) (ho : o < n) (doj : N) :
    updateSecondNearest mat med nn b o doj = .ok (usnP d med nn b o doj) ∧
      (usnP d med nn b o doj).i < k := by
  have hbu : DistancePair.new b doj = ⟨b, doj⟩ := by simp [DistancePair.new, asU32_lt (lt_trans hb hk)]
  unfold updateSecondNearest usnP
  rw [hbu]
  refine foldRes_eq (fun s : DistancePair N => s.i < k) (fun s p hp hs => ?_) hb
  have hpk : p.2 < k := hlen ▸ mem_zipIdx_lt hp
  by_cases hc : p.2 = nn ∨ p.2 = b
  · simp [hc, hs]
  · simp only [hc, if_false, hm.get o p.1 ho (hr _ (mem_zipIdx_mem hp)), ok_bind, DistancePair.new,
      asU32_lt (lt_trans hpk hk)]
    refine ⟨trivial, ?_⟩
    split
    · exact hpk
    · exact hs

/-- pure record part of `doSwapRec` -/
def swapRecP (d : Nat → Nat → N) (med : List Nat) (b j : Nat) (p : Rec N × Nat) : Rec N :=
  let reco := p.1
  let o := p.2
  if o = j then
    { near := ⟨b, RDist.zero⟩, seco := if reco.near.i ≠ b then reco.near else reco.seco }
  else
    let doj := d o j
    if reco.near.i = b then
      if rlt doj reco.seco.d then { reco with near := ⟨b, doj⟩ }
      else { near := reco.seco, seco := usnP d med reco.seco.i b o doj }
    else if rlt doj reco.near.d then { near := ⟨b, doj⟩, seco := reco.near }
    else if rlt doj reco.seco.d then { reco with seco := ⟨b, doj⟩ }
    else if reco.seco.i = b then { reco with seco := usnP d med reco.near.i b o doj }
    else reco

/-- pure summand of `doSwapRec` -/
def swapLossP (L : Type) [RLoss L] [RFrom N L] (j : Nat) (p : Rec N × Nat) : L :=
  if p.2 = j then RLoss.zero else conv p.1.near.d

theorem doSwapRec_eq {mat : Mat N} {n k : Nat} {d : Nat → Nat → N} (hm : IsMatrix mat n d)
    {med : List Nat} (hlen : med.length = k) (hk : k < u32Max) (hr : ∀ m ∈ med, m < n)
    {b j : Nat} (hb : b < k) (hj : j < n) {p : Rec N × Nat} (hp : p.2 < n) (hi : RecIdx k p.1) :
    doSwapRec (L := L) mat med b j p =
        .ok (swapRecP d med b j p, swapLossP L j (swapRecP d med b j p, p.2)) ∧
      RecIdx k (swapRecP d med b j p) := by
  have hbu : ∀ x : N, DistancePair.new b x = ⟨b, x⟩ := fun x => by
    simp [DistancePair.new, asU32_lt (lt_trans hb hk)]
  have hbu' : asU32 b = b := asU32_lt (lt_trans hb hk)
  have husn := fun (nn : Nat) (doj : N) =>
    updateSecondNearest_eq hm hlen hk hr (nn := nn) hb hp doj
  unfold doSwapRec swapRecP swapLossP
  by_cases ho : p.2 = j
  · simp only [ho, if_true, hbu, hbu']
    by_cases hc : p.1.near.i = b
    · simp [hc, RecIdx, hb, hi.2]
    · simp [hc, RecIdx, hb, hi.1]
  · simp only [ho, if_false, hbu, hbu', hm.get _ _ hp hj, ok_bind]
    by_cases h1 : p.1.near.i = b
    · by_cases h2 : rlt (d p.2 j) p.1.seco.d = true
      · simp [h1, h2, RecIdx, hb, hi.2]
      · simp [h1, h2, RecIdx, hi.2, (husn p.1.seco.i (d p.2 j)).1, (husn p.1.seco.i (d p.2 j)).2]
    · by_cases h2 : rlt (d p.2 j) p.1.near.d = true
      · simp [h1, h2, RecIdx, hb, hi.1]
      · by_cases h3 : rlt (d p.2 j) p.1.seco.d = true
        · simp [h1, h2, h3, RecIdx, hb, hi.1]
        · by_cases h4 : p.1.seco.i = b
          · simp [h1, h2, h3, h4, RecIdx, hi.1, (husn p.1.near.i (d p.2 j)).1,
              (husn p.1.near.i (d p.2 j)).2]
          · simp [h1, h2, h3, h4, RecIdx, hi.1, hi.2]

/-- pure data of `doSwap`; `med` is the list before the swap -/
def swapDataP (d : Nat → Nat → N) (med : List Nat) (data : List (Rec N)) (b j : Nat) : List (Rec N) :=
  data.zipIdx.map (swapRecP d (med.set b j) b j)

/-- pure loss of `doSwap` -/
def swapSumP (L : Type) [RLoss L] [RFrom N L] (j : Nat) (data : List (Rec N)) : L :=
  sumP (data.zipIdx.map (swapLossP L j))

theorem zipIdx_map_zipIdx {α β : Type} (l : List α) (f : α × Nat → β) (s : Nat) :
    (l.zipIdx s |>.map f).zipIdx s = (l.zipIdx s).map fun p => (f p, p.2) := by
  induction l generalizing s with
  | nil => rfl
  | cons x xs ih => simp [ih]

theorem doSwap_eq {mat : Mat N} {n k : Nat} {d : Nat → Nat → N} (hm : IsMatrix mat n d)
    {med : List Nat} {data : List (Rec N)} (hs : Shape n k med data) (hk : k < u32Max)
    {b j : Nat} (hb : b < k) (hj : j < n) :
    doSwap L mat med data b j =
        .ok (swapSumP L j (swapDataP d med data b j), med.set b j, swapDataP d med data b j) ∧
      Shape n k (med.set b j) (swapDataP d med data b j) := by
  have hlen : (med.set b j).length = k := by simp [hs.medLen]
  have hr : ∀ m ∈ med.set b j, m < n := by
    intro m hmem
    rcases List.mem_or_eq_of_mem_set hmem with h | h
    · exact hs.medRange m h
    · omega
  have hrec : ∀ p ∈ data.zipIdx, doSwapRec (L := L) mat (med.set b j) b j p = .ok
      (swapRecP d (med.set b j) b j p, swapLossP L j (swapRecP d (med.set b j) b j p, p.2)) :=
    fun p hp => (doSwapRec_eq hm hlen hk hr hb hj (hs.dataLen ▸ mem_zipIdx_lt hp)
      (hs.recIdx _ (mem_zipIdx_mem hp))).1
  have hmap := mapRes_eq hrec
  have hsum : (data.zipIdx.map fun p => (swapRecP d (med.set b j) b j p,
      swapLossP L j (swapRecP d (med.set b j) b j p, p.2))).map (·.2) =
      (swapDataP d med data b j).zipIdx.map (swapLossP L j) := by
    simp [swapDataP, zipIdx_map_zipIdx]
  have hne : (swapDataP d med data b j).zipIdx.map (swapLossP L j) ≠ [] := by
    intro h; have := congrArg List.length h; simp [swapDataP, hs.dataLen] at this; omega
  refine ⟨?_, hlen, hr, by simp [swapDataP, hs.dataLen], ?_⟩
  · have hb' : b < med.length := hs.medLen ▸ hb
    have hj' : j < mat.len := hm.len ▸ hj
    simp only [doSwap, hb', hj', decide_true, rassert_true, ok_bind, setIdx_lt hb', hmap, hsum,
      unwrap_reduceAdd hne, swapSumP]
    simp [swapDataP, Function.comp_def]
  · intro r hr'
    obtain ⟨p, hp, rfl⟩ := List.mem_map.mp hr'
    exact (doSwapRec_eq (L := L) hm hlen hk hr hb hj (hs.dataLen ▸ mem_zipIdx_lt hp)
      (hs.recIdx _ (mem_zipIdx_mem hp))).2

/-! ## the loops -/

/-- pure `isOwnMedoid` -/
def ownP (med : List Nat) (data : List (Rec N)) (j : Nat) : Bool :=
  match data[j]? with
  | some r => med[r.near.i]? == some j
  | none => false

theorem isOwnMedoid_eq {n k : Nat} {med : List Nat} {data : List (Rec N)} (hs : Shape n k med data)
    {j : Nat} (hj : j < n) : isOwnMedoid med data j = .ok (ownP med data j) := by
  have hjl : j < data.length := hs.dataLen ▸ hj
  have hi : data[j].near.i < med.length := hs.medLen ▸ (hs.recIdx _ (List.getElem_mem hjl)).1
  simp only [isOwnMedoid, idx_lt hjl, ok_bind, idx_lt hi, ownP, List.getElem?_eq_getElem hjl,
    List.getElem?_eq_getElem hi]
  congr 1
  rw [Bool.eq_iff_iff]; simp only [beq_iff_eq, Option.some.injEq]; exact eq_comm

/-- pure swap step of `fpPass` -/
def fpSwapP (d : Nat → Nat → N) (s : FPState N L) (b j : Nat) : FPState N L :=
  let data := swapDataP d s.med s.data b j
  ⟨s.med.set b j, data, remP L data s.rem.length, swapSumP L j data, j, s.nSwaps + 1⟩

/-- pure `fpPass` -/
def fpPassP (d : Nat → Nat → N) : List Nat → FPState N L → FPState N L
  | [], s => s
  | j :: js, s =>
    if j = s.lastswap then s
    else if ownP s.med s.data j then fpPassP d js s
    else
      let r := fbsP d s.rem s.data j
      if rge r.1 RLoss.zero then fpPassP d js s
      else fpPassP d js (fpSwapP d s r.2 j)

/-- Sizes and index ranges of the state of `fasterpam`. -/
structure FPShape (n k : Nat) (s : FPState N L) : Prop where
  shape : Shape n k s.med s.data
  remLen : s.rem.length = k

theorem fpSwapP_shape {mat : Mat N} {n k : Nat} {d : Nat → Nat → N} (hm : IsMatrix mat n d)
    {s : FPState N L} (hs : FPShape n k s) (hk : k < u32Max) {b j : Nat} (hb : b < k) (hj : j < n) :
    FPShape n k (fpSwapP d s b j) := by
  have h := (doSwap_eq (L := L) hm hs.shape hk hb hj).2
  refine ⟨h, ?_⟩
  show (remP L (swapDataP d s.med s.data b j) s.rem.length).length = k
  rw [hs.remLen]; exact (updateRemovalLoss_eq h.recIdx).2

theorem fpPass_eq {mat : Mat N} {n k : Nat} {d : Nat → Nat → N} (hm : IsMatrix mat n d)
    (hk : k < u32Max) (hk1 : 1 ≤ k) {js : List Nat} (hjs : ∀ j ∈ js, j < n) {s : FPState N L}
    (hs : FPShape n k s) :
    fpPass mat js s = .ok (fpPassP d js s) ∧ FPShape n k (fpPassP d js s) := by
  induction js generalizing s with
  | nil => exact ⟨rfl, hs⟩
  | cons j js ih =>
    have hj : j < n := hjs j (by simp)
    have ih' := fun {s : FPState N L} (h : FPShape n k s) => ih (fun j hj => hjs j (by simp [hj])) h
    obtain ⟨hf, hfb⟩ := findBestSwap_eq hm hj hs.shape.dataLen (by rw [hs.remLen]; exact hk1)
      (fun r hr => by rw [hs.remLen]; exact hs.shape.recIdx r hr)
    rw [hs.remLen] at hfb
    have hsw := doSwap_eq (L := L) hm hs.shape hk hfb hj
    have hrem := updateRemovalLoss_eq (L := L) hsw.2.recIdx
    have hfs := fpSwapP_shape hm hs hk hfb hj
    unfold fpPass fpPassP
    by_cases h1 : j = s.lastswap
    · simp only [h1, if_true]; exact ⟨trivial, hs⟩
    · simp only [h1, if_false, isOwnMedoid_eq hs.shape hj, ok_bind]
      by_cases h2 : ownP s.med s.data j = true
      · simp only [h2, if_true]; exact ih' hs
      · simp only [h2, hf, ok_bind, Bool.false_eq_true, if_false]
        by_cases h3 : rge (fbsP d s.rem s.data j).1 RLoss.zero = true
        · simp only [h3, if_true]; exact ih' hs
        · simp only [h3, hsw.1, ok_bind, hs.remLen, hrem.1, Bool.false_eq_true, if_false]
          have := ih' hfs
          simpa only [fpSwapP, hs.remLen] using this

/-- pure `fpLoop` -/
def fpLoopP (d : Nat → Nat → N) (seq : List Nat) : Nat → Nat → FPState N L → FPState N L × Nat
  | 0, iter, s => (s, iter)
  | fuel + 1, iter, s =>
    let s' := fpPassP d seq s
    if s'.nSwaps == s.nSwaps || rge s'.loss s.loss then (s', iter + 1)
    else fpLoopP d seq fuel (iter + 1) s'

theorem fpLoop_eq {mat : Mat N} {n k : Nat} {d : Nat → Nat → N} (hm : IsMatrix mat n d)
    (hk : k < u32Max) (hk1 : 1 ≤ k) {seq : List Nat} (hseq : ∀ j ∈ seq, j < n) {fuel iter : Nat}
    {s : FPState N L} (hs : FPShape n k s) :
    fpLoop mat seq fuel iter s = .ok (fpLoopP d seq fuel iter s) ∧
      FPShape n k (fpLoopP d seq fuel iter s).1 := by
  induction fuel generalizing iter s with
  | zero => exact ⟨rfl, hs⟩
  | succ fuel ih =>
    obtain ⟨h1, h2⟩ := fpPass_eq hm hk hk1 hseq hs
    unfold fpLoop fpLoopP
    simp only [h1, ok_bind]
    split
    · exact ⟨rfl, h2⟩
    · exact ih h2

/-! ## k = 1 -/

/-- pure `partitionSum` -/
def partSumP (L : Type) [RLoss L] [RFrom N L] (d : Nat → Nat → N) (assi : List Nat) (m c : Nat) : L :=
  assi.zipIdx.foldl (fun (sum : L) (p : Nat × Nat) =>
    if p.2 ≠ c ∧ p.1 = m then RLoss.add sum (conv (d c p.2)) else sum) RLoss.zero

theorem partitionSum_eq {mat : Mat N} {n : Nat} {d : Nat → Nat → N} (hm : IsMatrix mat n d)
    {assi : List Nat} (hl : assi.length = n) (m : Nat) {c : Nat} (hc : c < n) :
    partitionSum L mat assi m c = .ok (partSumP L d assi m c) := by
  refine foldRes_eq' (fun s p hp => ?_) _
  by_cases h : p.2 ≠ c ∧ p.1 = m
  · simp only [if_pos h, hm.get c p.2 hc (hl ▸ mem_zipIdx_lt hp), ok_bind]
  · simp only [if_neg h]

/-- pure search of `chooseMedoidWithinPartition`: `(best, sum)` -/
def chooseP (L : Type) [RLoss L] [RFrom N L] (d : Nat → Nat → N) (assi : List Nat) (m first : Nat) :
    Nat × L :=
  assi.zipIdx.foldl (fun (st : Nat × L) (p : Nat × Nat) =>
    if p.2 ≠ first ∧ p.1 = m then
      if rlt (partSumP L d assi m p.2) st.2 then (p.2, partSumP L d assi m p.2) else st
    else st) (first, partSumP L d assi m first)

theorem chooseMedoid_eq {mat : Mat N} {n : Nat} {d : Nat → Nat → N} (hm : IsMatrix mat n d)
    {assi med : List Nat} (hl : assi.length = n) {m c : Nat} (hc : med[m]? = some c) (hcn : c < n) :
    chooseMedoidWithinPartition L mat assi med m =
      .ok (((chooseP L d assi m c).1 != c, (chooseP L d assi m c).2),
        med.set m (chooseP L d assi m c).1) ∧ (chooseP L d assi m c).1 < n := by
  have hmlt : m < med.length := (List.getElem?_eq_some_iff.mp hc).1
  have hf : foldRes (chooseMedoidStep mat assi m c) (c, partSumP L d assi m c) assi.zipIdx =
      .ok (chooseP L d assi m c) ∧ (chooseP L d assi m c).1 < n := by
    refine foldRes_eq (fun st : Nat × L => st.1 < n) (fun st p hp hst => ?_) hcn
    have hp2 : p.2 < n := hl ▸ mem_zipIdx_lt hp
    unfold chooseMedoidStep
    by_cases h : p.2 ≠ c ∧ p.1 = m
    · simp only [if_pos h, partitionSum_eq hm hl m hp2, ok_bind]
      refine ⟨trivial, ?_⟩
      split <;> assumption
    · simp only [if_neg h]; exact ⟨trivial, hst⟩
  refine ⟨?_, hf.2⟩
  simp only [chooseMedoidWithinPartition, idx_of_get hc, ok_bind, partitionSum_eq hm hl m hcn, hf.1,
    setIdx_lt hmlt]

/-- pure `singleCluster` -/
def singleP (L : Type) [RLoss L] [RFrom N L] (d : Nat → Nat → N) (n c : Nat) : SwapResult L :=
  let r := chooseP L d (List.replicate n 0) 0 c
  ⟨r.2, List.replicate n 0, 1, if r.1 != c then 1 else 0, [r.1]⟩

theorem singleCluster_eq {mat : Mat N} {n : Nat} {d : Nat → Nat → N} (hm : IsMatrix mat n d)
    {c : Nat} (hc : c < n) :
    singleCluster L mat [c] = .ok (singleP L d n c) ∧
      (chooseP L d (List.replicate n 0) 0 c).1 < n := by
  have h := chooseMedoid_eq (L := L) hm (assi := List.replicate n 0) (med := [c]) (by simp)
    (m := 0) (c := c) rfl hc
  refine ⟨?_, h.2⟩
  simp only [singleCluster, hm.len, h.1, ok_bind, singleP, List.set_cons_zero]

/-! ## whole functions -/

/-- pure initial state of `fasterpam` -/
def fpInitP (L : Type) [RLoss L] [RFrom N L] (d : Nat → Nat → N) (n : Nat) (med : List Nat) :
    FPState N L :=
  let data := initDataP d n med
  ⟨med, data, remP L data med.length, nearLossP L data, n, 0⟩

/-- pure `randFasterpam` / `fasterpam` -/
def fpP (L : Type) [RLoss L] [RFrom N L] (d : Nat → Nat → N) (n : Nat) (med : List Nat) (maxiter : Nat)
    (seq : List Nat) : SwapResult L :=
  match med with
  | [c] => singleP L d n c
  | med =>
    let r := fpLoopP d seq maxiter 0 (fpInitP L d n med)
    ⟨r.1.loss, r.1.data.map (·.near.i), r.2, r.1.nSwaps, r.1.med⟩

theorem fpInitP_shape {n : Nat} (d : Nat → Nat → N) {med : List Nat} (hv : ValidMeds n med)
    (hk : 2 ≤ med.length) : FPShape n med.length (fpInitP L d n med) :=
  ⟨initDataP_shape d hv hk, (updateRemovalLoss_eq (initDataP_shape d hv hk).recIdx).2⟩

theorem fpP_single (d : Nat → Nat → N) (n c maxiter : Nat) (seq : List Nat) :
    fpP L d n [c] maxiter seq = singleP L d n c := rfl

theorem fpP_many (d : Nat → Nat → N) (n : Nat) {med : List Nat} (hk : 2 ≤ med.length) (maxiter : Nat)
    (seq : List Nat) : fpP L d n med maxiter seq =
      ⟨(fpLoopP d seq maxiter 0 (fpInitP L d n med)).1.loss,
        (fpLoopP d seq maxiter 0 (fpInitP L d n med)).1.data.map (·.near.i),
        (fpLoopP d seq maxiter 0 (fpInitP L d n med)).2,
        (fpLoopP d seq maxiter 0 (fpInitP L d n med)).1.nSwaps,
        (fpLoopP d seq maxiter 0 (fpInitP L d n med)).1.med⟩ := by
  match med, hk with
  | a :: b :: t, _ => rfl

theorem randFasterpam_eq {mat : Mat N} {n : Nat} {d : Nat → Nat → N} (hm : IsMatrix mat n d)
    {med : List Nat} (hv : ValidMeds n med) (maxiter : Nat) {seq : List Nat}
    (hseq : ∀ j ∈ seq, j < n) :
    randFasterpam L mat med maxiter seq = .ok (fpP L d n med maxiter seq) := by
  by_cases h1 : med.length = 1
  · obtain ⟨c, rfl⟩ := List.length_eq_one_iff.mp h1
    simp only [randFasterpam, h1, if_true, (singleCluster_eq hm (hv.range c (by simp))).1, fpP_single]
  · have hk : 2 ≤ med.length := by have := hv.sizes.pos; omega
    have hsh := fpInitP_shape (L := L) d hv hk
    have hloop := fpLoop_eq hm hv.sizes.k_lt (by omega) hseq (fuel := maxiter) (iter := 0) hsh
    simp only [randFasterpam, h1, if_false, initialAssignment_eq hm hv, ok_bind,
      (updateRemovalLoss_eq (initDataP_shape d hv hk).recIdx).1, hm.len]
    rw [show (⟨med, initDataP d n med, remP L (initDataP d n med) med.length,
      nearLossP L (initDataP d n med), n, 0⟩ : FPState N L) = fpInitP L d n med from rfl,
      hloop.1, fpP_many d n hk]
    rfl

theorem fasterpam_eq_rand (mat : Mat N) (med : List Nat) (maxiter : Nat) :
    fasterpam L mat med maxiter = randFasterpam L mat med maxiter (List.range mat.len) := rfl

end KMedoids
