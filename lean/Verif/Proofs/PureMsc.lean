import Verif.Model.FasterMsc
import Verif.Proofs.PurePam

/-!
# Panic-free form of the medoid silhouette functions

As in `PureFasterPam`: each model function equals `.ok` of a pure function (suffix `P`) that reads the
matrix `d` directly. No law about the number types is used here.
-/

set_option linter.unusedSectionVars false
set_option linter.unusedSimpArgs false

namespace KMedoids

variable {N L : Type} [RDist N] [RLoss L] [RFrom N L]
open RFrom (conv)

/-! ## Loops, given what happens at one candidate -/

/-- First-improvement pass: `cand s j` is the state after exchanging with `j`, or `none`. -/
def passG {S : Type} (last : S → Nat) (cand : S → Nat → Option S) : List Nat → S → S
  | [], s => s
  | j :: js, s =>
    if j = last s then s
    else match cand s j with
      | none => passG last cand js s
      | some s' => passG last cand js s'

/-- First-improvement loop around `pass`. -/
def loopG {S : Type} (pass : S → S) (nSwaps : S → Nat) (loss : S → L) : Nat → Nat → S → S × Nat
  | 0, iter, s => (s, iter)
  | fuel + 1, iter, s =>
    let s' := pass s
    if nSwaps s' == nSwaps s || rge (loss s') (loss s) then (s', iter + 1)
    else loopG pass nSwaps loss fuel (iter + 1) s'

/-- Best-improvement loop: `step s` is `none` if nothing improves; otherwise the next state, and whether
to stop there. -/
def loopB {S : Type} (step : S → Option (S × Bool)) : Nat → Nat → S → S × Nat
  | 0, iter, s => (s, iter)
  | fuel + 1, iter, s =>
    match step s with
    | none => (s, iter + 1)
    | some (s', true) => (s', iter + 1)
    | some (s', false) => loopB step fuel (iter + 1) s'

theorem passG_inv {S : Type} {last : S → Nat} {cand : S → Nat → Option S} (I : S → Prop)
    {js : List Nat} (h : ∀ s j s', j ∈ js → I s → cand s j = some s' → I s') {s : S} (hs : I s) :
    I (passG last cand js s) := by
  induction js generalizing s with
  | nil => exact hs
  | cons j js ih =>
    have ih' := fun {s : S} (hs : I s) => ih (fun s j s' hj => h s j s' (by simp [hj])) hs
    unfold passG
    split
    · exact hs
    · split
      · exact ih' hs
      · rename_i s' hc; exact ih' (h s j s' (by simp) hs hc)

theorem loopG_inv {S : Type} {pass : S → S} {nSwaps : S → Nat} {loss : S → L} (I : S → Prop)
    (h : ∀ s, I s → I (pass s)) {fuel iter : Nat} {s : S} (hs : I s) :
    I (loopG pass nSwaps loss fuel iter s).1 ∧ (loopG pass nSwaps loss fuel iter s).2 ≤ iter + fuel := by
  induction fuel generalizing iter s with
  | zero => exact ⟨hs, le_rfl⟩
  | succ fuel ih =>
    unfold loopG
    dsimp only
    split
    · exact ⟨h s hs, by dsimp only; omega⟩
    · have := ih (iter := iter + 1) (h s hs)
      exact ⟨this.1, by omega⟩

theorem loopB_inv {S : Type} {step : S → Option (S × Bool)} (I : S → Prop)
    (h : ∀ s s' b, I s → step s = some (s', b) → I s') {fuel iter : Nat} {s : S} (hs : I s) :
    I (loopB step fuel iter s).1 ∧ (loopB step fuel iter s).2 ≤ iter + fuel := by
  induction fuel generalizing iter s with
  | zero => exact ⟨hs, le_rfl⟩
  | succ fuel ih =>
    unfold loopB
    split
    · exact ⟨hs, by dsimp only; omega⟩
    · rename_i s' hst; exact ⟨h s s' true hs hst, by dsimp only; omega⟩
    · rename_i s' hst
      have := ih (iter := iter + 1) (h s s' false hs hst)
      exact ⟨this.1, by omega⟩

/-! ## initial assignment -/

/-- pure `mscInitStep` -/
def mscInitStepP (d : Nat → Nat → N) (i : Nat) (cur : Reco N) (p : Nat × Nat) : Reco N :=
  if rlt (d i p.1) cur.near.d || i == p.1 then
    { near := ⟨p.2, d i p.1⟩, seco := cur.near, third := cur.seco }
  else if cur.seco.i == u32Max || rlt (d i p.1) cur.seco.d then
    { cur with seco := ⟨p.2, d i p.1⟩, third := cur.seco }
  else if cur.third.i == u32Max || rlt (d i p.1) cur.third.d then
    { cur with third := ⟨p.2, d i p.1⟩ }
  else cur

/-- pure `mscInitRec` -/
def mscInitRecP (d : Nat → Nat → N) (med : List Nat) (i : Nat) : Reco N :=
  (med.zipIdx.drop 1).foldl (mscInitStepP d i)
    ⟨⟨0, d i (med.headD 0)⟩, ⟨u32Max, RDist.zero⟩, ⟨u32Max, RDist.zero⟩⟩

/-- pure data of `mscInitialAssignment` -/
def mscInitDataP (d : Nat → Nat → N) (n : Nat) (med : List Nat) : List (Reco N) :=
  (List.range n).map (mscInitRecP d med)

/-- pure loss of a record list -/
def mscLossP (L : Type) [RLoss L] [RFrom N L] (data : List (Reco N)) : L :=
  sumP (data.map fun r => mscLoss L r.near.d r.seco.d)

theorem mscInitRec_eq {mat : Mat N} {n : Nat} {d : Nat → Nat → N} {med : List Nat}
    (hm : IsMatrix mat n d) (hv : ValidMeds n med) {i fc : Nat} (hi : i < n)
    (hfc : med[0]? = some fc) : mscInitRec mat med fc i = .ok (mscInitRecP d med i) := by
  have hfcn : fc < n := hv.range fc (List.mem_of_getElem? hfc)
  have hhead : med.headD 0 = fc := by
    cases med <;> simp_all
  simp only [mscInitRec, hm.get i fc hi hfcn, ok_bind, mscInitRecP, hhead]
  refine foldRes_eq' (fun s p hp => ?_) _
  obtain ⟨h1, h2, _, _⟩ := mem_drop_zipIdx hp
  have hu : asU32 p.2 = p.2 := asU32_lt (lt_of_lt_of_le h2 (le_of_lt hv.sizes.k_lt))
  simp only [mscInitStep, hm.get i p.1 hi (hv.range _ h1), ok_bind, hu, mscInitStepP]
  split
  · rfl
  · split
    · rfl
    · split <;> rfl

theorem mscInitialAssignment_eq {mat : Mat N} {n : Nat} {d : Nat → Nat → N} {med : List Nat}
    (hm : IsMatrix mat n d) (hv : ValidMeds n med) :
    mscInitialAssignment L mat med = .ok (mscLossP L (mscInitDataP d n med), mscInitDataP d n med) := by
  have hlen : 0 < med.length := hv.sizes.pos
  have hn : 0 < n := lt_of_lt_of_le hlen hv.sizes.le
  have h0 : med[0]? = some med[0] := by simp [hlen]
  have hmap : mapRes (mscInitRec mat med med[0]) (List.range n) = .ok (mscInitDataP d n med) :=
    mapRes_eq fun i hi => mscInitRec_eq hm hv (List.mem_range.mp hi) h0
  have hne : (mscInitDataP d n med).map (fun r => mscLoss L r.near.d r.seco.d) ≠ [] := by
    intro h; have := congrArg List.length h; simp [mscInitDataP] at this; omega
  simp only [mscInitialAssignment, assertSizes_ok hm hv.sizes, idx_of_get h0, ok_bind, hm.len, hmap,
    unwrap_reduceAdd hne, mscLossP]

/-! ## shape of the cache -/

/-- The cached indexes are valid medoid positions; the third may be missing. -/
structure RecoIdx (k : Nat) (r : Reco N) : Prop where
  near : r.near.i < k
  seco : r.seco.i < k
  third : r.third.i < k ∨ r.third.i = u32Max

/-- Sizes and index ranges of `med` and `data`. -/
structure MShape (n k : Nat) (med : List Nat) (data : List (Reco N)) : Prop where
  medLen : med.length = k
  medRange : ∀ m ∈ med, m < n
  dataLen : data.length = n
  recIdx : ∀ r ∈ data, RecoIdx k r

theorem mscInitRecP_idx (d : Nat → Nat → N) {med : List Nat} (hk : 2 ≤ med.length) (i : Nat) :
    RecoIdx med.length (mscInitRecP d med i) := by
  obtain ⟨a, b, t, rfl⟩ : ∃ a b t, med = a :: b :: t := by
    match med, hk with
    | a :: b :: t, _ => exact ⟨a, b, t, rfl⟩
  unfold mscInitRecP
  rw [List.zipIdx_cons, List.zipIdx_cons, List.drop_one, List.tail_cons, List.foldl_cons]
  refine foldl_inv (RecoIdx _) (fun s p hp hs => ?_) ?_
  · have hp' := List.mem_zipIdx_iff_le_and_getElem?_sub.mp hp
    have hlt : p.2 < (a :: b :: t).length := by
      have := (List.getElem?_eq_some_iff.mp hp'.2).1; simp; omega
    unfold mscInitStepP
    split
    · exact ⟨hlt, hs.near, Or.inl hs.seco⟩
    · split
      · exact ⟨hs.near, hlt, Or.inl hs.seco⟩
      · split
        · exact ⟨hs.near, hs.seco, Or.inl hlt⟩
        · exact hs
  · unfold mscInitStepP
    split
    · exact ⟨by simp, by simp, Or.inr rfl⟩
    · simp only [beq_self_eq_true, Bool.true_or, if_true]
      exact ⟨by simp, by simp, Or.inr rfl⟩

theorem mscInitDataP_shape {n : Nat} (d : Nat → Nat → N) {med : List Nat} (hv : ValidMeds n med)
    (hk : 2 ≤ med.length) : MShape n med.length med (mscInitDataP d n med) := by
  refine ⟨rfl, hv.range, by simp [mscInitDataP], ?_⟩
  intro r hr
  obtain ⟨i, -, rfl⟩ := List.mem_map.mp hr
  exact mscInitRecP_idx d hk i

/-! ## find_best_swap -/

/-- pure `mscFindStep` -/
def mscFindStepP (d : Nat → Nat → N) (j : Nat) (st : List L × L) (p : Reco N × Nat) : List L × L :=
  let doj := d p.2 j
  let n := p.1.near
  let s := p.1.seco
  let t := p.1.third
  if rlt doj n.d then
    (addAtP (addAtP st.1 n.i (RLoss.sub (RLoss.add (mscLoss L doj n.d) (mscLoss L s.d t.d))
        (mscLoss L (RDist.add n.d doj) s.d))) s.i (RLoss.sub (mscLoss L n.d t.d) (mscLoss L n.d s.d)),
      RLoss.add st.2 (RLoss.sub (mscLoss L n.d s.d) (mscLoss L doj n.d)))
  else if rlt doj s.d then
    (addAtP (addAtP st.1 n.i (RLoss.sub (RLoss.add (mscLoss L n.d doj) (mscLoss L s.d t.d))
        (mscLoss L (RDist.add n.d doj) s.d))) s.i (RLoss.sub (mscLoss L n.d t.d) (mscLoss L n.d s.d)),
      RLoss.add st.2 (RLoss.sub (mscLoss L n.d s.d) (mscLoss L n.d doj)))
  else if rlt doj t.d then
    (addAtP (addAtP st.1 n.i (RLoss.sub (mscLoss L s.d t.d) (mscLoss L s.d doj))) s.i
        (RLoss.sub (mscLoss L n.d t.d) (mscLoss L n.d doj)), st.2)
  else st

/-- pure `findMax` -/
def findMaxP (l : List L) : Nat × L := match l with
  | [] => (0, RLoss.zero)
  | x :: xs => findMaxGo xs 1 (0, x)

theorem findMax_eq {l : List L} (h : l ≠ []) : findMax l = .ok (findMaxP l) := by
  cases l with
  | nil => exact absurd rfl h
  | cons x xs => rfl

theorem findMaxGo_lt (l : List L) (i : Nat) (b : Nat × L) (h : b.1 < i) :
    (findMaxGo l i b).1 < i + l.length := by
  induction l generalizing i b with
  | nil => simpa [findMaxGo] using h
  | cons x xs ih =>
    simp only [findMaxGo, List.length_cons]
    have := ih (i + 1) (if rgt x b.2 then (i, x) else b) (by split <;> omega)
    omega

theorem findMaxP_lt {l : List L} (h : l ≠ []) : (findMaxP l).1 < l.length := by
  cases l with
  | nil => exact absurd rfl h
  | cons x xs => have := findMaxGo_lt xs 1 (0, x) (by simp); simp only [findMaxP, List.length_cons]; omega

/-- pure `mscFindBestSwap` -/
def mscFbsP (d : Nat → Nat → N) (rem : List L) (data : List (Reco N)) (j : Nat) : L × Nat :=
  let st := data.zipIdx.foldl (mscFindStepP d j) (rem, RLoss.zero)
  (RLoss.add (findMaxP st.1).2 st.2, (findMaxP st.1).1)

theorem mscFindStepP_length (d : Nat → Nat → N) (j : Nat) (st : List L × L) (p : Reco N × Nat) :
    (mscFindStepP d j st p).1.length = st.1.length := by
  unfold mscFindStepP
  dsimp only
  split
  · simp
  · split
    · simp
    · split <;> simp

theorem msc_fold_length (d : Nat → Nat → N) (rem : List L) (data : List (Reco N)) (j : Nat) (acc : L) :
    (data.zipIdx.foldl (mscFindStepP d j) (rem, acc)).1.length = rem.length :=
  foldl_inv (fun st : List L × L => st.1.length = rem.length)
    (fun st p _ hst => by rw [mscFindStepP_length, hst]) rfl

theorem mscFbsP_lt (d : Nat → Nat → N) {rem : List L} (data : List (Reco N)) (j : Nat)
    (hk : 1 ≤ rem.length) : (mscFbsP d rem data j).2 < rem.length := by
  have h2 := msc_fold_length d rem data j RLoss.zero
  have hne : (data.zipIdx.foldl (mscFindStepP d j) (rem, RLoss.zero)).1 ≠ [] := by
    intro h; rw [h] at h2; simp at h2; omega
  have := findMaxP_lt hne
  simp only [mscFbsP]; omega

theorem mscFindBestSwap_eq {mat : Mat N} {n : Nat} {d : Nat → Nat → N} (hm : IsMatrix mat n d)
    {rem : List L} {data : List (Reco N)} {j : Nat} (hj : j < n) (hl : data.length = n)
    (hk : 1 ≤ rem.length) (hidx : ∀ r ∈ data, RecoIdx rem.length r) :
    mscFindBestSwap mat rem data j = .ok (mscFbsP d rem data j) := by
  have h1 : foldRes (mscFindStep mat j) (rem, RLoss.zero) data.zipIdx =
        .ok (data.zipIdx.foldl (mscFindStepP d j) (rem, RLoss.zero)) := by
    refine (foldRes_eq (fun st : List L × L => st.1.length = rem.length)
      (fun st p hp hst => ⟨?_, by rw [mscFindStepP_length, hst]⟩) rfl).1
    have hpn : p.2 < n := hl ▸ mem_zipIdx_lt hp
    have hi : p.1.near.i < st.1.length := hst ▸ (hidx _ (mem_zipIdx_mem hp)).near
    have hs : p.1.seco.i < st.1.length := hst ▸ (hidx _ (mem_zipIdx_mem hp)).seco
    have hs' : ∀ v, p.1.seco.i < (addAtP st.1 p.1.near.i v).length := by intro v; simpa using hs
    simp only [mscFindStep, hm.get _ _ hpn hj, ok_bind, mscFindStepP]
    split
    · simp only [addAt_eq hi, ok_bind, addAt_eq (hs' _)]
    · split
      · simp only [addAt_eq hi, ok_bind, addAt_eq (hs' _)]
      · split
        · simp only [addAt_eq hi, ok_bind, addAt_eq (hs' _)]
        · rfl
  have h2 := msc_fold_length d rem data j (RLoss.zero : L)
  have hne : (data.zipIdx.foldl (mscFindStepP d j) (rem, RLoss.zero)).1 ≠ [] := by
    intro h; rw [h] at h2; simp at h2; omega
  simp only [mscFindBestSwap, h1, ok_bind, findMax_eq hne, mscFbsP]

/-! ## update_removal_loss -/

/-- pure `mscUpdateRemovalLoss` -/
def mscRemP (L : Type) [RLoss L] [RFrom N L] (data : List (Reco N)) (k : Nat) : List L :=
  data.foldl (fun (loss : List L) (r : Reco N) =>
    addAtP (addAtP loss r.near.i (RLoss.sub (mscLoss L r.near.d r.seco.d) (mscLoss L r.seco.d r.third.d)))
      r.seco.i (RLoss.sub (mscLoss L r.near.d r.seco.d) (mscLoss L r.near.d r.third.d)))
    (List.replicate k RLoss.zero)

theorem mscRemP_length (data : List (Reco N)) (k : Nat) : (mscRemP L data k).length = k :=
  foldl_inv (fun st : List L => st.length = k) (fun st r _ hst => by simp [hst]) (by simp)

theorem mscUpdateRemovalLoss_eq {data : List (Reco N)} {k : Nat} (hidx : ∀ r ∈ data, RecoIdx k r) :
    mscUpdateRemovalLoss L data k = .ok (mscRemP L data k) := by
  refine (foldRes_eq (fun st : List L => st.length = k) (fun st r hr hst => ?_) (by simp)).1
  have hi : r.near.i < st.length := hst ▸ (hidx _ hr).near
  have hs' : ∀ v, r.seco.i < (addAtP st r.near.i v).length := by
    intro v; rw [addAtP_length, hst]; exact (hidx _ hr).seco
  simp only [addAt_eq hi, ok_bind, addAt_eq (hs' _)]
  exact ⟨trivial, by simp [hst]⟩

/-! ## do_swap -/

/-- pure `updateThirdNearest` -/
def utnP (d : Nat → Nat → N) (med : List Nat) (n s b o : Nat) (doj : N) : DistancePair N :=
  med.zipIdx.foldl (fun (dist : DistancePair N) (p : Nat × Nat) =>
    if p.2 = n ∨ p.2 = b ∨ p.2 = s then dist
    else if rlt (d o p.1) dist.d then ⟨p.2, d o p.1⟩ else dist) ⟨b, doj⟩

theorem updateThirdNearest_eq {mat : Mat N} {n k : Nat} {d : Nat → Nat → N} (hm : IsMatrix mat n d)
    {med : List Nat} (hlen : med.length = k) (hk : k < u32Max) (hr : ∀ m ∈ med, m < n)
    {nn s b o : Nat} (hb : b < k) (ho : o < n) (doj : N) :
    updateThirdNearest mat med nn s b o doj = .ok (utnP d med nn s b o doj) ∧
      (utnP d med nn s b o doj).i < k := by
  have hbu : DistancePair.new b doj = ⟨b, doj⟩ := by simp [DistancePair.new, asU32_lt (lt_trans hb hk)]
  unfold updateThirdNearest utnP
  rw [hbu]
  refine foldRes_eq (fun s : DistancePair N => s.i < k) (fun st p hp hs => ?_) hb
  have hpk : p.2 < k := hlen ▸ mem_zipIdx_lt hp
  by_cases hc : p.2 = nn ∨ p.2 = b ∨ p.2 = s
  · simp [hc, hs]
  · simp only [hc, if_false, hm.get o p.1 ho (hr _ (mem_zipIdx_mem hp)), ok_bind, DistancePair.new,
      asU32_lt (lt_trans hpk hk)]
    refine ⟨trivial, ?_⟩
    split
    · exact hpk
    · exact hs

/-- pure record part of `mscSwapRec`, given the search for a third medoid -/
def mscSwapRecG (utn : Nat → Nat → DistancePair N) (b : Nat) (doj : N) (reco : Reco N) : Reco N :=
  if reco.near.i = b then
    if rlt doj reco.seco.d then
      { reco with near := ⟨b, doj⟩ }
    else if reco.third.i == u32Max || rlt doj reco.third.d then
      { reco with near := reco.seco, seco := ⟨b, doj⟩ }
    else
      { near := reco.seco, seco := reco.third, third := utn reco.seco.i reco.third.i }
  else if reco.seco.i = b then
    if rlt doj reco.near.d then
      { reco with near := ⟨b, doj⟩, seco := reco.near }
    else if reco.third.i == u32Max || rlt doj reco.third.d then
      { reco with seco := ⟨b, doj⟩ }
    else
      { reco with seco := reco.third, third := utn reco.near.i reco.third.i }
  else
    if rlt doj reco.near.d then
      { near := ⟨b, doj⟩, seco := reco.near, third := reco.seco }
    else if rlt doj reco.seco.d then
      { reco with seco := ⟨b, doj⟩, third := reco.seco }
    else if reco.third.i == u32Max || rlt doj reco.third.d then
      { reco with third := ⟨b, doj⟩ }
    else if reco.third.i = b then
      { reco with third := utn reco.near.i reco.seco.i }
    else reco

/-- pure record part of `mscSwapRec` for the object that becomes a medoid -/
def mscSwapRecJ (b : Nat) (reco : Reco N) : Reco N :=
  if reco.near.i = b then { reco with near := ⟨b, RDist.zero⟩ }
  else if reco.seco.i = b then { reco with near := ⟨b, RDist.zero⟩, seco := reco.near }
  else { near := ⟨b, RDist.zero⟩, seco := reco.near, third := reco.seco }

/-- pure record part of `mscSwapRec` -/
def mscSwapRecP (d : Nat → Nat → N) (med : List Nat) (b j : Nat) (p : Reco N × Nat) : Reco N :=
  if p.2 = j then mscSwapRecJ b p.1
  else mscSwapRecG (fun n s => utnP d med n s b p.2 (d p.2 j)) b (d p.2 j) p.1

/-- pure summand of `mscSwapRec` -/
def mscSwapLossP (L : Type) [RLoss L] [RFrom N L] (j : Nat) (p : Reco N × Nat) : L :=
  if p.2 = j then RLoss.zero else mscLoss L p.1.near.d p.1.seco.d

theorem mscSwapRecG_idx {k : Nat} {utn : Nat → Nat → DistancePair N} (hu : ∀ x y, (utn x y).i < k)
    {b : Nat} (hb : b < k) (doj : N) {r : Reco N} (hi : RecoIdx k r) :
    RecoIdx k (mscSwapRecG utn b doj r) := by
  have ht : ∀ {c : Bool}, ¬ ((r.third.i == u32Max || c) = true) → r.third.i < k := by
    intro c h
    rcases hi.third with h' | h'
    · exact h'
    · exact absurd (by simp [h']) h
  unfold mscSwapRecG
  split
  · split
    · exact ⟨hb, hi.seco, hi.third⟩
    · split
      · exact ⟨hi.seco, hb, hi.third⟩
      · rename_i h; exact ⟨hi.seco, ht h, Or.inl (hu _ _)⟩
  · split
    · split
      · exact ⟨hb, hi.near, hi.third⟩
      · split
        · exact ⟨hi.near, hb, hi.third⟩
        · rename_i h; exact ⟨hi.near, ht h, Or.inl (hu _ _)⟩
    · split
      · exact ⟨hb, hi.near, Or.inl hi.seco⟩
      · split
        · exact ⟨hi.near, hb, Or.inl hi.seco⟩
        · split
          · exact ⟨hi.near, hi.seco, Or.inl hb⟩
          · split
            · exact ⟨hi.near, hi.seco, Or.inl (hu _ _)⟩
            · exact hi

theorem mscSwapRecJ_idx {k b : Nat} (hb : b < k) {r : Reco N} (hi : RecoIdx k r) :
    RecoIdx k (mscSwapRecJ b r) := by
  unfold mscSwapRecJ
  split
  · exact ⟨hb, hi.seco, hi.third⟩
  · split
    · exact ⟨hb, hi.near, hi.third⟩
    · exact ⟨hb, hi.near, Or.inl hi.seco⟩

theorem mscSwapRec_eq {mat : Mat N} {n k : Nat} {d : Nat → Nat → N} (hm : IsMatrix mat n d)
    {med : List Nat} (hlen : med.length = k) (hk : k < u32Max) (hr : ∀ m ∈ med, m < n)
    {b j : Nat} (hb : b < k) (hj : j < n) {p : Reco N × Nat} (hp : p.2 < n) (hi : RecoIdx k p.1) :
    mscSwapRec L mat med b j p =
        .ok (mscSwapRecP d med b j p, mscSwapLossP L j (mscSwapRecP d med b j p, p.2)) ∧
      RecoIdx k (mscSwapRecP d med b j p) := by
  have hbu : ∀ x : N, DistancePair.new b x = ⟨b, x⟩ := fun x => by
    simp [DistancePair.new, asU32_lt (lt_trans hb hk)]
  have hbu' : asU32 b = b := asU32_lt (lt_trans hb hk)
  have hutn := fun (nn s : Nat) (doj : N) =>
    updateThirdNearest_eq hm hlen hk hr (nn := nn) (s := s) hb hp doj
  have hutn1 := fun (nn s : Nat) (doj : N) => (hutn nn s doj).1
  constructor
  · unfold mscSwapRec mscSwapRecP mscSwapLossP
    by_cases ho : p.2 = j
    · simp only [ho, if_true, hbu, hbu', mscSwapRecJ]
      by_cases hc : p.1.near.i = b
      · simp [hc]
      · by_cases hc2 : p.1.seco.i = b
        · simp [hc, hc2]
        · simp [hc, hc2]
    · simp only [ho, if_false, hbu, hbu', hm.get _ _ hp hj, ok_bind, hutn1, mscSwapRecG]
      split
      · split
        · rfl
        · split <;> rfl
      · split
        · split
          · rfl
          · split <;> rfl
        · split
          · rfl
          · split
            · rfl
            · split
              · rfl
              · split <;> rfl
  · unfold mscSwapRecP
    split
    · exact mscSwapRecJ_idx hb hi
    · exact mscSwapRecG_idx (fun x y => (hutn x y _).2) hb _ hi

/-- pure data of `mscDoSwap`; `med` is the list before the swap -/
def mscSwapDataP (d : Nat → Nat → N) (med : List Nat) (data : List (Reco N)) (b j : Nat) :
    List (Reco N) :=
  data.zipIdx.map (mscSwapRecP d (med.set b j) b j)

/-- pure loss of `mscDoSwap` -/
def mscSwapSumP (L : Type) [RLoss L] [RFrom N L] (j : Nat) (data : List (Reco N)) : L :=
  sumP (data.zipIdx.map (mscSwapLossP L j))

theorem set_range {n : Nat} {med : List Nat} (h : ∀ m ∈ med, m < n) {b j : Nat} (hj : j < n) :
    ∀ m ∈ med.set b j, m < n := by
  intro m hmem
  rcases List.mem_or_eq_of_mem_set hmem with h' | h'
  · exact h m h'
  · omega

theorem mscDoSwap_eq {mat : Mat N} {n k : Nat} {d : Nat → Nat → N} (hm : IsMatrix mat n d)
    {med : List Nat} {data : List (Reco N)} (hs : MShape n k med data) (hk : k < u32Max)
    {b j : Nat} (hb : b < k) (hj : j < n) :
    mscDoSwap L mat med data b j =
        .ok (mscSwapSumP L j (mscSwapDataP d med data b j), med.set b j, mscSwapDataP d med data b j) ∧
      MShape n k (med.set b j) (mscSwapDataP d med data b j) := by
  have hlen : (med.set b j).length = k := by simp [hs.medLen]
  have hr := set_range hs.medRange (b := b) hj
  have hrec : ∀ p ∈ data.zipIdx, mscSwapRec L mat (med.set b j) b j p = .ok
      (mscSwapRecP d (med.set b j) b j p, mscSwapLossP L j (mscSwapRecP d (med.set b j) b j p, p.2)) :=
    fun p hp => (mscSwapRec_eq hm hlen hk hr hb hj (hs.dataLen ▸ mem_zipIdx_lt hp)
      (hs.recIdx _ (mem_zipIdx_mem hp))).1
  have hmap := mapRes_eq hrec
  have hsum : (data.zipIdx.map fun p => (mscSwapRecP d (med.set b j) b j p,
      mscSwapLossP L j (mscSwapRecP d (med.set b j) b j p, p.2))).map (·.2) =
      (mscSwapDataP d med data b j).zipIdx.map (mscSwapLossP L j) := by
    simp [mscSwapDataP, zipIdx_map_zipIdx]
  have hne : (mscSwapDataP d med data b j).zipIdx.map (mscSwapLossP L j) ≠ [] := by
    intro h; have := congrArg List.length h; simp [mscSwapDataP, hs.dataLen] at this; omega
  refine ⟨?_, hlen, hr, by simp [mscSwapDataP, hs.dataLen], ?_⟩
  · have hb' : b < med.length := hs.medLen ▸ hb
    have hj' : j < mat.len := hm.len ▸ hj
    simp only [mscDoSwap, hb', hj', decide_true, rassert_true, ok_bind, setIdx_lt hb', hmap, hsum,
      unwrap_reduceAdd hne, mscSwapSumP]
    simp [mscSwapDataP, Function.comp_def]
  · intro r hr'
    obtain ⟨p, hp, rfl⟩ := List.mem_map.mp hr'
    exact (mscSwapRec_eq (L := L) hm hlen hk hr hb hj (hs.dataLen ▸ mem_zipIdx_lt hp)
      (hs.recIdx _ (mem_zipIdx_mem hp))).2

/-! ## the loops -/

/-- pure `mscIsOwnMedoid` -/
def mscOwnP (med : List Nat) (data : List (Reco N)) (j : Nat) : Bool :=
  match data[j]? with
  | some r => med[r.near.i]? == some j
  | none => false

theorem mscIsOwnMedoid_eq {n k : Nat} {med : List Nat} {data : List (Reco N)}
    (hs : MShape n k med data) {j : Nat} (hj : j < n) :
    mscIsOwnMedoid med data j = .ok (mscOwnP med data j) := by
  have hjl : j < data.length := hs.dataLen ▸ hj
  have hi : data[j].near.i < med.length := hs.medLen ▸ (hs.recIdx _ (List.getElem_mem hjl)).near
  simp only [mscIsOwnMedoid, idx_lt hjl, ok_bind, idx_lt hi, mscOwnP, List.getElem?_eq_getElem hjl,
    List.getElem?_eq_getElem hi]
  congr 1
  rw [Bool.eq_iff_iff]; simp only [beq_iff_eq, Option.some.injEq]; exact eq_comm

/-- pure swap step of `mscPass` -/
def mscSwapP (d : Nat → Nat → N) (s : MSCState N L) (b j : Nat) : MSCState N L :=
  let data := mscSwapDataP d s.med s.data b j
  ⟨s.med.set b j, data, mscRemP L data s.rem.length, mscSwapSumP L j data, j, s.nSwaps + 1⟩

/-- pure candidate of `mscPass` -/
def mscCandP (d : Nat → Nat → N) (s : MSCState N L) (j : Nat) : Option (MSCState N L) :=
  if mscOwnP s.med s.data j then none
  else
    let r := mscFbsP d s.rem s.data j
    if rle r.1 RLoss.zero then none else some (mscSwapP d s r.2 j)

/-- pure `mscPass` -/
def mscPassP (d : Nat → Nat → N) (js : List Nat) (s : MSCState N L) : MSCState N L :=
  passG (·.lastswap) (mscCandP d) js s

/-- Sizes and index ranges of the state of `fastermsc`. -/
structure MSCShape (n k : Nat) (s : MSCState N L) : Prop where
  shape : MShape n k s.med s.data
  remLen : s.rem.length = k

theorem mscSwapP_shape {mat : Mat N} {n k : Nat} {d : Nat → Nat → N} (hm : IsMatrix mat n d)
    {s : MSCState N L} (hs : MSCShape n k s) (hk : k < u32Max) {b j : Nat} (hb : b < k) (hj : j < n) :
    MSCShape n k (mscSwapP d s b j) := by
  refine ⟨(mscDoSwap_eq (L := L) hm hs.shape hk hb hj).2, ?_⟩
  show (mscRemP L (mscSwapDataP d s.med s.data b j) s.rem.length).length = k
  rw [mscRemP_length, hs.remLen]

theorem mscPass_eq {mat : Mat N} {n k : Nat} {d : Nat → Nat → N} (hm : IsMatrix mat n d)
    (hk : k < u32Max) (hk1 : 1 ≤ k) {js : List Nat} (hjs : ∀ j ∈ js, j < n) {s : MSCState N L}
    (hs : MSCShape n k s) :
    mscPass mat js s = .ok (mscPassP d js s) ∧ MSCShape n k (mscPassP d js s) := by
  unfold mscPassP
  induction js generalizing s with
  | nil => exact ⟨rfl, hs⟩
  | cons j js ih =>
    have hj : j < n := hjs j (by simp)
    have ih' := fun {s : MSCState N L} (h : MSCShape n k s) => ih (fun j hj => hjs j (by simp [hj])) h
    have hf := mscFindBestSwap_eq hm hj hs.shape.dataLen (by rw [hs.remLen]; exact hk1)
      (fun r hr => by rw [hs.remLen]; exact hs.shape.recIdx r hr)
    have hfb := mscFbsP_lt d (rem := s.rem) s.data j (by rw [hs.remLen]; exact hk1)
    rw [hs.remLen] at hfb
    have hsw := mscDoSwap_eq (L := L) hm hs.shape hk hfb hj
    have hrem := mscUpdateRemovalLoss_eq (L := L) hsw.2.recIdx
    have hfs := mscSwapP_shape hm hs hk hfb hj
    unfold mscPass passG
    by_cases h1 : j = s.lastswap
    · simp only [h1, if_true]; exact ⟨trivial, hs⟩
    · simp only [h1, if_false, mscIsOwnMedoid_eq hs.shape hj, ok_bind, mscCandP]
      by_cases h2 : mscOwnP s.med s.data j = true
      · simp only [h2, if_true]; exact ih' hs
      · simp only [h2, hf, ok_bind, Bool.false_eq_true, if_false]
        by_cases h3 : rle (mscFbsP d s.rem s.data j).1 RLoss.zero = true
        · simp only [h3, if_true]; exact ih' hs
        · simp only [h3, hsw.1, ok_bind, hs.remLen, hrem, Bool.false_eq_true, if_false]
          have := ih' hfs
          simpa only [mscSwapP, hs.remLen] using this

/-- pure `mscLoop` -/
def mscLoopP (d : Nat → Nat → N) (n : Nat) (fuel iter : Nat) (s : MSCState N L) : MSCState N L × Nat :=
  loopG (mscPassP d (List.range n)) (·.nSwaps) (·.loss) fuel iter s

theorem mscLoop_eq {mat : Mat N} {n k : Nat} {d : Nat → Nat → N} (hm : IsMatrix mat n d)
    (hk : k < u32Max) (hk1 : 1 ≤ k) {fuel iter : Nat} {s : MSCState N L} (hs : MSCShape n k s) :
    mscLoop mat fuel iter s = .ok (mscLoopP d n fuel iter s) ∧
      MSCShape n k (mscLoopP d n fuel iter s).1 ∧ (mscLoopP d n fuel iter s).2 ≤ iter + fuel := by
  refine ⟨?_, loopG_inv (MSCShape n k) (fun s hs => (mscPass_eq hm hk hk1 (fun j hj => List.mem_range.mp hj) hs).2) hs⟩
  unfold mscLoopP
  induction fuel generalizing iter s with
  | zero => rfl
  | succ fuel ih =>
    obtain ⟨h1, h2⟩ := mscPass_eq hm hk hk1 (js := List.range n) (fun j hj => List.mem_range.mp hj) hs
    unfold mscLoop loopG
    simp only [hm.len, h1, ok_bind]
    split
    · rfl
    · exact ih h2

/-- pure initial state of `fastermsc` -/
def mscInitP (L : Type) [RLoss L] [RFrom N L] (d : Nat → Nat → N) (n : Nat) (med : List Nat) :
    MSCState N L :=
  let data := mscInitDataP d n med
  ⟨med, data, mscRemP L data med.length, mscLossP L data, n, 0⟩

theorem mscInitP_shape {n : Nat} (d : Nat → Nat → N) {med : List Nat} (hv : ValidMeds n med)
    (hk : 2 ≤ med.length) : MSCShape n med.length (mscInitP L d n med) :=
  ⟨mscInitDataP_shape d hv hk, mscRemP_length _ _⟩

end KMedoids
