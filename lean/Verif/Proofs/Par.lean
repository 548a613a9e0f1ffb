import Verif.Model.ParFasterPam
import Verif.Proofs.LossLoops
import Mathlib.Algebra.BigOperators.Group.List.Basic

/-! # Parallel FasterPAM, exact arithmetic -/

set_option linter.unusedSectionVars false

namespace KMedoids

open RFrom (conv)

/-- The schedule belongs to a run with at least one thread in which every worker merges once. -/
structure Sched.Ok (sc : Sched) : Prop where
  pos : 1 ≤ sc.parts
  perm : sc.order.Perm (List.range sc.parts)

section raw

variable {N L : Type} [RDist N] [RLoss L] [RFrom N L]

/-- pure worker -/
def workerP (L : Type) [RLoss L] [RFrom N L] (d : Nat → Nat → N) (n k : Nat) (data : List (Rec N))
    (j parts x : Nat) : List L × L :=
  ((data.zipIdx.take (min (x * ((n + parts - 1) / parts) + (n + parts - 1) / parts) n)).drop
    (x * ((n + parts - 1) / parts))).foldl (fbsStepP d j) (List.replicate k RLoss.zero, RLoss.zero)

theorem parWorker_eq {mat : Mat N} {n k : Nat} {d : Nat → Nat → N} (hm : IsMatrix mat n d)
    {data : List (Rec N)} {j : Nat} (hj : j < n) (hl : data.length = n)
    (hidx : ∀ r ∈ data, RecIdx k r) (parts x : Nat) :
    parWorker L mat k data j parts x = .ok (workerP L d n k data j parts x) := by
  unfold parWorker workerP
  simp only [hm.len]
  refine (foldRes_eq (fun st : List L × L => st.1.length = k) (fun st p hp hst => ?_) (by simp)).1
  have hp := List.mem_of_mem_take (List.mem_of_mem_drop hp)
  have hpn : p.2 < n := hl ▸ mem_zipIdx_lt hp
  have hi : p.1.near.i < st.1.length := hst ▸ (hidx _ (mem_zipIdx_mem hp)).1
  simp only [parFindStep, hm.get _ _ hpn hj, ok_bind, fbsStepP]
  split
  · simp [addAt_eq hi, hst]
  · split
    · simp [addAt_eq hi, hst]
    · exact ⟨rfl, hst⟩

end raw

section sums

variable {L : Type} [AddCommGroup L] [LinearOrder L] [RLoss L] [LawfulLoss L]

theorem reduceTree_eq (t : RTree) (xs : List L) :
    reduceTree t xs = if xs = [] then none else some xs.sum := by
  induction t generalizing xs with
  | leaf =>
    cases xs with
    | nil => rfl
    | cons x xs =>
      have := sumP_eq (x :: xs)
      simp only [sumP, reduceAdd, Option.getD_some] at this
      simp [reduceTree, reduceAdd, this]
  | node s l r ihl ihr =>
    have hsum : (xs.take s).sum + (xs.drop s).sum = xs.sum := by
      rw [← List.sum_append, List.take_append_drop]
    have hnil : xs = [] ↔ xs.take s = [] ∧ xs.drop s = [] := by
      constructor
      · rintro rfl; simp
      · rintro ⟨h1, h2⟩; rw [← List.take_append_drop s xs, h1, h2]; rfl
    rw [reduceTree, ihl, ihr]
    by_cases h1 : xs.take s = [] <;> by_cases h2 : xs.drop s = []
    · rw [if_pos h1, if_pos h2, if_pos (hnil.mpr ⟨h1, h2⟩)]
    · rw [if_pos h1, if_neg h2, if_neg (fun h => h2 (hnil.mp h).2), ← hsum, h1]; simp
    · rw [if_neg h1, if_pos h2, if_neg (fun h => h1 (hnil.mp h).1), ← hsum, h2]; simp
    · rw [if_neg h1, if_neg h2, if_neg (fun h => h1 (hnil.mp h).1), ← hsum]; simp [addL]

theorem unwrap_reduceTree (t : RTree) {xs : List L} (h : xs ≠ []) :
    unwrapOpt (reduceTree t xs) = .ok (sumP xs) := by
  rw [reduceTree_eq, if_neg h, sumP_eq]; rfl

/-- The chunks of the workers make up the whole list. -/
theorem chunk_sum {α : Type} (l : List α) (f : α → L) (s parts n : Nat) (hn : l.length = n) :
    ((List.range parts).map fun x =>
      (((l.take (min (x * s + s) n)).drop (x * s)).map f).sum).sum = ((l.take (parts * s)).map f).sum := by
  induction parts with
  | zero => simp
  | succ p ih =>
    rw [List.range_succ, List.map_append, List.sum_append, ih]
    have h1 : l.take (min (p * s + s) n) = l.take (p * s + s) := by
      rw [← hn, ← List.take_take, List.take_length]
    have h2 : l.take ((p + 1) * s) = l.take (p * s) ++ (l.take (p * s + s)).drop (p * s) := by
      rw [Nat.succ_mul]
      conv_lhs => rw [← List.take_append_drop (p * s) (l.take (p * s + s))]
      rw [List.take_take, Nat.min_eq_left (by omega)]
    rw [h2, List.map_singleton, h1]; simp

theorem upper_div (n : Nat) {parts : Nat} (h : 1 ≤ parts) : n ≤ parts * ((n + parts - 1) / parts) := by
  have h1 := Nat.div_add_mod (n + parts - 1) parts
  have h2 := Nat.mod_lt (n + parts - 1) (show parts > 0 by omega)
  omega

theorem zipWith_add_getD {a b : List L} (h : a.length = b.length) (m : Nat) :
    (List.zipWith RLoss.add a b).getD m 0 = a.getD m 0 + b.getD m 0 := by
  simp only [List.getD_eq_getElem?_getD, List.getElem?_zipWith]
  by_cases hm : m < a.length
  · have hm' : m < b.length := h ▸ hm
    simp [hm, hm', addL]
  · have hm' : ¬ m < b.length := h ▸ hm
    simp [List.getElem?_eq_none (not_lt.mp hm), List.getElem?_eq_none (not_lt.mp hm')]

theorem ext_getD {a b : List L} (h : a.length = b.length) (hg : ∀ m, a.getD m 0 = b.getD m 0) : a = b := by
  refine List.ext_getElem h fun m h1 h2 => ?_
  have := hg m
  simpa [List.getD_eq_getElem?_getD, h1, h2] using this

end sums

variable {N L : Type} [LinearOrder N] [Zero N] [RDist N] [LawfulDist N]
variable [AddCommGroup L] [LinearOrder L] [IsOrderedAddMonoid L] [RLoss L] [LawfulLoss L]
variable [RFrom N L] [LawfulFrom N L]

/-! ## search -/

/-- contribution of an object to entry `m` -/
def contV (L : Type) [AddCommGroup L] [RFrom N L] (d : Nat → Nat → N) (j m : Nat) (p : Rec N × Nat) : L :=
  if p.1.near.i = m then
    if d p.2 j < p.1.near.d then conv p.1.near.d - conv p.1.seco.d
    else if d p.2 j < p.1.seco.d then conv (d p.2 j) - conv p.1.seco.d else 0
  else 0

/-- contribution of an object to the shared accumulator -/
def contA (L : Type) [AddCommGroup L] [RFrom N L] (d : Nat → Nat → N) (j : Nat) (p : Rec N × Nat) : L :=
  if d p.2 j < p.1.near.d then conv (d p.2 j) - conv p.1.near.d else 0

theorem fbs_fold_cont (d : Nat → Nat → N) (j k : Nat) (xs : List (Rec N × Nat))
    (hx : ∀ p ∈ xs, p.1.near.i < k) (a : List L) (ha : a.length = k) (acc : L) :
    (xs.foldl (fbsStepP d j) (a, acc)).1.length = k ∧
    (∀ m, (xs.foldl (fbsStepP d j) (a, acc)).1.getD m 0 = a.getD m 0 + (xs.map (contV L d j m)).sum) ∧
    (xs.foldl (fbsStepP d j) (a, acc)).2 = acc + (xs.map (contA L d j)).sum := by
  induction xs generalizing a acc with
  | nil => simp [ha]
  | cons p xs ih =>
    have hi : p.1.near.i < a.length := ha ▸ hx p (by simp)
    have hl : (fbsStepP d j (a, acc) p).1.length = k := by
      unfold fbsStepP
      split
      · simpa using ha
      · split
        · simpa using ha
        · exact ha
    obtain ⟨i1, i2, i3⟩ := ih (fun q hq => hx q (by simp [hq])) (fbsStepP d j (a, acc) p).1 hl
      (fbsStepP d j (a, acc) p).2
    rw [List.foldl_cons]
    refine ⟨i1, fun m => ?_, ?_⟩
    · rw [i2 m, List.map_cons, List.sum_cons, ← add_assoc]
      congr 1
      unfold fbsStepP contV
      simp only [rltN, decide_eq_true_eq, subL]
      by_cases h1 : d p.2 j < p.1.near.d
      · simp only [h1, if_true, addAtP_getD hi]
      · by_cases h2 : d p.2 j < p.1.seco.d
        · simp only [h1, h2, if_true, if_false, addAtP_getD hi]
        · simp [h1, h2]
    · rw [i3, List.map_cons, List.sum_cons, ← add_assoc]
      congr 1
      unfold fbsStepP contA
      simp only [rltN, decide_eq_true_eq, subL, addL]
      by_cases h1 : d p.2 j < p.1.near.d
      · simp [h1]
      · by_cases h2 : d p.2 j < p.1.seco.d
        · simp [h1, h2]
        · simp [h1, h2]

theorem merge_fold (F : Nat → List L × L) (k : Nat) (hF : ∀ x, (F x).1.length = k) (order : List Nat)
    (a : List L) (ha : a.length = k) (acc : L) :
    (order.foldl (fun st x => parMerge st (F x)) (a, acc)).1.length = k ∧
    (∀ m, (order.foldl (fun st x => parMerge st (F x)) (a, acc)).1.getD m 0 =
      a.getD m 0 + (order.map fun x => (F x).1.getD m 0).sum) ∧
    (order.foldl (fun st x => parMerge st (F x)) (a, acc)).2 = acc + (order.map fun x => (F x).2).sum := by
  induction order generalizing a acc with
  | nil => simp [ha]
  | cons x xs ih =>
    have hl : (parMerge (a, acc) (F x)).1.length = k := by simp [parMerge, ha, hF]
    obtain ⟨i1, i2, i3⟩ := ih (parMerge (a, acc) (F x)).1 hl (parMerge (a, acc) (F x)).2
    rw [List.foldl_cons]
    refine ⟨i1, fun m => ?_, ?_⟩
    · rw [i2 m]
      simp only [parMerge, List.map_cons, List.sum_cons, ← add_assoc]
      rw [zipWith_add_getD (ha.trans (hF x).symm)]
    · rw [i3]
      simp only [parMerge, List.map_cons, List.sum_cons, ← add_assoc, addL]

/-- The parallel search returns what the sequential search returns, for every schedule. -/
theorem parFindBestSwap_eq {sc : Sched} (hsc : sc.Ok) {mat : Mat N} {n : Nat} {d : Nat → Nat → N}
    (hm : IsMatrix mat n d) {rem : List L} {data : List (Rec N)} {j : Nat} (hj : j < n)
    (hl : data.length = n) (hk : 1 ≤ rem.length) (hidx : ∀ r ∈ data, RecIdx rem.length r) :
    parFindBestSwap sc mat rem data j = .ok (fbsP d rem data j) := by
  have hfold : foldRes (fun (st : List L × L) (x : Nat) => do
      let w ← parWorker L mat rem.length data j sc.parts x
      .ok (parMerge st w)) (rem, RLoss.zero) sc.order =
      .ok (sc.order.foldl (fun st x => parMerge st (workerP L d n rem.length data j sc.parts x))
        (rem, RLoss.zero)) := by
    refine foldRes_eq' (fun s x _ => ?_) _
    simp only [parWorker_eq hm hj hl hidx, ok_bind]
  have hw : ∀ x, (workerP L d n rem.length data j sc.parts x).1.length = rem.length ∧
      (∀ m, (workerP L d n rem.length data j sc.parts x).1.getD m 0 =
        (((data.zipIdx.take (min (x * ((n + sc.parts - 1) / sc.parts) + (n + sc.parts - 1) / sc.parts) n)).drop
          (x * ((n + sc.parts - 1) / sc.parts))).map (contV L d j m)).sum) ∧
      (workerP L d n rem.length data j sc.parts x).2 =
        (((data.zipIdx.take (min (x * ((n + sc.parts - 1) / sc.parts) + (n + sc.parts - 1) / sc.parts) n)).drop
          (x * ((n + sc.parts - 1) / sc.parts))).map (contA L d j)).sum := by
    intro x
    obtain ⟨h1, h2, h3⟩ := fbs_fold_cont d j rem.length
      ((data.zipIdx.take (min (x * ((n + sc.parts - 1) / sc.parts) +
        (n + sc.parts - 1) / sc.parts) n)).drop (x * ((n + sc.parts - 1) / sc.parts))) (fun p hp =>
      (hidx _ (mem_zipIdx_mem (List.mem_of_mem_take (List.mem_of_mem_drop hp)))).1)
      (List.replicate rem.length (RLoss.zero : L)) (by simp) RLoss.zero
    refine ⟨h1, fun m => ?_, ?_⟩
    · refine (h2 m).trans ?_
      have h0 : (List.replicate rem.length (RLoss.zero : L)).getD m 0 = 0 := by
        simp only [zeroL, List.getD_eq_getElem?_getD, List.getElem?_replicate]
        split <;> rfl
      rw [h0, zero_add]
    · refine h3.trans ?_
      rw [zeroL, zero_add]
  obtain ⟨m1, m2, m3⟩ := merge_fold (fun x => workerP L d n rem.length data j sc.parts x) rem.length
    (fun x => (hw x).1) sc.order rem rfl RLoss.zero
  obtain ⟨s1, s2, s3⟩ := fbs_fold_cont d j rem.length data.zipIdx
    (fun p hp => (hidx _ (mem_zipIdx_mem hp)).1) rem rfl RLoss.zero
  have htake : data.zipIdx.take (sc.parts * ((n + sc.parts - 1) / sc.parts)) = data.zipIdx := by
    apply List.take_of_length_le
    simp only [List.length_zipIdx, hl]
    exact upper_div n hsc.pos
  have hst : sc.order.foldl (fun st x => parMerge st (workerP L d n rem.length data j sc.parts x))
      (rem, RLoss.zero) = data.zipIdx.foldl (fbsStepP d j) (rem, RLoss.zero) := by
    refine Prod.ext (ext_getD (m1.trans s1.symm) fun m => ?_) ?_
    · rw [m2 m, s2 m]
      congr 1
      rw [(hsc.perm.map _).sum_eq]
      simp only [(hw _).2.1 m]
      rw [chunk_sum data.zipIdx _ _ _ n (by simp [hl]), htake]
    · rw [m3, s3]
      congr 1
      rw [(hsc.perm.map _).sum_eq]
      simp only [(hw _).2.2]
      rw [chunk_sum data.zipIdx _ _ _ n (by simp [hl]), htake]
  have hne : (data.zipIdx.foldl (fbsStepP d j) (rem, RLoss.zero)).1 ≠ [] := by
    intro h; rw [h] at s1; simp at s1; omega
  simp only [parFindBestSwap, hfold, ok_bind, hst, findMin_eq hne, fbsP]

/-! ## swap -/

/-- The replaced second nearest medoid is replaced by the new one if the new one is nearer. -/
theorem usnP_new (d : Nat → Nat → N) {med : List Nat} {nn b o j : Nat} {s : N}
    (hlt : d o j < s) (hrest : ∀ m c : Nat, med[m]? = some c → m ≠ nn → s ≤ d o c) :
    usnP d (med.set b j) nn b o (d o j) = ⟨b, d o j⟩ := by
  unfold usnP
  have h : ∀ xs : List (Nat × Nat), (∀ p ∈ xs, (med.set b j)[p.2]? = some p.1) →
      xs.foldl (fun (s : DistancePair N) (p : Nat × Nat) =>
        if p.2 = nn ∨ p.2 = b then s else if rlt (d o p.1) s.d then ⟨p.2, d o p.1⟩ else s)
        ⟨b, d o j⟩ = ⟨b, d o j⟩ := by
    intro xs
    induction xs with
    | nil => intro _; rfl
    | cons p xs ih =>
      intro hx
      have hp := hx p (by simp)
      rw [List.foldl_cons]
      by_cases hc : p.2 = nn ∨ p.2 = b
      · rw [if_pos hc]; exact ih fun q hq => hx q (by simp [hq])
      · rw [if_neg hc]
        push Not at hc
        rw [List.getElem?_set_ne (Ne.symm hc.2)] at hp
        have := hrest p.2 p.1 hp hc.1
        have hf : rlt (d o p.1) (d o j) = false := by
          rw [rltN]; simp only [decide_eq_false_iff_not, not_lt]; exact le_trans (le_of_lt hlt) this
        simp only [hf, Bool.false_eq_true, if_false]
        exact ih fun q hq => hx q (by simp [hq])
  exact h _ fun p hp => mem_zipIdx_get hp

theorem parSwapRec_eq {mat : Mat N} {n : Nat} {d : Nat → Nat → N} (hm : IsMatrix mat n d)
    {med : List Nat} {data : List (Rec N)} (hc : CacheOk n d med data) (hk : med.length < u32Max)
    {b j : Nat} (hb : b < med.length) (hj : j < n) {p : Rec N × Nat} (hp : p ∈ data.zipIdx) :
    parSwapRec (L := L) mat (med.set b j) b j p =
      .ok (swapRecP d (med.set b j) b j p, swapLossP L j (swapRecP d (med.set b j) b j p, p.2)) := by
  have hr : ∀ m ∈ med.set b j, m < n := by
    intro m hmem
    rcases List.mem_or_eq_of_mem_set hmem with h | h
    · exact hc.range m h
    · omega
  have hpn : p.2 < n := hc.len ▸ mem_zipIdx_lt hp
  have hser := (doSwapRec_eq (L := L) hm (by simp) hk hr hb hj hpn
    (hc.shape.recIdx _ (mem_zipIdx_mem hp))).1
  rw [← hser]
  unfold parSwapRec doSwapRec
  have hbu : ∀ x : N, DistancePair.new b x = ⟨b, x⟩ := fun x => by
    simp [DistancePair.new, asU32_lt (lt_trans hb hk)]
  have hbu' : asU32 b = b := asU32_lt (lt_trans hb hk)
  have husn := fun (nn : Nat) (doj : N) =>
    (updateSecondNearest_eq hm (by simp) hk hr (nn := nn) hb hpn doj).1
  have hrec := hc.recs p hp
  by_cases ho : p.2 = j
  · simp only [ho, if_true]
  · simp only [ho, if_false, hbu, hbu', hm.get _ _ hpn hj, ok_bind]
    by_cases h1 : p.1.near.i = b
    · simp only [h1, if_true]
    · simp only [h1, if_false]
      by_cases h2 : rlt (d p.2 j) p.1.near.d = true
      · simp only [h2, if_true]
      · simp only [h2, Bool.false_eq_true, if_false]
        by_cases h3 : p.1.seco.i = b
        · simp only [h3, if_true]
          by_cases h4 : rlt (d p.2 j) p.1.seco.d = true
          · have h4' : d p.2 j < p.1.seco.d := by simpa [rltN] using h4
            simp only [h4, if_true, husn, ok_bind, usnP_new d h4' hrec.rest]
          · simp only [h4, Bool.false_eq_true, if_false]
        · simp only [h3, if_false]

theorem parDoSwap_eq (sc : Sched) {mat : Mat N} {n : Nat} {d : Nat → Nat → N}
    (hm : IsMatrix mat n d) {med : List Nat} {data : List (Rec N)} (hc : CacheOk n d med data)
    (hk : med.length < u32Max) {b j : Nat} (hb : b < med.length) (hj : j < n) :
    parDoSwap L sc mat med data b j =
      .ok (swapSumP L j (swapDataP d med data b j), med.set b j, swapDataP d med data b j) := by
  have hmap := mapRes_eq fun p hp => parSwapRec_eq (L := L) hm hc hk hb hj (p := p) hp
  have hsum : (data.zipIdx.map fun p => (swapRecP d (med.set b j) b j p,
      swapLossP L j (swapRecP d (med.set b j) b j p, p.2))).map (·.2) =
      (swapDataP d med data b j).zipIdx.map (swapLossP L j) := by
    simp [swapDataP, zipIdx_map_zipIdx]
  have hne : (swapDataP d med data b j).zipIdx.map (swapLossP L j) ≠ [] := by
    intro h; have := congrArg List.length h; simp [swapDataP, hc.len] at this; omega
  have hj' : j < mat.len := hm.len ▸ hj
  simp only [parDoSwap, hb, hj', decide_true, rassert_true, ok_bind, setIdx_lt hb, hmap, hsum,
    unwrap_reduceTree sc.tree hne, swapSumP]
  simp [swapDataP, Function.comp_def]

/-! ## loops -/

theorem parPass_eq {scF scS : Nat → Sched} (hF : ∀ j, (scF j).Ok) {mat : Mat N} {n k : Nat}
    {d : Nat → Nat → N} (hm : IsMatrix mat n d) (hd : Dissim n d) (hk : k < u32Max) (hk1 : 1 ≤ k)
    {js : List Nat} (hjs : ∀ j ∈ js, j < n) {s : FPState N L} (hs : FPOk n k d s) :
    parPass scF scS mat js s = .ok (fpPassP d js s) := by
  induction js generalizing s with
  | nil => rfl
  | cons j js ih =>
    have hj : j < n := hjs j (by simp)
    have ih' := fun {s : FPState N L} (h : FPOk n k d s) => ih (fun j hj => hjs j (by simp [hj])) h
    have hidx := hs.cache.shape.recIdx
    rw [hs.medLen, ← hs.remLen] at hidx
    have hf := parFindBestSwap_eq (hF j) hm hj hs.cache.len (by rw [hs.remLen]; exact hk1) hidx
    have hfb := fbsP_lt d (rem := s.rem) s.data j (by rw [hs.remLen]; exact hk1)
    have hfb' : (fbsP d s.rem s.data j).2 < s.med.length := by rw [hs.medLen, ← hs.remLen]; exact hfb
    have hsw := parDoSwap_eq (L := L) (scS j) hm hs.cache (hs.medLen ▸ hk) hfb' hj
    have hown := isOwnMedoid_eq hs.cache.shape hj
    unfold parPass fpPassP
    by_cases h1 : j = s.lastswap
    · simp only [h1, if_true]
    · simp only [h1, if_false, hown, ok_bind]
      by_cases h2 : ownP s.med s.data j = true
      · simp only [h2, if_true]; exact ih' hs
      · simp only [h2, hf, ok_bind, Bool.false_eq_true, if_false]
        have hjm : j ∉ s.med := fun h => h2 ((ownP_iff hs.cache hj).mpr h)
        have hok := fpSwapP_ok hd hs (hs.remLen ▸ hfb) hj hjm
        have hidx' := hok.cache.shape.recIdx
        rw [hok.medLen, ← hs.remLen] at hidx'
        have hrem := (updateRemovalLoss_eq (L := L) hidx').1
        by_cases h3 : rge (fbsP d s.rem s.data j).1 RLoss.zero = true
        · simp only [h3, if_true]; exact ih' hs
        · simp only [h3, hsw, ok_bind, Bool.false_eq_true, if_false]
          simp only [fpSwapP] at hrem
          rw [hrem]
          exact ih' hok

theorem parLoop_eq {scF scS : Nat → Nat → Sched} (hF : ∀ i j, (scF i j).Ok) {mat : Mat N} {n k : Nat}
    {d : Nat → Nat → N} (hm : IsMatrix mat n d) (hd : Dissim n d) (hk : k < u32Max) (hk1 : 1 ≤ k)
    {seq : List Nat} (hseq : ∀ j ∈ seq, j < n) {fuel iter : Nat} {s : FPState N L} (hs : FPOk n k d s) :
    parLoop scF scS mat seq fuel iter s = .ok (fpLoopP d seq fuel iter s) := by
  induction fuel generalizing iter s with
  | zero => rfl
  | succ fuel ih =>
    unfold parLoop fpLoopP
    simp only [parPass_eq (hF iter) hm hd hk hk1 hseq hs, ok_bind]
    split
    · rfl
    · exact ih (fpPassP_ok hd hk1 hseq hs)

theorem parInitialAssignment_eq (sc : Sched) {mat : Mat N} {n : Nat} {d : Nat → Nat → N} {med : List Nat}
    (hm : IsMatrix mat n d) (hv : ValidMeds n med) :
    parInitialAssignment L sc mat med =
      .ok (nearLossP L (initDataP d n med), initDataP d n med) := by
  have hlen : 0 < med.length := hv.sizes.pos
  have hn : 0 < n := lt_of_lt_of_le hlen hv.sizes.le
  have h0 : med[0]? = some med[0] := by simp [hlen]
  have hmap : mapRes (initAssignRec mat med med[0]) (List.range n) = .ok (initDataP d n med) :=
    mapRes_eq fun i hi => initAssignRec_eq hm hv (List.mem_range.mp hi) h0
  have hne : (initDataP d n med).map (fun r => (conv r.near.d : L)) ≠ [] := by
    intro h; have := congrArg List.length h; simp [initDataP] at this; omega
  simp only [parInitialAssignment, assertSizes_ok hm hv.sizes, idx_of_get h0, ok_bind, hm.len, hmap,
    unwrap_reduceTree sc.tree hne, nearLossP]

theorem parFasterpam_eq (sc0 : Sched) {scF scS : Nat → Nat → Sched} (hF : ∀ i j, (scF i j).Ok)
    {mat : Mat N} {n : Nat} {d : Nat → Nat → N} (hm : IsMatrix mat n d) (hd : Dissim n d)
    {med : List Nat} (hv : ValidMeds n med) (hnd : med.Nodup) (maxiter : Nat) {seq : List Nat}
    (hseq : ∀ j ∈ seq, j < n) :
    parFasterpam L sc0 scF scS mat med maxiter seq = .ok (fpP L d n med maxiter seq) := by
  by_cases h1 : med.length = 1
  · obtain ⟨c, rfl⟩ := List.length_eq_one_iff.mp h1
    simp only [parFasterpam, h1, if_true, (singleCluster_eq hm (hv.range c (by simp))).1, fpP_single]
  · have hk : 2 ≤ med.length := by have := hv.sizes.pos; omega
    have hloop := parLoop_eq (L := L) (scS := scS) hF hm hd hv.sizes.k_lt (by omega) hseq
      (fuel := maxiter) (iter := 0) (fpInitP_ok hd hv hk hnd)
    simp only [parFasterpam, h1, if_false, parInitialAssignment_eq sc0 hm hv, ok_bind,
      (updateRemovalLoss_eq (initDataP_shape d hv hk).recIdx).1, hm.len]
    rw [show (⟨med, initDataP d n med, remP L (initDataP d n med) med.length,
      nearLossP L (initDataP d n med), n, 0⟩ : FPState N L) = fpInitP L d n med from rfl,
      hloop, fpP_many d n hk]
    rfl

end KMedoids
