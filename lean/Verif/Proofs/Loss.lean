import Verif.Proofs.CacheLoops
import Mathlib.Algebra.BigOperators.Group.List.Basic
import Mathlib.Tactic.Abel

/-!
# Reported losses and predicted changes are exact

Level 3: exact loss arithmetic in a linearly ordered abelian group.
-/

set_option linter.unusedSectionVars false

namespace KMedoids

open RFrom (conv)

/-! ## minDist -/

section minDist
variable {N : Type} [LinearOrder N] [Zero N]

theorem minDist_spec (d : Nat → Nat → N) (o : Nat) (med : List Nat) (h : med ≠ []) :
    (∃ c ∈ med, minDist d o med = d o c) ∧ ∀ c ∈ med, minDist d o med ≤ d o c := by
  induction med with
  | nil => exact absurd rfl h
  | cons m ms ih =>
    cases ms with
    | nil => simp [minDist]
    | cons m' ms =>
      obtain ⟨⟨c, hc, hcd⟩, h2⟩ := ih (by simp)
      simp only [minDist]
      constructor
      · rcases min_choice (d o m) (minDist d o (m' :: ms)) with h | h
        · exact ⟨m, by simp, h⟩
        · exact ⟨c, by simp only [List.mem_cons] at hc ⊢; tauto, by rw [h, hcd]⟩
      · intro c' hc'
        rcases List.mem_cons.mp hc' with rfl | hc'
        · exact min_le_left _ _
        · exact le_trans (min_le_right _ _) (h2 c' hc')

theorem minDist_eq {d : Nat → Nat → N} {o c : Nat} {med : List Nat} (hc : c ∈ med)
    (h : ∀ c' ∈ med, d o c ≤ d o c') : minDist d o med = d o c := by
  obtain ⟨⟨c', hc', e⟩, h2⟩ := minDist_spec d o med (List.ne_nil_of_mem hc)
  exact le_antisymm (h2 c hc) (e ▸ h c' hc')

theorem RecOk.minDist_eq {d : Nat → Nat → N} {med : List Nat} {o : Nat} {r : Rec N}
    (h : RecOk d med o r) : minDist d o med = r.near.d := by
  obtain ⟨c, hc, hd⟩ := h.near
  rw [← hd]
  refine KMedoids.minDist_eq (List.mem_of_getElem? hc) fun c' hc' => ?_
  obtain ⟨m, hm⟩ := List.mem_iff_getElem?.mp hc'
  by_cases hmi : m = r.near.i
  · subst hmi; rw [hc] at hm; cases hm; exact le_refl _
  · rw [hd]; exact le_trans h.le (h.rest m c' hm hmi)

/-- Distance to the nearest medoid after an exchange, from the caches before. -/
theorem RecOk.minDist_set {d : Nat → Nat → N} {med : List Nat} {o : Nat} {r : Rec N}
    (h : RecOk d med o r) {b : Nat} (hb : b < med.length) (j : Nat) :
    minDist d o (med.set b j) = min (d o j) (if r.near.i = b then r.seco.d else r.near.d) := by
  have hset := getElem?_set_lt hb j
  have hjm : j ∈ med.set b j := List.mem_of_getElem? (i := b) (by rw [hset]; simp)
  have hall : ∀ x : N, x ≤ d o j → (∀ m c : Nat, med[m]? = some c → m ≠ b → x ≤ d o c) →
      ∀ c ∈ med.set b j, x ≤ d o c := by
    intro x h1 h2 c hc
    obtain ⟨m, hm⟩ := List.mem_iff_getElem?.mp hc
    rw [hset] at hm
    split at hm
    · cases hm; exact h1
    · exact h2 m c hm (by assumption)
  by_cases hnb : r.near.i = b
  · rw [if_pos hnb]
    obtain ⟨c2, hc2, hd2⟩ := h.seco
    have hmem : c2 ∈ med.set b j := List.mem_of_getElem? (i := r.seco.i)
      (by rw [hset, if_neg (fun e => h.ne (hnb.trans e.symm))]; exact hc2)
    have hrest : ∀ m c : Nat, med[m]? = some c → m ≠ b → r.seco.d ≤ d o c :=
      fun m c hm hmb => h.rest m c hm (fun e => hmb (e.trans hnb))
    rcases le_total (d o j) r.seco.d with hle | hle
    · rw [min_eq_left hle]
      exact KMedoids.minDist_eq hjm (hall _ (le_refl _) fun m c hm hmb =>
        le_trans hle (hrest m c hm hmb))
    · rw [min_eq_right hle, ← hd2]
      refine KMedoids.minDist_eq hmem (hall _ (hd2 ▸ hle) fun m c hm hmb => ?_)
      rw [hd2]; exact hrest m c hm hmb
  · rw [if_neg hnb]
    obtain ⟨c1, hc1, hd1⟩ := h.near
    have hmem : c1 ∈ med.set b j := List.mem_of_getElem? (i := r.near.i)
      (by rw [hset, if_neg hnb]; exact hc1)
    have hrest : ∀ m c : Nat, med[m]? = some c → r.near.d ≤ d o c := by
      intro m c hm
      by_cases hmi : m = r.near.i
      · subst hmi; rw [hc1] at hm; cases hm; exact le_of_eq hd1.symm
      · exact le_trans h.le (h.rest m c hm hmi)
    rcases le_total (d o j) r.near.d with hle | hle
    · rw [min_eq_left hle]
      exact KMedoids.minDist_eq hjm (hall _ (le_refl _) fun m c hm _ => le_trans hle (hrest m c hm))
    · rw [min_eq_right hle, ← hd1]
      refine KMedoids.minDist_eq hmem (hall _ (hd1 ▸ hle) fun m c hm _ => ?_)
      rw [hd1]; exact hrest m c hm

end minDist

/-! ## sums -/

section sums
variable {L : Type} [AddCommGroup L] [LinearOrder L] [RLoss L] [LawfulLoss L]

theorem addL (a b : L) : RLoss.add a b = a + b := LawfulLoss.add_eq a b
theorem subL (a b : L) : RLoss.sub a b = a - b := LawfulLoss.sub_eq a b
theorem negL (a : L) : RLoss.neg a = -a := LawfulLoss.neg_eq a
theorem zeroL : (RLoss.zero : L) = 0 := LawfulLoss.zero_eq
theorem rltL (a b : L) : rlt a b = decide (a < b) := by
  rw [Bool.eq_iff_iff]
  simp [rlt, LawfulLoss.pcmp_eq, compare_lt_iff_lt]
theorem rgeL (a b : L) : rge a b = decide (b ≤ a) := by
  rw [Bool.eq_iff_iff]
  simp only [rge, LawfulLoss.pcmp_eq, Bool.or_eq_true, beq_iff_eq, Option.some.injEq,
    compare_gt_iff_gt, compare_eq_iff_eq, decide_eq_true_eq, le_iff_lt_or_eq]
  exact or_congr Iff.rfl eq_comm

instance (priority := 100) : SaneZero L :=
  ⟨by simp [LawfulLoss.pcmp_eq]⟩

theorem foldl_add_sum {α : Type} {f : α → L} {step : L → α → L} {xs : List α}
    (h : ∀ acc, ∀ x ∈ xs, step acc x = acc + f x) (a : L) : xs.foldl step a = a + (xs.map f).sum := by
  induction xs generalizing a with
  | nil => simp
  | cons x xs ih =>
    rw [List.foldl_cons, h a x (by simp), ih (fun acc y hy => h acc y (by simp [hy]))]
    simp [add_assoc]

theorem sumP_eq (xs : List L) : sumP xs = xs.sum := by
  cases xs with
  | nil => simp [sumP, reduceAdd, zeroL]
  | cons x xs =>
    simp only [sumP, reduceAdd, Option.getD_some, List.sum_cons]
    rw [foldl_add_sum (f := id) (fun a y _ => addL a y)]
    simp

theorem sum_map_sub {α : Type} (xs : List α) (f g : α → L) :
    (xs.map fun x => f x - g x).sum = (xs.map f).sum - (xs.map g).sum := by
  induction xs with
  | nil => simp
  | cons x xs ih => simp only [List.map_cons, List.sum_cons, ih]; abel

theorem sum_zipIdx_single {α : Type} (l : List α) (v : α × Nat → L) (s j : Nat) :
    ((l.zipIdx s).map fun p => if p.2 = j then v p else 0).sum =
      if s ≤ j then (match l[j - s]? with | some x => v (x, j) | none => 0) else 0 := by
  induction l generalizing s with
  | nil => simp
  | cons x xs ih =>
    simp only [List.zipIdx_cons, List.map_cons, List.sum_cons, ih]
    by_cases h : s = j
    · subst h; simp
    · rw [if_neg h, zero_add]
      by_cases h2 : s ≤ j
      · have : j - s = (j - (s + 1)) + 1 := by omega
        rw [if_pos h2, if_pos (by omega), this, List.getElem?_cons_succ]
      · rw [if_neg h2, if_neg (by omega)]

theorem sum_zipIdx_at {α : Type} {l : List α} (v : α × Nat → L) {j : Nat} {x : α}
    (h : l[j]? = some x) : (l.zipIdx.map fun p => if p.2 = j then v p else 0).sum = v (x, j) := by
  rw [sum_zipIdx_single]; simp [h]

theorem addAtP_getD {a : List L} {i : Nat} (hi : i < a.length) (v : L) (m : Nat) :
    (addAtP a i v).getD m 0 = a.getD m 0 + if i = m then v else 0 := by
  simp only [addAtP, List.getD_eq_getElem?_getD, List.getElem?_modify]
  by_cases h : i = m
  · subst h; simp [hi, addL]
  · simp [h]

end sums

/-! ## total deviation from caches -/

variable {N L : Type} [LinearOrder N] [Zero N] [RDist N] [LawfulDist N]
variable [AddCommGroup L] [LinearOrder L] [RLoss L] [LawfulLoss L] [RFrom N L]

theorem sum_range_zipIdx {G α : Type} [AddCommMonoid G] (data : List α) (f : Nat → G) :
    ((List.range data.length).map f).sum = (data.zipIdx.map fun p => f p.2).sum := by
  have : (data.zipIdx.map fun p => f p.2) = (List.range data.length).map f := by
    rw [List.range_eq_range', ← List.zipIdx_map_snd 0 data, List.map_map]; rfl
  rw [this]

theorem totalDev_cache {n : Nat} {d : Nat → Nat → N} {med : List Nat} {data : List (Rec N)}
    (h : CacheOk n d med data) :
    totalDev (conv : N → L) n d med = (data.zipIdx.map fun p => (conv p.1.near.d : L)).sum := by
  rw [totalDev, ← h.len, sum_range_zipIdx]
  congr 1
  exact List.map_congr_left fun p hp => by rw [(h.recs p hp).minDist_eq]

theorem map_zipIdx_fst {α β : Type} (l : List α) (f : α → β) :
    (l.zipIdx.map fun p => f p.1) = l.map f := by
  have : (l.zipIdx.map Prod.fst).map f = l.map f := by simp
  rw [← this, List.map_map]; rfl

theorem nearLossP_eq {n : Nat} {d : Nat → Nat → N} {med : List Nat} {data : List (Rec N)}
    (h : CacheOk n d med data) : nearLossP L data = totalDev (conv : N → L) n d med := by
  rw [totalDev_cache h, nearLossP, sumP_eq, map_zipIdx_fst data (fun r => (conv r.near.d : L))]

theorem swapSumP_eq [LawfulFrom N L] {n : Nat} {d : Nat → Nat → N} (hd : Dissim n d) {med : List Nat}
    {data : List (Rec N)} (h : CacheOk n d med data) {j : Nat} (hj : j ∈ med) :
    swapSumP L j data = totalDev (conv : N → L) n d med := by
  rw [totalDev_cache h, swapSumP, sumP_eq]
  congr 1
  refine List.map_congr_left fun p hp => ?_
  unfold swapLossP
  split
  · rename_i hpj
    have hr := h.recs p hp
    obtain ⟨m, hm⟩ := List.mem_iff_getElem?.mp hj
    have hpm : med[m]? = some p.2 := by rw [hpj]; exact hm
    have := hr.own m hpm
    subst this
    obtain ⟨c, hc, hcd⟩ := hr.near
    rw [hpm] at hc; cases hc
    rw [← hcd, hd.diag _ (hpj ▸ h.range j hj), LawfulFrom.map_zero, zeroL]
  · rfl

/-! ## the change of an exchange -/

/-- Contribution of one object to the change of total deviation when medoid `b` is replaced by an object
at distance `x`. -/
def deltaP (L : Type) [Sub L] [RFrom N L] (r : Rec N) (b : Nat) (x : N) : L :=
  conv (min x (if r.near.i = b then r.seco.d else r.near.d)) - conv r.near.d

/-- Change of total deviation when medoid number `b` is replaced by `j`. -/
def changeP (L : Type) [AddCommGroup L] [RFrom N L] (d : Nat → Nat → N) (data : List (Rec N)) (b j : Nat) : L :=
  (data.zipIdx.map fun p => deltaP L p.1 b (d p.2 j)).sum

theorem changeP_eq {n : Nat} {d : Nat → Nat → N} {med : List Nat} {data : List (Rec N)}
    (h : CacheOk n d med data) {b : Nat} (hb : b < med.length) (j : Nat) :
    changeP L d data b j =
      totalDev (conv : N → L) n d (med.set b j) - totalDev (conv : N → L) n d med := by
  rw [totalDev_cache h]
  simp only [changeP, deltaP, sum_map_sub]
  congr 1
  rw [totalDev, ← h.len, sum_range_zipIdx]
  congr 1
  exact List.map_congr_left fun p hp => by rw [(h.recs p hp).minDist_set hb]

/-- PAM computes the change. -/
theorem pamChangeP_eq [LawfulFrom N L] {n : Nat} {d : Nat → Nat → N} (hd : Dissim n d) {med : List Nat}
    {data : List (Rec N)} (h : CacheOk n d med data) (m : Nat) {j : Nat} (hj : j < n) :
    pamChangeP L d data j m = changeP L d data m j := by
  have hjl : j < data.length := h.len ▸ hj
  have hg : data[j]? = some data[j] := List.getElem?_eq_getElem hjl
  have hnn : ∀ p ∈ data.zipIdx, 0 ≤ p.1.near.d ∧ 0 ≤ p.1.seco.d := by
    intro p hp
    have hpn : p.2 < n := h.len ▸ mem_zipIdx_lt hp
    obtain ⟨c, hc, hcd⟩ := (h.recs p hp).near
    have h0 : 0 ≤ p.1.near.d := hcd ▸ hd.nonneg _ _ hpn (h.range c (List.mem_of_getElem? hc))
    exact ⟨h0, le_trans h0 (h.recs p hp).le⟩
  unfold pamChangeP
  rw [foldl_add_sum (f := fun p => if p.2 = j then 0 else deltaP L p.1 m (d p.2 j))]
  · have hsplit : changeP L d data m j =
        (data.zipIdx.map fun p => if p.2 = j then deltaP L p.1 m (d p.2 j) else 0).sum +
        (data.zipIdx.map fun p => if p.2 = j then 0 else deltaP L p.1 m (d p.2 j)).sum := by
      rw [← List.sum_map_add, changeP]
      congr 1
      refine List.map_congr_left fun p _ => ?_
      split <;> simp
    rw [hsplit, sum_zipIdx_at (fun p => deltaP L p.1 m (d p.2 j)) hg]
    congr 1
    have hp := hnn (data[j], j) (List.mem_zipIdx_iff_getElem?.mpr (by simp [hg]))
    simp only [nearDP, hg, negL, deltaP, hd.diag j hj]
    rw [min_eq_left (by split; exacts [hp.2, hp.1]), LawfulFrom.map_zero, zero_sub]
  · intro acc p hp
    unfold pamStepP
    have hle := (h.recs p hp).le
    split
    · simp
    · simp only [deltaP, rltN, decide_eq_true_eq, addL, subL]
      split
      · split
        · rename_i h1; rw [min_eq_left (le_of_lt h1)]
        · rename_i h1; rw [min_eq_right (not_lt.mp h1)]
      · split
        · rename_i h1; rw [min_eq_left (le_of_lt h1)]
        · rename_i h1; rw [min_eq_right (not_lt.mp h1)]; simp

/-- The removal losses. -/
theorem remP_getD {data : List (Rec N)} {k : Nat} (hidx : ∀ r ∈ data, RecIdx k r) (m : Nat) :
    (remP L data k).getD m 0 =
      (data.map fun r => if r.near.i = m then (conv r.seco.d - conv r.near.d : L) else 0).sum := by
  unfold remP
  have h : ∀ (xs : List (Rec N)), (∀ r ∈ xs, RecIdx k r) → ∀ a : List L, a.length = k →
      (xs.foldl (fun (loss : List L) (r : Rec N) =>
        addAtP loss r.near.i (RLoss.sub (conv r.seco.d) (conv r.near.d))) a).getD m 0 =
      a.getD m 0 +
        (xs.map fun r => if r.near.i = m then (conv r.seco.d - conv r.near.d : L) else 0).sum := by
    intro xs
    induction xs with
    | nil => intro _ a _; simp
    | cons r xs ih =>
      intro hx a ha
      rw [List.foldl_cons, ih (fun r hr => hx r (by simp [hr])) _ (by simpa using ha),
        addAtP_getD (ha ▸ (hx r (by simp)).1), subL]
      simp only [List.map_cons, List.sum_cons]
      abel
  rw [h data hidx _ (by simp)]
  have : (List.replicate k (RLoss.zero : L)).getD m 0 = 0 := by
    simp only [List.getD_eq_getElem?_getD, List.getElem?_replicate]
    split <;> simp [zeroL]
  rw [this, zero_add]

/-- FasterPAM computes the change for all medoids at once. -/
theorem fbs_fold_getD {n : Nat} {d : Nat → Nat → N} {med : List Nat} {data : List (Rec N)}
    (h : CacheOk n d med data) {rem : List L} (hr : rem = remP L data med.length) (m j : Nat) :
    (data.zipIdx.foldl (fbsStepP d j) (rem, RLoss.zero)).1.getD m 0 +
      (data.zipIdx.foldl (fbsStepP d j) (rem, RLoss.zero)).2 = changeP L d data m j := by
  have hidx := h.shape.recIdx
  have hg : ∀ (xs : List (Rec N × Nat)), (∀ p ∈ xs, p ∈ data.zipIdx) → ∀ (a : List L) (acc : L),
      a.length = med.length →
      (xs.foldl (fbsStepP d j) (a, acc)).1.getD m 0 + (xs.foldl (fbsStepP d j) (a, acc)).2 =
      a.getD m 0 + acc + (xs.map fun p => deltaP L p.1 m (d p.2 j) -
        if p.1.near.i = m then (conv p.1.seco.d - conv p.1.near.d : L) else 0).sum := by
    intro xs
    induction xs with
    | nil => intro _ a acc _; simp
    | cons p xs ih =>
      intro hx a acc ha
      have hp := hx p (by simp)
      have hle := (h.recs p hp).le
      have hi : p.1.near.i < a.length := ha ▸ (hidx _ (mem_zipIdx_mem hp)).1
      rw [List.foldl_cons]
      have hl : (fbsStepP d j (a, acc) p).1.length = med.length := by
        unfold fbsStepP
        split
        · simpa using ha
        · split
          · simpa using ha
          · exact ha
      rw [← Prod.mk.eta (p := fbsStepP d j (a, acc) p), ih (fun q hq => hx q (by simp [hq])) _ _ hl]
      simp only [List.map_cons, List.sum_cons, ← add_assoc]
      congr 1
      unfold fbsStepP deltaP
      simp only [rltN, decide_eq_true_eq, addL, subL]
      by_cases h1 : d p.2 j < p.1.near.d
      · have h2 : d p.2 j < p.1.seco.d := lt_of_lt_of_le h1 hle
        simp only [h1, if_true, addAtP_getD hi]
        by_cases h3 : p.1.near.i = m
        · simp only [h3, if_true, min_eq_left (le_of_lt h2)]; abel
        · simp only [h3, if_false, min_eq_left (le_of_lt h1)]; abel
      · simp only [h1, if_false]
        by_cases h2 : d p.2 j < p.1.seco.d
        · simp only [h2, if_true, addAtP_getD hi]
          by_cases h3 : p.1.near.i = m
          · simp only [h3, if_true, min_eq_left (le_of_lt h2)]; abel
          · simp only [h3, if_false, min_eq_right (not_lt.mp h1)]; abel
        · simp only [h2, if_false]
          by_cases h3 : p.1.near.i = m
          · simp only [h3, if_true, min_eq_right (not_lt.mp h2)]; abel
          · simp only [h3, if_false, min_eq_right (not_lt.mp h1)]; abel
  subst hr
  rw [hg data.zipIdx (fun _ h => h) _ _ (remP_length hidx), zeroL, sum_map_sub, remP_getD hidx,
    map_zipIdx_fst data (fun r => if r.near.i = m then (conv r.seco.d - conv r.near.d : L) else 0),
    changeP]
  abel

theorem findMinP_spec {l : List L} (h : l ≠ []) :
    (findMinP l).2 = l.getD (findMinP l).1 0 ∧ (∀ m : Nat, m < l.length → (findMinP l).2 ≤ l.getD m 0) ∧
      ∀ m : Nat, m < (findMinP l).1 → (findMinP l).2 < l.getD m 0 := by
  have hg : ∀ (post pre : List L) (b : Nat × L), b.1 < pre.length → b.2 = pre.getD b.1 0 →
      (∀ m : Nat, m < pre.length → b.2 ≤ pre.getD m 0) → (∀ m : Nat, m < b.1 → b.2 < pre.getD m 0) →
      let r := findMinGo post pre.length b
      r.2 = (pre ++ post).getD r.1 0 ∧ (∀ m : Nat, m < (pre ++ post).length → r.2 ≤ (pre ++ post).getD m 0) ∧
      ∀ m : Nat, m < r.1 → r.2 < (pre ++ post).getD m 0 := by
    intro post
    induction post with
    | nil => intro pre b h1 h2 h3 h4; simpa [findMinGo] using ⟨h2, h3, h4⟩
    | cons x post ih =>
      intro pre b h1 h2 h3 h4
      have hx : (pre ++ [x]).getD pre.length 0 = x := by simp
      have hold : ∀ m : Nat, m < pre.length → (pre ++ [x]).getD m 0 = pre.getD m 0 := by
        intro m hm; simp [List.getElem?_append_left hm]
      have key := ih (pre ++ [x]) (if rlt x b.2 then (pre.length, x) else b)
      simp only [List.length_append, List.length_singleton, List.append_assoc,
        List.singleton_append] at key
      simp only [findMinGo]
      simp only [List.length_append]
      apply key
      · split
        · simp
        · omega
      · split
        · exact hx.symm
        · rw [hold _ h1]; exact h2
      · intro m hm
        rw [rltL]
        by_cases hc : x < b.2
        · simp only [hc, decide_true, if_true]
          by_cases hm' : m = pre.length
          · subst hm'; rw [hx]
          · rw [hold m (by omega)]; exact le_of_lt (lt_of_lt_of_le hc (h3 m (by omega)))
        · simp only [hc, decide_false, Bool.false_eq_true, if_false]
          by_cases hm' : m = pre.length
          · subst hm'; rw [hx]; exact not_lt.mp hc
          · rw [hold m (by omega)]; exact h3 m (by omega)
      · intro m hm
        rw [rltL] at hm ⊢
        by_cases hc : x < b.2
        · simp only [hc, decide_true, if_true] at hm ⊢
          rw [hold m hm]; exact lt_of_lt_of_le hc (h3 m hm)
        · simp only [hc, decide_false, Bool.false_eq_true, if_false] at hm ⊢
          rw [hold m (by omega)]; exact h4 m hm
  cases l with
  | nil => exact absurd rfl h
  | cons x xs =>
    have := hg xs [x] (0, x) (by simp) (by simp) (by simp) (by simp)
    simpa [findMinP] using this

/-- `find_best_swap` returns the first best medoid to exchange and its exact change. -/
theorem fbsP_spec [IsOrderedAddMonoid L] {n : Nat} {d : Nat → Nat → N} {med : List Nat}
    {data : List (Rec N)} (h : CacheOk n d med data) (hk : 1 ≤ med.length) {rem : List L}
    (hr : rem = remP L data med.length) (j : Nat) :
    (fbsP d rem data j).2 < med.length ∧
    (fbsP d rem data j).1 = changeP L d data (fbsP d rem data j).2 j ∧
    (∀ m : Nat, m < med.length → (fbsP d rem data j).1 ≤ changeP L d data m j) ∧
    ∀ m : Nat, m < (fbsP d rem data j).2 → (fbsP d rem data j).1 < changeP L d data m j := by
  have hlen : rem.length = med.length := hr ▸ remP_length h.shape.recIdx
  have hf := fun m => fbs_fold_getD h hr m j
  have h2 := fbs_fold_length d rem data j RLoss.zero
  have hne : (data.zipIdx.foldl (fbsStepP d j) (rem, RLoss.zero)).1 ≠ [] := by
    intro h; rw [h] at h2; simp at h2; omega
  obtain ⟨f1, f2, f3⟩ := findMinP_spec hne
  refine ⟨hlen ▸ fbsP_lt d data j (by omega), ?_, ?_, ?_⟩
  · rw [← hf]; simp only [fbsP, addL]; rw [← f1]
  · intro m hm
    rw [← hf]; simp only [fbsP, addL]
    exact add_le_add (f2 m (by omega)) (le_refl _)
  · intro m hm
    rw [← hf]; simp only [fbsP, addL]
    exact add_lt_add_of_lt_of_le (f3 m hm) (le_refl _)

end KMedoids
