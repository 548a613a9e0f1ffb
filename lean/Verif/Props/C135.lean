import Verif.Props.C64
import Verif.Props.C93
import Verif.Props.C97
import Verif.Proofs.SilBound
import Mathlib.Data.List.Perm.Subperm

/-!
# C135: PAMSIL has no constant factor, even on metrics

`1 -` the silhouette is the deficit of a solution. There is no factor for it: for every number `k ≥ 4` of clusters, there are metrics on `3 (k - 1)` objects
with a local optimum at which PAMSIL stops, whose deficit is as many times that of other medoids as one likes.

With `p = k - 1`, the first `2 p` objects are `p` pairs, with distance 1 within and `W` between the pairs. The other `p` objects are at distance 1 from each
other and at distance `4 W` from the pairs. The best clusters are the pairs and the rest, every object has deficit at most `1 / W`. With object 1 and
all of the rest as medoids, the objects of the rest are alone and have silhouette 0. It does not help to move one of these medoids to the pairs: the
objects of the rest have silhouettes of at most 0 as before, and with two medoids for `p` pairs, `p - 1` of them are in one cluster.
-/

set_option linter.unusedSectionVars false

namespace KMedoids

open RFrom (conv)

/-- `p` pairs and `p` more objects. -/
def pairRestD (p W x y : Nat) : ℕ :=
  if x = y then 0
  else if x < 2 * p then (if y < 2 * p then (if x / 2 = y / 2 then 1 else W) else 4 * W)
  else if y < 2 * p then 4 * W else 1

theorem pairRestD_dissim {p W n : Nat} : Dissim n (pairRestD p W) :=
  ⟨fun x _ => by simp [pairRestD], fun _ _ _ _ => Nat.zero_le _⟩

/-- **C135, metric.** -/
theorem C135_metric {p W n : Nat} (hW : 2 ≤ W) : IsMetric (conv : ℕ → ℚ) n (pairRestD p W) where
  symm x y _ _ := by unfold pairRestD; split_ifs <;> omega
  triangle x y z _ _ _ := by
    have h2 : pairRestD p W x z ≤ pairRestD p W x y + pairRestD p W y z := by
      unfold pairRestD
      split_ifs <;> omega
    show ((pairRestD p W x z : ℕ) : ℚ) ≤ (pairRestD p W x y : ℕ) + (pairRestD p W y z : ℕ)
    exact_mod_cast h2

/-! ## General lemmas -/

theorem nearLabel_spec {n : Nat} {d : Nat → Nat → ℕ} (hd : Dissim n d) {med : List Nat} (hk : 1 ≤ med.length) {o : Nat} (ho : o < n) :
    nearLabel d med o < med.length ∧ (∀ m < med.length, d o (med.getD (nearLabel d med o) 0) ≤ d o (med.getD m 0)) ∧
      (o ∉ med → ∀ m < nearLabel d med o, d o (med.getD (nearLabel d med o) 0) < d o (med.getD m 0)) := by
  unfold nearLabel
  by_cases h : o ∈ med
  · rw [if_pos h]
    have hl := List.idxOf_lt_length_of_mem h
    refine ⟨hl, fun m _ => ?_, fun h' => absurd h h'⟩
    have : med.getD (med.idxOf o) 0 = o := by simp [List.getD_eq_getElem?_getD, hl]
    rw [this, hd.diag o ho]
    exact Nat.zero_le _
  · rw [if_neg h]
    obtain ⟨g1, g2, g3⟩ := firstMin_spec (fun m => d o (med.getD m 0)) hk
    exact ⟨g1, g2, fun _ => g3⟩

section lab
variable {n : Nat} {lab : Nat → Nat}

theorem lab_getD {i : Nat} (hi : i < n) : ((List.range n).map lab).getD i 0 = lab i := by
  simp [List.getD_eq_getElem?_getD, hi]

theorem mem_members_lab {i c j : Nat} : j ∈ members ((List.range n).map lab) i c ↔ (j < n ∧ lab j = c) ∧ j ≠ i := by
  rw [mem_members]
  refine and_congr_left fun _ => ?_
  by_cases h : j < n <;> simp [h]

theorem mem_lab {c : Nat} : c ∈ (List.range n).map lab ↔ ∃ j < n, lab j = c := by simp

variable {d : Nat → Nat → ℕ} {i : Nat}

theorem lab_mean_nonneg (c : Nat) : 0 ≤ meanDist (conv : ℕ → ℚ) d ((List.range n).map lab) i c :=
  meanDist_nonneg (fun _ _ => Nat.zero_le _) c

/-- The deficit is at least `α / B` if the mean distance to the own cluster is at least `α`, to another one at most `B`. -/
theorem lab_deficit_ge {c j : Nat} {α B : ℚ} (hB : 0 < B) (hα : 0 ≤ α) (hαB : α ≤ B)
    (ha : members ((List.range n).map lab) i (lab i) ≠ [] → α ≤ meanDist (conv : ℕ → ℚ) d ((List.range n).map lab) i (lab i))
    (hj : j < n) (hjc : lab j = c) (hc : c ≠ lab i) (hb : ∀ x < n, lab x = c → (d i x : ℚ) ≤ B) :
    α / B ≤ 1 - silWith (conv : ℕ → ℚ) d ((List.range n).map lab) i (lab i) := by
  refine one_sub_silWith_ge hB hα hαB ha fun b hmin => ?_
  have h1 : b ≤ meanDist (conv : ℕ → ℚ) d ((List.range n).map lab) i c :=
    (List.min?_eq_some_iff.mp hmin).2 _ (List.mem_map.mpr ⟨c, List.mem_filter.mpr ⟨mem_lab.mpr ⟨j, hj, hjc⟩, by simpa using hc⟩, rfl⟩)
  refine h1.trans (meanDist_le (List.ne_nil_of_mem (a := j) (mem_members_lab.mpr ⟨⟨hj, hjc⟩, ?_⟩)) fun x hx => ?_)
  · rintro rfl; exact hc hjc.symm
  · rw [mem_members_lab] at hx
    exact hb x hx.1.1 hx.1.2

/-- The deficit is at most `δ / S` if the distances within the cluster are at most `δ`, those to others at least `S`. -/
theorem lab_deficit_le {j j' : Nat} {δ S : Nat} (hS : 0 < S) (hδS : δ ≤ S) (hj : j < n) (hji : j ≠ i) (hjl : lab j = lab i)
    (hj' : j' < n) (hjl' : lab j' ≠ lab i) (h1 : ∀ x < n, x ≠ i → lab x = lab i → d i x ≤ δ) (h2 : ∀ x < n, lab x ≠ lab i → S ≤ d i x) :
    1 - silWith (conv : ℕ → ℚ) d ((List.range n).map lab) i (lab i) ≤ (δ : ℚ) / S := by
  have hm : members ((List.range n).map lab) i (lab i) ≠ [] := List.ne_nil_of_mem (a := j) (mem_members_lab.mpr ⟨⟨hj, hjl⟩, hji⟩)
  refine one_sub_silWith_le (by exact_mod_cast hS) (by exact_mod_cast hδS) hm (mem_lab.mpr ⟨j', hj', rfl⟩) hjl' (lab_mean_nonneg _)
    (meanDist_le hm fun x hx => ?_) fun c hc hne => ?_
  · rw [mem_members_lab] at hx
    show ((d i x : ℕ) : ℚ) ≤ δ
    exact_mod_cast h1 x hx.1.1 hx.2 hx.1.2
  · obtain ⟨z, hz, rfl⟩ := mem_lab.mp hc
    refine meanDist_ge (List.ne_nil_of_mem (a := z) (mem_members_lab.mpr ⟨⟨hz, rfl⟩, ?_⟩)) fun x hx => ?_
    · rintro rfl; exact hne rfl
    · rw [mem_members_lab] at hx
      show (S : ℚ) ≤ ((d i x : ℕ) : ℚ)
      exact_mod_cast h2 x hx.1.1 (by rw [hx.1.2]; exact hne)

/-- The deficit of the clusters of `med`. -/
theorem clusterSil_deficit (hn : 0 < n) {med : List Nat} (h : ∀ o < n, nearLabel d med o = lab o) :
    (n : ℚ) * (1 - clusterSil ℚ n d med) =
      ∑ i ∈ Finset.range n, (1 - silWith (conv : ℕ → ℚ) d ((List.range n).map lab) i (lab i)) := by
  have e : (List.range n).map (nearLabel d med) = (List.range n).map lab :=
    List.map_congr_left fun o ho => h o (List.mem_range.mp ho)
  unfold clusterSil
  rw [e, sil_deficit hn (by simp)]
  exact Finset.sum_congr rfl fun i hi => by rw [lab_getD (Finset.mem_range.mp hi)]

end lab

/-- A sum with at most one small summand. -/
theorem sum_but_one {l : List Nat} (hl : l.Nodup) {f : Nat → ℚ} {W : ℚ} (q : Nat) (hf : ∀ j ∈ l, 0 ≤ f j)
    (h : ∀ j ∈ l, j ≠ q → W ≤ f j) (hW : 0 ≤ W) : W * l.length ≤ (l.map f).sum + W := by
  induction l with
  | nil => simpa using hW
  | cons j l ih =>
    rw [List.nodup_cons] at hl
    simp only [List.map_cons, List.sum_cons, List.length_cons]
    push_cast
    by_cases hj : j = q
    · subst hj
      have := List.card_nsmul_le_sum (l.map f) W (fun x hx => by
        obtain ⟨y, hy, rfl⟩ := List.mem_map.mp hx
        exact h y (by simp [hy]) fun e => hl.1 (e ▸ hy))
      rw [List.length_map, nsmul_eq_mul] at this
      have h0 := hf j (by simp)
      linarith
    · have h1 := ih hl.2 (fun y hy => hf y (by simp [hy])) fun y hy => h y (by simp [hy])
      have h2 := h j (by simp) hj
      linarith

theorem sum_pairs (g : Nat → ℚ) (p : Nat) : ∑ i ∈ Finset.range (2 * p), g (i / 2) = 2 * ∑ t ∈ Finset.range p, g t := by
  induction p with
  | zero => simp
  | succ p ih =>
    rw [show 2 * (p + 1) = 2 * p + 1 + 1 by ring, Finset.sum_range_succ, Finset.sum_range_succ, ih, Finset.sum_range_succ,
      show (2 * p + 1) / 2 = p by omega, show 2 * p / 2 = p by omega]
    ring

/-! ## The local optimum -/

section family
variable {p W : Nat}

/-- Object 1 and all of the rest. -/
def restStart (p y : Nat) : List Nat := y :: List.range' (2 * p) p

theorem restStart_length (p y : Nat) : (restStart p y).length = p + 1 := by simp [restStart]

theorem restStart_zero (p y : Nat) : (restStart p y).getD 0 0 = y := rfl

theorem restStart_getD {y m : Nat} (h0 : m ≠ 0) (h : m < p + 1) : (restStart p y).getD m 0 = 2 * p + m - 1 := by
  obtain ⟨m, rfl⟩ := Nat.exists_eq_succ_of_ne_zero h0
  have : m < p := by omega
  simp [restStart, List.getD_eq_getElem?_getD, this]

theorem mem_restStart {y x : Nat} : x ∈ restStart p y ↔ x = y ∨ (2 * p ≤ x ∧ x < 3 * p) := by
  simp only [restStart, List.mem_cons, List.mem_range'_1]
  refine or_congr_right (and_congr_right fun _ => ?_)
  omega

/-- Distances. -/
theorem pairRest_le {x y : Nat} (hW : 2 ≤ W) (hx : x < 2 * p) (hy : y < 2 * p) : pairRestD p W x y ≤ W := by
  unfold pairRestD; split_ifs <;> omega

theorem pairRest_far {x y : Nat} (hx : x < 2 * p) (hy : 2 * p ≤ y) : pairRestD p W x y = 4 * W := by
  unfold pairRestD; split_ifs <;> omega

theorem pairRest_far' {x y : Nat} (hx : 2 * p ≤ x) (hy : y < 2 * p) : pairRestD p W x y = 4 * W := by
  unfold pairRestD; split_ifs <;> omega

theorem pairRest_rest {x y : Nat} (hx : 2 * p ≤ x) (hy : 2 * p ≤ y) : pairRestD p W x y ≤ 1 := by
  unfold pairRestD; split_ifs <;> omega

theorem pairRest_pos {x y : Nat} (hW : 2 ≤ W) (h : x ≠ y) : 1 ≤ pairRestD p W x y := by
  unfold pairRestD; split_ifs <;> omega

theorem pairRest_zero {x y : Nat} (hW : 2 ≤ W) (h : pairRestD p W x y ≤ 0) : x = y := by
  by_contra hne
  have := pairRest_pos (p := p) hW hne
  omega

theorem pairRest_self (x : Nat) : pairRestD p W x x = 0 := by simp [pairRestD]

theorem pairRest_other {x y : Nat} (hx : x < 2 * p) (hy : y < 2 * p) (h : x / 2 ≠ y / 2) : pairRestD p W x y = W := by
  unfold pairRestD; split_ifs <;> omega

theorem pairRest_same {x y : Nat} (hx : x < 2 * p) (hy : y < 2 * p) (h : x / 2 = y / 2) : pairRestD p W x y ≤ 1 := by
  unfold pairRestD; split_ifs <;> omega

/-- Clusters: all of the pairs, and each of the rest alone. -/
def restLab (p o : Nat) : Nat := if o < 2 * p then 0 else o - 2 * p + 1

theorem restStart_label {y : Nat} (hW : 2 ≤ W) (hy : y < 2 * p) {o : Nat} (ho : o < 3 * p) :
    nearLabel (pairRestD p W) (restStart p y) o = restLab p o := by
  obtain ⟨h1, h2, -⟩ := nearLabel_spec (pairRestD_dissim (p := p) (W := W) (n := 3 * p)) (med := restStart p y)
    (by rw [restStart_length]; omega) ho
  rw [restStart_length] at h1 h2
  generalize nearLabel (pairRestD p W) (restStart p y) o = a at *
  unfold restLab
  by_cases hop : o < 2 * p
  · rw [if_pos hop]
    by_contra ha
    have h3 := h2 0 (by omega)
    rw [restStart_getD ha h1, restStart_zero, pairRest_far hop (by omega)] at h3
    have := pairRest_le hW hop hy
    omega
  · rw [if_neg hop]
    have h3 := h2 (o - 2 * p + 1) (by omega)
    rw [restStart_getD (m := o - 2 * p + 1) (by omega) (by omega), show 2 * p + (o - 2 * p + 1) - 1 = o by omega, pairRest_self] at h3
    have h4 := pairRest_zero hW h3
    by_cases ha : a = 0
    · subst ha
      rw [restStart_zero] at h4
      omega
    · rw [restStart_getD ha h1] at h4
      omega

/-- Every object of the pairs has a deficit of at most `1/4`, every other one has deficit 1. -/
theorem rest_local (hp : 3 ≤ p) (hW : 2 ≤ W) {y : Nat} (hy : y < 2 * p) :
    ((3 * p : ℕ) : ℚ) * (1 - clusterSil ℚ (3 * p) (pairRestD p W) (restStart p y)) ≤ p + p / 2 ∧
      (p : ℚ) ≤ ((3 * p : ℕ) : ℚ) * (1 - clusterSil ℚ (3 * p) (pairRestD p W) (restStart p y)) := by
  rw [clusterSil_deficit (by omega) fun o ho => restStart_label hW hy ho]
  have hq : ∀ x ∈ Finset.range p,
      1 - silWith (conv : ℕ → ℚ) (pairRestD p W) ((List.range (3 * p)).map (restLab p)) (2 * p + x) (restLab p (2 * p + x)) = 1 := fun x hx => by
    have : members ((List.range (3 * p)).map (restLab p)) (2 * p + x) (restLab p (2 * p + x)) = [] := by
      refine List.eq_nil_iff_forall_not_mem.mpr fun j hj => ?_
      rw [mem_members_lab] at hj
      obtain ⟨⟨h1, h2⟩, h3⟩ := hj
      unfold restLab at h2
      split_ifs at h2 <;> omega
    unfold silWith
    rw [if_pos this, sub_zero]
  have hlow : ∀ i ∈ Finset.range (2 * p),
      0 ≤ 1 - silWith (conv : ℕ → ℚ) (pairRestD p W) ((List.range (3 * p)).map (restLab p)) i (restLab p i) := fun i _ =>
    silWith_le_one (lab_mean_nonneg _)
  have hup : ∀ i ∈ Finset.range (2 * p),
      1 - silWith (conv : ℕ → ℚ) (pairRestD p W) ((List.range (3 * p)).map (restLab p)) i (restLab p i) ≤ 1 / 4 := fun i hi => by
    rw [Finset.mem_range] at hi
    have e : ((W : ℕ) : ℚ) / ((4 * W : ℕ) : ℚ) = 1 / 4 := by
      have : ((W : ℕ) : ℚ) ≠ 0 := by exact_mod_cast (by omega : W ≠ 0)
      rw [Nat.cast_mul, div_eq_div_iff (mul_ne_zero (by norm_num) this) (by norm_num)]
      push_cast
      ring
    have hz : restLab p i = 0 := by unfold restLab; rw [if_pos hi]
    rw [← e]
    refine lab_deficit_le (j := if i = 0 then 1 else 0) (j' := 2 * p) (by omega) (by omega) (by split_ifs <;> omega) (by split_ifs <;> omega)
      ?_ (by omega) ?_ (fun x hx _ hl => ?_) fun x hx hl => ?_
    · rw [hz]; unfold restLab; rw [if_pos (by split_ifs <;> omega)]
    · rw [hz]; unfold restLab; rw [if_neg (by omega)]; omega
    · rw [hz] at hl
      unfold restLab at hl
      split_ifs at hl with h
      exact pairRest_le hW hi h
    · rw [hz] at hl
      unfold restLab at hl
      split_ifs at hl with h
      · exact absurd rfl hl
      · rw [pairRest_far hi (by omega)]
  rw [show 3 * p = 2 * p + p by ring] at *
  rw [Finset.sum_range_add, Finset.sum_congr rfl hq]
  have h1 := Finset.sum_le_card_nsmul _ _ _ hup
  have h2 := Finset.sum_nonneg hlow
  rw [Finset.card_range, nsmul_eq_mul] at h1
  simp only [Finset.sum_const, Finset.card_range, nsmul_eq_mul, mul_one]
  push_cast at h1 ⊢
  constructor <;> linarith

/-! ## The exchanges -/

section swap
variable {s y : Nat}

theorem swap_getD (hs0 : s ≠ 0) (hs : s < p + 1) {m : Nat} (hm : m < p + 1) :
    ((restStart p 1).set s y).getD m 0 = if m = 0 then 1 else if m = s then y else 2 * p + m - 1 := by
  have hl : s < (restStart p 1).length := by rw [restStart_length]; exact hs
  by_cases h : m = s
  · subst h
    rw [if_neg hs0, if_pos rfl]
    simp [List.getD_eq_getElem?_getD, hl]
  · have e : ((restStart p 1).set s y).getD m 0 = (restStart p 1).getD m 0 := by
      simp [List.getD_eq_getElem?_getD, List.getElem?_set_ne (Ne.symm h)]
    rw [e]
    split_ifs with h0
    · subst h0; rfl
    · exact restStart_getD h0 hm

/-- What is needed about the clusters after an exchange: label 0 and label `s` are those of the pairs. -/
theorem swap_labels (hp : 3 ≤ p) (hW : 2 ≤ W) (hs0 : s ≠ 0) (hs : s < p + 1) (hy : y < 2 * p) (hy1 : y ≠ 1) {o : Nat} (ho : o < 3 * p) :
    nearLabel (pairRestD p W) ((restStart p 1).set s y) o < p + 1 ∧
    (o < 2 * p → nearLabel (pairRestD p W) ((restStart p 1).set s y) o = 0 ∨ nearLabel (pairRestD p W) ((restStart p 1).set s y) o = s) ∧
    (o < 2 * p → o / 2 ≠ y / 2 → nearLabel (pairRestD p W) ((restStart p 1).set s y) o = 0) ∧
    (2 * p ≤ o → nearLabel (pairRestD p W) ((restStart p 1).set s y) o ≠ 0 ∧ nearLabel (pairRestD p W) ((restStart p 1).set s y) o ≠ s) ∧
    (o = y → nearLabel (pairRestD p W) ((restStart p 1).set s y) o = s) ∧
    (∀ m, m ≠ 0 → m ≠ s → m < p + 1 → o = 2 * p + m - 1 → nearLabel (pairRestD p W) ((restStart p 1).set s y) o = m) := by
  obtain ⟨h1, h2, h3⟩ := nearLabel_spec (pairRestD_dissim (p := p) (W := W) (n := 3 * p)) (med := (restStart p 1).set s y)
    (by rw [List.length_set, restStart_length]; omega) ho
  rw [List.length_set, restStart_length] at h1 h2
  have hmem : o ∈ (restStart p 1).set s y → o < 2 * p → o = 1 ∨ o = y := fun h hop => by
    rcases List.mem_or_eq_of_mem_set h with h | h
    · rcases mem_restStart.mp h with h | h
      · exact .inl h
      · omega
    · exact .inr h
  generalize nearLabel (pairRestD p W) ((restStart p 1).set s y) o = a at *
  have ea := swap_getD (y := y) hs0 hs h1
  have e0 := swap_getD (p := p) (y := y) hs0 hs (m := 0) (by omega)
  rw [if_pos rfl] at e0
  have hP : o < 2 * p → a = 0 ∨ a = s := fun hop => by
    by_contra hn
    rw [not_or] at hn
    have h4 := h2 0 (by omega)
    rw [e0, ea, if_neg hn.1, if_neg hn.2, pairRest_far hop (by omega)] at h4
    have := pairRest_le hW hop (y := 1) (by omega)
    omega
  have h0 : ∀ m < p + 1, ((restStart p 1).set s y).getD m 0 = o → o = ((restStart p 1).set s y).getD a 0 := fun m hm e => by
    have h4 := h2 m hm
    rw [e, pairRest_self] at h4
    exact pairRest_zero hW h4
  refine ⟨h1, hP, fun hop hne => ?_, fun hop => ?_, fun hoy => ?_, fun m hm0 hms hm hom => ?_⟩
  · rcases hP hop with h | h
    · exact h
    · exfalso
      subst h
      rw [if_neg hs0, if_pos rfl] at ea
      by_cases hom : o ∈ (restStart p 1).set a y
      · rcases hmem hom hop with h | h
        · have := h0 0 (by omega) (by rw [e0, h])
          rw [ea] at this
          omega
        · exact hne (by rw [h])
      · have h4 := h3 hom 0 (by omega)
        rw [e0, ea, pairRest_other hop hy hne] at h4
        have := pairRest_le hW hop (y := 1) (by omega)
        omega
  · have key : ∃ m, m ≠ 0 ∧ m ≠ s ∧ m < p + 1 := by
      by_cases h : s = 1
      · exact ⟨2, by omega, by omega, by omega⟩
      · exact ⟨1, by omega, by omega, by omega⟩
    obtain ⟨m, hm0, hms, hm⟩ := key
    have h4 := h2 m hm
    rw [swap_getD hs0 hs hm, if_neg hm0, if_neg hms, ea] at h4
    have h5 := pairRest_rest (W := W) hop (show 2 * p ≤ 2 * p + m - 1 by omega)
    constructor
    · intro h
      rw [if_pos h, pairRest_far' hop (by omega)] at h4
      omega
    · intro h
      rw [if_neg (by omega), if_pos h, pairRest_far' hop hy] at h4
      omega
  · have := h0 s hs (by rw [swap_getD hs0 hs hs, if_neg hs0, if_pos rfl, hoy])
    rw [ea] at this
    split_ifs at this with g1 g2
    · omega
    · exact g2
    · omega
  · have := h0 m hm (by rw [swap_getD hs0 hs hm, if_neg hm0, if_neg hms, hom])
    rw [ea] at this
    split_ifs at this with g1 g2 <;> omega

/-- After the exchange the deficit is no smaller. -/
theorem swap_deficit (hp : 3 ≤ p) (hW : 2 ≤ W) (hs0 : s ≠ 0) (hs : s < p + 1) (hy : y < 2 * p) (hy1 : y ≠ 1) :
    (p : ℚ) + p / 2 ≤ ((3 * p : ℕ) : ℚ) * (1 - clusterSil ℚ (3 * p) (pairRestD p W) ((restStart p 1).set s y)) := by
  rw [clusterSil_deficit (by omega) fun o _ => rfl]
  have hl := fun {o : Nat} (ho : o < 3 * p) => swap_labels (W := W) hp hW hs0 hs hy hy1 ho
  generalize nearLabel (pairRestD p W) ((restStart p 1).set s y) = lab at *
  have hWq : (0 : ℚ) < W := by exact_mod_cast (by omega : 0 < W)
  have hQ : ∀ x ∈ Finset.range p,
      (1 : ℚ) ≤ 1 - silWith (conv : ℕ → ℚ) (pairRestD p W) ((List.range (3 * p)).map lab) (2 * p + x) (lab (2 * p + x)) := fun x hx => by
    rw [Finset.mem_range] at hx
    have hi : 2 * p + x < 3 * p := by omega
    have key : ∃ m, m ≠ 0 ∧ m ≠ s ∧ m ≠ lab (2 * p + x) ∧ m < p + 1 := by
      by_cases h1 : 1 ≠ s ∧ 1 ≠ lab (2 * p + x)
      · exact ⟨1, by omega, h1.1, h1.2, by omega⟩
      · by_cases h2 : 2 ≠ s ∧ 2 ≠ lab (2 * p + x)
        · exact ⟨2, by omega, h2.1, h2.2, by omega⟩
        · exact ⟨3, by omega, by omega, by omega, by omega⟩
    obtain ⟨m, hm0, hms, hml, hm⟩ := key
    have := lab_deficit_ge (n := 3 * p) (lab := lab) (d := pairRestD p W) (i := 2 * p + x) (c := m) (j := 2 * p + m - 1) (α := 1) (B := 1) one_pos
      zero_le_one le_rfl
      (fun hne => meanDist_ge hne fun j hj => by
        rw [mem_members_lab] at hj
        show (1 : ℚ) ≤ ((pairRestD p W (2 * p + x) j : ℕ) : ℚ)
        exact_mod_cast pairRest_pos hW (Ne.symm hj.2)) (by omega) ((hl (by omega)).2.2.2.2.2 m hm0 hms hm rfl) hml fun z hz hzm => by
        have hzq : 2 * p ≤ z := by
          by_contra hc
          rcases (hl hz).2.1 (by omega) with h | h <;> omega
        exact_mod_cast pairRest_rest (by omega) hzq
    rwa [div_one] at this
  have hP0 : ∀ i, 0 ≤ 1 - silWith (conv : ℕ → ℚ) (pairRestD p W) ((List.range (3 * p)).map lab) i (lab i) := fun i =>
    silWith_le_one (lab_mean_nonneg _)
  have hP : ∀ i ∈ Finset.range (2 * p), (fun t => if y / 2 = t then (0 : ℚ) else 2 / 3) (i / 2) ≤
      1 - silWith (conv : ℕ → ℚ) (pairRestD p W) ((List.range (3 * p)).map lab) i (lab i) := fun i hi => by
    rw [Finset.mem_range] at hi
    dsimp only
    split_ifs with hne
    · exact hP0 i
    · have hi0 : lab i = 0 := (hl (by omega)).2.2.1 hi (Ne.symm hne)
      have hmP : ∀ z < 3 * p, lab z = 0 ∨ lab z = s → z < 2 * p := fun z hz h => by
        by_contra hc
        have := (hl hz).2.2.2.1 (by omega)
        omega
      -- the partner of `i`
      have hq : ∃ q, q ≠ i ∧ q / 2 = i / 2 ∧ q < 2 * p ∧ ∀ j, j ≠ i → j / 2 = i / 2 → j = q := by
        by_cases h : i % 2 = 0
        · exact ⟨i + 1, by omega, by omega, by omega, fun j h1 h2 => by omega⟩
        · exact ⟨i - 1, by omega, by omega, by omega, fun j h1 h2 => by omega⟩
      obtain ⟨q, hq1, hq2, hq3, hq4⟩ := hq
      have ht : ∃ t, t ≠ y / 2 ∧ t ≠ i / 2 ∧ t < 3 := by
        by_cases h1 : 0 ≠ y / 2 ∧ 0 ≠ i / 2
        · exact ⟨0, h1.1, h1.2, by omega⟩
        · by_cases h2 : 1 ≠ y / 2 ∧ 1 ≠ i / 2
          · exact ⟨1, h2.1, h2.2, by omega⟩
          · exact ⟨2, by omega, by omega, by omega⟩
      obtain ⟨t, ht1, ht2, ht3⟩ := ht
      have hlen : 3 ≤ (members ((List.range (3 * p)).map lab) i 0).length := by
        have hnd : [2 * t, 2 * t + 1, q].Nodup := by
          simp only [List.nodup_cons, List.mem_cons, List.not_mem_nil, or_false, not_false_eq_true, List.nodup_nil, and_true]
          omega
        have hsub : [2 * t, 2 * t + 1, q] ⊆ members ((List.range (3 * p)).map lab) i 0 := fun z hz => by
          simp only [List.mem_cons, List.not_mem_nil, or_false] at hz
          rw [mem_members_lab]
          have hz2 : z < 2 * p := by omega
          refine ⟨⟨by omega, (hl (by omega)).2.2.1 hz2 ?_⟩, ?_⟩
          · rcases hz with rfl | rfl | rfl <;> omega
          · rcases hz with rfl | rfl | rfl <;> omega
        exact (List.subperm_of_subset hnd hsub).length_le
      have hmean : 2 / 3 * (W : ℚ) ≤ meanDist (conv : ℕ → ℚ) (pairRestD p W) ((List.range (3 * p)).map lab) i 0 := by
        have hsum := sum_but_one (l := members ((List.range (3 * p)).map lab) i 0) (List.nodup_range.filter _)
          (f := fun j => ((pairRestD p W i j : ℕ) : ℚ)) (W := W) q (fun _ _ => Nat.cast_nonneg _) (fun j hj hjq => by
            rw [mem_members_lab] at hj
            have hj2 := hmP j hj.1.1 (.inl hj.1.2)
            rw [pairRest_other hi hj2 fun e => hjq (hq4 j hj.2 e.symm)]) hWq.le
        have hlen' : (3 : ℚ) ≤ ((members ((List.range (3 * p)).map lab) i 0).length : ℚ) := by exact_mod_cast hlen
        unfold meanDist
        rw [le_div_iff₀ (by linarith)]
        show _ ≤ ((members ((List.range (3 * p)).map lab) i 0).map fun j => ((pairRestD p W i j : ℕ) : ℚ)).sum
        have := mul_le_mul_of_nonneg_left hlen' hWq.le
        linarith
      have := lab_deficit_ge (n := 3 * p) (lab := lab) (d := pairRestD p W) (i := i) (c := s) (j := y) (α := 2 / 3 * W) (B := W) hWq
        (by positivity) (by linarith) (fun _ => by rw [hi0]; exact hmean) (by omega) ((hl (by omega)).2.2.2.2.1 rfl) (by rw [hi0]; exact hs0)
        fun z hz hzs => by exact_mod_cast pairRest_le hW hi (hmP z hz (.inr hzs))
      rwa [mul_div_assoc, div_self hWq.ne', mul_one] at this
  have h1 := Finset.sum_le_sum hP
  have h2 := Finset.card_nsmul_le_sum _ _ _ hQ
  rw [Finset.card_range, nsmul_eq_mul, mul_one] at h2
  rw [sum_pairs fun t => if y / 2 = t then (0 : ℚ) else 2 / 3] at h1
  have h3 : ∑ t ∈ Finset.range p, (if y / 2 = t then (0 : ℚ) else 2 / 3) = 2 / 3 * p - 2 / 3 := by
    have : ∀ t ∈ Finset.range p, (if y / 2 = t then (0 : ℚ) else 2 / 3) = 2 / 3 - if y / 2 = t then 2 / 3 else 0 := fun t _ => by
      split_ifs <;> norm_num
    rw [Finset.sum_congr rfl this, Finset.sum_sub_distrib, Finset.sum_ite_eq, if_pos (Finset.mem_range.mpr (by omega)),
      Finset.sum_const, Finset.card_range, nsmul_eq_mul]
    ring
  rw [h3] at h1
  rw [show Finset.range (3 * p) = Finset.range (2 * p + p) by congr 1; ring, Finset.sum_range_add]
  have hp' : (3 : ℚ) ≤ p := by exact_mod_cast hp
  linarith

end swap

/-- **C135, local optimum.** No exchange of a medoid for another object gives a larger silhouette. -/
theorem C135_local_optimum (hp : 3 ≤ p) (hW : 2 ≤ W) {m j : Nat} (hm : m < p + 1) (hj : j < 3 * p) (hjm : j ∉ restStart p 1) :
    clusterSil ℚ (3 * p) (pairRestD p W) ((restStart p 1).set m j) ≤ clusterSil ℚ (3 * p) (pairRestD p W) (restStart p 1) := by
  rw [mem_restStart] at hjm
  have hj2 : j < 2 * p := by omega
  by_cases h0 : m = 0
  · subst h0
    show clusterSil ℚ (3 * p) (pairRestD p W) (restStart p j) ≤ _
    unfold clusterSil
    rw [List.map_congr_left fun o ho => (restStart_label hW hj2 (List.mem_range.mp ho)).trans
      (restStart_label hW (y := 1) (by omega) (List.mem_range.mp ho)).symm]
  · have h1 := swap_deficit hp hW h0 hm hj2 (by omega)
    have h2 := (rest_local hp hW (y := 1) (by omega)).1
    have hn : (0 : ℚ) < ((3 * p : ℕ) : ℚ) := by exact_mod_cast (by omega : 0 < 3 * p)
    have := le_of_mul_le_mul_left (h2.trans h1) hn
    linarith

/-! ## The other solution -/

/-- One object of each pair, and one of the rest. -/
def pairStart (p : Nat) : List Nat := (List.range (p + 1)).map (2 * ·)

theorem pairStart_length : (pairStart p).length = p + 1 := by simp [pairStart]

theorem pairStart_getD {m : Nat} (hm : m < p + 1) : (pairStart p).getD m 0 = 2 * m := by
  simp [pairStart, List.getD_eq_getElem?_getD, hm]

/-- Clusters: the pairs and the rest. -/
def pairLab (p o : Nat) : Nat := if o < 2 * p then o / 2 else p

theorem pairStart_label (hW : 2 ≤ W) {o : Nat} (ho : o < 3 * p) : nearLabel (pairRestD p W) (pairStart p) o = pairLab p o := by
  obtain ⟨h1, h2, -⟩ := nearLabel_spec (pairRestD_dissim (p := p) (W := W) (n := 3 * p)) (med := pairStart p)
    (by rw [pairStart_length]; omega) ho
  rw [pairStart_length] at h1 h2
  generalize nearLabel (pairRestD p W) (pairStart p) o = a at *
  have hb : pairLab p o < p + 1 := by unfold pairLab; split_ifs <;> omega
  have h3 := h2 (pairLab p o) hb
  rw [pairStart_getD h1, pairStart_getD hb] at h3
  have h4 : pairRestD p W o (2 * pairLab p o) ≤ 1 := by
    unfold pairLab
    split_ifs with h
    · exact pairRest_same h (by omega) (by omega)
    · exact pairRest_rest (by omega) le_rfl
  unfold pairLab
  split_ifs with h
  · by_contra hne
    by_cases ha : 2 * a < 2 * p
    · rw [pairRest_other h ha (by omega)] at h3; omega
    · rw [pairRest_far h (by omega)] at h3; omega
  · by_contra hne
    rw [pairRest_far' (by omega) (by omega)] at h3
    omega

/-- Every deficit is at most `1 / W`, and none is 0. -/
theorem pair_best (hp : 3 ≤ p) (hW : 2 ≤ W) : 1 - clusterSil ℚ (3 * p) (pairRestD p W) (pairStart p) ≤ 1 / (W : ℚ) ∧
    0 < 1 - clusterSil ℚ (3 * p) (pairRestD p W) (pairStart p) := by
  have hn : (0 : ℚ) < ((3 * p : ℕ) : ℚ) := by exact_mod_cast (by omega : 0 < 3 * p)
  have e := clusterSil_deficit (n := 3 * p) (d := pairRestD p W) (by omega) fun o ho => pairStart_label hW ho
  have hup : ∀ i ∈ Finset.range (3 * p),
      1 - silWith (conv : ℕ → ℚ) (pairRestD p W) ((List.range (3 * p)).map (pairLab p)) i (pairLab p i) ≤ 1 / (W : ℚ) := fun i hi => by
    rw [Finset.mem_range] at hi
    have hj : ∃ j < 3 * p, j ≠ i ∧ pairLab p j = pairLab p i := by
      unfold pairLab
      by_cases h : i < 2 * p
      · by_cases h2 : i % 2 = 0
        · exact ⟨i + 1, by omega, by omega, by rw [if_pos h, if_pos (by omega)]; omega⟩
        · exact ⟨i - 1, by omega, by omega, by rw [if_pos h, if_pos (by omega)]; omega⟩
      · by_cases h2 : i = 2 * p
        · exact ⟨2 * p + 1, by omega, by omega, by rw [if_neg h, if_neg (by omega)]⟩
        · exact ⟨2 * p, by omega, by omega, by rw [if_neg h, if_neg (by omega)]⟩
    have hj' : ∃ j < 3 * p, pairLab p j ≠ pairLab p i := by
      by_cases h : pairLab p i = 0
      · exact ⟨2 * p, by omega, by rw [h]; unfold pairLab; rw [if_neg (by omega)]; omega⟩
      · exact ⟨0, by omega, fun e => h (by rw [← e]; unfold pairLab; rw [if_pos (by omega)])⟩
    obtain ⟨j, hj1, hj2, hj3⟩ := hj
    obtain ⟨j', hj1', hj2'⟩ := hj'
    have := lab_deficit_le (n := 3 * p) (lab := pairLab p) (d := pairRestD p W) (i := i) (δ := 1) (S := W) (by omega) (by omega) hj1 hj2 hj3 hj1' hj2'
      (fun x hx _ hl => by unfold pairLab at hl; unfold pairRestD; split_ifs at * <;> omega)
      (fun x hx hl => by unfold pairLab at hl; unfold pairRestD; split_ifs at * <;> omega)
    rwa [Nat.cast_one] at this
  have hlow : ∀ i ∈ Finset.range (3 * p),
      0 < 1 - silWith (conv : ℕ → ℚ) (pairRestD p W) ((List.range (3 * p)).map (pairLab p)) i (pairLab p i) := fun i hi => by
    have hB : (0 : ℚ) < ((4 * W : ℕ) : ℚ) := by exact_mod_cast (by omega : 0 < 4 * W)
    have hj' : ∃ j < 3 * p, pairLab p j ≠ pairLab p i := by
      by_cases h : pairLab p i = 0
      · exact ⟨2 * p, by omega, by rw [h]; unfold pairLab; rw [if_neg (by omega)]; omega⟩
      · exact ⟨0, by omega, fun e => h (by rw [← e]; unfold pairLab; rw [if_pos (by omega)])⟩
    obtain ⟨j', hj1', hj2'⟩ := hj'
    refine lt_of_lt_of_le (div_pos one_pos hB) (lab_deficit_ge (α := 1) hB zero_le_one (by exact_mod_cast (by omega : 1 ≤ 4 * W))
      (fun hm => meanDist_ge hm fun j hj => ?_) hj1' rfl hj2' fun x hx _ => ?_)
    · rw [mem_members_lab] at hj
      show (1 : ℚ) ≤ ((pairRestD p W i j : ℕ) : ℚ)
      exact_mod_cast pairRest_pos hW (Ne.symm hj.2)
    · have : pairRestD p W i x ≤ 4 * W := by unfold pairRestD; split_ifs <;> omega
      exact_mod_cast this
  constructor
  · have h1 := Finset.sum_le_card_nsmul _ _ _ hup
    rw [Finset.card_range, nsmul_eq_mul, ← e] at h1
    exact le_of_mul_le_mul_left h1 hn
  · have h1 := Finset.sum_pos hlow ⟨0, Finset.mem_range.mpr (by omega)⟩
    rw [← e] at h1
    exact pos_of_mul_pos_right h1 hn.le

theorem rest_run (hp : 3 ≤ p) (hW : 2 ≤ W) (fuel : Nat) :
    ∃ it, silRun (clusterSil ℚ (3 * p) (pairRestD p W)) (3 * p) fuel (clusterSil ℚ (3 * p) (pairRestD p W) (restStart p 1)) (restStart p 1) =
      some (restStart p 1, clusterSil ℚ (3 * p) (pairRestD p W) (restStart p 1), it, 0) := by
  have h0 : 0 ≤ clusterSil ℚ (3 * p) (pairRestD p W) (restStart p 1) := by
    have h2 := (rest_local hp hW (y := 1) (by omega)).1
    have hp' : (3 : ℚ) ≤ p := by exact_mod_cast hp
    push_cast at h2
    by_contra hc
    have h3 : 3 * (p : ℚ) * 1 ≤ 3 * p * (1 - clusterSil ℚ (3 * p) (pairRestD p W) (restStart p 1)) :=
      mul_le_mul_of_nonneg_left (by linarith) (by linarith)
    linarith
  cases fuel with
  | zero => exact ⟨0, rfl⟩
  | succ fuel =>
    have hs := pickBest_spec (clusterSil ℚ (3 * p) (pairRestD p W)) (max 0 (clusterSil ℚ (3 * p) (pairRestD p W) (restStart p 1)))
      (exchanges (3 * p) (restStart p 1))
    refine ⟨1, ?_⟩
    unfold silRun
    cases he : pickBest (clusterSil ℚ (3 * p) (pairRestD p W)) (max 0 (clusterSil ℚ (3 * p) (pairRestD p W) (restStart p 1)))
        (exchanges (3 * p) (restStart p 1)) with
    | none =>
      dsimp only
      rw [if_neg (not_lt.mpr h0)]
    | some b =>
      exfalso
      rw [he] at hs
      obtain ⟨pre, post, h1, h2, -⟩ := hs
      have hb : b ∈ exchanges (3 * p) (restStart p 1) := by rw [h1]; simp
      unfold exchanges at hb
      simp only [List.mem_flatMap, List.mem_map, List.mem_filter, List.mem_range, decide_eq_true_eq, restStart_length] at hb
      obtain ⟨m, hm, j, ⟨hj, hjm⟩, rfl⟩ := hb
      exact absurd (lt_of_le_of_lt (le_max_right _ _) h2) (not_lt.mpr (C135_local_optimum hp hW hm hj hjm))

end family

/-- **C135.** For every `k ≥ 4` and every factor `c`: PAMSIL stops at medoids with a deficit of more than `c` times that of others. -/
theorem C135_no_factor (c : Nat) {k : Nat} (hk : 4 ≤ k) (hu : 3 * (k - 1) ≤ u32Max) :
    ∃ (n : Nat) (d : Nat → Nat → ℕ) (med other : List Nat), n = 3 * (k - 1) ∧ Dissim n d ∧ IsMetric (conv : ℕ → ℚ) n d ∧ ValidMeds n med ∧
      med.Nodup ∧ med.length = k ∧ other.length = k ∧ (∀ x ∈ other, x < n) ∧ other.Nodup ∧ 0 < 1 - clusterSil ℚ n d other ∧
      ∀ maxiter, ∃ r, pamsilSwap ℚ (fnMat n d) med maxiter = .ok r ∧ r.nSwap = 0 ∧ r.med = med ∧
        c * (1 - clusterSil ℚ n d other) < 1 - r.loss := by
  obtain ⟨p, rfl⟩ : ∃ p, k = p + 1 := ⟨k - 1, by omega⟩
  rw [Nat.add_sub_cancel] at hu
  have hp : 3 ≤ p := by omega
  have hW : 2 ≤ 3 * c + 2 := by omega
  have hl := restStart_length p 1
  have hv : ValidMeds (3 * p) (restStart p 1) := ⟨⟨by omega, by omega, by omega, by omega⟩, fun x hx => by
    rw [mem_restStart] at hx; omega⟩
  have hnd : (restStart p 1).Nodup := by
    unfold restStart
    rw [List.nodup_cons]
    refine ⟨fun h => ?_, List.nodup_range'⟩
    rw [List.mem_range'_1] at h
    omega
  refine ⟨3 * p, pairRestD p (3 * c + 2), restStart p 1, pairStart p, by omega, pairRestD_dissim, C135_metric hW, hv, hnd, hl, pairStart_length,
    fun x hx => ?_, ?_, (pair_best hp hW).2, fun maxiter => ?_⟩
  · simp only [pairStart, List.mem_map, List.mem_range] at hx
    omega
  · exact List.nodup_range.map fun a b h => by omega
  have hrun := C93_pamsil_swap_zero (L := ℚ) (fnMat_isMatrix (3 * p) (pairRestD p (3 * c + 2))) pairRestD_dissim hv hnd (by omega) maxiter
    (fun i _ r hr => by
      obtain ⟨it, h⟩ := rest_run (W := 3 * c + 2) hp hW i
      rw [h] at hr
      cases hr
      rw [mem_restStart]
      omega)
  obtain ⟨it, h⟩ := rest_run (W := 3 * c + 2) hp hW maxiter
  rw [h] at hrun
  refine ⟨_, hrun, rfl, rfl, ?_⟩
  have h1 := (pair_best (W := 3 * c + 2) hp hW).1
  have h2 := (rest_local (W := 3 * c + 2) hp hW (y := 1) (by omega)).2
  have h3 := mul_le_mul_of_nonneg_left h1 (Nat.cast_nonneg (α := ℚ) c)
  have h4 : (c : ℚ) * (1 / (3 * c + 2 : ℕ)) < 1 / 3 := by
    have : (0 : ℚ) < (3 * c + 2 : ℕ) := by exact_mod_cast (by omega : 0 < 3 * c + 2)
    rw [mul_one_div, div_lt_div_iff₀ this (by norm_num)]
    push_cast
    linarith
  have h5 : 1 / 3 ≤ 1 - clusterSil ℚ (3 * p) (pairRestD p (3 * c + 2)) (restStart p 1) := by
    have hp' : (0 : ℚ) < p := by exact_mod_cast (by omega : 0 < p)
    push_cast at h2
    refine le_of_mul_le_mul_left (a := 3 * (p : ℚ)) ?_ (by linarith)
    linarith
  show (c : ℚ) * _ < 1 - clusterSil ℚ (3 * p) (pairRestD p (3 * c + 2)) (restStart p 1)
  linarith

/-! ## Example -/

/-- With `k = 4` and `W = 32`: a deficit of more than a third, and one of less than `1/32`. -/
example : (pamsilSwap ℚ (fnMat 9 (pairRestD 3 32)) (restStart 3 1) 100).map (fun r => (r.loss, r.nSwap, r.med)) = .ok (511 / 960, 0, [1, 6, 7, 8]) ∧
    clusterSil ℚ 9 (pairRestD 3 32) (pairStart 3) = 125 / 128 ∧ pairStart 3 = [0, 2, 4, 6] ∧ 3 * (50 - 1) ≤ u32Max := by
  decide +kernel

end KMedoids
