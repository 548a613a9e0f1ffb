import Verif.Props.C135

/-!
# C135 for three clusters

There are three groups of objects that are far from each other (at distance `W`, or `2 W`): `B` and `C` with two objects each, and a large group, which consists
of object 6 and two subgroups of three objects each. The best clusters are the three groups. With object 6 and an object of each subgroup as medoids,
`B` and `C` are in the cluster of object 6, and have a negative silhouette; but the subgroups have silhouettes of at least `9/10`. If any of the medoids is moved
to `B` or `C`, then the other one of these groups is in a cluster with one of the subgroups, whose silhouettes are then negative.
-/

set_option linter.unusedSectionVars false

namespace KMedoids

open RFrom (conv)

/-- Subgroups 0 and 1, object 6, groups `B` and `C`. -/
def subGroup (x : Nat) : Nat := if x < 3 then 0 else if x < 6 then 1 else if x < 7 then 2 else if x < 9 then 3 else 4

/-- Order of the distances. -/
def subRank (x y : Nat) : ℕ :=
  if x = y then 0
  else if subGroup x = subGroup y then 1
  else if subGroup x ≤ 2 ∧ subGroup y ≤ 2 then 2
  else if subGroup x ≤ 2 ∨ subGroup y ≤ 2 then 3 else 4

def subA (x y : Nat) : ℕ :=
  if subRank x y = 0 then 0 else if subRank x y = 1 then 1 else if subRank x y = 2 then 10 else if subRank x y = 3 then 1000 else 2000

def subB (x y : Nat) : ℕ := if subRank x y ≤ 2 then 0 else if subRank x y = 3 then 1 else 2

/-- The distances 1, 10, `W` and `2 W`, with `W = v + 1000`. -/
def subD (v x y : Nat) : ℕ := subA x y + v * subB x y

theorem subRank_le (x y : Nat) : subRank x y ≤ 4 := by
  unfold subRank
  split_ifs <;> omega

theorem subRank_symm (x y : Nat) : subRank x y = subRank y x := by
  unfold subRank
  generalize subGroup x = a
  generalize subGroup y = b
  split_ifs <;> omega

theorem subD_lt {v x y x' y' : Nat} : subD v x y < subD v x' y' ↔ subRank x y < subRank x' y' := by
  have h1 := subRank_le x y
  have h2 := subRank_le x' y'
  unfold subD subA subB
  generalize subRank x y = a at *
  generalize subRank x' y' = b at *
  have ha : a = 0 ∨ a = 1 ∨ a = 2 ∨ a = 3 ∨ a = 4 := by omega
  have hb : b = 0 ∨ b = 1 ∨ b = 2 ∨ b = 3 ∨ b = 4 := by omega
  rcases ha with rfl | rfl | rfl | rfl | rfl <;> rcases hb with rfl | rfl | rfl | rfl | rfl <;> simp <;> omega

theorem subD_dissim {v n : Nat} : Dissim n (subD v) :=
  ⟨fun x _ => by simp [subD, subA, subB, subRank], fun _ _ _ _ => Nat.zero_le _⟩

theorem subRank_tri (x y z : Nat) : subRank x z ≤ max (subRank x y) (subRank y z) ∨ (subRank x y = 3 ∧ subRank y z = 3 ∧ subRank x z = 4) := by
  unfold subRank
  by_cases h1 : x = y
  · subst h1; left; simp
  by_cases h2 : y = z
  · subst h2; left; simp
  rw [if_neg h1, if_neg h2]
  generalize subGroup x = a
  generalize subGroup y = b
  generalize subGroup z = c
  split_ifs <;> omega

/-- **C135, metric.** -/
theorem C135_metric_three {v n : Nat} : IsMetric (conv : ℕ → ℚ) n (subD v) where
  symm x y _ _ := by unfold subD subA subB; rw [subRank_symm]
  triangle x y z _ _ _ := by
    have h2 : subD v x z ≤ subD v x y + subD v y z := by
      rcases subRank_tri x y z with h | ⟨e1, e2, e3⟩
      · rcases le_max_iff.mp h with h | h
        · have := not_lt.mp fun h' => absurd (subD_lt (v := v).mp h') (not_lt.mpr h)
          omega
        · have := not_lt.mp fun h' => absurd (subD_lt (v := v).mp h') (not_lt.mpr h)
          omega
      · unfold subD subA subB
        rw [e1, e2, e3]
        simp
        omega
    show ((subD v x z : ℕ) : ℚ) ≤ (subD v x y : ℕ) + (subD v y z : ℕ)
    exact_mod_cast h2

/-- The clusters depend only on the order of the distances. -/
theorem subD_labels (v : Nat) (med : List Nat) :
    (List.range 11).map (nearLabel (subD v) med) = (List.range 11).map (nearLabel subRank med) := by
  refine List.map_congr_left fun o _ => ?_
  unfold nearLabel
  split
  · rfl
  · exact firstMin_congr fun a b _ _ => subD_lt

/-! ## Bounds -/

/-- The silhouette increases with `b / a`. -/
theorem sil_mono {a b a' b' : ℚ} (ha : 0 ≤ a) (hb' : 0 ≤ b') (h0 : 0 < max a b) (h0' : 0 < max a' b')
    (h : a' * b ≤ b' * a) : (b - a) / max a b ≤ (b' - a') / max a' b' := by
  rw [div_le_div_iff₀ h0 h0']
  rcases le_total a b with h1 | h1
  · rw [max_eq_right h1] at h0 ⊢
    have h2 : a' ≤ b' := by
      by_contra hc
      have : b' * b < a' * b := mul_lt_mul_of_pos_right (not_le.mp hc) h0
      have := mul_le_mul_of_nonneg_left h1 hb'
      linarith
    rw [max_eq_right h2]
    linarith
  · rw [max_eq_left h1] at h0 ⊢
    rcases le_total a' b' with h2 | h2
    · rw [max_eq_right h2]
      have := mul_nonneg (sub_nonneg.mpr h2) ha
      have := mul_nonneg (sub_nonneg.mpr h1) hb'
      linarith
    · rw [max_eq_left h2]
      linarith

/-- Sum of `f` from `i` to the other members of cluster `c`. -/
def sumMem (f : Nat → Nat → ℕ) (A : List Nat) (i c : Nat) : ℕ := ((members A i c).map (f i)).sum

theorem meanDist_sub (v : Nat) (A : List Nat) (i c : Nat) :
    meanDist (conv : ℕ → ℚ) (subD v) A i c = ((sumMem subA A i c : ℚ) + v * (sumMem subB A i c : ℚ)) / ((members A i c).length : ℚ) := by
  unfold meanDist sumMem
  congr 1
  generalize members A i c = l
  induction l with
  | nil => simp
  | cons j l ih =>
    simp only [List.map_cons, List.sum_cons, ih]
    show ((subD v i j : ℕ) : ℚ) + _ = _
    unfold subD
    push_cast
    ring

theorem members_ne_nil {A : List Nat} {i c : Nat} (hc : c ∈ A) (hi : i < A.length) (hne : c ≠ A.getD i 0) : members A i c ≠ [] := by
  obtain ⟨j, hj, rfl⟩ := List.getElem_of_mem hc
  refine List.ne_nil_of_mem (a := j) (mem_members.mpr ⟨List.getElem?_eq_getElem hj, fun e => hne ?_⟩)
  subst e
  simp [List.getD_eq_getElem?_getD, hj]

theorem meanDist_sub_nonneg (v : Nat) (A : List Nat) (i c : Nat) : 0 ≤ meanDist (conv : ℕ → ℚ) (subD v) A i c := by
  rw [meanDist_sub]; positivity

/-- `x` times the mean distance to `c` is at most `y` times that to `c'`, for every `v`. -/
def MeanLe (A : List Nat) (i x c y c' : Nat) : Prop :=
  x * (sumMem subA A i c * (members A i c').length) ≤ y * (sumMem subA A i c' * (members A i c).length) ∧
    x * (sumMem subB A i c * (members A i c').length) ≤ y * (sumMem subB A i c' * (members A i c).length)

instance (A : List Nat) (i x c y c' : Nat) : Decidable (MeanLe A i x c y c') := by unfold MeanLe; infer_instance

theorem MeanLe.le {A : List Nat} {i x c y c' : Nat} (h : MeanLe A i x c y c') (h1 : members A i c ≠ []) (h2 : members A i c' ≠ []) (v : Nat) :
    (x : ℚ) * meanDist (conv : ℕ → ℚ) (subD v) A i c ≤ y * meanDist (conv : ℕ → ℚ) (subD v) A i c' := by
  rw [meanDist_sub, meanDist_sub, ← mul_div_assoc, ← mul_div_assoc,
    div_le_div_iff₀ (by exact_mod_cast List.length_pos_iff.mpr h1) (by exact_mod_cast List.length_pos_iff.mpr h2)]
  have hA : (x : ℚ) * (sumMem subA A i c * (members A i c').length) ≤ y * (sumMem subA A i c' * (members A i c).length) := by
    exact_mod_cast h.1
  have hB : (x : ℚ) * (sumMem subB A i c * (members A i c').length) ≤ y * (sumMem subB A i c' * (members A i c).length) := by
    exact_mod_cast h.2
  have := mul_le_mul_of_nonneg_left hB (Nat.cast_nonneg (α := ℚ) v)
  linarith

/-- The silhouette of an object that is not alone. -/
theorem silWith_sub {A : List Nat} {i : Nat} (hm : members A i (A.getD i 0) ≠ []) (hpos : 0 < sumMem subA A i (A.getD i 0))
    (hc : ∃ c ∈ A, c ≠ A.getD i 0) (v : Nat) :
    0 < meanDist (conv : ℕ → ℚ) (subD v) A i (A.getD i 0) ∧ ∃ c ∈ A, c ≠ A.getD i 0 ∧
      (∀ c' ∈ A, c' ≠ A.getD i 0 → meanDist (conv : ℕ → ℚ) (subD v) A i c ≤ meanDist (conv : ℕ → ℚ) (subD v) A i c') ∧
      silWith (conv : ℕ → ℚ) (subD v) A i (A.getD i 0) =
        (meanDist (conv : ℕ → ℚ) (subD v) A i c - meanDist (conv : ℕ → ℚ) (subD v) A i (A.getD i 0)) /
          max (meanDist (conv : ℕ → ℚ) (subD v) A i (A.getD i 0)) (meanDist (conv : ℕ → ℚ) (subD v) A i c) := by
  have ha : 0 < meanDist (conv : ℕ → ℚ) (subD v) A i (A.getD i 0) := by
    rw [meanDist_sub]
    have h1 : (0 : ℚ) < ((members A i (A.getD i 0)).length : ℚ) := by exact_mod_cast List.length_pos_iff.mpr hm
    have h2 : (0 : ℚ) < (sumMem subA A i (A.getD i 0) : ℚ) := by exact_mod_cast hpos
    positivity
  refine ⟨ha, ?_⟩
  unfold silWith
  rw [if_neg hm]
  cases hmin : ((A.filter (· ≠ A.getD i 0)).map (meanDist (conv : ℕ → ℚ) (subD v) A i)).min? with
  | none =>
    rw [List.min?_eq_none_iff, List.map_eq_nil_iff] at hmin
    obtain ⟨c, hc, hne⟩ := hc
    have : c ∈ A.filter (· ≠ A.getD i 0) := List.mem_filter.mpr ⟨hc, by simpa using hne⟩
    rw [hmin] at this
    cases this
  | some b =>
    obtain ⟨h1, h2⟩ := List.min?_eq_some_iff.mp hmin
    obtain ⟨c, hc, rfl⟩ := List.mem_map.mp h1
    rw [List.mem_filter] at hc
    refine ⟨c, hc.1, by simpa using hc.2, fun c' hc' hne' => h2 _ (List.mem_map.mpr ⟨c', List.mem_filter.mpr ⟨hc', by simpa using hne'⟩, rfl⟩), ?_⟩
    dsimp only
    rw [if_neg (lt_max_of_lt_left ha).ne']

/-- Object `i` is not alone. -/
def Company (A : List Nat) (i : Nat) : Prop :=
  members A i (A.getD i 0) ≠ [] ∧ 0 < sumMem subA A i (A.getD i 0) ∧ ∃ c ∈ A, c ≠ A.getD i 0

instance (A : List Nat) (i : Nat) : Decidable (Company A i) := by unfold Company; infer_instance

theorem sil_upper {A : List Nat} {i x y : Nat} (hi : i < A.length) (hC : Company A i) (hxy : 0 < max x y)
    (h : ∃ c ∈ A, c ≠ A.getD i 0 ∧ MeanLe A i x c y (A.getD i 0)) (v : Nat) :
    silWith (conv : ℕ → ℚ) (subD v) A i (A.getD i 0) ≤ ((y : ℚ) - x) / max (x : ℚ) y := by
  obtain ⟨ha, c, hc, hne, hmin, e⟩ := silWith_sub hC.1 hC.2.1 hC.2.2 v
  obtain ⟨c', hc', hne', hle⟩ := h
  rw [e]
  refine sil_mono ha.le (Nat.cast_nonneg _) (lt_max_of_lt_left ha) (by exact_mod_cast hxy) ?_
  exact (mul_le_mul_of_nonneg_left (hmin c' hc' hne') (Nat.cast_nonneg _)).trans (hle.le (members_ne_nil hc' hi hne') hC.1 v)

theorem sil_lower {A : List Nat} {i x y : Nat} (hi : i < A.length) (hC : Company A i) (hxy : 0 < max x y)
    (h : ∀ c ∈ A, c ≠ A.getD i 0 → MeanLe A i y (A.getD i 0) x c) (v : Nat) :
    ((y : ℚ) - x) / max (x : ℚ) y ≤ silWith (conv : ℕ → ℚ) (subD v) A i (A.getD i 0) := by
  obtain ⟨ha, c, hc, hne, -, e⟩ := silWith_sub hC.1 hC.2.1 hC.2.2 v
  rw [e]
  refine sil_mono (Nat.cast_nonneg _) (meanDist_sub_nonneg _ _ _ _) (by exact_mod_cast hxy) (lt_max_of_lt_left ha) ?_
  have := (h c hc hne).le hC.1 (members_ne_nil hc hi hne) v
  linarith

/-- Upper bound of the silhouette, times 20. -/
def upBound (A : List Nat) (i : Nat) : ℤ :=
  if Company A i then
    if ∃ c ∈ A, c ≠ A.getD i 0 ∧ MeanLe A i 10 c 1 (A.getD i 0) then -18
    else if ∃ c ∈ A, c ≠ A.getD i 0 ∧ MeanLe A i 1 c 1 (A.getD i 0) then 0
    else if ∃ c ∈ A, c ≠ A.getD i 0 ∧ MeanLe A i 3 c 4 (A.getD i 0) then 5
    else 20
  else if members A i (A.getD i 0) = [] then 0 else 20

/-- Lower bound of the silhouette, times 20. -/
def lowBound (A : List Nat) (i : Nat) : ℤ :=
  if Company A i then
    if ∀ c ∈ A, c ≠ A.getD i 0 → MeanLe A i 10 (A.getD i 0) 1 c then 18
    else if ∀ c ∈ A, c ≠ A.getD i 0 → MeanLe A i 3 (A.getD i 0) 4 c then -5
    else -20
  else -20

theorem silWith_le_upBound {A : List Nat} {i : Nat} (hi : i < A.length) (v : Nat) :
    silWith (conv : ℕ → ℚ) (subD v) A i (A.getD i 0) ≤ (upBound A i : ℚ) / 20 := by
  have h1 : silWith (conv : ℕ → ℚ) (subD v) A i (A.getD i 0) ≤ 1 := by
    have := silWith_le_one (cv := (conv : ℕ → ℚ)) (d := subD v) (meanDist_sub_nonneg v A i (A.getD i 0))
    linarith
  unfold upBound
  by_cases hC : Company A i
  · rw [if_pos hC]
    by_cases g1 : ∃ c ∈ A, c ≠ A.getD i 0 ∧ MeanLe A i 10 c 1 (A.getD i 0)
    · rw [if_pos g1]
      exact (sil_upper hi hC (by decide) g1 v).trans (by norm_num)
    rw [if_neg g1]
    by_cases g2 : ∃ c ∈ A, c ≠ A.getD i 0 ∧ MeanLe A i 1 c 1 (A.getD i 0)
    · rw [if_pos g2]
      exact (sil_upper hi hC (by decide) g2 v).trans (by norm_num)
    rw [if_neg g2]
    by_cases g3 : ∃ c ∈ A, c ≠ A.getD i 0 ∧ MeanLe A i 3 c 4 (A.getD i 0)
    · rw [if_pos g3]
      exact (sil_upper hi hC (by decide) g3 v).trans (by norm_num)
    rw [if_neg g3]
    exact h1.trans (by norm_num)
  · rw [if_neg hC]
    by_cases hm : members A i (A.getD i 0) = []
    · rw [if_pos hm]
      unfold silWith
      rw [if_pos hm]
      norm_num
    · rw [if_neg hm]
      exact h1.trans (by norm_num)

theorem lowBound_le_silWith {A : List Nat} {i : Nat} (hi : i < A.length) (hC : Company A i) (v : Nat) :
    (lowBound A i : ℚ) / 20 ≤ silWith (conv : ℕ → ℚ) (subD v) A i (A.getD i 0) := by
  unfold lowBound
  rw [if_pos hC]
  by_cases g1 : ∀ c ∈ A, c ≠ A.getD i 0 → MeanLe A i 10 (A.getD i 0) 1 c
  · rw [if_pos g1]
    exact le_trans (by norm_num) (sil_lower hi hC (by decide) g1 v)
  rw [if_neg g1]
  by_cases g2 : ∀ c ∈ A, c ≠ A.getD i 0 → MeanLe A i 3 (A.getD i 0) 4 c
  · rw [if_pos g2]
    exact le_trans (by norm_num) (sil_lower hi hC (by decide) g2 v)
  rw [if_neg g2]
  refine le_trans ?_ (sil_lower (x := 1) (y := 0) hi hC (by decide) (fun c _ _ => ⟨by omega, by omega⟩) v)
  norm_num

theorem sum_twenty (f : Nat → ℤ) (l : List Nat) : (((l.map f).sum : ℤ) : ℚ) / 20 = (l.map fun i => (f i : ℚ) / 20).sum := by
  induction l with
  | nil => simp
  | cons x l ih => simp only [List.map_cons, List.sum_cons, ← ih]; push_cast; ring

theorem clusterSil_sub {v : Nat} {med A : List Nat} (h : (List.range 11).map (nearLabel subRank med) = A) :
    clusterSil ℚ 11 (subD v) med = ((List.range 11).map fun i => silWith (conv : ℕ → ℚ) (subD v) A i (A.getD i 0)).sum / 11 := by
  have hl : A.length = 11 := by rw [← h]; simp
  unfold clusterSil mean
  rw [subD_labels, h, silList_range, List.length_map, List.length_range, hl]
  norm_num

theorem clusterSil_sub_le {v : Nat} {med A : List Nat} (h : (List.range 11).map (nearLabel subRank med) = A) {t : ℤ}
    (ht : ((List.range 11).map (upBound A)).sum ≤ t) : clusterSil ℚ 11 (subD v) med ≤ t / 20 / 11 := by
  have hl : A.length = 11 := by rw [← h]; simp
  rw [clusterSil_sub h]
  refine div_le_div_of_nonneg_right (le_trans (List.sum_le_sum fun i hi =>
    silWith_le_upBound (by rw [hl]; exact List.mem_range.mp hi) v) ?_) (by norm_num)
  rw [← sum_twenty]
  exact div_le_div_of_nonneg_right (by exact_mod_cast ht) (by norm_num)

/-- The silhouette of the local optimum. -/
theorem sub_local (v : Nat) : 68 / 220 ≤ clusterSil ℚ 11 (subD v) [6, 2, 5] ∧ clusterSil ℚ 11 (subD v) [6, 2, 5] ≤ 6 / 11 := by
  constructor
  · rw [clusterSil_sub (A := [1, 1, 1, 2, 2, 2, 0, 0, 0, 0, 0]) (by decide +kernel)]
    have hg : ∀ i ∈ List.range 11, Company [1, 1, 1, 2, 2, 2, 0, 0, 0, 0, 0] i := by decide +kernel
    have hs : ((List.range 11).map (lowBound [1, 1, 1, 2, 2, 2, 0, 0, 0, 0, 0])).sum = 68 := by decide +kernel
    have h1 := List.sum_le_sum (l := List.range 11) fun i hi =>
      lowBound_le_silWith (A := [1, 1, 1, 2, 2, 2, 0, 0, 0, 0, 0]) (List.mem_range.mp hi) (hg i hi) v
    rw [← sum_twenty, hs] at h1
    norm_num at h1 ⊢
    linarith
  · have := clusterSil_sub_le (v := v) (med := [6, 2, 5]) (t := 120) rfl (by decide +kernel)
    exact this.trans (by norm_num)

/-- **C135, local optimum.** No exchange of a medoid for another object gives a larger silhouette. -/
theorem C135_local_optimum_three (v : Nat) {m j : Nat} (hm : m < 3) (hj : j < 11) (hjm : j ∉ [6, 2, 5]) :
    clusterSil ℚ 11 (subD v) ([6, 2, 5].set m j) ≤ clusterSil ℚ 11 (subD v) [6, 2, 5] := by
  have key : ∀ m < 3, ∀ j < 11, j ∉ [6, 2, 5] →
      (List.range 11).map (nearLabel subRank ([6, 2, 5].set m j)) = (List.range 11).map (nearLabel subRank [6, 2, 5]) ∨
      ((List.range 11).map (upBound ((List.range 11).map (nearLabel subRank ([6, 2, 5].set m j))))).sum ≤ 68 := by decide +kernel
  rcases key m hm j hj hjm with h | h
  · rw [clusterSil_sub h, clusterSil_sub rfl]
  · refine le_trans (clusterSil_sub_le rfl h) (le_trans ?_ (sub_local v).1)
    norm_num

/-- The deficit of the groups. -/
theorem sub_best (v : Nat) : 1 - clusterSil ℚ 11 (subD v) [6, 7, 9] ≤ 10 / (v + 1000 : ℕ) ∧ 0 < 1 - clusterSil ℚ 11 (subD v) [6, 7, 9] := by
  have hlab : ∀ o < 11, nearLabel (subD v) [6, 7, 9] o = subGroup o - 2 := fun o ho => by
    have h1 : nearLabel (subD v) [6, 7, 9] o = nearLabel subRank [6, 7, 9] o := by
      have := congrArg (fun l => l.getD o 0) (subD_labels v [6, 7, 9])
      simpa only [lab_getD ho] using this
    have h2 : ∀ o < 11, nearLabel subRank [6, 7, 9] o = subGroup o - 2 := by decide +kernel
    rw [h1, h2 o ho]
  have e := clusterSil_deficit (n := 11) (d := subD v) (lab := fun o => subGroup o - 2) (by omega) hlab
  have h11 : ((11 : ℕ) : ℚ) = 11 := by norm_num
  have hex : ∀ i < 11, (∃ j < 11, j ≠ i ∧ subGroup j - 2 = subGroup i - 2) ∧ ∃ j < 11, subGroup j - 2 ≠ subGroup i - 2 := by decide +kernel
  have hrk : ∀ i < 11, ∀ x < 11, (subGroup x - 2 = subGroup i - 2 → subRank i x ≤ 2) ∧ (subGroup x - 2 ≠ subGroup i - 2 → 3 ≤ subRank i x) := by
    decide +kernel
  have hup : ∀ i ∈ Finset.range 11, 1 - silWith (conv : ℕ → ℚ) (subD v) ((List.range 11).map fun o => subGroup o - 2) i (subGroup i - 2) ≤
      10 / (v + 1000 : ℕ) := fun i hi => by
    rw [Finset.mem_range] at hi
    obtain ⟨⟨j, hj1, hj2, hj3⟩, j', hj1', hj2'⟩ := hex i hi
    have := lab_deficit_le (n := 11) (lab := fun o => subGroup o - 2) (d := subD v) (i := i) (δ := 10) (S := v + 1000) (by omega) (by omega)
      hj1 hj2 hj3 hj1' hj2'
      (fun x hx _ hl => by
        have := (hrk i hi x hx).1 hl
        unfold subD subA subB
        split_ifs <;> omega)
      (fun x hx hl => by
        have := (hrk i hi x hx).2 hl
        unfold subD subA subB
        split_ifs <;> omega)
    exact_mod_cast this
  have hlow : ∀ i ∈ Finset.range 11,
      0 < 1 - silWith (conv : ℕ → ℚ) (subD v) ((List.range 11).map fun o => subGroup o - 2) i (subGroup i - 2) := fun i hi => by
    rw [Finset.mem_range] at hi
    obtain ⟨-, j', hj1', hj2'⟩ := hex i hi
    have hB : (0 : ℚ) < ((2000 + 2 * v : ℕ) : ℚ) := by exact_mod_cast (by omega : 0 < 2000 + 2 * v)
    refine lt_of_lt_of_le (div_pos one_pos hB) (lab_deficit_ge (n := 11) (lab := fun o => subGroup o - 2) (α := 1) hB zero_le_one
      (by exact_mod_cast (by omega : 1 ≤ 2000 + 2 * v)) (fun hm => meanDist_ge hm fun j hj => ?_) hj1' rfl hj2' fun x hx _ => ?_)
    · rw [mem_members_lab] at hj
      have : 1 ≤ subD v i j := by
        have h0 : subRank i j ≠ 0 := by
          unfold subRank
          rw [if_neg (Ne.symm hj.2)]
          split_ifs <;> omega
        unfold subD subA subB
        split_ifs <;> omega
      show (1 : ℚ) ≤ ((subD v i j : ℕ) : ℚ)
      exact_mod_cast this
    · have : subD v i x ≤ 2000 + 2 * v := by
        unfold subD subA subB
        split_ifs <;> omega
      exact_mod_cast this
  rw [h11] at e
  constructor
  · have h1 := Finset.sum_le_card_nsmul _ _ _ hup
    rw [Finset.card_range, nsmul_eq_mul, ← e, h11] at h1
    linarith
  · have h1 := Finset.sum_pos hlow ⟨0, Finset.mem_range.mpr (by omega)⟩
    rw [← e] at h1
    linarith

theorem sub_run (v fuel : Nat) : ∃ it, silRun (clusterSil ℚ 11 (subD v)) 11 fuel (clusterSil ℚ 11 (subD v) [6, 2, 5]) [6, 2, 5] =
    some ([6, 2, 5], clusterSil ℚ 11 (subD v) [6, 2, 5], it, 0) := by
  have h0 := (sub_local v).1
  cases fuel with
  | zero => exact ⟨0, rfl⟩
  | succ fuel =>
    have hs := pickBest_spec (clusterSil ℚ 11 (subD v)) (max 0 (clusterSil ℚ 11 (subD v) [6, 2, 5])) (exchanges 11 [6, 2, 5])
    refine ⟨1, ?_⟩
    unfold silRun
    cases he : pickBest (clusterSil ℚ 11 (subD v)) (max 0 (clusterSil ℚ 11 (subD v) [6, 2, 5])) (exchanges 11 [6, 2, 5]) with
    | none =>
      dsimp only
      rw [if_neg (not_lt.mpr (by linarith))]
    | some b =>
      exfalso
      rw [he] at hs
      obtain ⟨pre, post, h1, h2, -⟩ := hs
      have hb : b ∈ exchanges 11 [6, 2, 5] := by rw [h1]; simp
      unfold exchanges at hb
      simp only [List.mem_flatMap, List.mem_map, List.mem_filter, List.mem_range, decide_eq_true_eq] at hb
      obtain ⟨m, hm, j, ⟨hj, hjm⟩, rfl⟩ := hb
      exact absurd (lt_of_le_of_lt (le_max_right _ _) h2) (not_lt.mpr (C135_local_optimum_three v hm hj hjm))

/-- **C135, three clusters.** -/
theorem C135_no_factor_three (c : Nat) : ∃ (d : Nat → Nat → ℕ) (med other : List Nat), Dissim 11 d ∧ IsMetric (conv : ℕ → ℚ) 11 d ∧ ValidMeds 11 med ∧
    med.Nodup ∧ med.length = 3 ∧ other.length = 3 ∧ (∀ x ∈ other, x < 11) ∧ other.Nodup ∧ 0 < 1 - clusterSil ℚ 11 d other ∧
    ∀ maxiter, ∃ r, pamsilSwap ℚ (fnMat 11 d) med maxiter = .ok r ∧ r.nSwap = 0 ∧ r.med = med ∧
      c * (1 - clusterSil ℚ 11 d other) < 1 - r.loss := by
  have hv : ValidMeds 11 [6, 2, 5] := ⟨⟨by decide, by decide, by decide, by decide⟩, by decide⟩
  refine ⟨subD (30 * c), [6, 2, 5], [6, 7, 9], subD_dissim, C135_metric_three, hv, by decide, rfl, rfl, by decide, by decide,
    (sub_best _).2, fun maxiter => ?_⟩
  have hrun := C93_pamsil_swap_zero (L := ℚ) (fnMat_isMatrix 11 (subD (30 * c))) subD_dissim hv (by decide) (by decide) maxiter
    (fun i _ r hr => by
      obtain ⟨it, h⟩ := sub_run (30 * c) i
      rw [h] at hr
      cases hr
      dsimp only
      decide)
  obtain ⟨it, h⟩ := sub_run (30 * c) maxiter
  rw [h] at hrun
  refine ⟨_, hrun, rfl, rfl, ?_⟩
  have h1 := (sub_best (30 * c)).1
  have h2 := (sub_local (30 * c)).2
  have h3 := mul_le_mul_of_nonneg_left h1 (Nat.cast_nonneg (α := ℚ) c)
  have h4 : (c : ℚ) * (10 / (30 * c + 1000 : ℕ)) < 1 / 3 := by
    have : (0 : ℚ) < (30 * c + 1000 : ℕ) := by exact_mod_cast (by omega : 0 < 30 * c + 1000)
    rw [← mul_div_assoc, div_lt_div_iff₀ this (by norm_num)]
    push_cast
    linarith
  show (c : ℚ) * _ < 1 - clusterSil ℚ 11 (subD (30 * c)) [6, 2, 5]
  linarith

/-! ## Example -/

/-- With `W = 1000`: a deficit of more than two thirds, and one of less than `1/100`. -/
example : (pamsilSwap ℚ (fnMat 11 (subD 0)) [6, 2, 5] 100).map (fun r => (r.loss, r.nSwap, r.med)) = .ok (1805041 / 5501100, 0, [6, 2, 5]) ∧
    clusterSil ℚ 11 (subD 0) [6, 7, 9] = 1368 / 1375 := by
  decide +kernel

end KMedoids
