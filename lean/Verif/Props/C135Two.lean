import Mathlib.Order.Interval.Finset.Nat
import Verif.Props.C135Three

/-!
# C135 for two clusters

There are two groups `A`, `B` of `s` objects, with distance 1 within and `s` between the groups, and two remote objects: one at distance `2 s` from
the groups, the other one at distance `16 s`, with distance `18 s` between them. With one medoid in each group, all objects of the groups have small
deficits, together at most a constant. With the two remote objects as medoids, the groups are in one cluster, and every object of them has a deficit of at
least `1/32`. If one of these medoids is moved to a group, the groups are still in one cluster, together with the other remote object: only two medoids in
the groups can separate them.
-/

set_option linter.unusedSectionVars false

namespace KMedoids

open RFrom (conv)

/-- Two groups of `s` objects and the remote objects `2 s`, `2 s + 1`. -/
def remoteD (s x y : Nat) : ℕ :=
  if x = y then 0
  else if x < 2 * s then (if y < 2 * s then (if x < s ↔ y < s then 1 else s) else if y = 2 * s then 2 * s else 16 * s)
  else if y < 2 * s then (if x = 2 * s then 2 * s else 16 * s) else 18 * s

theorem remoteD_dissim {s n : Nat} : Dissim n (remoteD s) :=
  ⟨fun x _ => by simp [remoteD], fun _ _ _ _ => Nat.zero_le _⟩

/-- **C135, metric.** -/
theorem C135_metric_two {s : Nat} (hs : 2 ≤ s) : IsMetric (conv : ℕ → ℚ) (2 * s + 2) (remoteD s) where
  symm x y _ _ := by unfold remoteD; split_ifs <;> omega
  triangle x y z hx hy hz := by
    have h2 : remoteD s x z ≤ remoteD s x y + remoteD s y z := by
      unfold remoteD
      split_ifs <;> omega
    show ((remoteD s x z : ℕ) : ℚ) ≤ (remoteD s x y : ℕ) + (remoteD s y z : ℕ)
    exact_mod_cast h2

/-! ## Mean distances -/

section mean
variable {n : Nat} {lab : Nat → Nat} {d : Nat → Nat → ℕ} {i c : Nat}

theorem members_nodup (A : List Nat) (i c : Nat) : (members A i c).Nodup := List.nodup_range.filter _

theorem members_toFinset :
    (members ((List.range n).map lab) i c).toFinset = ((Finset.range n).filter fun j => lab j = c).erase i := by
  ext j
  rw [List.mem_toFinset, mem_members_lab, Finset.mem_erase, Finset.mem_filter, Finset.mem_range]
  tauto

theorem members_length : (members ((List.range n).map lab) i c).length = (((Finset.range n).filter fun j => lab j = c).erase i).card := by
  rw [← members_toFinset, List.toFinset_card_of_nodup (members_nodup _ _ _)]

theorem lab_meanDist : meanDist (conv : ℕ → ℚ) d ((List.range n).map lab) i c =
    (∑ j ∈ ((Finset.range n).filter fun j => lab j = c).erase i, (d i j : ℚ)) / ((((Finset.range n).filter fun j => lab j = c).erase i).card : ℚ) := by
  unfold meanDist
  rw [members_length, ← members_toFinset, List.sum_toFinset _ (members_nodup _ _ _)]
  rfl

theorem neg_one_le_silWith : 1 - silWith (conv : ℕ → ℚ) d ((List.range n).map lab) i c ≤ 2 := by
  unfold silWith
  split_ifs with hm
  · norm_num
  · cases hmin : ((((List.range n).map lab).filter (· ≠ c)).map (meanDist (conv : ℕ → ℚ) d ((List.range n).map lab) i)).min? with
    | none => norm_num
    | some b =>
      have hb : 0 ≤ b := by
        obtain ⟨c', -, rfl⟩ := List.mem_map.mp (List.min?_mem hmin)
        exact lab_mean_nonneg c'
      have ha : 0 ≤ meanDist (conv : ℕ → ℚ) d ((List.range n).map lab) i c := lab_mean_nonneg c
      dsimp only
      split_ifs with h0
      · norm_num
      · have hp : 0 < max (meanDist (conv : ℕ → ℚ) d ((List.range n).map lab) i c) b := lt_of_le_of_ne (le_max_of_le_left ha) (Ne.symm h0)
        have : -1 ≤ (b - meanDist (conv : ℕ → ℚ) d ((List.range n).map lab) i c) / max (meanDist (conv : ℕ → ℚ) d ((List.range n).map lab) i c) b := by
          rw [le_div_iff₀ hp]
          have := le_max_left (meanDist (conv : ℕ → ℚ) d ((List.range n).map lab) i c) b
          linarith
        linarith

end mean

section family
variable {s : Nat}

/-- The deficit of an object of a group is at least `1/(2 q)` if both groups are in its cluster, with at most one of the remote objects, and there is a cluster
at distance at most `q s`. -/
theorem remote_deficit_ge (hs : 2 ≤ s) {lab : Nat → Nat} {i z q : Nat} (hi : i < 2 * s) (hq : 1 ≤ q) (hz : 2 * s ≤ z) (hzn : z < 2 * s + 2)
    (hl : ∀ j < 2 * s, lab j = lab i) (hlz : lab z ≠ lab i) (hd : ∀ x < 2 * s + 2, lab x = lab z → remoteD s i x ≤ q * s) :
    1 / (2 * q : ℚ) ≤ 1 - silWith (conv : ℕ → ℚ) (remoteD s) ((List.range (2 * s + 2)).map lab) i (lab i) := by
  have hsq : (0 : ℚ) < s := by exact_mod_cast (by omega : 0 < s)
  have hqq : (1 : ℚ) ≤ q := by exact_mod_cast hq
  have hqs : (s : ℚ) ≤ q * s := le_mul_of_one_le_left hsq.le hqq
  have := lab_deficit_ge (n := 2 * s + 2) (lab := lab) (d := remoteD s) (i := i) (c := lab z) (j := z) (α := s / 2) (B := q * s) (by positivity)
    (by positivity) (by linarith) (fun hm => ?_) (by omega) rfl hlz fun x hx hxz => by exact_mod_cast hd x hx hxz
  · have e : (s : ℚ) / 2 / (q * s) = 1 / (2 * q) := by
      rw [div_div, div_eq_div_iff (by positivity) (by positivity)]
      ring
    rwa [e] at this
  · rw [lab_meanDist]
    generalize hT : ((Finset.range (2 * s + 2)).filter fun j => lab j = lab i).erase i = T
    have hcard : T.card ≤ 2 * s := by
      have h1 : T ⊆ ((Finset.range (2 * s + 2)).erase i).erase z := fun j hj => by
        rw [← hT] at hj
        simp only [Finset.mem_erase, Finset.mem_filter, Finset.mem_range] at hj ⊢
        exact ⟨fun e => hlz (e ▸ hj.2.2), hj.1, hj.2.1⟩
      have h2 := Finset.card_le_card h1
      rw [Finset.card_erase_of_mem (by simp only [Finset.mem_erase, Finset.mem_range]; omega), Finset.card_erase_of_mem (by simp; omega),
        Finset.card_range] at h2
      omega
    have hsum : (s : ℚ) * s ≤ ∑ j ∈ T, (remoteD s i j : ℚ) := by
      have h1 : Finset.Ico (if i < s then s else 0) ((if i < s then s else 0) + s) ⊆ T := fun j hj => by
        rw [← hT]
        simp only [Finset.mem_erase, Finset.mem_filter, Finset.mem_range, Finset.mem_Ico] at hj ⊢
        have hj2 : j < 2 * s ∧ j ≠ i := by split_ifs at hj <;> omega
        exact ⟨hj2.2, by omega, hl j hj2.1⟩
      refine le_trans ?_ (Finset.sum_le_sum_of_subset_of_nonneg h1 fun _ _ _ => Nat.cast_nonneg _)
      have h2 := Finset.card_nsmul_le_sum (Finset.Ico (if i < s then s else 0) ((if i < s then s else 0) + s)) (fun j => (remoteD s i j : ℚ)) s
        (fun j hj => by
          rw [Finset.mem_Ico] at hj
          have : s ≤ remoteD s i j := by
            unfold remoteD
            split_ifs at * <;> omega
          exact_mod_cast this)
      rw [Nat.card_Ico, nsmul_eq_mul, Nat.add_sub_cancel_left] at h2
      exact h2
    have hpos : 0 < T.card := by
      rw [← hT, ← members_length]
      exact List.length_pos_iff.mpr hm
    rw [le_div_iff₀ (by exact_mod_cast hpos)]
    have hc : (T.card : ℚ) ≤ 2 * s := by exact_mod_cast hcard
    have := mul_le_mul_of_nonneg_left hc (by positivity : (0 : ℚ) ≤ s / 2)
    linarith

/-- All objects but `z` are in cluster `a`. -/
def oneLab (z a b o : Nat) : Nat := if o = z then b else a

/-- The deficit with the clusters of the start: the second remote object is alone. -/
theorem remote_start (hs : 2 ≤ s) {med : List Nat} (h : ∀ o < 2 * s + 2, nearLabel (remoteD s) med o = oneLab (2 * s + 1) 0 1 o) :
    ((2 * s + 2 : ℕ) : ℚ) * (1 - clusterSil ℚ (2 * s + 2) (remoteD s) med) ≤ s / 4 + 9 / 8 ∧
      (s : ℚ) / 16 ≤ ((2 * s + 2 : ℕ) : ℚ) * (1 - clusterSil ℚ (2 * s + 2) (remoteD s) med) := by
  rw [clusterSil_deficit (by omega) h]
  have h8 : ((2 * s : ℕ) : ℚ) / ((16 * s : ℕ) : ℚ) = 1 / 8 := by
    have : (s : ℚ) ≠ 0 := by exact_mod_cast (by omega : s ≠ 0)
    rw [Nat.cast_mul, Nat.cast_mul, div_eq_div_iff (mul_ne_zero (by norm_num) this) (by norm_num)]
    push_cast
    ring
  have hup : ∀ i ∈ Finset.range (2 * s + 1), 1 - silWith (conv : ℕ → ℚ) (remoteD s) ((List.range (2 * s + 2)).map (oneLab (2 * s + 1) 0 1)) i
      (oneLab (2 * s + 1) 0 1 i) ≤ 1 / 8 := fun i hi => by
    rw [Finset.mem_range] at hi
    rw [← h8]
    have hz : oneLab (2 * s + 1) 0 1 i = 0 := by unfold oneLab; rw [if_neg (by omega)]
    refine lab_deficit_le (j := if i = 0 then 1 else 0) (j' := 2 * s + 1) (by omega) (by omega) (by split_ifs <;> omega) (by split_ifs <;> omega)
      ?_ (by omega) ?_ (fun x hx _ hl => ?_) fun x hx hl => ?_
    · rw [hz]; unfold oneLab; split_ifs <;> omega
    · rw [hz]; simp [oneLab]
    · rw [hz] at hl
      unfold oneLab at hl
      unfold remoteD
      split_ifs at * <;> omega
    · rw [hz] at hl
      unfold oneLab at hl
      unfold remoteD
      split_ifs at * <;> omega
  have hlow : ∀ i ∈ Finset.range (2 * s), (1 / 32 : ℚ) ≤ 1 - silWith (conv : ℕ → ℚ) (remoteD s) ((List.range (2 * s + 2)).map (oneLab (2 * s + 1) 0 1)) i
      (oneLab (2 * s + 1) 0 1 i) := fun i hi => by
    rw [Finset.mem_range] at hi
    have hz : ∀ j < 2 * s, oneLab (2 * s + 1) 0 1 j = 0 := fun j hj => by unfold oneLab; rw [if_neg (by omega)]
    have := remote_deficit_ge hs (lab := oneLab (2 * s + 1) 0 1) (z := 2 * s + 1) (q := 16) hi (by omega) (by omega) (by omega)
      (fun j hj => by rw [hz j hj, hz i hi]) (by rw [hz i hi]; simp [oneLab]) (fun x hx hl => by
        unfold oneLab at hl
        unfold remoteD
        split_ifs at * <;> omega)
    norm_num at this ⊢
    exact this
  have hlast : 1 - silWith (conv : ℕ → ℚ) (remoteD s) ((List.range (2 * s + 2)).map (oneLab (2 * s + 1) 0 1)) (2 * s + 1)
      (oneLab (2 * s + 1) 0 1 (2 * s + 1)) = 1 := by
    have : members ((List.range (2 * s + 2)).map (oneLab (2 * s + 1) 0 1)) (2 * s + 1) (oneLab (2 * s + 1) 0 1 (2 * s + 1)) = [] := by
      refine List.eq_nil_iff_forall_not_mem.mpr fun j hj => ?_
      rw [mem_members_lab] at hj
      obtain ⟨⟨h1, h2⟩, h3⟩ := hj
      unfold oneLab at h2
      rw [if_neg h3, if_pos rfl] at h2
      omega
    unfold silWith
    rw [if_pos this, sub_zero]
  have hmid : 0 ≤ 1 - silWith (conv : ℕ → ℚ) (remoteD s) ((List.range (2 * s + 2)).map (oneLab (2 * s + 1) 0 1)) (2 * s)
      (oneLab (2 * s + 1) 0 1 (2 * s)) := silWith_le_one (lab_mean_nonneg _)
  have h1 := Finset.sum_le_card_nsmul _ _ _ hup
  have h2 := Finset.card_nsmul_le_sum _ _ _ hlow
  rw [Finset.card_range, nsmul_eq_mul] at h1 h2
  rw [Finset.sum_range_succ, hlast]
  rw [Finset.sum_range_succ] at h1 ⊢
  push_cast at h1 h2
  constructor <;> linarith

/-- With the clusters after an exchange of the second medoid, the first remote object is alone. -/
theorem remote_swap (hs : 2 ≤ s) {med : List Nat} (h : ∀ o < 2 * s + 2, nearLabel (remoteD s) med o = oneLab (2 * s) 1 0 o) :
    (s : ℚ) / 2 + 1 ≤ ((2 * s + 2 : ℕ) : ℚ) * (1 - clusterSil ℚ (2 * s + 2) (remoteD s) med) := by
  rw [clusterSil_deficit (by omega) h]
  have hlow : ∀ i ∈ Finset.range (2 * s), (1 / 4 : ℚ) ≤ 1 - silWith (conv : ℕ → ℚ) (remoteD s) ((List.range (2 * s + 2)).map (oneLab (2 * s) 1 0)) i
      (oneLab (2 * s) 1 0 i) := fun i hi => by
    rw [Finset.mem_range] at hi
    have hz : ∀ j < 2 * s, oneLab (2 * s) 1 0 j = 1 := fun j hj => by unfold oneLab; rw [if_neg (by omega)]
    have := remote_deficit_ge hs (lab := oneLab (2 * s) 1 0) (z := 2 * s) (q := 2) hi (by omega) (by omega) (by omega)
      (fun j hj => by rw [hz j hj, hz i hi]) (by rw [hz i hi]; simp [oneLab]) (fun x hx hl => by
        unfold oneLab at hl
        unfold remoteD
        split_ifs at * <;> omega)
    norm_num at this ⊢
    exact this
  have hlast : 1 - silWith (conv : ℕ → ℚ) (remoteD s) ((List.range (2 * s + 2)).map (oneLab (2 * s) 1 0)) (2 * s)
      (oneLab (2 * s) 1 0 (2 * s)) = 1 := by
    have : members ((List.range (2 * s + 2)).map (oneLab (2 * s) 1 0)) (2 * s) (oneLab (2 * s) 1 0 (2 * s)) = [] := by
      refine List.eq_nil_iff_forall_not_mem.mpr fun j hj => ?_
      rw [mem_members_lab] at hj
      obtain ⟨⟨h1, h2⟩, h3⟩ := hj
      unfold oneLab at h2
      rw [if_neg h3, if_pos rfl] at h2
      omega
    unfold silWith
    rw [if_pos this, sub_zero]
  have hmid : 0 ≤ 1 - silWith (conv : ℕ → ℚ) (remoteD s) ((List.range (2 * s + 2)).map (oneLab (2 * s) 1 0)) (2 * s + 1)
      (oneLab (2 * s) 1 0 (2 * s + 1)) := silWith_le_one (lab_mean_nonneg _)
  have h2 := Finset.card_nsmul_le_sum _ _ _ hlow
  rw [Finset.card_range, nsmul_eq_mul] at h2
  rw [Finset.sum_range_succ, Finset.sum_range_succ, hlast]
  push_cast at h2
  linarith

/-- The label with two medoids. -/
theorem two_label {y0 y1 o : Nat} (ho : o < 2 * s + 2) :
    (remoteD s o y0 < remoteD s o y1 → nearLabel (remoteD s) [y0, y1] o = 0) ∧ (remoteD s o y1 < remoteD s o y0 → nearLabel (remoteD s) [y0, y1] o = 1) ∧
      (remoteD s o y0 = remoteD s o y1 → o ≠ y0 → o ≠ y1 → nearLabel (remoteD s) [y0, y1] o = 0) := by
  obtain ⟨h1, h2, h3⟩ := nearLabel_spec (remoteD_dissim (s := s) (n := 2 * s + 2)) (med := [y0, y1]) (by simp) ho
  simp only [List.length_cons, List.length_nil] at h1 h2
  have g0 := h2 0 (by omega)
  have g1 := h2 1 (by omega)
  generalize nearLabel (remoteD s) [y0, y1] o = a at *
  have ha : a = 0 ∨ a = 1 := by omega
  rcases ha with rfl | rfl
  · exact ⟨fun _ => rfl, fun h => absurd g1 (not_le.mpr h), fun _ _ _ => rfl⟩
  · refine ⟨fun h => absurd g0 (not_le.mpr h), fun _ => rfl, fun e n0 n1 => ?_⟩
    have := h3 (by simp [n0, n1]) 0 (by omega)
    exact absurd e (ne_of_gt this)

theorem start_labels (hs : 2 ≤ s) {y : Nat} (hy : y < 2 * s + 1) {o : Nat} (ho : o < 2 * s + 2) :
    nearLabel (remoteD s) [y, 2 * s + 1] o = oneLab (2 * s + 1) 0 1 o := by
  obtain ⟨h1, h2, -⟩ := two_label (s := s) (y0 := y) (y1 := 2 * s + 1) ho
  unfold oneLab
  split_ifs with h
  · refine h2 ?_
    unfold remoteD
    split_ifs <;> omega
  · refine h1 ?_
    unfold remoteD
    split_ifs <;> omega

theorem swap_labels_two (hs : 2 ≤ s) {y : Nat} (hy : y < 2 * s) {o : Nat} (ho : o < 2 * s + 2) :
    nearLabel (remoteD s) [2 * s, y] o = oneLab (2 * s) 1 0 o := by
  obtain ⟨h1, h2, -⟩ := two_label (s := s) (y0 := 2 * s) (y1 := y) ho
  unfold oneLab
  split_ifs with h
  · refine h1 ?_
    unfold remoteD
    split_ifs <;> omega
  · refine h2 ?_
    unfold remoteD
    split_ifs <;> omega

/-- **C135, local optimum.** No exchange of a medoid for another object gives a larger silhouette. -/
theorem C135_local_optimum_two (hs : 2 ≤ s) {m j : Nat} (hm : m < 2) (hj : j < 2 * s + 2) (hjm : j ∉ [2 * s, 2 * s + 1]) :
    clusterSil ℚ (2 * s + 2) (remoteD s) ([2 * s, 2 * s + 1].set m j) ≤ clusterSil ℚ (2 * s + 2) (remoteD s) [2 * s, 2 * s + 1] := by
  simp only [List.mem_cons, List.not_mem_nil, or_false, not_or] at hjm
  have hj2 : j < 2 * s := by omega
  have hm' : m = 0 ∨ m = 1 := by omega
  rcases hm' with rfl | rfl
  · show clusterSil ℚ (2 * s + 2) (remoteD s) [j, 2 * s + 1] ≤ _
    unfold clusterSil
    rw [List.map_congr_left fun o ho => (start_labels hs (y := j) (by omega) (List.mem_range.mp ho)).trans
      (start_labels hs (y := 2 * s) (by omega) (List.mem_range.mp ho)).symm]
  · have h1 := remote_swap hs (med := [2 * s, j]) fun o ho => swap_labels_two hs hj2 ho
    have h2 := (remote_start hs (med := [2 * s, 2 * s + 1]) fun o ho => start_labels hs (by omega) ho).1
    have hn : (0 : ℚ) < ((2 * s + 2 : ℕ) : ℚ) := by exact_mod_cast (by omega : 0 < 2 * s + 2)
    have hs' : (2 : ℚ) ≤ s := by exact_mod_cast hs
    have := le_of_mul_le_mul_left (h2.trans (le_trans (by linarith) h1)) hn
    show clusterSil ℚ (2 * s + 2) (remoteD s) [2 * s, j] ≤ _
    linarith

/-! ## The other solution -/

/-- Group `B`, and all others. -/
def groupLab (s o : Nat) : Nat := if s ≤ o ∧ o < 2 * s then 1 else 0

theorem group_labels (hs : 2 ≤ s) {o : Nat} (ho : o < 2 * s + 2) : nearLabel (remoteD s) [0, s] o = groupLab s o := by
  obtain ⟨h1, h2, h3⟩ := two_label (s := s) (y0 := 0) (y1 := s) ho
  unfold groupLab
  split_ifs with h
  · refine h2 ?_
    unfold remoteD
    split_ifs <;> omega
  · by_cases hz : 2 * s ≤ o
    · refine h3 ?_ (by omega) (by omega)
      unfold remoteD
      split_ifs <;> omega
    · refine h1 ?_
      unfold remoteD
      split_ifs <;> omega

theorem group_best (hs : 34 ≤ s) : ((2 * s + 2 : ℕ) : ℚ) * (1 - clusterSil ℚ (2 * s + 2) (remoteD s) [0, s]) ≤ 39 ∧
    0 < ((2 * s + 2 : ℕ) : ℚ) * (1 - clusterSil ℚ (2 * s + 2) (remoteD s) [0, s]) := by
  rw [clusterSil_deficit (by omega) fun o ho => group_labels (by omega) ho]
  have hsq : (34 : ℚ) ≤ s := by exact_mod_cast hs
  have hA : ∀ i ∈ Finset.range s, 1 - silWith (conv : ℕ → ℚ) (remoteD s) ((List.range (2 * s + 2)).map (groupLab s)) i (groupLab s i) ≤ 34 / s :=
    fun i hi => by
      rw [Finset.mem_range] at hi
      have hz : groupLab s i = 0 := by unfold groupLab; rw [if_neg (by omega)]
      have hm : members ((List.range (2 * s + 2)).map (groupLab s)) i (groupLab s i) ≠ [] :=
        List.ne_nil_of_mem (a := 2 * s) (mem_members_lab.mpr ⟨⟨by omega, by rw [hz]; unfold groupLab; rw [if_neg (by omega)]⟩, by omega⟩)
      refine one_sub_silWith_le (c := 1) (by linarith) hsq hm (mem_lab.mpr ⟨s, by omega, by unfold groupLab; rw [if_pos (by omega)]⟩)
        (by rw [hz]; omega) (lab_mean_nonneg _) ?_ fun c hc hne => ?_
      · rw [lab_meanDist]
        generalize hT : ((Finset.range (2 * s + 2)).filter fun j => groupLab s j = groupLab s i).erase i = T
        have hcard : s ≤ T.card := by
          have h1 : (insert (2 * s) (Finset.range s)).erase i ⊆ T := fun j hj => by
            rw [← hT, hz]
            simp only [Finset.mem_erase, Finset.mem_filter, Finset.mem_range, Finset.mem_insert] at hj ⊢
            exact ⟨hj.1, by omega, by unfold groupLab; rw [if_neg (by omega)]⟩
          have h2 := Finset.card_le_card h1
          rw [Finset.card_erase_of_mem (by simp; omega), Finset.card_insert_of_notMem (by simp; omega), Finset.card_range] at h2
          omega
        have hsum : ∑ j ∈ T, (remoteD s i j : ℚ) ≤ 34 * s := by
          have h1 : T ⊆ Finset.range (2 * s + 2) := fun j hj => by
            rw [← hT] at hj
            simp only [Finset.mem_erase, Finset.mem_filter] at hj
            exact hj.2.1
          have h2 : ∀ j ∈ T, (remoteD s i j : ℚ) ≤ if j < 2 * s then (1 : ℚ) else 16 * s := fun j hj => by
            rw [← hT, hz] at hj
            simp only [Finset.mem_erase, Finset.mem_filter, Finset.mem_range] at hj
            have hg := hj.2.2
            unfold groupLab at hg
            have : remoteD s i j ≤ if j < 2 * s then 1 else 16 * s := by
              unfold remoteD
              split_ifs at * <;> omega
            split_ifs at * <;> exact_mod_cast this
          refine (Finset.sum_le_sum h2).trans ((Finset.sum_le_sum_of_subset_of_nonneg h1 fun j _ _ => by split_ifs <;> positivity).trans ?_)
          rw [Finset.sum_range_succ, Finset.sum_range_succ, if_neg (by omega), if_neg (by omega)]
          have h3 := Finset.sum_congr (rfl : Finset.range (2 * s) = _) (f := fun j => if j < 2 * s then (1 : ℚ) else 16 * s) (g := fun _ => 1)
            fun j hj => if_pos (Finset.mem_range.mp hj)
          rw [h3, Finset.sum_const, Finset.card_range, nsmul_eq_mul]
          push_cast
          linarith
        have hc : (s : ℚ) ≤ (T.card : ℚ) := by exact_mod_cast hcard
        rw [div_le_iff₀ (by linarith)]
        linarith
      · obtain ⟨x, hx, rfl⟩ := mem_lab.mp hc
        rw [hz] at hne
        refine meanDist_ge (List.ne_nil_of_mem (a := x) (mem_members_lab.mpr ⟨⟨hx, rfl⟩, fun e => hne (e ▸ hz)⟩)) fun j hj => ?_
        rw [mem_members_lab] at hj
        have : s ≤ remoteD s i j := by
          have h1 : groupLab s j ≠ 0 := by rw [hj.1.2]; exact hne
          unfold groupLab at h1
          unfold remoteD
          split_ifs at * <;> omega
        show (s : ℚ) ≤ ((remoteD s i j : ℕ) : ℚ)
        exact_mod_cast this
  have hB : ∀ x ∈ Finset.range s,
      1 - silWith (conv : ℕ → ℚ) (remoteD s) ((List.range (2 * s + 2)).map (groupLab s)) (s + x) (groupLab s (s + x)) ≤ 1 / s := fun x hx => by
    rw [Finset.mem_range] at hx
    have hz : groupLab s (s + x) = 1 := by unfold groupLab; rw [if_pos (by omega)]
    have := lab_deficit_le (n := 2 * s + 2) (lab := groupLab s) (d := remoteD s) (i := s + x) (j := if x = 0 then s + 1 else s) (j' := 0) (δ := 1) (S := s)
      (by omega) (by omega) (by split_ifs <;> omega) (by split_ifs <;> omega)
      (by rw [hz]; unfold groupLab; rw [if_pos (by split_ifs <;> omega)]) (by omega)
      (by rw [hz]; unfold groupLab; rw [if_neg (by omega)]; omega)
      (fun y hy _ hl => by
        rw [hz] at hl
        unfold groupLab at hl
        unfold remoteD
        split_ifs at * <;> omega)
      (fun y hy hl => by
        rw [hz] at hl
        unfold groupLab at hl
        unfold remoteD
        split_ifs at * <;> omega)
    rwa [Nat.cast_one] at this
  have hB0 : ∀ x ∈ Finset.range s,
      0 < 1 - silWith (conv : ℕ → ℚ) (remoteD s) ((List.range (2 * s + 2)).map (groupLab s)) (s + x) (groupLab s (s + x)) := fun x hx => by
    rw [Finset.mem_range] at hx
    have hz : groupLab s (s + x) = 1 := by unfold groupLab; rw [if_pos (by omega)]
    have hp : (0 : ℚ) < ((18 * s : ℕ) : ℚ) := by exact_mod_cast (by omega : 0 < 18 * s)
    refine lt_of_lt_of_le (div_pos one_pos hp) (lab_deficit_ge (n := 2 * s + 2) (lab := groupLab s) (j := 0) (α := 1) hp zero_le_one
      (by exact_mod_cast (by omega : 1 ≤ 18 * s)) (fun hm => meanDist_ge hm fun j hj => ?_) (by omega) rfl
      (by rw [hz]; unfold groupLab; rw [if_neg (by omega)]; omega) fun y hy _ => ?_)
    · rw [mem_members_lab] at hj
      have : 1 ≤ remoteD s (s + x) j := by
        have := hj.2
        unfold remoteD
        split_ifs <;> omega
      show (1 : ℚ) ≤ ((remoteD s (s + x) j : ℕ) : ℚ)
      exact_mod_cast this
    · have : remoteD s (s + x) y ≤ 18 * s := by
        unfold remoteD
        split_ifs <;> omega
      exact_mod_cast this
  have hnn : ∀ i, 0 ≤ 1 - silWith (conv : ℕ → ℚ) (remoteD s) ((List.range (2 * s + 2)).map (groupLab s)) i (groupLab s i) := fun i =>
    silWith_le_one (lab_mean_nonneg _)
  have h1 := Finset.sum_le_card_nsmul _ _ _ hA
  have h2 := Finset.sum_le_card_nsmul _ _ _ hB
  have h3 := Finset.sum_pos hB0 ⟨0, Finset.mem_range.mpr (by omega)⟩
  have h4 : 0 ≤ ∑ i ∈ Finset.range s, (1 - silWith (conv : ℕ → ℚ) (remoteD s) ((List.range (2 * s + 2)).map (groupLab s)) i (groupLab s i)) :=
    Finset.sum_nonneg fun i _ => hnn i
  have hs0 : (s : ℚ) ≠ 0 := by linarith
  rw [Finset.card_range, nsmul_eq_mul, mul_div_cancel₀ _ hs0] at h1 h2
  have h5 := neg_one_le_silWith (n := 2 * s + 2) (lab := groupLab s) (d := remoteD s) (i := 2 * s) (c := groupLab s (2 * s))
  have h6 := neg_one_le_silWith (n := 2 * s + 2) (lab := groupLab s) (d := remoteD s) (i := 2 * s + 1) (c := groupLab s (2 * s + 1))
  have h7 := hnn (2 * s)
  have h8 := hnn (2 * s + 1)
  rw [Finset.sum_range_succ, Finset.sum_range_succ, show Finset.range (2 * s) = Finset.range (s + s) by congr 1; ring, Finset.sum_range_add]
  constructor <;> linarith

theorem remote_run (hs : 2 ≤ s) (fuel : Nat) :
    ∃ it, silRun (clusterSil ℚ (2 * s + 2) (remoteD s)) (2 * s + 2) fuel (clusterSil ℚ (2 * s + 2) (remoteD s) [2 * s, 2 * s + 1]) [2 * s, 2 * s + 1] =
      some ([2 * s, 2 * s + 1], clusterSil ℚ (2 * s + 2) (remoteD s) [2 * s, 2 * s + 1], it, 0) := by
  have h0 : 0 ≤ clusterSil ℚ (2 * s + 2) (remoteD s) [2 * s, 2 * s + 1] := by
    have h2 := (remote_start hs (med := [2 * s, 2 * s + 1]) fun o ho => start_labels hs (by omega) ho).1
    have hs' : (2 : ℚ) ≤ s := by exact_mod_cast hs
    push_cast at h2
    by_contra hc
    have h3 : (2 * (s : ℚ) + 2) * 1 ≤ (2 * s + 2) * (1 - clusterSil ℚ (2 * s + 2) (remoteD s) [2 * s, 2 * s + 1]) :=
      mul_le_mul_of_nonneg_left (by linarith) (by linarith)
    linarith
  cases fuel with
  | zero => exact ⟨0, rfl⟩
  | succ fuel =>
    have hb := pickBest_spec (clusterSil ℚ (2 * s + 2) (remoteD s)) (max 0 (clusterSil ℚ (2 * s + 2) (remoteD s) [2 * s, 2 * s + 1]))
      (exchanges (2 * s + 2) [2 * s, 2 * s + 1])
    refine ⟨1, ?_⟩
    unfold silRun
    cases he : pickBest (clusterSil ℚ (2 * s + 2) (remoteD s)) (max 0 (clusterSil ℚ (2 * s + 2) (remoteD s) [2 * s, 2 * s + 1]))
        (exchanges (2 * s + 2) [2 * s, 2 * s + 1]) with
    | none =>
      dsimp only
      rw [if_neg (not_lt.mpr h0)]
    | some b =>
      exfalso
      rw [he] at hb
      obtain ⟨pre, post, h1, h2, -⟩ := hb
      have hb : b ∈ exchanges (2 * s + 2) [2 * s, 2 * s + 1] := by rw [h1]; simp
      unfold exchanges at hb
      rw [List.mem_flatMap] at hb
      obtain ⟨m, hm, hb⟩ := hb
      rw [List.mem_map] at hb
      obtain ⟨j, hj, rfl⟩ := hb
      rw [List.mem_filter, List.mem_range, decide_eq_true_eq] at hj
      exact absurd (lt_of_le_of_lt (le_max_right _ _) h2) (not_lt.mpr (C135_local_optimum_two hs (List.mem_range.mp hm) hj.1 hj.2))

end family

/-- **C135, two clusters.** -/
theorem C135_no_factor_two (c : Nat) (hu : 1248 * c + 70 ≤ u32Max) :
    ∃ (n : Nat) (d : Nat → Nat → ℕ) (med other : List Nat), n = 1248 * c + 70 ∧ Dissim n d ∧ IsMetric (conv : ℕ → ℚ) n d ∧ ValidMeds n med ∧
      med.Nodup ∧ med.length = 2 ∧ other.length = 2 ∧ (∀ x ∈ other, x < n) ∧ other.Nodup ∧ 0 < 1 - clusterSil ℚ n d other ∧
      ∀ maxiter, ∃ r, pamsilSwap ℚ (fnMat n d) med maxiter = .ok r ∧ r.nSwap = 0 ∧ r.med = med ∧
        c * (1 - clusterSil ℚ n d other) < 1 - r.loss := by
  obtain ⟨s, es⟩ : ∃ s, s = 624 * c + 34 := ⟨_, rfl⟩
  have hs : 2 ≤ s := by omega
  have hv : ValidMeds (2 * s + 2) [2 * s, 2 * s + 1] := ⟨⟨by simp, by simp, by omega, by simp; omega⟩, fun x hx => by
    simp only [List.mem_cons, List.not_mem_nil, or_false] at hx; omega⟩
  have hnd : [2 * s, 2 * s + 1].Nodup := by simp
  have hn : (0 : ℚ) < ((2 * s + 2 : ℕ) : ℚ) := by exact_mod_cast (by omega : 0 < 2 * s + 2)
  obtain ⟨b1, b2⟩ := group_best (s := s) (by omega)
  refine ⟨2 * s + 2, remoteD s, [2 * s, 2 * s + 1], [0, s], by omega, remoteD_dissim, C135_metric_two hs, hv, hnd, rfl, rfl,
    fun x hx => ?_, by simp; omega, pos_of_mul_pos_right b2 hn.le, fun maxiter => ?_⟩
  · simp only [List.mem_cons, List.not_mem_nil, or_false] at hx
    omega
  have hrun := C93_pamsil_swap_zero (L := ℚ) (fnMat_isMatrix (2 * s + 2) (remoteD s)) remoteD_dissim hv hnd (by simp) maxiter
    (fun i _ r hr => by
      obtain ⟨it, h⟩ := remote_run hs i
      rw [h] at hr
      cases hr
      simp
      omega)
  obtain ⟨it, h⟩ := remote_run hs maxiter
  rw [h] at hrun
  refine ⟨_, hrun, rfl, rfl, ?_⟩
  have h2 := (remote_start hs (med := [2 * s, 2 * s + 1]) fun o ho => start_labels hs (by omega) ho).2
  have h3 := mul_le_mul_of_nonneg_left b1 (Nat.cast_nonneg (α := ℚ) c)
  have h4 : (s : ℚ) = 624 * c + 34 := by exact_mod_cast es
  show (c : ℚ) * _ < 1 - clusterSil ℚ (2 * s + 2) (remoteD s) [2 * s, 2 * s + 1]
  refine lt_of_mul_lt_mul_left (a := ((2 * s + 2 : ℕ) : ℚ)) ?_ hn.le
  linarith

/-- **C135.** For every `k ≥ 2` and every factor `c`: PAMSIL stops at medoids with a deficit of more than `c` times that of others, which is
positive. With two clusters, the number of objects grows with `c`. -/
theorem C135_no_factor_all (c : Nat) {k : Nat} (hk : 2 ≤ k) (hu2 : k = 2 → 1248 * c + 70 ≤ u32Max) (hu : 3 * (k - 1) ≤ u32Max) :
    ∃ (n : Nat) (d : Nat → Nat → ℕ) (med other : List Nat), Dissim n d ∧ IsMetric (conv : ℕ → ℚ) n d ∧ ValidMeds n med ∧
      med.Nodup ∧ med.length = k ∧ other.length = k ∧ (∀ x ∈ other, x < n) ∧ other.Nodup ∧ 0 < 1 - clusterSil ℚ n d other ∧
      ∀ maxiter, ∃ r, pamsilSwap ℚ (fnMat n d) med maxiter = .ok r ∧ r.nSwap = 0 ∧ r.med = med ∧
        c * (1 - clusterSil ℚ n d other) < 1 - r.loss := by
  rcases (by omega : k = 2 ∨ k = 3 ∨ 4 ≤ k) with rfl | rfl | h
  · obtain ⟨n, d, med, other, -, h⟩ := C135_no_factor_two c (hu2 rfl)
    exact ⟨n, d, med, other, h⟩
  · exact ⟨11, C135_no_factor_three c⟩
  · obtain ⟨n, d, med, other, -, h⟩ := C135_no_factor c h (by omega)
    exact ⟨n, d, med, other, h⟩

/-! ## Example -/

/-- With `s = 3`, the remote objects are a local optimum (the groups are the better solution only for larger `s`), and the hypotheses of
`C135_no_factor_all` hold for a factor of 1000, with two and with 50 clusters. -/
example : (pamsilSwap ℚ (fnMat 8 (remoteD 3)) [6, 7] 100).map (fun r => (r.loss, r.nSwap, r.med)) = .ok (941 / 1152, 0, [6, 7]) ∧
    1248 * 1000 + 70 ≤ u32Max ∧ 3 * (50 - 1) ≤ u32Max := by
  decide +kernel

end KMedoids
