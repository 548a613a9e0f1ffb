import Verif.Proofs.SilExact
import Mathlib.Algebra.Order.BigOperators.Group.List
import Mathlib.Algebra.Order.BigOperators.Group.Finset
import Mathlib.Algebra.BigOperators.Ring.Finset
import Mathlib.Tactic.Linarith
import Mathlib.Tactic.FieldSimp

/-!
# Bounds for silhouettes of labellings
-/

set_option linter.unusedSectionVars false
set_option linter.overlappingInstances false

namespace KMedoids

variable {N L : Type} [Field L] [LinearOrder L] [IsStrictOrderedRing L]
variable {cv : N → L} {d : Nat → Nat → N} {assi : List Nat} {i : Nat}

theorem meanDist_le {c : Nat} {B : L} (h0 : members assi i c ≠ []) (h : ∀ j ∈ members assi i c, cv (d i j) ≤ B) :
    meanDist cv d assi i c ≤ B := by
  have hp : (0 : L) < ((members assi i c).length : L) := by exact_mod_cast List.length_pos_iff.mpr h0
  unfold meanDist
  rw [div_le_iff₀ hp]
  have := List.sum_le_card_nsmul ((members assi i c).map fun j => cv (d i j)) B (fun x hx => by
    obtain ⟨j, hj, rfl⟩ := List.mem_map.mp hx
    exact h j hj)
  rw [List.length_map, nsmul_eq_mul, mul_comm] at this
  exact this

theorem meanDist_ge {c : Nat} {B : L} (h0 : members assi i c ≠ []) (h : ∀ j ∈ members assi i c, B ≤ cv (d i j)) :
    B ≤ meanDist cv d assi i c := by
  have hp : (0 : L) < ((members assi i c).length : L) := by exact_mod_cast List.length_pos_iff.mpr h0
  unfold meanDist
  rw [le_div_iff₀ hp]
  have := List.card_nsmul_le_sum ((members assi i c).map fun j => cv (d i j)) B (fun x hx => by
    obtain ⟨j, hj, rfl⟩ := List.mem_map.mp hx
    exact h j hj)
  rw [List.length_map, nsmul_eq_mul, mul_comm] at this
  exact this

theorem meanDist_ge_one {c j : Nat} {B : L} (hj : j ∈ members assi i c) (hB : B ≤ cv (d i j))
    (h : ∀ j ∈ members assi i c, 0 ≤ cv (d i j)) : B / ((members assi i c).length : L) ≤ meanDist cv d assi i c := by
  unfold meanDist
  refine div_le_div_of_nonneg_right ?_ (Nat.cast_nonneg _)
  refine hB.trans (List.single_le_sum (fun x hx => ?_) _ (List.mem_map.mpr ⟨j, hj, rfl⟩))
  obtain ⟨j', hj', rfl⟩ := List.mem_map.mp hx
  exact h j' hj'

/-- Lower bound of the deficit of a silhouette. -/
theorem one_sub_silWith_ge {ai : Nat} {α B : L} (hB : 0 < B) (hα : 0 ≤ α) (hαB : α ≤ B)
    (ha : members assi i ai ≠ [] → α ≤ meanDist cv d assi i ai)
    (hb : ∀ b, ((assi.filter (· ≠ ai)).map (meanDist cv d assi i)).min? = some b → b ≤ B) :
    α / B ≤ 1 - silWith cv d assi i ai := by
  have h1 : α / B ≤ 1 := (div_le_one hB).mpr hαB
  unfold silWith
  by_cases hm : members assi i ai = []
  · simpa [hm] using h1
  · rw [if_neg hm]
    have ha := ha hm
    cases hmin : ((assi.filter (· ≠ ai)).map (meanDist cv d assi i)).min? with
    | none => simpa using h1
    | some b =>
      have hb := hb b hmin
      dsimp only
      by_cases h0 : max (meanDist cv d assi i ai) b = 0
      · simpa [h0] using h1
      · rw [if_neg h0]
        rcases le_total (meanDist cv d assi i ai) b with hab | hab
        · rw [max_eq_right hab] at h0 ⊢
          have hb0 : 0 < b := lt_of_le_of_ne (hα.trans (ha.trans hab)) (Ne.symm h0)
          rw [one_sub_div h0, sub_sub_cancel]
          exact div_le_div₀ (hα.trans ha) ha hb0 hb
        · rw [max_eq_left hab]
          have := div_nonpos_of_nonpos_of_nonneg (sub_nonpos.mpr hab) (hα.trans ha)
          linarith

theorem silWith_le_one {ai : Nat} (ha : 0 ≤ meanDist cv d assi i ai) : 0 ≤ 1 - silWith cv d assi i ai := by
  cases hmin : ((assi.filter (· ≠ ai)).map (meanDist cv d assi i)).min? with
  | none =>
    unfold silWith
    rw [hmin]
    simp
  | some b =>
    have := one_sub_silWith_ge (cv := cv) (d := d) (assi := assi) (i := i) (ai := ai) (α := 0) (B := max 1 b)
      (lt_of_lt_of_le one_pos (le_max_left _ _)) le_rfl (zero_le_one.trans (le_max_left _ _)) (fun _ => ha)
      (fun b' hb' => by rw [hmin] at hb'; cases hb'; exact le_max_right _ _)
    rwa [zero_div] at this

/-- Upper bound of the deficit of a silhouette. -/
theorem one_sub_silWith_le {ai c : Nat} {δ S : L} (hS : 0 < S) (hδS : δ ≤ S) (hm : members assi i ai ≠ []) (hc : c ∈ assi) (hne : c ≠ ai)
    (h0 : 0 ≤ meanDist cv d assi i ai) (ha : meanDist cv d assi i ai ≤ δ)
    (hb : ∀ c ∈ assi, c ≠ ai → S ≤ meanDist cv d assi i c) : 1 - silWith cv d assi i ai ≤ δ / S := by
  unfold silWith
  rw [if_neg hm]
  cases hmin : ((assi.filter (· ≠ ai)).map (meanDist cv d assi i)).min? with
  | none =>
    rw [List.min?_eq_none_iff, List.map_eq_nil_iff] at hmin
    have : c ∈ assi.filter (· ≠ ai) := List.mem_filter.mpr ⟨hc, by simpa using hne⟩
    rw [hmin] at this
    cases this
  | some b =>
    have hb' : S ≤ b := by
      obtain ⟨c', hc', rfl⟩ := List.mem_map.mp (List.min?_mem hmin)
      rw [List.mem_filter] at hc'
      exact hb c' hc'.1 (by simpa using hc'.2)
    have hab : meanDist cv d assi i ai ≤ b := ha.trans (hδS.trans hb')
    have hb0 := lt_of_lt_of_le hS hb'
    dsimp only
    rw [max_eq_right hab, if_neg hb0.ne', one_sub_div hb0.ne', sub_sub_cancel]
    exact div_le_div₀ (h0.trans ha) ha hS hb'

theorem silList_range (cv : N → L) (d : Nat → Nat → N) (assi : List Nat) :
    silList cv d assi = (List.range assi.length).map fun i => silWith cv d assi i (assi.getD i 0) := by
  unfold silList
  refine List.ext_getElem (by simp) fun j h1 h2 => ?_
  have hj : j < assi.length := by simpa using h2
  simp [List.getD_eq_getElem?_getD, hj]

/-- The deficit of the average silhouette. -/
theorem sil_deficit {n : Nat} (hn : 0 < n) (hl : assi.length = n) (cv : N → L) (d : Nat → Nat → N) :
    (n : L) * (1 - mean (silList cv d assi)) = ∑ i ∈ Finset.range n, (1 - silWith cv d assi i (assi.getD i 0)) := by
  have hn' : (n : L) ≠ 0 := by exact_mod_cast hn.ne'
  have e : (silList cv d assi).sum = ∑ i ∈ Finset.range n, silWith cv d assi i (assi.getD i 0) := by
    rw [silList_range, hl, Finset.sum_eq_multiset_sum]; rfl
  have e2 : (silList cv d assi).length = n := by rw [silList_range]; simp [hl]
  rw [Finset.sum_sub_distrib, Finset.sum_const, Finset.card_range, nsmul_eq_mul, mul_one, mean, e, e2, mul_sub, mul_one,
    mul_div_cancel₀ _ hn']

/-- The objects with label `c`. -/
def cluster (n : Nat) (assi : List Nat) (c : Nat) : Finset Nat := (Finset.range n).filter fun j => assi[j]? = some c

theorem members_card {n c : Nat} (hl : assi.length = n) (hi : i ∈ cluster n assi c) :
    (members assi i c).length + 1 = (cluster n assi c).card := by
  have e : (members assi i c).toFinset = (cluster n assi c).erase i := by
    ext j
    simp only [List.mem_toFinset, mem_members, cluster, Finset.mem_erase, Finset.mem_filter, Finset.mem_range]
    constructor
    · rintro ⟨h2, h3⟩
      exact ⟨h3, by rw [← hl]; exact (List.getElem?_eq_some_iff.mp h2).1, h2⟩
    · rintro ⟨h1, h2, h3⟩
      exact ⟨h3, h1⟩
  have hnd : (members assi i c).Nodup := List.nodup_range.filter _
  rw [← List.toFinset_card_of_nodup hnd, e, Finset.card_erase_of_mem hi]
  have := Finset.card_pos.mpr ⟨i, hi⟩
  omega

end KMedoids
