import Verif.Props.C127
import Verif.Props.C88
import Mathlib.Algebra.BigOperators.Field
import Mathlib.Tactic.FieldSimp

/-!
# C129: FasterMSC needs two passes where FastMSC and PAMMEDSIL need `k + 1` iterations

The groups of three of C127, now with the medoid silhouette. As long as there is one medoid in each group, the second nearest medoid
of every object is at distance `k + 1`, and the medoid silhouette is `1 - TD / (3 k (k + 1))`. The searches go the same way as in C127.
-/

set_option linter.unusedSectionVars false
set_option linter.overlappingInstances false

namespace KMedoids

open RFrom (conv)

variable {k : Nat} {A : Nat → Nat}

/-! ## The searches for an objective with the same improvements -/

/-- Exchanges within a group for the object in the middle lower the objective by `δ`, other ones do not lower it. -/
structure TrioFn (k : Nat) (T : List Nat → ℚ) (δ : ℚ) : Prop where
  pos : 0 < δ
  other : ∀ A : Nat → Nat, (∀ i, A i < 3) → ∀ b j, b < k → j / 3 ≠ b → T (trioMed k A) < T ((trioMed k A).set b j)
  outer : ∀ A : Nat → Nat, (∀ i, A i < 3) → ∀ b j, b < k → j % 3 ≠ 1 → T (trioMed k A) ≤ T ((trioMed k A).set b j)
  mid : ∀ A : Nat → Nat, (∀ i, A i < 3) → ∀ j, j < 3 * k → j % 3 = 1 → j ∉ trioMed k A →
    T ((trioMed k A).set (j / 3) j) = T (trioMed k A) - δ

variable {T : List Nat → ℚ} {δ : ℚ}

theorem TrioFn.eagerStep (h : TrioFn k T δ) (hk : 2 ≤ k) (hA : ∀ i, A i < 3) (c : Nat) {j : Nat} (hj : j < 3 * k) :
    ∃ A' c', KMedoids.eagerStep T (trioMed k A, c) j = (trioMed k A', c') ∧ (∀ i, A' i < 3) ∧
      T (trioMed k A') + c' * δ = T (trioMed k A) + c * δ ∧ (∀ i, A i = 1 → A' i = 1) ∧ (j % 3 = 1 → A' (j / 3) = 1) := by
  have hδ := h.pos
  by_cases hjm : j ∈ trioMed k A
  · refine ⟨A, c, by unfold KMedoids.eagerStep; rw [if_pos hjm], hA, rfl, fun _ h => h, fun h => ?_⟩
    rw [← ((mem_trioMed hA).mp hjm).2, h]
  · by_cases h1 : j % 3 = 1
    · have hT := h.mid A hA j hj h1 hjm
      refine ⟨Function.update A (j / 3) (j % 3), c + 1, ?_, update_lt hA _ (Nat.mod_lt _ (by decide)), ?_, fun i hi => ?_, fun _ => ?_⟩
      · have hb : j / 3 < k := by omega
        have e : firstMin (fun m => T ((trioMed k A).set m j)) (trioMed k A).length = j / 3 := by
          rw [trioMed_length]
          have hlt : ∀ m < k, m ≠ j / 3 → T ((trioMed k A).set (j / 3) j) < T ((trioMed k A).set m j) := fun m hm hne => by
            have := h.other A hA m j hm (Ne.symm hne)
            linarith
          refine firstMin_unique _ hb (fun m hm => ?_) fun m hm => hlt m (by omega) (by omega)
          by_cases em : m = j / 3
          · rw [em]
          · exact (hlt m hm em).le
        unfold KMedoids.eagerStep
        rw [if_neg hjm]
        dsimp only
        rw [e, if_pos (by linarith), trio_set_own]
      · rw [trio_set_own] at hT
        rw [hT]
        push_cast
        ring
      · by_cases e : i = j / 3
        · rw [e, Function.update_self, h1]
        · rw [Function.update_of_ne e, hi]
      · rw [Function.update_self, h1]
    · refine ⟨A, c, ?_, hA, rfl, fun _ h => h, fun h => absurd h h1⟩
      refine eagerStep_settled (by rw [trioMed_length]; omega) (.inr fun m hm => ?_)
      rw [trioMed_length] at hm
      exact h.outer A hA m j hm h1

theorem TrioFn.eager (h : TrioFn k T δ) (hk : 2 ≤ k) {js : List Nat} (hjs : ∀ j ∈ js, j < 3 * k) (hA : ∀ i, A i < 3) (c : Nat) :
    ∃ A' c', js.foldl (KMedoids.eagerStep T) (trioMed k A, c) = (trioMed k A', c') ∧ (∀ i, A' i < 3) ∧
      T (trioMed k A') + c' * δ = T (trioMed k A) + c * δ ∧ (∀ i, A i = 1 → A' i = 1) ∧ ∀ j ∈ js, j % 3 = 1 → A' (j / 3) = 1 := by
  induction js generalizing A c with
  | nil => exact ⟨A, c, rfl, hA, rfl, fun _ h => h, by simp⟩
  | cons j js ih =>
    obtain ⟨A1, c1, h1, h2, h3, h4, h5⟩ := h.eagerStep hk hA c (hjs j (by simp))
    obtain ⟨A2, c2, g1, g2, g3, g4, g5⟩ := ih (fun x hx => hjs x (List.mem_cons_of_mem _ hx)) h2 c1
    refine ⟨A2, c2, by rw [List.foldl_cons, h1, g1], g2, g3.trans h3, fun i hi => g4 i (h4 i hi), fun x hx hx1 => ?_⟩
    rcases List.mem_cons.mp hx with rfl | hx
    · exact g4 _ (h5 hx1)
    · exact g5 x hx hx1

theorem TrioFn.noBetter (h : TrioFn k T δ) : NoBetter T (3 * k) (trioBest k) :=
  fun b j hb hj hjm => by
    rw [trioBest, trioMed_length] at hb
    refine h.outer _ (fun _ => by decide) b j hb fun h1 => hjm ?_
    exact (mem_trioMed fun _ => by decide).mpr ⟨by omega, h1⟩

theorem TrioFn.at_succ (h : TrioFn k T δ) (hk : 2 ≤ k) {t : Nat} (ht : t < k) :
    bestOf T (neighbours (3 * k) (trioAt k t)) (trioAt k t) = trioAt k (t + 1) ∧ T (trioAt k (t + 1)) = T (trioAt k t) - δ := by
  have hA := trioAt_lt t
  have hδ := h.pos
  have hj : 3 * t + 1 < 3 * k := by omega
  have e3 : (3 * t + 1) / 3 = t := by omega
  have hjm : 3 * t + 1 ∉ trioAt k t := fun h => by
    have := ((mem_trioMed hA).mp h).2
    rw [e3, if_neg (lt_irrefl t)] at this
    omega
  have hT := h.mid _ hA (3 * t + 1) hj (by omega) hjm
  have e : (trioAt k t).set t (3 * t + 1) = trioAt k (t + 1) := by
    have := trio_set_own (k := k) (A := fun i => if i < t then 1 else 0) (j := 3 * t + 1)
    rw [e3] at this
    rw [trioAt, this, trioAt]
    congr 1
    funext i
    by_cases h : i = t
    · subst h
      rw [Function.update_self, if_pos (by omega)]
      omega
    · rw [Function.update_of_ne h]
      by_cases h' : i < t
      · rw [if_pos h', if_pos (by omega)]
      · rw [if_neg h', if_neg (by omega)]
  rw [e3] at hT
  have hT' : T ((trioAt k t).set t (3 * t + 1)) = T (trioAt k t) - δ := hT
  refine ⟨?_, by rw [← e]; exact hT'⟩
  rw [← e]
  have hl : (trioAt k t).length = k := trioMed_length _ _
  have hge : ∀ b j, b < k → j < 3 * k → j ∉ trioAt k t → T (trioAt k t) - δ ≤ T ((trioAt k t).set b j) := fun b j hb hj hjm => by
    by_cases h1 : j % 3 = 1
    · by_cases hbj : j / 3 = b
      · have := h.mid _ hA j hj h1 hjm
        rw [hbj] at this
        exact this.ge
      · have : T (trioAt k t) < T ((trioAt k t).set b j) := h.other _ hA b j hb hbj
        linarith
    · have : T (trioAt k t) ≤ T ((trioAt k t).set b j) := h.outer _ hA b j hb h1
      linarith
  refine neighbours_first (by rw [hl]; exact ht) hj hjm (by rw [hT']; linarith)
    (fun b j hb hj hjm => by rw [hT']; exact hge b j (by omega) hj hjm) fun b j hb hjm' hlt => ?_
  rw [hT']
  rw [hl] at hb
  by_cases hbj : j / 3 = b
  · have hj1 : j % 3 ≠ 1 := fun h1 => by
      have hjt : j / 3 < t := by omega
      exact hjm' ((mem_trioMed hA).mpr ⟨by omega, by rw [if_pos hjt]; exact h1⟩)
    have : T (trioAt k t) ≤ T ((trioAt k t).set b j) := h.outer _ hA b j hb hj1
    linarith
  · have : T (trioAt k t) < T ((trioAt k t).set b j) := h.other _ hA b j hb hbj
    linarith

theorem TrioFn.at (h : TrioFn k T δ) (hk : 2 ≤ k) {t : Nat} (ht : t ≤ k) : T (trioAt k t) = T (trioStart k) - t * δ := by
  induction t with
  | zero => simp [trioAt, trioStart_eq]
  | succ t ih =>
    rw [(h.at_succ hk (by omega)).2, ih (by omega)]
    push_cast
    ring

theorem trioAt_all (k : Nat) : trioAt k k = trioBest k := trioMed_eq_best fun _ hi => if_pos hi

theorem TrioFn.eagerRun (h : TrioFn k T δ) (hk : 2 ≤ k) {seq : List Nat} (hs : seq.Perm (List.range (3 * k))) (fuel : Nat) :
    KMedoids.eagerRun T seq (fuel + 1) (trioStart k) = (trioBest k, min (fuel + 1) 2, k) := by
  have hseq : ∀ j ∈ seq, j < 3 * k := fun j hj => List.mem_range.mp (hs.mem_iff.mp hj)
  have hp : eagerPass T seq (trioStart k) = (trioBest k, k) := by
    obtain ⟨A, c, h1, h2, h3, -, h5⟩ := h.eager hk hseq (A := fun _ => 0) (fun _ => by decide) 0
    have e : trioMed k A = trioBest k := trioMed_eq_best fun i hi => by
      have := h5 (3 * i + 1) (hs.mem_iff.mpr (List.mem_range.mpr (by omega))) (by omega)
      rwa [show (3 * i + 1) / 3 = i by omega] at this
    rw [e] at h1 h3
    rw [← trioAt_all, h.at hk le_rfl, trioStart_eq] at h3
    have hc : (c : ℚ) = k := by
      have : (c : ℚ) * δ = k * δ := by push_cast at h3; linarith
      exact mul_right_cancel₀ h.pos.ne' this
    unfold eagerPass
    rw [trioStart_eq, h1, Nat.cast_injective hc]
  rw [eagerRun_more (by rw [hp]; show k ≠ 0; omega), hp]
  cases fuel with
  | zero => simp [KMedoids.eagerRun]
  | succ fuel =>
    have hz : (eagerPass T seq (trioBest k)).2 = 0 := by
      unfold eagerPass
      rw [eager_settled (s := (trioBest k, 0)) (by show 1 ≤ (trioBest k).length; rw [trioBest, trioMed_length]; omega) fun x hx => by
        by_cases hxm : x ∈ trioBest k
        · exact .inl hxm
        · exact .inr fun m hm => h.noBetter m x hm (hseq x hx) hxm]
    rw [eagerRun_done hz]
    simp

theorem TrioFn.steepRun (h : TrioFn k T δ) (hk : 2 ≤ k) (fuel : Nat) {t : Nat} (ht : t ≤ k) :
    KMedoids.steepRun T (3 * k) fuel (trioAt k t) =
      (trioAt k (min k (t + fuel)), min (k - t + 1) fuel, min (k - t) fuel) := by
  induction fuel generalizing t with
  | zero => simp [KMedoids.steepRun, ht]
  | succ fuel ih =>
    rcases Nat.lt_or_ge t k with hlt | hge
    · obtain ⟨h1, h2⟩ := h.at_succ hk hlt
      rw [steepRun_more (by rw [h1, h2]; have := h.pos; linarith), h1, ih (by omega)]
      refine Prod.ext ?_ (Prod.ext ?_ ?_)
      · rw [show t + 1 + fuel = t + (fuel + 1) by omega]
      · show min (k - (t + 1) + 1) fuel + 1 = min (k - t + 1) (fuel + 1)
        omega
      · show min (k - (t + 1)) fuel + 1 = min (k - t) (fuel + 1)
        omega
    · obtain rfl : t = k := by omega
      rw [trioAt_all, steepRun_none h.noBetter, ← trioAt_all]
      simp

/-! ## The medoid silhouette -/

theorem msT_eq_sum (n : Nat) (d : Nat → Nat → ℕ) (med : List Nat) :
    msT ℚ n d med = ∑ o ∈ Finset.range n, (1 - medSil1 (conv : ℕ → ℚ) d med o) := by
  unfold msT
  induction n with
  | zero => rfl
  | succ n ih => rw [List.range_succ, List.map_append, List.sum_append, ih, Finset.sum_range_succ]; simp

/-- With one medoid in each group the second nearest is at distance `k + 1`. -/
theorem medSil1_trio (hk : 2 ≤ k) (hA : ∀ i, A i < 3) {x : Nat} (hx : x < 3 * k) :
    1 - medSil1 (conv : ℕ → ℚ) (trioD k) (trioMed k A) x = (minDist (trioD k) x (trioMed k A) : ℕ) / (k + 1 : ℚ) := by
  have hxk : x / 3 < k := by omega
  have hg : ∀ m, m < k → ((trioMed k A).map (trioD k x))[m]? = some (trioD k x (3 * m + A m)) := fun m hm => by
    simp [trioMed, hm]
  have hfar : ∀ m, m ≠ x / 3 → trioD k x (3 * m + A m) = k + 1 := fun m hm => by
    have := hA m
    unfold trioD
    split_ifs <;> omega
  have hmd : minDist (trioD k) x (trioMed k A) = trioD k x (3 * (x / 3) + A (x / 3)) := by
    have := hA (x / 3)
    have e : (3 * (x / 3) + A (x / 3)) / 3 = x / 3 := by omega
    refine minDist_trio hk ((mem_trioMed hA).mpr ?_) e fun m hm hmx => ?_
    · rw [e]; exact ⟨hxk, by omega⟩
    · have := ((mem_trioMed hA).mp hm).2
      rw [hmx] at this
      omega
  obtain ⟨i2, h2, h2'⟩ : ∃ i2, i2 < k ∧ x / 3 ≠ i2 := by
    by_cases h : x / 3 = 0
    · exact ⟨1, by omega, by omega⟩
    · exact ⟨0, by omega, h⟩
  have ht : TwoMin ((trioMed k A).map (trioD k x)) (trioD k x (3 * (x / 3) + A (x / 3))) (k + 1) := by
    refine TwoMin.of_idx (hg _ hxk) (by rw [hg _ h2, hfar i2 (Ne.symm h2')]) h2' ?_ fun m y hy hm => ?_
    · unfold trioD; split_ifs <;> omega
    · have hml : m < k := by
        have := (List.getElem?_eq_some_iff.mp hy).1
        rwa [List.length_map, trioMed_length] at this
      rw [hg m hml, hfar m hm] at hy
      exact le_of_eq (Option.some.inj hy)
  rw [medSil1_of ht, hmd]
  split
  · rename_i h
    rw [h]
    simp
  · show 1 - (1 - ((trioD k x _ : ℕ) : ℚ) / ((k + 1 : ℕ) : ℚ)) = _
    push_cast
    ring

theorem msT_trioMed (hk : 2 ≤ k) (hA : ∀ i, A i < 3) :
    msT ℚ (3 * k) (trioD k) (trioMed k A) = (totalDev (conv : ℕ → ℤ) (3 * k) (trioD k) (trioMed k A) : ℤ) / (k + 1 : ℚ) := by
  rw [msT_eq_sum, totalDev_eq_sum, Int.cast_sum, Finset.sum_div]
  refine Finset.sum_congr rfl fun x hx => ?_
  rw [medSil1_trio hk hA (Finset.mem_range.mp hx)]
  rfl

/-- Medoids that miss a group: its objects contribute 3. -/
theorem msT_missing {i : Nat} (hi : i < k) {med : List Nat} (hl : 2 ≤ med.length) (h : ∀ m ∈ med, m / 3 ≠ i) :
    (3 : ℚ) ≤ msT ℚ (3 * k) (trioD k) med := by
  rw [msT_eq_sum]
  have hf : ∀ x, x / 3 = i → 1 - medSil1 (conv : ℕ → ℚ) (trioD k) med x = 1 := fun x hx => by
    have hfar : ∀ y ∈ med.map (trioD k x), y = k + 1 := fun y hy => by
      obtain ⟨m, hm, rfl⟩ := List.mem_map.mp hy
      have := h m hm
      unfold trioD; split_ifs <;> omega
    have ht := twoNearestP_twoMin (trioD k) hl x
    obtain ⟨ha, hb, -⟩ := ht.mem
    rw [medSil1_of ht, hfar _ ha, hfar _ hb, if_neg (Nat.succ_ne_zero k)]
    show 1 - (1 - ((k + 1 : ℕ) : ℚ) / ((k + 1 : ℕ) : ℚ)) = 1
    rw [div_self (by positivity)]
    ring
  have h0 : ∀ x ∈ Finset.range (3 * k), (0 : ℚ) ≤ 1 - medSil1 (conv : ℕ → ℚ) (trioD k) med x := fun x _ =>
    sub_nonneg.mpr (medSil1_range (L := ℚ) hl fun _ _ => Nat.zero_le _).2
  have hsub : ({3 * i, 3 * i + 1, 3 * i + 2} : Finset ℕ) ⊆ Finset.range (3 * k) := fun x hx => by
    simp only [Finset.mem_insert, Finset.mem_singleton] at hx
    exact Finset.mem_range.mpr (by omega)
  refine le_trans ?_ (Finset.sum_le_sum_of_subset_of_nonneg hsub fun x hx _ => h0 x hx)
  rw [Finset.sum_insert (by simp), Finset.sum_insert (by simp), Finset.sum_singleton, hf _ (by omega), hf _ (by omega), hf _ (by omega)]
  norm_num

theorem trio_msT_other (hk : 2 ≤ k) (hA : ∀ i, A i < 3) {b j : Nat} (hb : b < k) (hbj : j / 3 ≠ b) :
    msT ℚ (3 * k) (trioD k) (trioMed k A) < msT ℚ (3 * k) (trioD k) ((trioMed k A).set b j) := by
  have hk0 : (0 : ℚ) < k := by exact_mod_cast (by omega : 0 < k)
  refine lt_of_lt_of_le ?_ (msT_missing hb (by rw [List.length_set, trioMed_length]; exact hk) fun m hm hmb => ?_)
  · rw [msT_trioMed hk hA, div_lt_iff₀ (by linarith)]
    have : ((totalDev (conv : ℕ → ℤ) (3 * k) (trioD k) (trioMed k A) : ℤ) : ℚ) ≤ 3 * k := by
      exact_mod_cast totalDev_trioMed_le hk hA
    linarith
  · obtain ⟨i, hi, e⟩ := List.getElem_of_mem hm
    rw [List.length_set, trioMed_length] at hi
    rw [List.getElem_set] at e
    split at e
    · exact hbj (e ▸ hmb)
    · rename_i hne
      simp only [trioMed, List.getElem_map, List.getElem_range] at e
      have := hA i
      omega

/-- The objective of the searches. -/
theorem medSil_trioFn (hk : 2 ≤ k) :
    TrioFn k (fun m => - medSil (conv : ℕ → ℚ) (3 * k) (trioD k) m) (1 / (3 * k * (k + 1))) := by
  have hn : 0 < 3 * k := by omega
  have hk0 : (0 : ℚ) < k := by exact_mod_cast (by omega : 0 < k)
  have hk1 : (0 : ℚ) < k + 1 := by linarith
  refine ⟨by positivity, fun A hA b j hb hbj => ?_, fun A hA b j hb hj => ?_, fun A hA j hj h1 hjm => ?_⟩
  all_goals try rw [neg_lt_neg_iff, medSil_lt_iff hn]
  all_goals try rw [neg_le_neg_iff, medSil_le_iff hn]
  · exact trio_msT_other hk hA hb hbj
  · by_cases e : j / 3 = b
    · have hle := trio_set_outer hk hA hb hj
      subst e
      rw [trio_set_own] at hle ⊢
      rw [msT_trioMed hk hA, msT_trioMed hk (update_lt hA _ (Nat.mod_lt _ (by decide)))]
      exact div_le_div_of_nonneg_right (by exact_mod_cast hle) hk1.le
    · exact (trio_msT_other hk hA hb e).le
  · have hT := trio_set_mid hk hA hj h1 hjm
    rw [trio_set_own] at hT ⊢
    rw [medSil_eq_msT hn, medSil_eq_msT hn, msT_trioMed hk hA, msT_trioMed hk (update_lt hA _ (Nat.mod_lt _ (by decide))), hT]
    push_cast
    field_simp
    ring

theorem medSil_trioStart (hk : 2 ≤ k) : medSil (conv : ℕ → ℚ) (3 * k) (trioD k) (trioStart k) = 1 - 1 / (k + 1) := by
  have h0 : ∀ i, (fun _ : Nat => 0) i < 3 := fun _ => Nat.zero_lt_succ _
  have hk0 : (0 : ℚ) < k := by exact_mod_cast (by omega : 0 < k)
  rw [medSil_eq_msT (by omega), trioStart_eq, msT_trioMed hk h0, totalDev_trioStart hk]
  push_cast
  field_simp

theorem medSil_trioAt (hk : 2 ≤ k) {t : Nat} (ht : t ≤ k) :
    medSil (conv : ℕ → ℚ) (3 * k) (trioD k) (trioAt k t) = 1 - (3 * k - t) / (3 * k * (k + 1)) := by
  have hk0 : (0 : ℚ) < k := by exact_mod_cast (by omega : 0 < k)
  have h := (medSil_trioFn hk).at hk ht
  rw [medSil_trioStart hk] at h
  rw [neg_eq_iff_eq_neg.mp h]
  field_simp
  ring

/-! ## The statements -/

/-- **C129, FasterMSC:** `k` swaps in the first pass. -/
theorem C129_fastermsc (hk : 2 ≤ k) (hn : 3 * k ≤ u32Max) {maxiter : Nat} (hi : 1 ≤ maxiter) {r : SwapResult ℚ}
    (hr : fastermsc ℚ (fnMat (3 * k) (trioD k)) (trioStart k) maxiter = .ok r) :
    r.loss = 1 - 2 / (3 * (k + 1)) ∧ r.nSwap = k ∧ r.nIter = min maxiter 2 ∧ r.med = (List.range k).map fun i => 3 * i + 1 := by
  obtain ⟨fuel, rfl⟩ := Nat.exists_eq_add_of_le' hi
  obtain ⟨hv, hnd, hl⟩ := trioStart_valid hk hn
  obtain ⟨h1, h2⟩ := C89_fastermsc (fnMat_isMatrix _ _) (trioD_dissim _ _) hv hnd (by omega) _ hr
  rw [(medSil_trioFn hk).eagerRun hk (List.Perm.refl _)] at h1
  simp only [Prod.mk.injEq] at h1
  refine ⟨?_, h1.2.2, h1.2.1, h1.1⟩
  have hk0 : (0 : ℚ) < k := by exact_mod_cast (by omega : 0 < k)
  rw [h2, h1.1, ← trioAt_all, medSil_trioAt hk le_rfl]
  field_simp
  ring

/-- **C129, FastMSC and PAMMEDSIL:** one swap in each iteration. -/
theorem C129_fastmsc (hk : 2 ≤ k) (hn : 3 * k ≤ u32Max) {maxiter : Nat} {r : SwapResult ℚ}
    (hr : fastmsc ℚ (fnMat (3 * k) (trioD k)) (trioStart k) maxiter = .ok r ∨
      pammedsilSwap ℚ (fnMat (3 * k) (trioD k)) (trioStart k) maxiter = .ok r) :
    r.loss = 1 - (3 * k - (min k maxiter : ℕ)) / (3 * k * (k + 1)) ∧ r.nSwap = min k maxiter ∧ r.nIter = min (k + 1) maxiter ∧
      r.med = (List.range k).map fun i => if i < maxiter then 3 * i + 1 else 3 * i := by
  obtain ⟨hv, hnd, hl⟩ := trioStart_valid hk hn
  have h : (r.med, r.nIter, r.nSwap) =
      steepRun (fun m => - medSil (conv : ℕ → ℚ) (3 * k) (trioD k) m) (3 * k) maxiter (trioStart k) ∧
      r.loss = medSil (conv : ℕ → ℚ) (3 * k) (trioD k) r.med := by
    rcases hr with hr | hr
    · exact C90_fastmsc (fnMat_isMatrix _ _) (trioD_dissim _ _) hv hnd (by omega) _ hr
    · exact C90_pammedsil_swap (fnMat_isMatrix _ _) (trioD_dissim _ _) hv hnd (by omega) _ hr
  obtain ⟨h1, h2⟩ := h
  have e0 : trioStart k = trioAt k 0 := by simp [trioStart_eq, trioAt]
  rw [e0, (medSil_trioFn hk).steepRun hk maxiter (Nat.zero_le k)] at h1
  simp only [Prod.mk.injEq, Nat.sub_zero, Nat.zero_add] at h1
  refine ⟨?_, h1.2.2, h1.2.1, ?_⟩
  · rw [h2, h1.1, medSil_trioAt hk (Nat.min_le_left _ _)]
  · rw [h1.1]
    refine List.map_congr_left fun i hi => ?_
    have hi := List.mem_range.mp hi
    dsimp only
    by_cases h : i < maxiter
    · rw [if_pos (by omega), if_pos h]
    · rw [if_neg (by omega), if_neg h]; rfl

/-- **C129, the optimum:** no `k` medoids have a larger medoid silhouette than the objects in the middle. -/
theorem C129_optimum (hk : 2 ≤ k) {other : List Nat} (hl : other.length = k) :
    medSil (conv : ℕ → ℚ) (3 * k) (trioD k) other ≤ 1 - 2 / (3 * (k + 1)) := by
  have hk0 : (0 : ℚ) < k := by exact_mod_cast (by omega : 0 < k)
  have h0 : ∀ i ∈ Finset.range (3 * k), (1 - (if i ∈ other.toFinset then 1 else 0 : ℚ)) / (k + 1) ≤
      1 - medSil1 (conv : ℕ → ℚ) (trioD k) other i := fun i _ => by
    by_cases hi : i ∈ other.toFinset
    · rw [if_pos hi, sub_self, zero_div]
      exact sub_nonneg.mpr (medSil1_range (L := ℚ) (by omega) fun _ _ => Nat.zero_le _).2
    · rw [if_neg hi, sub_zero]
      have ht := twoNearestP_twoMin (trioD k) (by omega : 2 ≤ other.length) i
      rw [medSil1_of ht]
      obtain ⟨ha, hb, -⟩ := ht.mem
      generalize (twoNearestP (trioD k) other i).1 = a at *
      generalize (twoNearestP (trioD k) other i).2 = b at *
      obtain ⟨m, hm, rfl⟩ := List.mem_map.mp ha
      obtain ⟨m', hm', rfl⟩ := List.mem_map.mp hb
      have him : i ≠ m := fun h => hi (List.mem_toFinset.mpr (h ▸ hm))
      have him' : i ≠ m' := fun h => hi (List.mem_toFinset.mpr (h ▸ hm'))
      have h1 : 1 ≤ trioD k i m := by unfold trioD; split_ifs <;> omega
      have h2 : 1 ≤ trioD k i m' := by unfold trioD; split_ifs <;> omega
      have h3 : trioD k i m' ≤ k + 1 := by unfold trioD; split_ifs <;> omega
      rw [if_neg (by omega)]
      show 1 / ((k : ℚ) + 1) ≤ 1 - (1 - ((trioD k i m : ℕ) : ℚ) / ((trioD k i m' : ℕ) : ℚ))
      rw [sub_sub_cancel]
      have g1 : (1 : ℚ) ≤ (trioD k i m : ℕ) := by exact_mod_cast h1
      have g2 : (1 : ℚ) ≤ (trioD k i m' : ℕ) := by exact_mod_cast h2
      have g3 : ((trioD k i m' : ℕ) : ℚ) ≤ k + 1 := by exact_mod_cast h3
      exact div_le_div₀ (by linarith) g1 (by linarith) g3
  have hs : (2 * k : ℚ) / (k + 1) ≤ msT ℚ (3 * k) (trioD k) other := by
    rw [msT_eq_sum]
    refine le_trans ?_ (Finset.sum_le_sum h0)
    rw [← Finset.sum_div, Finset.sum_sub_distrib, Finset.sum_ite_mem]
    have h1 : (Finset.range (3 * k) ∩ other.toFinset).card ≤ k :=
      (Finset.card_le_card Finset.inter_subset_right).trans ((List.toFinset_card_le other).trans hl.le)
    have h2 : ((Finset.range (3 * k) ∩ other.toFinset).card : ℚ) ≤ k := by exact_mod_cast h1
    refine div_le_div_of_nonneg_right ?_ (by linarith)
    simp only [Finset.sum_const, Finset.card_range, nsmul_eq_mul, mul_one]
    push_cast
    linarith
  rw [medSil_eq_msT (by omega)]
  have e : (2 : ℚ) / (3 * (k + 1)) = 2 * k / (k + 1) / (3 * k : ℕ) := by
    push_cast
    field_simp
  rw [e]
  exact sub_le_sub_left (div_le_div_of_nonneg_right hs (by positivity)) 1

/-- **C129, work:** the run of FasterMSC until convergence reads at most `2 / k` times as many matrix entries as that of PAMMEDSIL, with
the same medoids. -/
theorem C129_reads (hk : 2 ≤ k) (hn : 3 * k ≤ u32Max) {maxiter : Nat} (hi : k < maxiter) :
    ∃ (r r' : SwapResult ℚ) (t t' : Nat),
      (fastermscC ℚ ⟨1, 0⟩ ((fnMat (3 * k) (trioD k)).counted ⟨1, 0⟩) (trioStart k) maxiter).run = .ok (r, t) ∧
      (pammedsilSwapC ℚ ⟨1, 0⟩ ((fnMat (3 * k) (trioD k)).counted ⟨1, 0⟩) (trioStart k) maxiter).run = .ok (r', t') ∧
      r.med = r'.med ∧ t ≤ 3 * k ^ 2 * (k + 8) ∧ 2 * k ^ 2 * (k + 1) * (3 * k - 1) ≤ t' ∧ k * t ≤ 2 * t' := by
  obtain ⟨hv, hnd, hl⟩ := trioStart_valid hk hn
  have hm := fnMat_isMatrix (3 * k) (trioD k)
  obtain ⟨r, hr, -⟩ := C29_fastermsc (L := ℚ) hm hv (by omega) maxiter
  obtain ⟨r', hr', -⟩ := C29_pammedsil_swap (L := ℚ) hm hv (by omega) maxiter
  obtain ⟨-, a2, a3, a4⟩ := C129_fastermsc hk hn (by omega) hr
  obtain ⟨-, b2, b3, b4⟩ := C129_fastmsc hk hn (.inr hr')
  obtain ⟨t, h1, h2⟩ := C88_fastermsc (w := ⟨1, 0⟩) _ (by omega) maxiter hr
  obtain ⟨t', g1, g2, -⟩ := C88_pammedsil_swap (w := ⟨1, 0⟩) _ (by omega) maxiter hr'
  rw [hm.len, hl, a2, a3, show min maxiter 2 = 2 by omega] at h2
  rw [hm.len, hl, b3, show min (k + 1) maxiter = k + 1 by omega, show 3 * k - k = 2 * k by omega] at g2
  dsimp only at h2 g2
  have h3 : t ≤ 3 * k ^ 2 * (k + 8) := h2.trans (le_of_eq (by ring))
  have g3 : 2 * k ^ 2 * (k + 1) * (3 * k - 1) ≤ t' := le_trans (le_of_eq (by ring)) g2
  refine ⟨r, r', t, t', h1, g1, ?_, h3, g3, ?_⟩
  · rw [a4, b4]
    exact List.map_congr_left fun i hi' => by
      have := List.mem_range.mp hi'
      rw [if_pos (by omega)]
  · obtain ⟨p, rfl⟩ := Nat.exists_eq_add_of_le' hk
    rw [show 3 * (p + 2) - 1 = 3 * p + 5 by omega] at g3
    have e1 := Nat.mul_le_mul_left (p + 2) h3
    have e2 := Nat.mul_le_mul_left 2 g3
    refine e1.trans (le_trans ?_ e2)
    nlinarith [Nat.zero_le (p ^ 4), Nat.zero_le (p ^ 3), Nat.zero_le (p ^ 2), Nat.zero_le p]

/-- The comparison, for 4 groups. -/
example : fastermsc ℚ (fnMat 12 (trioD 4)) [0, 3, 6, 9] 100 =
      .ok ⟨13 / 15, [0, 0, 0, 1, 1, 1, 2, 2, 2, 3, 3, 3], 2, 4, [1, 4, 7, 10]⟩ ∧
    fastmsc ℚ (fnMat 12 (trioD 4)) [0, 3, 6, 9] 100 =
      .ok ⟨13 / 15, [0, 0, 0, 1, 1, 1, 2, 2, 2, 3, 3, 3], 5, 4, [1, 4, 7, 10]⟩ ∧
    pammedsilSwap ℚ (fnMat 12 (trioD 4)) [0, 3, 6, 9] 2 =
      .ok ⟨5 / 6, [0, 0, 0, 1, 1, 1, 2, 2, 2, 3, 3, 3], 2, 2, [1, 4, 6, 9]⟩ ∧ trioStart 4 = [0, 3, 6, 9] :=
  ⟨by decide +kernel, by decide +kernel, by decide +kernel, by decide⟩

end KMedoids
