import Mathlib.Data.Finset.Powerset
import Verif.Props.C136

/-!
# C136 for any number of clusters

With `k - 2` isolated objects, which are so far away that they have to be medoids for a small total deviation.
-/

set_option linter.unusedSectionVars false

namespace KMedoids

open RFrom (conv)

/-- `k` different objects. -/
def KSet (n k : Nat) (M : List Nat) : Prop := M.Nodup ∧ (∀ x ∈ M, x < n) ∧ M.length = k

/-- Among all choices of `k` objects there is a best one. -/
theorem exists_best_kset {n k : Nat} (hk : k ≤ n) (f : List Nat → ℚ) (hf : ∀ M M', M.Perm M' → M'.length = k → f M = f M') :
    ∃ M, KSet n k M ∧ ∀ M', KSet n k M' → f M' ≤ f M := by
  have hne : ((Finset.range n).powersetCard k).Nonempty := Finset.powersetCard_nonempty.mpr (by rw [Finset.card_range]; exact hk)
  obtain ⟨S, hS, hbest⟩ := Finset.exists_max_image _ (fun S : Finset Nat => f S.toList) hne
  rw [Finset.mem_powersetCard] at hS
  refine ⟨S.toList, ⟨S.nodup_toList, fun x hx => Finset.mem_range.mp (hS.1 (Finset.mem_toList.mp hx)), by rw [Finset.length_toList]; exact hS.2⟩,
    fun M' hM' => ?_⟩
  obtain ⟨h1, h2, h3⟩ := hM'
  have hp : M'.toFinset.toList.Perm M' :=
    (List.perm_ext_iff_of_nodup (Finset.nodup_toList _) h1).mpr fun x => by rw [Finset.mem_toList, List.mem_toFinset]
  rw [← hf _ _ hp h3]
  exact hbest _ (Finset.mem_powersetCard.mpr ⟨fun x hx => Finset.mem_range.mpr (h2 x (List.mem_toFinset.mp hx)),
    by rw [List.toFinset_card_of_nodup h1]; exact h3⟩)

theorem KSet.set {n k : Nat} {M : List Nat} (h : KSet n k M) {i j : Nat} (hj : j < n) (hjM : j ∉ M) : KSet n k (M.set i j) :=
  ⟨nodup_set h.1 hjM, fun x hx => by
    rcases List.mem_or_eq_of_mem_set hx with g | g
    · exact h.2.1 x g
    · rw [g]; exact hj, by rw [List.length_set]; exact h.2.2⟩

section iso
variable {N X e : Nat} {d : Nat → Nat → ℕ} {A M : List Nat}

/-- Two objects and all isolated ones, or an isolated object is missing. -/
theorem kset_iso (h : KSet (N + e) (2 + e) M) :
    (∃ z, N ≤ z ∧ z < N + e ∧ z ∉ M) ∨ ∃ a b, a < N ∧ b < N ∧ a ≠ b ∧ M.Perm ([a, b] ++ List.range' N e) := by
  obtain ⟨h1, h2, h3⟩ := h
  by_cases hz : ∃ z, N ≤ z ∧ z < N + e ∧ z ∉ M
  · exact .inl hz
  · right
    have hall : ∀ z, N ≤ z → z < N + e → z ∈ M := fun z ha hb => by_contra fun hc => hz ⟨z, ha, hb, hc⟩
    have hA : ∀ a ∈ M.filter fun x => decide (x < N), a < N := fun a ha => by simpa using (List.mem_filter.mp ha).2
    have hp : M.Perm ((M.filter fun x => decide (x < N)) ++ List.range' N e) := by
      refine (List.perm_ext_iff_of_nodup h1 (iso_nodup hA (h1.filter _))).mpr fun x => ?_
      rw [List.mem_append, List.mem_filter, List.mem_range'_1, decide_eq_true_eq]
      constructor
      · intro hx
        by_cases g : x < N
        · exact .inl ⟨hx, g⟩
        · exact .inr ⟨by omega, h2 x hx⟩
      · rintro (g | g)
        · exact g.1
        · exact hall x g.1 g.2
    have hl := hp.length_eq
    rw [List.length_append, List.length_range', h3] at hl
    obtain ⟨a, b, e2⟩ := List.length_eq_two.mp (by omega : (M.filter fun x => decide (x < N)).length = 2)
    have hnd := h1.filter fun x => decide (x < N)
    rw [e2] at hp hA hnd
    exact ⟨a, b, hA a (by simp), hA b (by simp), by simpa using hnd, hp⟩

theorem totalDev_iso (hd : Dissim N d) (hX : ∀ x y, x < N → y < N → d x y ≤ X) (hne : A ≠ []) (hA : ∀ a ∈ A, a < N) :
    totalDev (conv : ℕ → ℚ) (N + e) (isoD N X d) (A ++ List.range' N e) = totalDev (conv : ℕ → ℚ) N d A := by
  rw [totalDev_eq_sum, totalDev_eq_sum, Finset.sum_range_add]
  have h1 : ∀ o ∈ Finset.range N, (conv (minDist (isoD N X d) o (A ++ List.range' N e)) : ℚ) = conv (minDist d o A) := fun o ho => by
    rw [Finset.mem_range] at ho
    obtain ⟨⟨a, ha, ea⟩, hmin⟩ := minDist_spec d o A hne
    rw [minDist_eq (c := a) (List.mem_append.mpr (.inl ha)) fun c' hc' => ?_, isoD_base hd ho (hA a ha), ea]
    rw [isoD_base hd ho (hA a ha)]
    rcases List.mem_append.mp hc' with g | g
    · rw [isoD_base hd ho (hA c' g), ← ea]
      exact hmin c' g
    · rw [List.mem_range'_1] at g
      rw [isoD_far (by omega) (by omega)]
      exact hX _ _ ho (hA a ha)
  have h2 : ∀ x ∈ Finset.range e, (conv (minDist (isoD N X d) (N + x) (A ++ List.range' N e)) : ℚ) = 0 := fun x hx => by
    rw [Finset.mem_range] at hx
    have h0 : isoD N X d (N + x) (N + x) = 0 := if_pos rfl
    rw [minDist_eq (c := N + x) (List.mem_append.mpr (.inr (List.mem_range'_1.mpr (by omega)))) fun c' _ => by rw [h0]; exact Nat.zero_le _, h0]
    exact Nat.cast_zero
  rw [Finset.sum_congr rfl h1, Finset.sum_eq_zero h2, add_zero]

/-- An isolated object that is not a medoid. -/
theorem totalDev_far {n z : Nat} (hne : M ≠ []) (hz : N ≤ z) (hzn : z < n) (hzM : z ∉ M) :
    (X : ℚ) ≤ totalDev (conv : ℕ → ℚ) n (isoD N X d) M := by
  rw [totalDev_eq_sum]
  obtain ⟨⟨a, ha, ea⟩, -⟩ := minDist_spec (isoD N X d) z M hne
  have hX : minDist (isoD N X d) z M = X := by
    rw [ea]
    exact isoD_far (fun q => hzM (q ▸ ha)) (.inl hz)
  have := Finset.single_le_sum (f := fun o => (conv (minDist (isoD N X d) o M) : ℚ)) (s := Finset.range n)
    (fun o _ => Nat.cast_nonneg _) (Finset.mem_range.mpr hzn)
  rw [hX] at this
  exact this

theorem totalDev_perm_eq {n : Nat} {M M' : List Nat} (h : M.Perm M') :
    totalDev (conv : ℕ → ℚ) n d M = totalDev (conv : ℕ → ℚ) n d M' := by
  rw [totalDev_eq_sum, totalDev_eq_sum]
  exact Finset.sum_congr rfl fun o _ => by rw [minDist_perm h]

end iso

section base
variable {c m s : Nat}

theorem duoTy_first (hm : 1 ≤ m) : duoTy m 0 = 0 ∧ duoTy m m = 1 ∧ duoTy m (m + m) = 2 := by
  unfold duoTy
  refine ⟨?_, ?_, ?_⟩ <;> split_ifs <;> omega

theorem duoD_le (hs : 1 ≤ s) (hsm : s ≤ m) (x y : Nat) : duoD m s m x y ≤ m := by
  unfold duoD duoT
  split_ifs <;> omega

theorem duo_01 (hs : 1 ≤ s) (hsm : s ≤ m) : totalDev (conv : ℕ → ℚ) (m + m + 1) (duoD m s m) [0, m] = 3 * m - 2 := by
  obtain ⟨t0, t1, -⟩ := duoTy_first (m := m) (by omega)
  rcases duo_values (m := m) (s := s) (X := m) hs hsm (a := 0) (b := m) (by omega) (by omega) (by omega) with ⟨-, -, -, h, -⟩ | ⟨-, h, -⟩ | ⟨h, -⟩
  · rw [h]; ring
  · rw [t0, t1] at h; omega
  · rw [t0, t1] at h; omega

theorem duo_02 (hs : 1 ≤ s) (hsm : s ≤ m) : d1d2Sum (m + m + 1) (duoD m s m) [0, m + m] = (m - 1 + m * s) / m := by
  obtain ⟨t0, -, t2⟩ := duoTy_first (m := m) (by omega)
  rcases duo_values (m := m) (s := s) (X := m) hs hsm (a := 0) (b := m + m) (by omega) (by omega) (by omega) with ⟨-, h, -⟩ | ⟨-, -, -, h⟩ | ⟨h, -⟩
  · exact absurd t2 h
  · exact h
  · rw [t0, t2] at h; omega

/-- Pairs with a medoid silhouette at least that of `[0, 2 m]`. -/
theorem duo_ms_best (es : s = 4 * c + 4) (em : m = s ^ 2) {a b : Nat} (ha : a < m + m + 1) (hb : b < m + m + 1) (hab : a ≠ b)
    (h : d1d2Sum (m + m + 1) (duoD m s m) [a, b] ≤ d1d2Sum (m + m + 1) (duoD m s m) [0, m + m]) :
    (c : ℚ) * (3 * m - 2) < totalDev (conv : ℕ → ℚ) (m + m + 1) (duoD m s m) [a, b] := by
  have hsm : s ≤ m := by rw [em]; nlinarith
  have hs : 1 ≤ s := by omega
  have sq : (s : ℚ) = 4 * c + 4 := by exact_mod_cast es
  have mq : (m : ℚ) = s * s := by rw [em]; push_cast; ring
  have hc0 : (0 : ℚ) ≤ c := Nat.cast_nonneg c
  have hs4 : (4 : ℚ) ≤ s := by linarith
  have hm16 : (16 : ℚ) ≤ m := by rw [mq]; nlinarith
  have hbad : (c : ℚ) * (3 * m - 2) < m * s := by
    rw [sq]
    nlinarith
  rcases duo_values (m := m) (s := s) (X := m) hs hsm ha hb hab with ⟨-, -, -, -, g⟩ | ⟨-, -, g, -⟩ | ⟨-, g, -⟩
  · exfalso
    have w02 : d1d2Sum (m + m + 1) (duoD m s m) [0, m + m] < 1 + s := by
      rw [duo_02 hs hsm, div_lt_iff₀ (by linarith)]
      linarith
    have hlow : (1 + s : ℚ) ≤ 2 * (m - 1) / s + 1 := by
      rw [← sub_le_iff_le_add, le_div_iff₀ (by linarith), mq]
      nlinarith
    rw [g] at h
    linarith
  · rw [g]; linarith
  · rw [g]; linarith

/-- Pairs with a total deviation at most that of `[0, m]`. -/
theorem duo_td_best (em : m = 3 * c + 2) {a b : Nat} (ha : a < m + m + 1) (hb : b < m + m + 1) (hab : a ≠ b)
    (h : totalDev (conv : ℕ → ℚ) (m + m + 1) (duoD m 2 m) [a, b] ≤ 3 * m - 2) :
    (c : ℚ) * d1d2Sum (m + m + 1) (duoD m 2 m) [0, m + m] < d1d2Sum (m + m + 1) (duoD m 2 m) [a, b] := by
  have hsm : 2 ≤ m := by omega
  have mq : (m : ℚ) = 3 * c + 2 := by exact_mod_cast em
  have hc0 : (0 : ℚ) ≤ c := Nat.cast_nonneg c
  have w02 : d1d2Sum (m + m + 1) (duoD m 2 m) [0, m + m] < 3 := by
    rw [duo_02 (by omega) hsm, div_lt_iff₀ (by linarith)]
    push_cast
    linarith
  have h3 : (c : ℚ) * d1d2Sum (m + m + 1) (duoD m 2 m) [0, m + m] ≤ c * 3 := mul_le_mul_of_nonneg_left w02.le hc0
  rcases duo_values (m := m) (s := 2) (X := m) (by omega) hsm ha hb hab with ⟨-, -, -, -, g⟩ | ⟨-, -, g, -⟩ | ⟨-, -, g⟩
  · rw [g]; push_cast; linarith
  · rw [g] at h; push_cast at h; linarith
  · rw [g]; linarith

end base

/-- **C136, medoid silhouette,** for every number of clusters. -/
theorem C136_medoid_silhouette_all (c : Nat) {k : Nat} (hk : 2 ≤ k) (hu : 2 * (4 * c + 4) ^ 2 + k ≤ u32Max) :
    ∃ (n : Nat) (d : Nat → Nat → ℕ) (other : List Nat), k ≤ n ∧ n ≤ u32Max ∧ Dissim n d ∧ IsMetric (conv : ℕ → ℚ) n d ∧ KSet n k other ∧
      0 < totalDev (conv : ℕ → ℚ) n d other ∧
      (∃ M, KSet n k M ∧ ∀ M', KSet n k M' → medSil (conv : ℕ → ℚ) n d M' ≤ medSil (conv : ℕ → ℚ) n d M) ∧
      ∀ M, KSet n k M → (∀ M', KSet n k M' → medSil (conv : ℕ → ℚ) n d M' ≤ medSil (conv : ℕ → ℚ) n d M) →
        c * totalDev (conv : ℕ → ℚ) n d other < totalDev (conv : ℕ → ℚ) n d M ∧
          ∀ maxiter (r : SwapResult ℚ), IsMscRun (fnMat n d) M maxiter r → r.nSwap = 0 ∧ r.med = M := by
  obtain ⟨e, rfl⟩ := Nat.exists_eq_add_of_le hk
  obtain ⟨s, es⟩ : ∃ s, s = 4 * c + 4 := ⟨_, rfl⟩
  obtain ⟨m, em⟩ : ∃ m, m = s ^ 2 := ⟨_, rfl⟩
  rw [← es, ← em] at hu
  have hsm : s ≤ m := by rw [em]; nlinarith
  have hs : 1 ≤ s := by omega
  have hdis : Dissim (m + m + 1) (duoD m s m) := duoD_dissim
  have hle : ∀ x y, x < m + m + 1 → y < m + m + 1 → duoD m s m x y ≤ 3 * c * m + m := fun x y _ _ => (duoD_le hs hsm x y).trans (by omega)
  have hX0 : 0 < 3 * c * m + m := by omega
  have hn : 0 < m + m + 1 + e := by omega
  have hnq : (0 : ℚ) < (m + m + 1 + e : ℕ) := by exact_mod_cast hn
  have ho : ∀ x ∈ [0, m], x < m + m + 1 := fun x hx => by simp only [List.mem_cons, List.not_mem_nil, or_false] at hx; omega
  have hz : ∀ x ∈ [0, m + m], x < m + m + 1 := fun x hx => by simp only [List.mem_cons, List.not_mem_nil, or_false] at hx; omega
  have hset : ∀ {A : List Nat}, A.Nodup → (∀ x ∈ A, x < m + m + 1) → A.length = 2 → KSet (m + m + 1 + e) (2 + e) (A ++ List.range' (m + m + 1) e) :=
    fun h1 h2 h3 => ⟨iso_nodup h2 h1, iso_range h2, by rw [List.length_append, List.length_range', h3]⟩
  have htd : totalDev (conv : ℕ → ℚ) (m + m + 1 + e) (isoD (m + m + 1) (3 * c * m + m) (duoD m s m)) ([0, m] ++ List.range' (m + m + 1) e) = 3 * m - 2 := by
    rw [totalDev_iso hdis hle (by simp) ho, duo_01 hs hsm]
  have hm1 : (1 : ℚ) ≤ m := by exact_mod_cast (by omega : 1 ≤ m)
  refine ⟨m + m + 1 + e, isoD (m + m + 1) (3 * c * m + m) (duoD m s m), [0, m] ++ List.range' (m + m + 1) e, by omega, by omega, isoD_dissim,
    isoD_metric (C136_metric hs hsm) hdis hle, hset (by simp; omega) ho rfl, by rw [htd]; linarith, ?_, fun M hM hopt => ⟨?_, fun maxiter r hr => ?_⟩⟩
  · refine exists_best_kset (by omega) _ fun M M' hp hl => ?_
    have := d1d2Sum_perm (n := m + m + 1 + e) (d := isoD (m + m + 1) (3 * c * m + m) (duoD m s m)) hp (by omega)
    have h1 := medSil_d1d2 hn (isoD (m + m + 1) (3 * c * m + m) (duoD m s m)) M
    have h2 := medSil_d1d2 hn (isoD (m + m + 1) (3 * c * m + m) (duoD m s m)) M'
    rw [this, ← h2] at h1
    linarith
  · rw [htd]
    rcases kset_iso hM with ⟨z, z1, z2, z3⟩ | ⟨a, b, ha, hb, hab, hp⟩
    · refine lt_of_lt_of_le ?_ (totalDev_far (fun q => by have := hM.2.2; rw [q, List.length_nil] at this; omega) z1 z2 z3)
      push_cast
      have : (0 : ℚ) ≤ c := Nat.cast_nonneg c
      linarith
    · have hab' : ∀ x ∈ [a, b], x < m + m + 1 := fun x hx => by
        simp only [List.mem_cons, List.not_mem_nil, or_false] at hx
        rcases hx with rfl | rfl <;> assumption
      rw [totalDev_perm_eq hp, totalDev_iso hdis hle (by simp) hab']
      refine duo_ms_best es em ha hb hab ?_
      have h1 := hopt _ (hset (A := [0, m + m]) (by simp; omega) hz rfl)
      have h2 := medSil_d1d2 hn (isoD (m + m + 1) (3 * c * m + m) (duoD m s m)) M
      have h3 := medSil_d1d2 hn (isoD (m + m + 1) (3 * c * m + m) (duoD m s m)) ([0, m + m] ++ List.range' (m + m + 1) e)
      rw [d1d2Sum_perm hp (by simp), d1d2Sum_iso_all hdis hle hX0 (by simp) hab'] at h2
      rw [d1d2Sum_iso_all hdis hle hX0 (by simp) hz] at h3
      have h4 : d1d2Sum (m + m + 1) (duoD m s m) [a, b] / ((m + m + 1 + e : ℕ) : ℚ) ≤
          d1d2Sum (m + m + 1) (duoD m s m) [0, m + m] / ((m + m + 1 + e : ℕ) : ℚ) := by rw [← h2, ← h3]; linarith
      exact (div_le_div_iff_of_pos_right hnq).mp h4
  · have hl := hM.2.2
    obtain ⟨h1, h2, -⟩ := C54_msc_from_optimum (fnMat_isMatrix _ _) isoD_dissim ⟨⟨by omega, by omega, by omega, by omega⟩, hM.2.1⟩ hM.1
      (by omega) hr fun i j _ hj hjm => hopt _ (hM.set hj hjm)
    exact ⟨h1, h2⟩

/-- **C136, total deviation,** for every number of clusters. -/
theorem C136_total_deviation_all (c : Nat) {k : Nat} (hk : 2 ≤ k) (hu : 6 * c + 4 + k ≤ u32Max) :
    ∃ (n : Nat) (d : Nat → Nat → ℕ) (other : List Nat), k ≤ n ∧ n ≤ u32Max ∧ Dissim n d ∧ IsMetric (conv : ℕ → ℚ) n d ∧ KSet n k other ∧
      0 < 1 - medSil (conv : ℕ → ℚ) n d other ∧
      (∃ M, KSet n k M ∧ ∀ M', KSet n k M' → totalDev (conv : ℕ → ℚ) n d M ≤ totalDev (conv : ℕ → ℚ) n d M') ∧
      ∀ M, KSet n k M → (∀ M', KSet n k M' → totalDev (conv : ℕ → ℚ) n d M ≤ totalDev (conv : ℕ → ℚ) n d M') →
        c * (1 - medSil (conv : ℕ → ℚ) n d other) < 1 - medSil (conv : ℕ → ℚ) n d M ∧
          ∀ maxiter (r : SwapResult ℚ), IsPamRun (fnMat n d) n M maxiter r → r.nSwap = 0 ∧ r.med = M := by
  obtain ⟨e, rfl⟩ := Nat.exists_eq_add_of_le hk
  obtain ⟨m, em⟩ : ∃ m, m = 3 * c + 2 := ⟨_, rfl⟩
  have hsm : 2 ≤ m := by omega
  have hdis : Dissim (m + m + 1) (duoD m 2 m) := duoD_dissim
  have hle : ∀ x y, x < m + m + 1 → y < m + m + 1 → duoD m 2 m x y ≤ 3 * m := fun x y _ _ => (duoD_le (by omega) hsm x y).trans (by omega)
  have hX0 : 0 < 3 * m := by omega
  have hn : 0 < m + m + 1 + e := by omega
  have hnq : (0 : ℚ) < (m + m + 1 + e : ℕ) := by exact_mod_cast hn
  have ho : ∀ x ∈ [0, m], x < m + m + 1 := fun x hx => by simp only [List.mem_cons, List.not_mem_nil, or_false] at hx; omega
  have hz : ∀ x ∈ [0, m + m], x < m + m + 1 := fun x hx => by simp only [List.mem_cons, List.not_mem_nil, or_false] at hx; omega
  have hset : ∀ {A : List Nat}, A.Nodup → (∀ x ∈ A, x < m + m + 1) → A.length = 2 → KSet (m + m + 1 + e) (2 + e) (A ++ List.range' (m + m + 1) e) :=
    fun h1 h2 h3 => ⟨iso_nodup h2 h1, iso_range h2, by rw [List.length_append, List.length_range', h3]⟩
  have htd : totalDev (conv : ℕ → ℚ) (m + m + 1 + e) (isoD (m + m + 1) (3 * m) (duoD m 2 m)) ([0, m] ++ List.range' (m + m + 1) e) = 3 * m - 2 := by
    rw [totalDev_iso hdis hle (by simp) ho, duo_01 (by omega) hsm]
  have hm2 : (2 : ℚ) ≤ m := by exact_mod_cast hsm
  have h3 := medSil_d1d2 hn (isoD (m + m + 1) (3 * m) (duoD m 2 m)) ([0, m + m] ++ List.range' (m + m + 1) e)
  rw [d1d2Sum_iso_all hdis hle hX0 (by simp) hz] at h3
  have hmet : IsMetric (conv : ℕ → ℚ) (m + m + 1 + e) (isoD (m + m + 1) (3 * m) (duoD m 2 m)) := isoD_metric (C136_metric (by omega) hsm) hdis hle
  refine ⟨m + m + 1 + e, isoD (m + m + 1) (3 * m) (duoD m 2 m), [0, m + m] ++ List.range' (m + m + 1) e, by omega, by omega, isoD_dissim, hmet,
    hset (by simp; omega) hz rfl, ?_, ?_, fun M hM hopt => ⟨?_, fun maxiter r hr => ?_⟩⟩
  · rw [h3, duo_02 (by omega) hsm]
    push_cast
    exact div_pos (div_pos (by linarith) (by linarith)) (by push_cast at hnq; exact hnq)
  · obtain ⟨M, h1, h2⟩ := exists_best_kset (n := m + m + 1 + e) (k := 2 + e) (by omega)
      (fun M => -totalDev (conv : ℕ → ℚ) (m + m + 1 + e) (isoD (m + m + 1) (3 * m) (duoD m 2 m)) M) fun M M' hp _ => by rw [totalDev_perm_eq hp]
    exact ⟨M, h1, fun M' hM' => neg_le_neg_iff.mp (h2 M' hM')⟩
  · have h1 := hopt _ (hset (A := [0, m]) (by simp; omega) ho rfl)
    rw [htd] at h1
    rcases kset_iso hM with ⟨z, z1, z2, z3⟩ | ⟨a, b, ha, hb, hab, hp⟩
    · have h2 := totalDev_far (X := 3 * m) (d := duoD m 2 m) (fun q => by have := hM.2.2; rw [q, List.length_nil] at this; omega) z1 z2 z3
      push_cast at h2
      linarith
    · have hab' : ∀ x ∈ [a, b], x < m + m + 1 := fun x hx => by
        simp only [List.mem_cons, List.not_mem_nil, or_false] at hx
        rcases hx with rfl | rfl <;> assumption
      rw [totalDev_perm_eq hp, totalDev_iso hdis hle (by simp) hab'] at h1
      rw [h3, medSil_d1d2 hn, d1d2Sum_perm hp (by simp), d1d2Sum_iso_all hdis hle hX0 (by simp) hab', ← mul_div_assoc]
      exact div_lt_div_of_pos_right (duo_td_best em ha hb hab h1) hnq
  · have hl := hM.2.2
    exact pam_from_optimum isoD_dissim hmet ⟨⟨by omega, by omega, by omega, by omega⟩, hM.2.1⟩ hM.1 hr fun i j _ hj hjm => hopt _ (hM.set hj hjm)

/-! ## Example -/

/-- Three clusters: the instance of `C136_total_deviation_all` for `c = 2`. -/
example : (fasterpam ℚ (fnMat 18 (isoD 17 24 (duoD 8 2 8))) [0, 8, 17] 9).map (fun r => (r.loss, r.nSwap, r.med)) = .ok (22, 0, [0, 8, 17]) ∧
    1 - medSil (conv : ℕ → ℚ) 18 (isoD 17 24 (duoD 8 2 8)) [0, 8, 17] = 8 / 18 ∧
    1 - medSil (conv : ℕ → ℚ) 18 (isoD 17 24 (duoD 8 2 8)) [0, 16, 17] = 23 / 144 ∧
    2 * (4 * 1000 + 4) ^ 2 + 50 ≤ u32Max ∧ 6 * 1000 + 4 + 50 ≤ u32Max := by
  decide +kernel

end KMedoids
