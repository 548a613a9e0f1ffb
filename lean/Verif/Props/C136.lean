import Verif.Props.C134

/-!
# C136: the optimum of one criterion can be arbitrarily bad for the other

Two groups of `m` objects, with distance 1 within and `s` between the groups, and one object at distance `X` from the groups. With `m = X = s²`, the
medoid silhouette is best with the remote object and an object of a group, but then the objects of the other group are all at distance `s`. With `s = 2` and
`X = m`, the total deviation is best with an object of each group, but then the objects have `d₁/d₂ = 1/2`, where about `1/m` is possible.
-/

set_option linter.unusedSectionVars false

namespace KMedoids

open RFrom (conv)

/-- Group of object `o`. -/
def duoTy (m o : Nat) : Nat := if o < m then 0 else if o < m + m then 1 else 2

/-- Distance of different objects, by their groups. -/
def duoT (s X t u : Nat) : ℕ := if t = 2 ∨ u = 2 then X else if t = u then 1 else s

def duoD (m s X x y : Nat) : ℕ := if x = y then 0 else duoT s X (duoTy m x) (duoTy m y)

section family
variable {m s X : Nat}

theorem duoD_dissim {n : Nat} : Dissim n (duoD m s X) := ⟨fun _ _ => if_pos rfl, fun _ _ _ _ => Nat.zero_le _⟩

/-- **C136, metric.** -/
theorem C136_metric (hs : 1 ≤ s) (hX : s ≤ X) : IsMetric (conv : ℕ → ℚ) (m + m + 1) (duoD m s X) where
  symm x y _ _ := by unfold duoD duoT; split_ifs <;> omega
  triangle x y z _ _ _ := by
    have h : duoD m s X x z ≤ duoD m s X x y + duoD m s X y z := by
      have ht : ∀ t u v, duoT s X t v ≤ duoT s X t u + duoT s X u v := fun t u v => by
        unfold duoT
        split_ifs <;> omega
      unfold duoD
      by_cases h1 : x = y
      · rw [h1, if_pos rfl, zero_add]
      · by_cases h2 : y = z
        · rw [h2, if_pos rfl, add_zero]
        · rw [if_neg h1, if_neg h2]
          split_ifs
          · exact Nat.zero_le _
          · exact ht _ _ _
    show ((duoD m s X x z : ℕ) : ℚ) ≤ (duoD m s X x y : ℕ) + (duoD m s X y z : ℕ)
    exact_mod_cast h

theorem sum_duoTy (f : Nat → ℚ) : ∑ o ∈ Finset.range (m + m + 1), f (duoTy m o) = m * f 0 + m * f 1 + f 2 := by
  rw [Finset.sum_range_add, Finset.sum_range_add]
  have h0 : ∀ x ∈ Finset.range m, f (duoTy m x) = f 0 := fun x hx => by
    rw [Finset.mem_range] at hx
    rw [duoTy, if_pos hx]
  have h1 : ∀ x ∈ Finset.range m, f (duoTy m (m + x)) = f 1 := fun x hx => by
    rw [Finset.mem_range] at hx
    rw [duoTy, if_neg (by omega), if_pos (by omega)]
  have h2 : ∀ x ∈ Finset.range 1, f (duoTy m (m + m + x)) = f 2 := fun x _ => by
    rw [duoTy, if_neg (by omega), if_neg (by omega)]
  rw [Finset.sum_congr rfl h0, Finset.sum_congr rfl h1, Finset.sum_congr rfl h2]
  simp

/-- The sum over all objects of a function of the distances to two medoids. -/
theorem sum_duo (F : ℕ → ℕ → ℚ) (h1 : ∀ y, F 0 y = 0) (h2 : ∀ x, F x 0 = 0) {a b : Nat} (ha : a < m + m + 1) (hb : b < m + m + 1) (hab : a ≠ b)
    {f : Nat → ℚ} (hf : f = fun t => F (duoT s X t (duoTy m a)) (duoT s X t (duoTy m b))) :
    ∑ o ∈ Finset.range (m + m + 1), F (duoD m s X o a) (duoD m s X o b) = m * f 0 + m * f 1 + f 2 - f (duoTy m a) - f (duoTy m b) := by
  have h : ∀ o ∈ Finset.range (m + m + 1), F (duoD m s X o a) (duoD m s X o b) =
      f (duoTy m o) - (if o = a then f (duoTy m a) else 0) - (if o = b then f (duoTy m b) else 0) := by
    intro o _
    by_cases g1 : o = a
    · subst g1
      rw [if_pos rfl, if_neg hab, show duoD m s X o o = 0 from if_pos rfl, h1]
      ring
    · by_cases g2 : o = b
      · subst g2
        rw [if_neg g1, if_pos rfl, show duoD m s X o o = 0 from if_pos rfl, h2]
        ring
      · rw [if_neg g1, if_neg g2, sub_zero, sub_zero]
        unfold duoD
        rw [if_neg g1, if_neg g2, hf]
  rw [Finset.sum_congr rfl h, Finset.sum_sub_distrib, Finset.sum_sub_distrib, sum_duoTy,
    Finset.sum_ite_eq', Finset.sum_ite_eq', if_pos (Finset.mem_range.mpr ha), if_pos (Finset.mem_range.mpr hb)]

theorem duo_td {a b : Nat} (ha : a < m + m + 1) (hb : b < m + m + 1) (hab : a ≠ b) {f : Nat → ℚ}
    (hf : f = fun t => ((min (duoT s X t (duoTy m a)) (duoT s X t (duoTy m b)) : ℕ) : ℚ)) :
    totalDev (conv : ℕ → ℚ) (m + m + 1) (duoD m s X) [a, b] = m * f 0 + m * f 1 + f 2 - f (duoTy m a) - f (duoTy m b) := by
  rw [totalDev_eq_sum]
  exact sum_duo (fun x y => ((min x y : ℕ) : ℚ)) (by simp) (by simp) ha hb hab hf

theorem duo_ms {a b : Nat} (ha : a < m + m + 1) (hb : b < m + m + 1) (hab : a ≠ b) {f : Nat → ℚ}
    (hf : f = fun t => quot2 (duoT s X t (duoTy m a)) (duoT s X t (duoTy m b))) :
    d1d2Sum (m + m + 1) (duoD m s X) [a, b] = m * f 0 + m * f 1 + f 2 - f (duoTy m a) - f (duoTy m b) := by
  unfold d1d2Sum
  rw [Finset.sum_congr rfl fun o _ => quot2_eq]
  refine sum_duo quot2 (fun y => by simp [quot2]) (fun x => ?_) ha hb hab hf
  unfold quot2
  split_ifs <;> simp

/-- The values of all pairs of medoids. -/
theorem duo_values (hs : 1 ≤ s) (hX : s ≤ X) {a b : Nat} (ha : a < m + m + 1) (hb : b < m + m + 1) (hab : a ≠ b) :
    (duoTy m a ≠ 2 ∧ duoTy m b ≠ 2 ∧ duoTy m a ≠ duoTy m b ∧ totalDev (conv : ℕ → ℚ) (m + m + 1) (duoD m s X) [a, b] = 2 * m + X - 2 ∧
        d1d2Sum (m + m + 1) (duoD m s X) [a, b] = 2 * (m - 1) / s + 1) ∨
      (duoTy m a ≠ duoTy m b ∧ (duoTy m a = 2 ∨ duoTy m b = 2) ∧ totalDev (conv : ℕ → ℚ) (m + m + 1) (duoD m s X) [a, b] = m - 1 + m * s ∧
        d1d2Sum (m + m + 1) (duoD m s X) [a, b] = (m - 1 + m * s) / X) ∨
      (duoTy m a = duoTy m b ∧ totalDev (conv : ℕ → ℚ) (m + m + 1) (duoD m s X) [a, b] = m + m * s + X - 2 ∧
        d1d2Sum (m + m + 1) (duoD m s X) [a, b] = 2 * m - 1) := by
  have e1 := duo_td (s := s) (X := X) ha hb hab rfl
  have e2 := duo_ms (s := s) (X := X) ha hb hab rfl
  have hX1 : 1 ≤ X := by omega
  have hs0 : (s : ℚ) ≠ 0 := by exact_mod_cast (by omega : s ≠ 0)
  have hX0 : (X : ℚ) ≠ 0 := by exact_mod_cast (by omega : X ≠ 0)
  have q1 : quot2 1 1 = 1 := by norm_num [quot2]
  have qs : quot2 s s = 1 := by unfold quot2; rw [if_pos le_rfl, div_self hs0]
  have qX : quot2 X X = 1 := by unfold quot2; rw [if_pos le_rfl, div_self hX0]
  have q1s : quot2 1 s = 1 / s := by unfold quot2; rw [if_pos hs, Nat.cast_one]
  have q1X : quot2 1 X = 1 / X := by unfold quot2; rw [if_pos hX1, Nat.cast_one]
  have qsX : quot2 s X = s / X := by unfold quot2; rw [if_pos hX]
  have comm : ∀ x y, quot2 x y = quot2 y x := fun x y => by
    unfold quot2
    split_ifs with h1 h2 h2
    · rw [le_antisymm h1 h2]
    · rfl
    · rfl
    · omega
  have qs1 : quot2 s 1 = 1 / s := (comm _ _).trans q1s
  have qX1 : quot2 X 1 = 1 / X := (comm _ _).trans q1X
  have qXs : quot2 X s = s / X := (comm _ _).trans qsX
  have ta : duoTy m a = 0 ∨ duoTy m a = 1 ∨ (duoTy m a = 2 ∧ a = m + m) := by unfold duoTy; split_ifs <;> omega
  have tb : duoTy m b = 0 ∨ duoTy m b = 1 ∨ (duoTy m b = 2 ∧ b = m + m) := by unfold duoTy; split_ifs <;> omega
  rcases ta with ta | ta | ⟨ta, ea⟩ <;> rcases tb with tb | tb | ⟨tb, eb⟩ <;> rw [ta, tb] at e1 e2 ⊢
  case inr.inr.inr.inr => exact absurd (ea.trans eb.symm) hab
  all_goals
    simp only [duoT, show ((0 : Nat) = 2) = False by simp, show ((1 : Nat) = 2) = False by simp, or_self, or_false, or_true,
      if_true, if_false, show ((0 : Nat) = 1) = False by simp, show ((1 : Nat) = 0) = False by simp, min_self, min_eq_left hs, min_eq_right hs,
      min_eq_left hX, min_eq_right hX, min_eq_left hX1, min_eq_right hX1, q1, qs, qX, q1s, q1X, qsX, qs1, qX1, qXs, Nat.cast_one] at e1 e2
  all_goals
    first
    | exact .inl ⟨by omega, by omega, by omega, by rw [e1]; ring, by rw [e2]; ring⟩
    | exact .inr (.inl ⟨by omega, by omega, by rw [e1]; ring, by rw [e2]; ring⟩)
    | exact .inr (.inr ⟨rfl, by rw [e1]; ring, by rw [e2]; ring⟩)

end family

/-- A run of the PAM family from a local optimum makes no swap. -/
theorem pam_from_optimum {n : Nat} {d : Nat → Nat → ℕ} (hd : Dissim n d) (hmet : IsMetric (conv : ℕ → ℚ) n d) {med : List Nat}
    (hv : ValidMeds n med) (hnd : med.Nodup) {maxiter : Nat} {r : SwapResult ℚ} (hr : IsPamRun (fnMat n d) n med maxiter r)
    (hopt : SwapOptimal (conv : ℕ → ℚ) n d med) : r.nSwap = 0 ∧ r.med = med := by
  have h := hr.outcome (fnMat_isMatrix n d) hd hv hnd fun _ => hmet.symm
  have h0 : r.nSwap = 0 := by
    rcases h.chain.first with h0 | ⟨m, j, h1, h2, h3, h4⟩
    · exact h0
    · exact absurd (hopt m j h1 h2 h3) (not_le.mpr h4)
  exact ⟨h0, (h0 ▸ h.chain).eq_of_zero⟩

/-- **C136, medoid silhouette.** For every factor `c` there are a metric and two medoids with the largest medoid silhouette of all; FasterMSC, FastMSC and
PAMMEDSIL started with them return them; and all medoids with this largest silhouette have a total deviation of more than `c` times that of others. -/
theorem C136_medoid_silhouette (c : Nat) (hu : 2 * (4 * c + 4) ^ 2 + 1 ≤ u32Max) :
    ∃ (n : Nat) (d : Nat → Nat → ℕ) (med other : List Nat), n = 2 * (4 * c + 4) ^ 2 + 1 ∧ Dissim n d ∧ IsMetric (conv : ℕ → ℚ) n d ∧ ValidMeds n med ∧
      med.Nodup ∧ med.length = 2 ∧ other.length = 2 ∧ (∀ x ∈ other, x < n) ∧ other.Nodup ∧ 0 < totalDev (conv : ℕ → ℚ) n d other ∧
      (∀ a b, a < n → b < n → a ≠ b → medSil (conv : ℕ → ℚ) n d [a, b] ≤ medSil (conv : ℕ → ℚ) n d med) ∧
      (∀ a b, a < n → b < n → a ≠ b → medSil (conv : ℕ → ℚ) n d [a, b] = medSil (conv : ℕ → ℚ) n d med →
        c * totalDev (conv : ℕ → ℚ) n d other < totalDev (conv : ℕ → ℚ) n d [a, b]) ∧
      ∀ maxiter (r : SwapResult ℚ), IsMscRun (fnMat n d) med maxiter r → r.nSwap = 0 ∧ r.med = med ∧
        c * totalDev (conv : ℕ → ℚ) n d other < totalDev (conv : ℕ → ℚ) n d r.med := by
  obtain ⟨s, es⟩ : ∃ s, s = 4 * c + 4 := ⟨_, rfl⟩
  obtain ⟨m, em⟩ : ∃ m, m = s ^ 2 := ⟨_, rfl⟩
  rw [← es, ← em] at hu ⊢
  have hsm : s ≤ m := by rw [em]; nlinarith
  have hs : 1 ≤ s := by omega
  have hn : 0 < m + m + 1 := by omega
  have hnq : (0 : ℚ) < (m + m + 1 : ℕ) := by exact_mod_cast hn
  have hval := fun a b ha hb hab => duo_values (m := m) (s := s) (X := m) hs hsm (a := a) (b := b) ha hb hab
  have t0 : duoTy m 0 = 0 := by unfold duoTy; rw [if_pos (by omega)]
  have t1 : duoTy m m = 1 := by unfold duoTy; rw [if_neg (by omega), if_pos (by omega)]
  have t2 : duoTy m (m + m) = 2 := by unfold duoTy; rw [if_neg (by omega), if_neg (by omega)]
  have sq : (s : ℚ) = 4 * c + 4 := by exact_mod_cast es
  have mq : (m : ℚ) = s * s := by rw [em]; push_cast; ring
  have hc0 : (0 : ℚ) ≤ c := Nat.cast_nonneg c
  have hs4 : (4 : ℚ) ≤ s := by linarith
  have hm16 : (16 : ℚ) ≤ m := by rw [mq]; nlinarith
  have v01 : totalDev (conv : ℕ → ℚ) (m + m + 1) (duoD m s m) [0, m] = 3 * m - 2 := by
    rcases hval 0 m (by omega) (by omega) (by omega) with ⟨-, -, -, h, -⟩ | ⟨-, h, -⟩ | ⟨h, -⟩
    · rw [h]; ring
    · rw [t0, t1] at h; omega
    · rw [t0, t1] at h; omega
  have v02 : totalDev (conv : ℕ → ℚ) (m + m + 1) (duoD m s m) [0, m + m] = m - 1 + m * s ∧
      d1d2Sum (m + m + 1) (duoD m s m) [0, m + m] = (m - 1 + m * s) / m := by
    rcases hval 0 (m + m) (by omega) (by omega) (by omega) with ⟨-, h, -⟩ | ⟨-, -, h, h'⟩ | ⟨h, -⟩
    · exact absurd t2 h
    · exact ⟨h, h'⟩
    · rw [t0, t2] at h; omega
  have w02 : d1d2Sum (m + m + 1) (duoD m s m) [0, m + m] < 1 + s := by
    rw [v02.2, div_lt_iff₀ (by linarith)]
    linarith
  have hlow : (1 + s : ℚ) ≤ 2 * (m - 1) / s + 1 := by
    rw [← sub_le_iff_le_add, le_div_iff₀ (by linarith), mq]
    nlinarith
  have hbad : (c : ℚ) * (3 * m - 2) < m * s := by
    rw [sq]
    nlinarith
  have hmax : ∀ a b, a < m + m + 1 → b < m + m + 1 → a ≠ b →
      d1d2Sum (m + m + 1) (duoD m s m) [0, m + m] ≤ d1d2Sum (m + m + 1) (duoD m s m) [a, b] := fun a b ha hb hab => by
    rcases hval a b ha hb hab with ⟨-, -, -, -, h⟩ | ⟨-, -, -, h⟩ | ⟨-, -, h⟩
    · rw [h]; linarith
    · rw [h, v02.2]
    · rw [h]
      have : (s : ℚ) ≤ m := by exact_mod_cast hsm
      linarith
  have hle : ∀ x y, d1d2Sum (m + m + 1) (duoD m s m) x ≤ d1d2Sum (m + m + 1) (duoD m s m) y →
      medSil (conv : ℕ → ℚ) (m + m + 1) (duoD m s m) y ≤ medSil (conv : ℕ → ℚ) (m + m + 1) (duoD m s m) x := fun x y h => by
    have := div_le_div_of_nonneg_right h hnq.le
    rw [← medSil_d1d2 hn, ← medSil_d1d2 hn] at this
    linarith
  have hv : ValidMeds (m + m + 1) [0, m + m] := ⟨⟨by simp, by simp; omega, by omega, by simp; omega⟩, fun x hx => by
    simp only [List.mem_cons, List.not_mem_nil, or_false] at hx; omega⟩
  have hnd : [0, m + m].Nodup := by simp; omega
  have hmed : (c : ℚ) * totalDev (conv : ℕ → ℚ) (m + m + 1) (duoD m s m) [0, m] <
      totalDev (conv : ℕ → ℚ) (m + m + 1) (duoD m s m) [0, m + m] := by
    rw [v01, v02.1]; linarith
  refine ⟨m + m + 1, duoD m s m, [0, m + m], [0, m], by omega, duoD_dissim, C136_metric hs hsm, hv, hnd, rfl, rfl, fun x hx => ?_, by simp; omega,
    by rw [v01]; linarith, fun a b ha hb hab => hle _ _ (hmax a b ha hb hab), fun a b ha hb hab he => ?_, fun maxiter r hr => ?_⟩
  · simp only [List.mem_cons, List.not_mem_nil, or_false] at hx; omega
  · rw [v01]
    rcases hval a b ha hb hab with ⟨-, -, -, -, h⟩ | ⟨-, -, h, -⟩ | ⟨-, h, -⟩
    · exfalso
      have h1 := medSil_d1d2 hn (duoD m s m) [a, b]
      rw [he, medSil_d1d2 hn, div_left_inj' hnq.ne', h] at h1
      linarith
    · rw [h]; linarith
    · rw [h]; linarith
  · have hopt : SilSwapOptimal ℚ (m + m + 1) (duoD m s m) [0, m + m] := by
      intro i j hi hj hjm
      simp only [List.mem_cons, List.not_mem_nil, or_false, not_or] at hjm
      have hi' : i = 0 ∨ i = 1 := by simp at hi; omega
      rcases hi' with rfl | rfl
      · exact hle _ _ (hmax j (m + m) hj (by omega) hjm.2)
      · exact hle _ _ (hmax 0 j (by omega) hj (Ne.symm hjm.1))
    obtain ⟨h1, h2, -⟩ := C54_msc_from_optimum (fnMat_isMatrix _ _) duoD_dissim hv hnd (by simp) hr hopt
    refine ⟨h1, h2, ?_⟩
    rw [h2]
    exact hmed

/-- **C136, total deviation.** For every factor `c` there are a metric and two medoids with the least total deviation of all; FasterPAM, PAM and FastPAM1
started with them return them; and for all medoids with this least total deviation, `1 -` the medoid silhouette is more than `c` times that of others. -/
theorem C136_total_deviation (c : Nat) (hu : 6 * c + 5 ≤ u32Max) :
    ∃ (n : Nat) (d : Nat → Nat → ℕ) (med other : List Nat), n = 6 * c + 5 ∧ Dissim n d ∧ IsMetric (conv : ℕ → ℚ) n d ∧ ValidMeds n med ∧
      med.Nodup ∧ med.length = 2 ∧ other.length = 2 ∧ (∀ x ∈ other, x < n) ∧ other.Nodup ∧ 0 < 1 - medSil (conv : ℕ → ℚ) n d other ∧
      (∀ a b, a < n → b < n → a ≠ b → totalDev (conv : ℕ → ℚ) n d med ≤ totalDev (conv : ℕ → ℚ) n d [a, b]) ∧
      (∀ a b, a < n → b < n → a ≠ b → totalDev (conv : ℕ → ℚ) n d [a, b] = totalDev (conv : ℕ → ℚ) n d med →
        c * (1 - medSil (conv : ℕ → ℚ) n d other) < 1 - medSil (conv : ℕ → ℚ) n d [a, b]) ∧
      ∀ maxiter (r : SwapResult ℚ), IsPamRun (fnMat n d) n med maxiter r → r.nSwap = 0 ∧ r.med = med ∧
        c * (1 - medSil (conv : ℕ → ℚ) n d other) < 1 - medSil (conv : ℕ → ℚ) n d r.med := by
  obtain ⟨m, em⟩ : ∃ m, m = 3 * c + 2 := ⟨_, rfl⟩
  have hsm : 2 ≤ m := by omega
  have hn : 0 < m + m + 1 := by omega
  have hnq : (0 : ℚ) < (m + m + 1 : ℕ) := by exact_mod_cast hn
  have hval := fun a b ha hb hab => duo_values (m := m) (s := 2) (X := m) (by omega) hsm (a := a) (b := b) ha hb hab
  have t0 : duoTy m 0 = 0 := by unfold duoTy; rw [if_pos (by omega)]
  have t1 : duoTy m m = 1 := by unfold duoTy; rw [if_neg (by omega), if_pos (by omega)]
  have t2 : duoTy m (m + m) = 2 := by unfold duoTy; rw [if_neg (by omega), if_neg (by omega)]
  have mq : (m : ℚ) = 3 * c + 2 := by exact_mod_cast em
  have hc0 : (0 : ℚ) ≤ c := Nat.cast_nonneg c
  have hm2 : (2 : ℚ) ≤ m := by linarith
  have v01 : totalDev (conv : ℕ → ℚ) (m + m + 1) (duoD m 2 m) [0, m] = 3 * m - 2 := by
    rcases hval 0 m (by omega) (by omega) (by omega) with ⟨-, -, -, h, -⟩ | ⟨-, h, -⟩ | ⟨h, -⟩
    · rw [h]; ring
    · rw [t0, t1] at h; omega
    · rw [t0, t1] at h; omega
  have v02 : d1d2Sum (m + m + 1) (duoD m 2 m) [0, m + m] = (m - 1 + m * (2 : ℕ)) / m := by
    rcases hval 0 (m + m) (by omega) (by omega) (by omega) with ⟨-, h, -⟩ | ⟨-, -, -, h'⟩ | ⟨h, -⟩
    · exact absurd t2 h
    · exact h'
    · rw [t0, t2] at h; omega
  have w02 : d1d2Sum (m + m + 1) (duoD m 2 m) [0, m + m] < 3 ∧ 0 < d1d2Sum (m + m + 1) (duoD m 2 m) [0, m + m] := by
    rw [v02]
    push_cast
    constructor
    · rw [div_lt_iff₀ (by linarith)]
      linarith
    · exact div_pos (by linarith) (by linarith)
  have hmax : ∀ a b, a < m + m + 1 → b < m + m + 1 → a ≠ b →
      totalDev (conv : ℕ → ℚ) (m + m + 1) (duoD m 2 m) [0, m] ≤ totalDev (conv : ℕ → ℚ) (m + m + 1) (duoD m 2 m) [a, b] := fun a b ha hb hab => by
    rw [v01]
    rcases hval a b ha hb hab with ⟨-, -, -, h, -⟩ | ⟨-, -, h, -⟩ | ⟨-, h, -⟩ <;> rw [h] <;> push_cast <;> linarith
  have hbad : ∀ a b, a < m + m + 1 → b < m + m + 1 → a ≠ b →
      totalDev (conv : ℕ → ℚ) (m + m + 1) (duoD m 2 m) [a, b] = totalDev (conv : ℕ → ℚ) (m + m + 1) (duoD m 2 m) [0, m] →
      c * (1 - medSil (conv : ℕ → ℚ) (m + m + 1) (duoD m 2 m) [0, m + m]) < 1 - medSil (conv : ℕ → ℚ) (m + m + 1) (duoD m 2 m) [a, b] :=
    fun a b ha hb hab he => by
      rw [medSil_d1d2 hn, medSil_d1d2 hn, ← mul_div_assoc]
      refine div_lt_div_of_pos_right ?_ hnq
      have h3 : (c : ℚ) * d1d2Sum (m + m + 1) (duoD m 2 m) [0, m + m] ≤ c * 3 := mul_le_mul_of_nonneg_left w02.1.le hc0
      rw [v01] at he
      rcases hval a b ha hb hab with ⟨-, -, -, -, h⟩ | ⟨-, -, h, -⟩ | ⟨-, -, h⟩
      · rw [h]; push_cast; linarith
      · rw [h] at he; push_cast at he; linarith
      · rw [h]; linarith
  have hv : ValidMeds (m + m + 1) [0, m] := ⟨⟨by simp, by simp; omega, by omega, by simp; omega⟩, fun x hx => by
    simp only [List.mem_cons, List.not_mem_nil, or_false] at hx; omega⟩
  have hnd : [0, m].Nodup := by simp; omega
  have hmet : IsMetric (conv : ℕ → ℚ) (m + m + 1) (duoD m 2 m) := C136_metric (by omega) hsm
  refine ⟨m + m + 1, duoD m 2 m, [0, m], [0, m + m], by omega, duoD_dissim, hmet, hv, hnd, rfl, rfl, fun x hx => ?_, by simp; omega,
    by rw [medSil_d1d2 hn]; exact div_pos w02.2 hnq, hmax, hbad, fun maxiter r hr => ?_⟩
  · simp only [List.mem_cons, List.not_mem_nil, or_false] at hx; omega
  · have hopt : SwapOptimal (conv : ℕ → ℚ) (m + m + 1) (duoD m 2 m) [0, m] := by
      intro i j hi hj hjm
      simp only [List.mem_cons, List.not_mem_nil, or_false, not_or] at hjm
      have hi' : i = 0 ∨ i = 1 := by simp at hi; omega
      rcases hi' with rfl | rfl
      · exact hmax j m hj (by omega) hjm.2
      · exact hmax 0 j (by omega) hj (Ne.symm hjm.1)
    obtain ⟨h1, h2⟩ := pam_from_optimum duoD_dissim hmet hv hnd hr hopt
    refine ⟨h1, h2, ?_⟩
    rw [h2]
    exact hbad 0 m (by omega) (by omega) (by omega) rfl

/-! ## Example -/

/-- `s = 3`, `m = X = 9`; and `s = 2`, `m = X = 8`. -/
example : (fastermsc ℚ (fnMat 19 (duoD 9 3 9)) [0, 18] 9).map (fun r => (r.loss, r.nSwap, r.med)) = .ok (136 / 171, 0, [0, 18]) ∧
    totalDev (conv : ℕ → ℚ) 19 (duoD 9 3 9) [0, 18] = 35 ∧ totalDev (conv : ℕ → ℚ) 19 (duoD 9 3 9) [0, 9] = 25 ∧
    (fasterpam ℚ (fnMat 17 (duoD 8 2 8)) [0, 8] 9).map (fun r => (r.loss, r.nSwap, r.med)) = .ok (22, 0, [0, 8]) ∧
    medSil (conv : ℕ → ℚ) 17 (duoD 8 2 8) [0, 8] = 9 / 17 ∧ medSil (conv : ℕ → ℚ) 17 (duoD 8 2 8) [0, 16] = 113 / 136 ∧
    2 * (4 * 1000 + 4) ^ 2 + 1 ≤ u32Max ∧ 6 * 1000 + 5 ≤ u32Max := by
  decide +kernel

end KMedoids
