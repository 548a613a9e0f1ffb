import Verif.Proofs.Cost
import Verif.Proofs.CostBounds

/-!
# Total costs of the functions of the PAM family
-/

namespace KMedoids

open RFrom (conv)

variable {N L : Type} [RDist N] [RLoss L] [RFrom N L] {α : Type}

/-- A function that returns a result has a cost. -/
theorem Cnt.Sat.of_erase {x : Cnt α} {P : α → Nat → Prop} (h : x.Sat P) {a : α} (he : x.erase = .ok a) :
    ∃ t, x.run = .ok (a, t) ∧ P a t := by
  unfold Cnt.erase at he
  rcases hx : x.run with e | ⟨b, t⟩
  · rw [hx] at he; cases he
  · rw [hx] at he
    cases he
    exact ⟨t, rfl, h _ _ hx⟩

section
variable (w : Weights) (mat : Mat N)

theorem cost_randFasterpamC {med : List Nat} (hk : med.length ≠ 1) (maxiter : Nat) {seq : List Nat}
    (hs : seq.length ≤ mat.len) :
    (randFasterpamC L w (mat.counted w) med maxiter seq).Sat fun r t =>
      t ≤ (w.read + 5 * w.step) *
        (mat.len * (med.length + r.nIter * mat.len + r.nSwap * (med.length + 1))) := by
  unfold randFasterpamC
  rw [if_neg hk]
  refine sat_bind ((cost_initialAssignmentC w mat med).mono fun p c0 h0 => sat_bind ?_)
  obtain ⟨hl, hk0, hkn, hc0⟩ := h0
  refine (cost_updateRemovalLossC w p.2 med.length).mono fun rem c1 h1 => sat_bind ?_
  refine (cost_fpLoopC w mat seq maxiter 0 ⟨med, p.2, rem, p.1, mat.len, 0⟩).mono fun q c2 h2 => ?_
  obtain ⟨g1, -, -, g4⟩ := h2
  simp only [Nat.sub_zero] at g1 g4
  refine sat_bind (sat_tick (sat_pure ?_))
  show c0 + (c1 + (c2 + (q.1.data.length * w.step + 0))) ≤ (w.read + 5 * w.step) *
        (mat.len * (med.length + q.2 * mat.len + q.1.nSwaps * (med.length + 1)))
  have hc1 := h1.2
  rw [hl] at hc1 g1 g4
  rw [h1.1] at g4
  rw [g1]
  generalize q.2 = I at *
  generalize q.1.nSwaps = W at *
  generalize mat.len = n at *
  generalize med.length = k at *
  generalize w.read = R at *
  generalize w.step = S at *
  have hsl : I * (S + seq.length * (S + (n * (R + S) + 2 * (k * S))))
      ≤ I * (S + n * (S + (n * (R + S) + 2 * (k * S)))) :=
    Nat.mul_le_mul_left _ (Nat.add_le_add_left (Nat.mul_le_mul_right _ hs) _)
  have a1 : n ≤ n * k := Nat.le_mul_of_pos_right _ hk0
  have a2 : n ≤ n * n := Nat.le_mul_of_pos_right _ (by omega)
  have a3 : n * k ≤ n * n := Nat.mul_le_mul_left _ hkn
  have b1 : S * (n * k + k + n + n) ≤ S * (5 * (n * k)) := Nat.mul_le_mul_left _ (by omega)
  have b2 : (S * I) * (1 + n + n * n + 2 * (n * k)) ≤ (S * I) * (5 * (n * n)) :=
    Nat.mul_le_mul_left _ (by omega)
  have b3 : (S * W) * (n * k + n + k + n) ≤ (S * W) * (5 * (n * k + n)) := Nat.mul_le_mul_left _ (by omega)
  nlinarith

theorem cost_fasterpamC {med : List Nat} (hk : med.length ≠ 1) (maxiter : Nat) :
    (fasterpamC L w (mat.counted w) med maxiter).Sat fun r t =>
      t ≤ (w.read + 5 * w.step) *
        (mat.len * (med.length + r.nIter * mat.len + r.nSwap * (med.length + 1))) :=
  cost_randFasterpamC w mat hk maxiter (seq := List.range mat.len) (by simp)

theorem cost_fastpam1C {med : List Nat} (hk : med.length ≠ 1) (maxiter : Nat) :
    (fastpam1C L w (mat.counted w) med maxiter).Sat fun r t =>
      r.nSwap ≤ r.nIter ∧ t ≤ (w.read + 7 * w.step) *
        (mat.len * (med.length + r.nIter * mat.len + r.nSwap * (med.length + 1))) := by
  unfold fastpam1C
  rw [if_neg hk]
  refine sat_bind ((cost_initialAssignmentC w mat med).mono fun p c0 h0 => sat_bind ?_)
  obtain ⟨hl, hk0, hkn, hc0⟩ := h0
  refine (cost_fastpam1LoopC w mat maxiter 0 ⟨med, p.2, p.1, 0⟩ hl).mono fun q c2 h2 => ?_
  obtain ⟨g1, -, -, g5, g4⟩ := h2
  simp only [Nat.sub_zero] at g4 g5
  refine sat_bind (sat_tick (sat_pure ⟨g5, ?_⟩))
  show c0 + (c2 + (q.1.data.length * w.step + 0)) ≤ (w.read + 7 * w.step) *
        (mat.len * (med.length + q.2 * mat.len + q.1.nSwaps * (med.length + 1)))
  rw [g1]
  generalize q.2 = I at *
  generalize q.1.nSwaps = W at *
  generalize mat.len = n at *
  generalize med.length = k at *
  generalize w.read = R at *
  generalize w.step = S at *
  have a1 : n ≤ n * k := Nat.le_mul_of_pos_right _ hk0
  have a2 : n ≤ n * n := Nat.le_mul_of_pos_right _ (by omega)
  have a3 : n * k ≤ n * n := Nat.mul_le_mul_left _ hkn
  have b1 : S * (n * k + n) ≤ S * (7 * (n * k)) := Nat.mul_le_mul_left _ (by omega)
  have b2 : (S * I) * (1 + k + n + n + n * n + 2 * (n * k)) ≤ (S * I) * (7 * (n * n)) :=
    Nat.mul_le_mul_left _ (by omega)
  have b3 : (S * W) * (n * k + n) ≤ (S * W) * (7 * (n * k + n)) := Nat.mul_le_mul_left _ (by omega)
  nlinarith

/-- Optimization by PAM from given medoids. -/
theorem cost_pamOptimizeC {med : List Nat} (hk : med.length ≠ 1) {data : List (Rec N)}
    (hd : data.length = mat.len) (hn : 0 < mat.len) (maxiter : Nat) (loss : L) :
    (pamOptimizeC w (mat.counted w) med data maxiter loss).Sat fun r t =>
      r.nSwap ≤ r.nIter ∧
      r.nIter * ((mat.len - med.length) * (med.length * ((mat.len - 1) * (w.read + w.step)))) ≤ t ∧
      t ≤ (w.read + 4 * w.step) *
        (mat.len * (r.nIter * ((med.length + 1) * mat.len) + r.nSwap * (med.length + 1)))
          + mat.len * w.step := by
  unfold pamOptimizeC
  rw [if_neg hk]
  refine sat_bind ((cost_pamLoopC w mat maxiter 0 ⟨med, data, loss, 0⟩ hd).mono fun q c2 h2 => ?_)
  obtain ⟨g1, -, -, g5, g6, g4⟩ := h2
  simp only [Nat.sub_zero] at g4 g5 g6
  refine sat_bind (sat_tick (sat_pure ⟨g5, ?_, ?_⟩))
  · refine le_trans (Nat.mul_le_mul_left _ (Nat.mul_le_mul_left _ (Nat.mul_le_mul_left _ ?_)))
      (g6.trans (Nat.le_add_right _ _))
    have : (mat.len - 1) * w.step ≤ mat.len * w.step := Nat.mul_le_mul_right _ (by omega)
    rw [Nat.mul_add]
    omega
  · show c2 + (q.1.data.length * w.step + 0) ≤ (w.read + 4 * w.step) *
        (mat.len * (q.2 * ((med.length + 1) * mat.len) + q.1.nSwaps * (med.length + 1)))
          + mat.len * w.step
    rw [g1]
    generalize q.2 = I at *
    generalize q.1.nSwaps = W at *
    generalize mat.len = n at *
    generalize med.length = k at *
    generalize w.read = R at *
    generalize w.step = S at *
    have a2 : n ≤ n * n := Nat.le_mul_of_pos_right _ (by omega)
    have a3 : n * k ≤ n * n * k := Nat.mul_le_mul_right _ a2
    have b0 : (I * n * k) * ((n - 1) * R) ≤ (I * n * k) * (n * R) :=
      Nat.mul_le_mul_left _ (Nat.mul_le_mul_right _ (by omega))
    have b2 : (S * I) * (1 + n + n * k + n * n * k) ≤ (S * I) * (4 * (n * n * k + n * n)) :=
      Nat.mul_le_mul_left _ (by omega)
    have b3 : (S * W) * (n * k + n) ≤ (S * W) * (4 * (n * k + n)) := Nat.mul_le_mul_left _ (by omega)
    nlinarith [Nat.zero_le (R * I * n * n)]

theorem cost_pamSwapC {med : List Nat} (hk : med.length ≠ 1) (maxiter : Nat) :
    (pamSwapC L w (mat.counted w) med maxiter).Sat fun r t =>
      r.nSwap ≤ r.nIter ∧
      r.nIter * ((mat.len - med.length) * (med.length * ((mat.len - 1) * (w.read + w.step)))) ≤ t ∧
      t ≤ (w.read + 4 * w.step) * (mat.len * (med.length + r.nIter * ((med.length + 1) * mat.len) +
        r.nSwap * (med.length + 1))) := by
  refine sat_bind ((cost_initialAssignmentC w mat med).mono fun p c0 h0 => ?_)
  obtain ⟨hl, hk0, hkn, hc0⟩ := h0
  refine (cost_pamOptimizeC w mat hk hl (by omega) maxiter p.1).mono fun r t h => ?_
  obtain ⟨h1, h2, h3⟩ := h
  refine ⟨h1, by omega, ?_⟩
  have a1 : w.step * mat.len ≤ w.step * (mat.len * med.length) :=
    Nat.mul_le_mul_left _ (Nat.le_mul_of_pos_right _ hk0)
  nlinarith

theorem cost_pamBuildC (k : Nat) :
    (pamBuildC L w (mat.counted w) k).Sat fun _ t =>
      t ≤ (w.read + 5 * w.step) * (k * (mat.len * mat.len)) := by
  refine sat_bind ((cost_assertSizesC w mat k).mono fun _ c0 h0 => sat_bind ?_)
  obtain ⟨hc0, hk0, hkn⟩ := h0
  refine (cost_pamBuildInitializeC w mat k).mono fun q c1 h1 => ?_
  obtain ⟨g1, -, g3⟩ := h1
  refine sat_bind (sat_tick (sat_pure ?_))
  rw [show 1 + (k - 1) = k by omega] at g3
  rw [hc0, g1]
  have hn : 0 < mat.len := by omega
  generalize mat.len = n at *
  generalize w.read = R at *
  generalize w.step = S at *
  have a1 : n ≤ n * k := Nat.le_mul_of_pos_right _ hk0
  have a2 : n ≤ n * n := Nat.le_mul_of_pos_right _ (by omega)
  have a3 : n * k ≤ n * n * k := Nat.mul_le_mul_right _ a2
  have a4 : k ≤ n * k := Nat.le_mul_of_pos_left _ hn
  have b1 : S * (k + n * k + n * n * k + n * k + n) ≤ S * (5 * (n * n * k)) := Nat.mul_le_mul_left _ (by omega)
  have b2 : (k * n) * ((n - 1) * R + R) = (k * n) * (n * R) := by
    congr 1
    obtain ⟨m, rfl⟩ : ∃ m, n = m + 1 := ⟨n - 1, by omega⟩
    rw [Nat.add_sub_cancel, Nat.add_mul, Nat.one_mul]
  nlinarith

theorem cost_pamC (k maxiter : Nat) :
    (pamC L w (mat.counted w) k maxiter).Sat fun r t =>
      t ≤ (w.read + 8 * w.step) *
        (mat.len * (k * mat.len + r.nIter * ((k + 1) * mat.len) + r.nSwap * (k + 1))) := by
  refine sat_bind ((cost_assertSizesC w mat k).mono fun _ c0 h0 => sat_bind ?_)
  obtain ⟨hc0, hk0, hkn⟩ := h0
  refine (cost_pamBuildInitializeC w mat k).mono fun q c1 h1 => ?_
  obtain ⟨g1, g2, g3⟩ := h1
  rw [show 1 + (k - 1) = k by omega] at g2 g3
  have hn : 0 < mat.len := by omega
  have a1 : mat.len ≤ mat.len * k := Nat.le_mul_of_pos_right _ hk0
  have a2 : mat.len ≤ mat.len * mat.len := Nat.le_mul_of_pos_right _ hn
  have a3 : mat.len * k ≤ mat.len * mat.len * k := Nat.mul_le_mul_right _ a2
  have a4 : k ≤ mat.len * k := Nat.le_mul_of_pos_left _ hn
  have b1 : w.step * (k + mat.len * k + mat.len * mat.len * k + mat.len * k + mat.len)
      ≤ w.step * (5 * (mat.len * mat.len * k)) := Nat.mul_le_mul_left _ (by omega)
  have b2 : (k * mat.len) * ((mat.len - 1) * w.read + w.read) = (k * mat.len) * (mat.len * w.read) := by
    congr 1
    obtain ⟨m, hm⟩ : ∃ m, mat.len = m + 1 := ⟨mat.len - 1, by omega⟩
    rw [hm, Nat.add_sub_cancel, Nat.add_mul, Nat.one_mul]
  have hB : c1 + mat.len * w.step ≤ (w.read + 5 * w.step) * (k * (mat.len * mat.len)) := by nlinarith
  obtain ⟨meds, data, loss⟩ := q
  show (pamOptimizeC w (mat.counted w) meds data maxiter loss).Sat _
  simp only at g1 g2
  by_cases h1 : meds.length = 1
  · unfold pamOptimizeC
    rw [if_pos h1]
    refine (cost_singleClusterC w mat meds).mono fun r t h => ?_
    obtain ⟨e1, e2⟩ := h
    rw [e1, hc0]
    generalize mat.len = n at *
    generalize w.read = R at *
    generalize w.step = S at *
    have a5 : n * n ≤ n * n * k := Nat.le_mul_of_pos_right _ hk0
    have b3 : S * (n * n + 3 * n) ≤ S * (8 * (n * n * k)) := Nat.mul_le_mul_left _ (by omega)
    have b4 : R * (n * n + n) ≤ R * (n * n * k + n * n) := Nat.mul_le_mul_left _ (by omega)
    nlinarith [Nat.zero_le (R * r.nSwap * n * (k + 1)), Nat.zero_le (S * r.nSwap * n * (k + 1)),
      Nat.zero_le (S * n), Nat.zero_le (S * n * n)]
  · refine (cost_pamOptimizeC w mat h1 g1 hn maxiter loss).mono fun r t h => ?_
    obtain ⟨-, -, e2⟩ := h
    rw [hc0]
    have hm : (mat.len * (r.nIter * ((meds.length + 1) * mat.len) + r.nSwap * (meds.length + 1)))
        ≤ (mat.len * (r.nIter * ((k + 1) * mat.len) + r.nSwap * (k + 1))) := by
      refine Nat.mul_le_mul_left _ (Nat.add_le_add (Nat.mul_le_mul_left _ (Nat.mul_le_mul_right _ ?_))
        (Nat.mul_le_mul_left _ ?_)) <;> omega
    have hm2 := Nat.mul_le_mul_left (w.read + 4 * w.step) hm
    rw [show mat.len * (k * mat.len + r.nIter * ((k + 1) * mat.len) + r.nSwap * (k + 1))
        = k * (mat.len * mat.len) + mat.len * (r.nIter * ((k + 1) * mat.len) + r.nSwap * (k + 1)) by ring]
    generalize (mat.len * (r.nIter * ((k + 1) * mat.len) + r.nSwap * (k + 1))) = X at *
    nlinarith [Nat.zero_le (w.step * X), Nat.zero_le (w.step * (k * (mat.len * mat.len)))]

theorem cost_alternatingC (med : List Nat) (maxiter : Nat) :
    (alternatingC L w (mat.counted w) med maxiter).Sat fun r t =>
      t ≤ (w.read + 3 * w.step) * (mat.len * (med.length + r.nIter * (mat.len + 2 * med.length))) := by
  refine sat_bind ((cost_assignNearestC w mat med).mono fun p c0 h0 => ?_)
  obtain ⟨hl, hk0, hkn, hc0⟩ := h0
  refine (cost_alternatingLoopC w mat maxiter 0 p.1 p.2 med hl).mono fun r t h => ?_
  obtain ⟨-, -, h3⟩ := h
  rw [Nat.sub_zero] at h3
  rw [hc0]
  have hn : 0 < mat.len := by omega
  generalize r.nIter = I at *
  generalize mat.len = n at *
  generalize med.length = k at *
  generalize w.read = R at *
  generalize w.step = S at *
  have a1 : n ≤ n * k := Nat.le_mul_of_pos_right _ hk0
  have a4 : k ≤ n * k := Nat.le_mul_of_pos_left _ hn
  have a5 : 1 ≤ n * k := Nat.mul_pos hn hk0
  have b2 : (S * I) * (1 + n * n + n * k + n * k + k + n * k) ≤ (S * I) * (3 * (n * n + 2 * (n * k))) :=
    Nat.mul_le_mul_left _ (by omega)
  nlinarith [Nat.zero_le (S * n * k)]

/-- At least one pass is made. -/
theorem pamSwapC_iter {med : List Nat} (hk : med.length ≠ 1) {maxiter : Nat} (hi : 0 < maxiter) :
    (pamSwapC L w (mat.counted w) med maxiter).Sat fun r _ => 1 ≤ r.nIter := by
  refine sat_bind ((cost_initialAssignmentC w mat med).mono fun p c0 h0 => ?_)
  show (pamOptimizeC w (mat.counted w) med p.2 maxiter p.1).Sat _
  unfold pamOptimizeC
  rw [if_neg hk]
  obtain ⟨m, rfl⟩ : ∃ m, maxiter = m + 1 := ⟨maxiter - 1, by omega⟩
  refine sat_bind (Cnt.Sat.mono (P := fun r _ => 1 ≤ r.2) ?_ fun q c2 h2 =>
    sat_bind (sat_tick (sat_pure h2)))
  refine sat_bind (sat_tick (sat_bind fun best c1 h1 => ?_))
  refine sat_ite (fun _ => sat_bind ?_) fun _ => sat_pure (by simp)
  refine (cost_doSwapC w mat _ _ _ _).mono fun q c2 h2 => ?_
  refine sat_ite (fun _ => sat_pure (by simp)) fun _ => ?_
  have h := cost_pamLoopC w mat m (0 + 1) ⟨q.2.1, q.2.2, q.1, 0 + 1⟩ (h2.2.1.trans h0.1)
  simp only [h2.1] at h
  exact h.mono fun r t h => h.2.1

end

end KMedoids
