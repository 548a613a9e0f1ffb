import Verif.Proofs.CostMscBounds
import Verif.Proofs.CostTotals

/-! # Total costs of FasterMSC, FastMSC, PAMMEDSIL and DynMSC -/

namespace KMedoids

set_option linter.unusedSectionVars false
variable {N L : Type} [RDist N] [RLoss L] [RFrom N L]
open RFrom (conv)

section
variable (w : Weights) (mat : Mat N)

theorem reduceAdd_ok {xs : List L} {l : L} (h : unwrapOpt (reduceAdd xs) = .ok l) : 0 < xs.length := by
  cases xs with
  | nil => cases h
  | cons x xs => simp

theorem k2Init_pos (med : List Nat) :
    (k2InitialAssignmentC L w (mat.counted w) med).Sat fun _ _ => 0 < mat.len := by
  refine sat_bind (sat_lift fun _ _ => sat_bind (sat_lift fun _ _ => sat_bind (sat_lift fun _ _ =>
    sat_bind (sat_lift fun _ _ => sat_bind ?_))))
  refine (sat_mapC (g := fun _ => 2 * w.read) fun x _ => ?_).mono fun rs c hc => ?_
  · refine sat_bind (sat_lift fun _ _ => sat_bind (sat_get w mat fun d0 => sat_bind (sat_lift fun _ _ =>
      sat_bind (sat_get w mat fun d1 => ?_))))
    exact sat_ite (fun _ => sat_pure (by omega)) fun _ => sat_pure (by omega)
  · refine sat_bind (sat_lift fun loss hl => sat_pure ?_)
    have := reduceAdd_ok hl
    rw [List.length_map, hc.1, List.length_range] at this
    exact this

theorem Cnt.Sat.and {α : Type} {x : Cnt α} {P Q : α → Nat → Prop} (h : x.Sat P) (h' : x.Sat Q) :
    x.Sat fun a c => P a c ∧ Q a c := fun a c e => ⟨h a c e, h' a c e⟩

/-- Arithmetic of the two medoid case. -/
theorem k2_total {R S n I W c0 c2 : Nat} (hn : 0 < n) (h0 : c0 = n * (2 * R + S))
    (h2 : c2 ≤ I * (S + n * (S + (n * (R + S) + 2 * S))) + W * (n * (R + S))) :
    c0 + c2 ≤ (R + 5 * S) * (n * (2 + I * n + W * 3)) := by
  have a2 : n ≤ n * n := Nat.le_mul_of_pos_right _ hn
  have b2 : (S * I) * (1 + n + n * n + 2 * n) ≤ (S * I) * (5 * (n * n)) := Nat.mul_le_mul_left _ (by omega)
  have b3 : (S * W) * n ≤ (S * W) * (15 * n) := Nat.mul_le_mul_left _ (by omega)
  have b4 : (R * W) * n ≤ (R * W) * (3 * n) := Nat.mul_le_mul_left _ (by omega)
  have b5 : S * n ≤ S * (10 * n) := Nat.mul_le_mul_left _ (by omega)
  subst h0
  nlinarith

theorem cost_fastermscK2C (med : List Nat) (maxiter : Nat) :
    (fastermscK2C L w (mat.counted w) med maxiter).Sat fun r t =>
      t ≤ (w.read + 5 * w.step) * (mat.len * (2 + r.nIter * mat.len + r.nSwap * 3)) := by
  refine sat_bind (sat_lift fun _ hr => sat_bind ?_)
  refine ((cost_k2InitialAssignmentC w mat med).and (k2Init_pos w mat med)).mono fun p c0 h0 => ?_
  obtain ⟨⟨g1, g2, g3⟩, hn⟩ := h0
  refine sat_bind ((cost_k2LoopC w mat maxiter 0 ⟨med, p.2.1, p.2.2, p.1, mat.len, 0⟩
    (g1.trans g2.symm)).mono fun q c2 h2 => sat_pure ?_)
  obtain ⟨-, -, e⟩ := h2
  simp only [Nat.sub_zero, g2] at e
  have := k2_total hn g3 e
  show 0 + (c0 + (c2 + 0)) ≤ (w.read + 5 * w.step) * (mat.len * (2 + q.2 * mat.len + q.1.nSwaps * 3))
  omega

theorem cost_fastermscC {med : List Nat} (hk : med.length ≠ 1) (maxiter : Nat) :
    (fastermscC L w (mat.counted w) med maxiter).Sat fun r t =>
      t ≤ (w.read + 5 * w.step) *
        (mat.len * (med.length + r.nIter * mat.len + r.nSwap * (med.length + 1))) := by
  unfold fastermscC
  rw [if_neg hk]
  refine sat_ite (fun h2 => ?_) fun _ => ?_
  · rw [h2]
    exact cost_fastermscK2C w mat med maxiter
  refine sat_bind ((cost_mscInitialAssignmentC w mat med).mono fun p c0 h0 => sat_bind ?_)
  obtain ⟨hl, hk0, hkn, hc0⟩ := h0
  refine (cost_mscUpdateRemovalLossC w p.2 med.length).mono fun rem c1 h1 => sat_bind ?_
  refine (cost_mscLoopC w mat maxiter 0 ⟨med, p.2, rem, p.1, mat.len, 0⟩).mono fun q c2 h2 => ?_
  obtain ⟨-, g1, -, -, -, g4⟩ := h2
  simp only [Nat.sub_zero] at g1 g4
  refine sat_bind (sat_tick (sat_pure ?_))
  show c0 + (c1 + (c2 + (q.1.data.length * w.step + 0))) ≤ (w.read + 5 * w.step) *
        (mat.len * (med.length + q.2 * mat.len + q.1.nSwaps * (med.length + 1)))
  have hc1 := h1.2
  rw [hl] at hc1 g1 g4
  rw [h1.1] at g4
  rw [g1]
  generalize q.2 = I at *
  generalize q.1.nSwaps = W at *
  generalize mat.len = n at *
  generalize med.length = k at *
  generalize w.read = R at *
  generalize w.step = S at *
  have a1 : n ≤ n * k := Nat.le_mul_of_pos_right _ hk0
  have a2 : n ≤ n * n := Nat.le_mul_of_pos_right _ (by omega)
  have a3 : n * k ≤ n * n := Nat.mul_le_mul_left _ hkn
  have b1 : S * (n * k + k + n + n) ≤ S * (5 * (n * k)) := Nat.mul_le_mul_left _ (by
    have : k ≤ n * k := Nat.le_mul_of_pos_left _ (by omega)
    omega)
  have b2 : (S * I) * (1 + n + n * n + 2 * (n * k)) ≤ (S * I) * (5 * (n * n)) :=
    Nat.mul_le_mul_left _ (by omega)
  have b3 : (S * W) * (n * k + n + k + n) ≤ (S * W) * (5 * (n * k + n)) := Nat.mul_le_mul_left _ (by omega)
  nlinarith

theorem cost_fastmscC {med : List Nat} (hk : med.length ≠ 1) (maxiter : Nat) :
    (fastmscC L w (mat.counted w) med maxiter).Sat fun r t =>
      r.nSwap ≤ r.nIter ∧ t ≤ (w.read + 7 * w.step) *
        (mat.len * (med.length + r.nIter * mat.len + r.nSwap * (med.length + 1))) := by
  unfold fastmscC
  rw [if_neg hk]
  refine sat_ite (fun h2 => ?_) fun _ => ?_
  · rw [h2]
    refine sat_bind (sat_lift fun _ hr => sat_bind ?_)
    refine ((cost_k2InitialAssignmentC w mat med).and (k2Init_pos w mat med)).mono fun p c0 h0 => ?_
    obtain ⟨⟨g1, g2, g3⟩, hn⟩ := h0
    refine sat_bind ((cost_fastmscK2LoopC w mat med.length maxiter 0 ⟨med, p.2.1, p.2.2, p.1, 0, 0⟩
      (g1.trans g2.symm)).mono fun q c2 h2 => sat_pure ?_)
    obtain ⟨-, -, e', e⟩ := h2
    simp only [Nat.sub_zero, g2] at e e'
    have := k2_total hn g3 e
    refine ⟨e', ?_⟩
    show 0 + (c0 + (c2 + 0)) ≤ (w.read + 7 * w.step) * (mat.len * (2 + q.2 * mat.len + q.1.nSwaps * 3))
    have h7 : (w.read + 5 * w.step) * (mat.len * (2 + q.2 * mat.len + q.1.nSwaps * 3))
        ≤ (w.read + 7 * w.step) * (mat.len * (2 + q.2 * mat.len + q.1.nSwaps * 3)) :=
      Nat.mul_le_mul_right _ (by omega)
    omega
  refine sat_bind ((cost_mscInitialAssignmentC w mat med).mono fun p c0 h0 => sat_bind ?_)
  obtain ⟨hl, hk0, hkn, hc0⟩ := h0
  refine (cost_fastmscLoopC w mat maxiter 0 ⟨med, p.2, p.1, 0⟩ hl).mono fun q c2 h2 => ?_
  obtain ⟨g1, -, -, g5, g4⟩ := h2
  simp only [Nat.sub_zero] at g4 g5
  refine sat_bind (sat_tick (sat_pure ⟨g5, ?_⟩))
  show c0 + (c2 + (q.1.data.length * w.step + 0)) ≤ (w.read + 7 * w.step) *
        (mat.len * (med.length + q.2 * mat.len + q.1.nSwaps * (med.length + 1)))
  rw [g1]
  generalize q.2 = I at *
  generalize q.1.nSwaps = W at *
  generalize mat.len = n at *
  generalize med.length = k at *
  generalize w.read = R at *
  generalize w.step = S at *
  have a1 : n ≤ n * k := Nat.le_mul_of_pos_right _ hk0
  have a2 : n ≤ n * n := Nat.le_mul_of_pos_right _ (by omega)
  have a3 : n * k ≤ n * n := Nat.mul_le_mul_left _ hkn
  have b1 : S * (n * k + n) ≤ S * (7 * (n * k)) := Nat.mul_le_mul_left _ (by omega)
  have b2 : (S * I) * (1 + k + n + n + n * n + 2 * (n * k)) ≤ (S * I) * (7 * (n * n)) :=
    Nat.mul_le_mul_left _ (by omega)
  have b3 : (S * W) * (n * k + n) ≤ (S * W) * (7 * (n * k + n)) := Nat.mul_le_mul_left _ (by omega)
  nlinarith

/-- Optimization by PAMMEDSIL from given medoids. -/
theorem cost_pammedsilOptimizeC {med : List Nat} (hk : med.length ≠ 1) {data : List (Reco N)}
    (hd : data.length = mat.len) (hn : 0 < mat.len) (maxiter : Nat) (loss : L) :
    (pammedsilOptimizeC w (mat.counted w) med data maxiter loss).Sat fun r t =>
      r.nSwap ≤ r.nIter ∧
      r.nIter * ((mat.len - med.length) * (med.length * ((mat.len - 1) * (w.read + w.step)))) ≤ t ∧
      t ≤ (w.read + 4 * w.step) *
        (mat.len * (r.nIter * ((med.length + 1) * mat.len) + r.nSwap * (med.length + 1)))
          + mat.len * w.step := by
  unfold pammedsilOptimizeC
  rw [if_neg hk]
  refine sat_bind ((cost_pmsLoopC w mat med.length maxiter 0 ⟨med, data, loss, 0⟩ hd).mono fun q c2 h2 => ?_)
  obtain ⟨g1, -, -, g5, g6, g4⟩ := h2
  simp only [Nat.sub_zero] at g4 g5 g6
  refine sat_bind (sat_tick (sat_pure ⟨g5, ?_, ?_⟩))
  · refine le_trans (Nat.mul_le_mul_left _ (Nat.mul_le_mul_left _ (Nat.mul_le_mul_left _ ?_)))
      (g6.trans (Nat.le_add_right _ _))
    have : (mat.len - 1) * w.step ≤ mat.len * w.step := Nat.mul_le_mul_right _ (by omega)
    rw [Nat.mul_add]
    omega
  · show c2 + (q.1.data.length * w.step + 0) ≤ (w.read + 4 * w.step) *
        (mat.len * (q.2 * ((med.length + 1) * mat.len) + q.1.nSwaps * (med.length + 1)))
          + mat.len * w.step
    rw [g1]
    generalize q.2 = I at *
    generalize q.1.nSwaps = W at *
    generalize mat.len = n at *
    generalize med.length = k at *
    generalize w.read = R at *
    generalize w.step = S at *
    have a2 : n ≤ n * n := Nat.le_mul_of_pos_right _ (by omega)
    have a3 : n * k ≤ n * n * k := Nat.mul_le_mul_right _ a2
    have b0 : (I * n * k) * ((n - 1) * R) ≤ (I * n * k) * (n * R) :=
      Nat.mul_le_mul_left _ (Nat.mul_le_mul_right _ (by omega))
    have b2 : (S * I) * (1 + n + n * k + n * n * k) ≤ (S * I) * (4 * (n * n * k + n * n)) :=
      Nat.mul_le_mul_left _ (by omega)
    have b3 : (S * W) * (n * k + n) ≤ (S * W) * (4 * (n * k + n)) := Nat.mul_le_mul_left _ (by omega)
    nlinarith [Nat.zero_le (R * I * n * n)]

theorem cost_pammedsilSwapC {med : List Nat} (hk : med.length ≠ 1) (maxiter : Nat) :
    (pammedsilSwapC L w (mat.counted w) med maxiter).Sat fun r t =>
      r.nSwap ≤ r.nIter ∧
      r.nIter * ((mat.len - med.length) * (med.length * ((mat.len - 1) * (w.read + w.step)))) ≤ t ∧
      t ≤ (w.read + 4 * w.step) * (mat.len * (med.length + r.nIter * ((med.length + 1) * mat.len) +
        r.nSwap * (med.length + 1))) := by
  refine sat_bind ((cost_mscInitialAssignmentC w mat med).mono fun p c0 h0 => ?_)
  obtain ⟨hl, hk0, hkn, hc0⟩ := h0
  refine (cost_pammedsilOptimizeC w mat hk hl (by omega) maxiter p.1).mono fun r t h => ?_
  obtain ⟨h1, h2, h3⟩ := h
  refine ⟨h1, by omega, ?_⟩
  have a1 : w.step * mat.len ≤ w.step * (mat.len * med.length) :=
    Nat.mul_le_mul_left _ (Nat.le_mul_of_pos_right _ hk0)
  nlinarith

/-- At least one pass is made. -/
theorem pammedsilSwapC_iter {med : List Nat} (hk : med.length ≠ 1) {maxiter : Nat} (hi : 0 < maxiter) :
    (pammedsilSwapC L w (mat.counted w) med maxiter).Sat fun r _ => 1 ≤ r.nIter := by
  refine sat_bind ((cost_mscInitialAssignmentC w mat med).mono fun p c0 h0 => ?_)
  show (pammedsilOptimizeC w (mat.counted w) med p.2 maxiter p.1).Sat _
  unfold pammedsilOptimizeC
  rw [if_neg hk]
  obtain ⟨m, rfl⟩ : ∃ m, maxiter = m + 1 := ⟨maxiter - 1, by omega⟩
  refine sat_bind (Cnt.Sat.mono (P := fun r _ => 1 ≤ r.2) ?_ fun q c2 h2 =>
    sat_bind (sat_tick (sat_pure h2)))
  refine sat_bind (sat_tick (sat_bind fun best c1 h1 => ?_))
  refine sat_ite (fun _ => sat_bind ?_) fun _ => sat_pure (by simp)
  refine (cost_mscDoSwapC w mat _ _ _ _).mono fun q c2 h2 => ?_
  refine sat_ite (fun _ => sat_pure (by simp)) fun _ => ?_
  exact (cost_pmsLoopC w mat med.length m (0 + 1) ⟨q.2.1, q.2.2, q.1, 0 + 1⟩ (h2.2.1.trans h0.1)).mono
    fun r t h => h.2.1

/-! ## BUILD of PAMMEDSIL -/

theorem cost_buildSumC (near : List N) {i : Nat} (hi : i < near.length) :
    (buildSumC L w (mat.counted w) near i).Sat fun _ t =>
      t = near.length * w.step + (near.length - 1) * w.read := by
  refine sat_bind (sat_lift fun di _ => ?_)
  refine (sat_foldC (I := fun _ => True) (g := fun p : N × Nat => if p.2 = i then 0 else w.read)
    (fun s x _ _ => ?_) trivial).mono fun a c hc => ?_
  · refine sat_ite (fun h => sat_bind (sat_get w mat fun v => sat_pure ⟨trivial, by rw [if_neg h]; rfl⟩))
      fun h => sat_pure ⟨trivial, ?_⟩
    rw [if_pos (by omega)]
  · rw [hc.2, sum_zipIdx_ne near 0 i w.read w.step (Nat.zero_le _) (by omega)]
    omega

/-- BUILD of PAMMEDSIL does not look at object 0. -/
theorem cost_pmsBuildNextC (near : List N) (k : Nat) :
    (pmsBuildNextC L w (mat.counted w) near k).Sat fun _ t =>
      t = (near.length - 1) * (w.step + (near.length * w.step + (near.length - 1) * w.read)) := by
  refine (sat_foldC (I := fun _ => True)
    (g := fun _ => near.length * w.step + (near.length - 1) * w.read) (fun s i hi _ => ?_) trivial).mono
    fun a c hc => ?_
  · have hi' := List.mem_range.mp (List.mem_of_mem_drop hi)
    refine sat_bind ((cost_buildSumC w mat near hi').mono fun a c hc => sat_pure ⟨trivial, by omega⟩)
  · rw [hc.2, sum_const, List.length_drop, List.length_range]

theorem cost_pmsBuildLoopC (k : Nat) (ls meds : List Nat) (data : List (Reco N)) (loss : L)
    (hd : data.length = mat.len) :
    (pmsBuildLoopC w (mat.counted w) k ls meds data loss).Sat fun r t =>
      r.2.1.length = mat.len ∧ r.1.length ≤ meds.length + ls.length ∧
      t ≤ ls.length * (w.step + (mat.len * (w.step + (mat.len * w.step + (mat.len - 1) * w.read))
        + mat.len * (w.read + w.step))) := by
  induction ls generalizing meds data loss with
  | nil => exact sat_pure ⟨hd, by simp, Nat.zero_le _⟩
  | cons l ls ih =>
    refine sat_bind (sat_tick (sat_bind ((cost_pmsBuildNextC w mat (data.map (·.near.d)) k).mono
      fun b c h => ?_)))
    rw [List.length_map, hd] at h
    have h : c ≤ mat.len * (w.step + (mat.len * w.step + (mat.len - 1) * w.read)) := by
      rw [h]; exact Nat.mul_le_mul_right _ (by omega)
    generalize hA : mat.len * (w.step + (mat.len * w.step + (mat.len - 1) * w.read)) = A at *
    refine sat_ite (fun _ => sat_pure ⟨hd, by simp, ?_⟩) fun _ => sat_bind ?_
    · rw [List.length_cons, Nat.add_mul, Nat.one_mul]
      omega
    · refine (sat_mapC_le (g := fun _ => w.read) fun x _ => ?_).mono fun data' c1 h1 => ?_
      · refine sat_ite (fun _ => sat_pure (Nat.zero_le _)) fun _ => sat_bind (sat_get w mat fun v => ?_)
        exact sat_ite (fun _ => sat_pure (le_refl _)) fun _ =>
          sat_ite (fun _ => sat_pure (le_refl _)) fun _ =>
          sat_ite (fun _ => sat_pure (le_refl _)) fun _ => sat_pure (le_refl _)
      · have hl : data'.length = mat.len := by
          have := h1.1
          rw [List.length_zipIdx, hd] at this
          exact this
        refine (ih (meds ++ [b.2]) data' (pmsBuildLoss L data') hl).mono fun r t h2 => ⟨h2.1, ?_, ?_⟩
        · have := h2.2.1
          simp only [List.length_append, List.length_cons, List.length_nil] at this ⊢
          omega
        · have h3 := h1.2
          rw [sum_const, List.length_zipIdx, hd, Nat.add_comm w.step w.read] at h3
          have h4 := h2.2.2
          rw [List.length_cons, Nat.add_mul, Nat.one_mul]
          omega

theorem cost_pammedsilBuildInitializeC (k : Nat) :
    (pammedsilBuildInitializeC L w (mat.counted w) k).Sat fun r t =>
      r.2.1.length = mat.len ∧ r.1.length ≤ 1 + (k - 1) ∧
      t ≤ (1 + (k - 1)) * (w.step + (mat.len * (w.step + (mat.len * w.step + (mat.len - 1) * w.read))
        + mat.len * (w.read + w.step))) := by
  refine sat_bind ((cost_buildFirstC w mat k).mono fun best c0 h0 => sat_bind ?_)
  refine (sat_mapC (g := fun _ => w.read) fun x _ =>
    sat_bind (sat_get w mat fun v => sat_pure rfl)).mono fun data c1 h1 => ?_
  have hl : data.length = mat.len := by
    have := h1.1
    rw [List.length_range] at this
    exact this
  refine (cost_pmsBuildLoopC w mat k ((List.range k).drop 1) [best.2] data best.1 hl).mono fun r t h => ?_
  obtain ⟨e1, e2, e3⟩ := h
  simp only [List.length_drop, List.length_range, List.length_singleton] at e2 e3
  refine ⟨e1, e2, ?_⟩
  have h2 := h1.2
  rw [sum_const, List.length_range, show (mat.counted w).len = mat.len from rfl,
    Nat.add_comm w.step w.read] at h2
  rw [Nat.add_mul, Nat.one_mul]
  omega

theorem cost_pammedsilC (k maxiter : Nat) :
    (pammedsilC L w (mat.counted w) k maxiter).Sat fun r t =>
      t ≤ (w.read + 8 * w.step) *
        (mat.len * (k * mat.len + r.nIter * ((k + 1) * mat.len) + r.nSwap * (k + 1))) := by
  refine sat_bind ((cost_assertSizesC w mat k).mono fun _ c0 h0 => sat_bind ?_)
  obtain ⟨hc0, hk0, hkn⟩ := h0
  refine (cost_pammedsilBuildInitializeC w mat k).mono fun q c1 h1 => ?_
  obtain ⟨g1, g2, g3⟩ := h1
  rw [show 1 + (k - 1) = k by omega] at g2 g3
  have hn : 0 < mat.len := by omega
  have a1 : mat.len ≤ mat.len * k := Nat.le_mul_of_pos_right _ hk0
  have a2 : mat.len ≤ mat.len * mat.len := Nat.le_mul_of_pos_right _ hn
  have a3 : mat.len * k ≤ mat.len * mat.len * k := Nat.mul_le_mul_right _ a2
  have a4 : k ≤ mat.len * k := Nat.le_mul_of_pos_left _ hn
  have b1 : w.step * (k + mat.len * k + mat.len * mat.len * k + mat.len * k + mat.len)
      ≤ w.step * (5 * (mat.len * mat.len * k)) := Nat.mul_le_mul_left _ (by omega)
  have b2 : (k * mat.len) * ((mat.len - 1) * w.read + w.read) = (k * mat.len) * (mat.len * w.read) := by
    congr 1
    obtain ⟨m, hm⟩ : ∃ m, mat.len = m + 1 := ⟨mat.len - 1, by omega⟩
    rw [hm, Nat.add_sub_cancel, Nat.add_mul, Nat.one_mul]
  have hB : c1 + mat.len * w.step ≤ (w.read + 5 * w.step) * (k * (mat.len * mat.len)) := by nlinarith
  obtain ⟨meds, data, loss⟩ := q
  show (pammedsilOptimizeC w (mat.counted w) meds data maxiter loss).Sat _
  simp only at g1 g2
  by_cases h1 : meds.length = 1
  · unfold pammedsilOptimizeC
    rw [if_pos h1]
    refine (cost_singleClusterC w mat meds).mono fun r t h => ?_
    obtain ⟨e1, e2⟩ := h
    rw [e1, hc0]
    generalize mat.len = n at *
    generalize w.read = R at *
    generalize w.step = S at *
    have a5 : n * n ≤ n * n * k := Nat.le_mul_of_pos_right _ hk0
    have b3 : S * (n * n + 3 * n) ≤ S * (8 * (n * n * k)) := Nat.mul_le_mul_left _ (by omega)
    have b4 : R * (n * n + n) ≤ R * (n * n * k + n * n) := Nat.mul_le_mul_left _ (by omega)
    nlinarith [Nat.zero_le (R * r.nSwap * n * (k + 1)), Nat.zero_le (S * r.nSwap * n * (k + 1)),
      Nat.zero_le (S * n), Nat.zero_le (S * n * n)]
  · refine (cost_pammedsilOptimizeC w mat h1 g1 hn maxiter loss).mono fun r t h => ?_
    obtain ⟨-, -, e2⟩ := h
    rw [hc0]
    have hm : (mat.len * (r.nIter * ((meds.length + 1) * mat.len) + r.nSwap * (meds.length + 1)))
        ≤ (mat.len * (r.nIter * ((k + 1) * mat.len) + r.nSwap * (k + 1))) := by
      refine Nat.mul_le_mul_left _ (Nat.add_le_add (Nat.mul_le_mul_left _ (Nat.mul_le_mul_right _ ?_))
        (Nat.mul_le_mul_left _ ?_)) <;> omega
    have hm2 := Nat.mul_le_mul_left (w.read + 4 * w.step) hm
    rw [show mat.len * (k * mat.len + r.nIter * ((k + 1) * mat.len) + r.nSwap * (k + 1))
        = k * (mat.len * mat.len) + mat.len * (r.nIter * ((k + 1) * mat.len) + r.nSwap * (k + 1)) by ring]
    generalize (mat.len * (r.nIter * ((k + 1) * mat.len) + r.nSwap * (k + 1))) = X at *
    nlinarith [Nat.zero_le (w.step * X), Nat.zero_le (w.step * (k * (mat.len * mat.len)))]

/-! ## DynMSC -/

theorem cost_removeMedC (med : List Nat) (data : List (Reco N)) (b : Nat) :
    (removeMedC L w (mat.counted w) med data b).Sat fun r t =>
      r.2.1.length = med.length - 1 ∧ r.2.2.length = data.length ∧
        t ≤ data.length * (w.step + med.length * (w.read + w.step)) := by
  unfold removeMedC
  refine sat_ite (fun _ => sat_bind (sat_lift fun _ h => by cases h)) fun _ => ?_
  refine sat_bind (sat_lift fun _ _ => sat_bind (sat_lift fun ml _ => sat_bind (sat_lift fun med' hm =>
    sat_bind ?_)))
  have hlen := setIdx_len hm
  have hut : ∀ n' s' o, (updateThirdNearestWithoutNewC w (mat.counted w)
      (med'.eraseIdx (med.length - 1)) n' s' b o).Sat fun _ t => t ≤ med.length * (w.read + w.step) := by
    intro n' s' o
    refine (sat_foldC_le (I := fun _ => True) (g := fun _ => w.read) (fun s x _ _ => ?_) trivial).mono
      fun a c hc => ?_
    · exact sat_ite (fun _ => sat_pure (by simp)) fun _ =>
        sat_bind (sat_get w mat fun v => sat_pure (by simp))
    · have := hc.2
      rw [sum_const, List.length_zipIdx] at this
      calc c ≤ _ := this
        _ ≤ med.length * (w.step + w.read) := Nat.mul_le_mul_right _ (by
          rw [List.length_eraseIdx]; split <;> omega)
        _ = _ := by ring
  have leaf : ∀ (o : Nat) n' s' (f : DistancePair N → Reco N),
      (updateThirdNearestWithoutNewC w (mat.counted w) (med'.eraseIdx (med.length - 1)) n' s' b o >>=
      fun t => pure (f t) >>= fun reco =>
        (pure (reco, mscLoss L reco.near.d reco.seco.d) : Cnt (Reco N × L))).Sat
      fun _ t => t ≤ med.length * (w.read + w.step) := by
    intro o n' s' f
    exact sat_bind ((hut n' s' o).mono fun a c hc => sat_bind (sat_pure (sat_pure (by omega))))
  refine (sat_mapC_le (g := fun _ => med.length * (w.read + w.step)) fun x _ => ?_).mono fun rs c hc => ?_
  · unfold removeMedRecC
    dsimp only
    refine sat_ite (fun _ => leaf _ _ _ _) fun _ => sat_ite (fun _ => leaf _ _ _ _) fun _ =>
      sat_ite (fun _ => leaf _ _ _ _) fun _ => sat_bind (sat_pure (sat_pure (by omega)))
  · refine sat_bind (sat_lift fun loss _ => sat_pure ⟨?_, ?_, ?_⟩)
    · show (med'.eraseIdx (med.length - 1)).length = _
      rw [List.length_eraseIdx]; split <;> omega
    · simpa using hc.1
    · have h := hc.2
      rw [sum_const, List.length_zipIdx] at h
      omega

/-- The loop of DynMSC: the cost of all rounds. -/
theorem cost_dynLoopC (K maxiter minK fuel : Nat) (s : DynState N L) (hd : s.data.length = mat.len)
    (hr : s.rem.length = s.med.length) (hK : s.med.length ≤ K) :
    (dynLoopC w (mat.counted w) maxiter minK fuel s).Sat fun s' t =>
      s'.med.length ≤ s.med.length ∧ s.retIter ≤ s'.retIter ∧ s.retSwaps ≤ s'.retSwaps ∧
      t ≤ (s'.retIter - s.retIter) * (w.step +
          mat.len * (w.step + (mat.len * (w.read + w.step) + 2 * (K * w.step))))
        + (s'.retSwaps - s.retSwaps) * (mat.len * ((K + 1) * (w.read + w.step)) + (K + mat.len) * w.step)
        + (s.med.length - s'.med.length) * (w.step + ((K + mat.len) * w.step + (2 * (K * w.step) +
          (mat.len * w.step + mat.len * (w.step + K * (w.read + w.step)))))) := by
  generalize hA : w.step + mat.len * (w.step + (mat.len * (w.read + w.step) + 2 * (K * w.step))) = A
  generalize hB : mat.len * ((K + 1) * (w.read + w.step)) + (K + mat.len) * w.step = B
  generalize hC : w.step + ((K + mat.len) * w.step + (2 * (K * w.step) +
          (mat.len * w.step + mat.len * (w.step + K * (w.read + w.step))))) = C
  induction fuel generalizing s with
  | zero => exact sat_pure ⟨le_refl _, le_refl _, le_refl _, Nat.zero_le _⟩
  | succ fuel ih =>
    refine sat_ite (fun hc => ?_) fun _ => sat_pure ⟨le_refl _, le_refl _, le_refl _, Nat.zero_le _⟩
    refine sat_bind (sat_tick (sat_bind ?_))
    refine Cnt.Sat.mono (P := fun s' c => s'.data.length = mat.len ∧ s'.rem.length = s'.med.length ∧
      s'.med.length + 1 = s.med.length ∧ s.retIter ≤ s'.retIter ∧ s.retSwaps ≤ s'.retSwaps ∧
      w.step + c ≤ (s'.retIter - s.retIter) * A + (s'.retSwaps - s.retSwaps) * B + C) ?_ fun s' c h => ?_
    · refine sat_bind ((cost_mscUpdateRemovalLossC w s.data s.rem.length).mono fun rem c1 h1 => sat_bind ?_)
      obtain ⟨h1, h1'⟩ := h1
      refine (cost_mscLoopC w mat maxiter 0 ⟨s.med, s.data, rem, s.loss, mat.len, 0⟩).mono fun q c2 h2 => ?_
      obtain ⟨g1, g2, g3, -, -, g4⟩ := h2
      simp only [Nat.sub_zero, hd] at g1 g2 g3 g4
      refine sat_bind (sat_tick (sat_bind (sat_lift fun retLoss _ => sat_bind (sat_tick (sat_bind ?_)))))
      refine (cost_removeMedC w mat q.1.med q.1.data _).mono fun p c3 h3 => ?_
      obtain ⟨f1, f2, f3⟩ := h3
      refine sat_bind (sat_tick (sat_ite (fun hlt => sat_pure ?_) fun _ => sat_lift fun _ h => by cases h))
      refine ⟨f2.trans g2, ?_, ?_, by simp, by simp, ?_⟩
      · show (q.1.rem.eraseIdx _).length = p.2.1.length
        rw [List.length_eraseIdx, if_pos hlt, g3, h1, f1, g1, hr]
      · show p.2.1.length + 1 = _
        rw [f1, g1]; omega
      · show _ ≤ (s.retIter + q.2 - s.retIter) * A + (s.retSwaps + q.1.nSwaps - s.retSwaps) * B + C
        rw [show s.retIter + q.2 - s.retIter = q.2 by omega,
          show s.retSwaps + q.1.nSwaps - s.retSwaps = q.1.nSwaps by omega]
        rw [g1, g2] at f3
        rw [g2, g3, h1, hr]
        rw [h1, hr] at g4
        rw [hr, hd] at h1'
        have hAle : w.step + mat.len * (w.step + (mat.len * (w.read + w.step) + 2 * (s.med.length * w.step))) ≤ A := by
          rw [← hA]
          exact Nat.add_le_add_left (Nat.mul_le_mul_left _ (Nat.add_le_add_left (Nat.add_le_add_left
            (Nat.mul_le_mul_left _ (Nat.mul_le_mul_right _ hK)) _) _)) _
        have hBle : mat.len * ((s.med.length + 1) * (w.read + w.step)) + (s.med.length + mat.len) * w.step ≤ B := by
          rw [← hB]
          exact Nat.add_le_add (Nat.mul_le_mul_left _ (Nat.mul_le_mul_right _ (by omega)))
            (Nat.mul_le_mul_right _ (by omega))
        have hCle : w.step + ((s.med.length + mat.len) * w.step + (2 * (s.med.length * w.step) +
          (mat.len * w.step + mat.len * (w.step + s.med.length * (w.read + w.step))))) ≤ C := by
          rw [← hC]
          have e1 : (s.med.length + mat.len) * w.step ≤ (K + mat.len) * w.step := Nat.mul_le_mul_right _ (by omega)
          have e2 : s.med.length * w.step ≤ K * w.step := Nat.mul_le_mul_right _ hK
          have e3 : mat.len * (w.step + s.med.length * (w.read + w.step)) ≤ mat.len * (w.step + K * (w.read + w.step)) :=
            Nat.mul_le_mul_left _ (Nat.add_le_add_left (Nat.mul_le_mul_right _ hK) _)
          omega
        have m1 := Nat.mul_le_mul_left q.2 hAle
        have m2 := Nat.mul_le_mul_left q.1.nSwaps hBle
        omega
    · obtain ⟨h1, h2, h3, h4, h5, h6⟩ := h
      refine (ih s' h1 h2 (by omega)).mono fun r t h => ?_
      obtain ⟨e1, e2, e3, e4⟩ := h
      refine ⟨by omega, by omega, by omega, ?_⟩
      obtain ⟨a, ha⟩ := Nat.exists_eq_add_of_le h4
      obtain ⟨a', ha'⟩ := Nat.exists_eq_add_of_le e2
      obtain ⟨b, hb⟩ := Nat.exists_eq_add_of_le h5
      obtain ⟨b', hb'⟩ := Nat.exists_eq_add_of_le e3
      obtain ⟨m, hm⟩ := Nat.exists_eq_add_of_le e1
      rw [ha', show s'.retIter + a' - s'.retIter = a' by omega, hb',
        show s'.retSwaps + b' - s'.retSwaps = b' by omega, show s'.med.length - r.med.length = m by omega] at e4
      rw [ha, show s.retIter + a - s.retIter = a by omega, hb,
        show s.retSwaps + b - s.retSwaps = b by omega] at h6
      rw [show r.retIter - s.retIter = a + a' by omega, show r.retSwaps - s.retSwaps = b + b' by omega,
        show s.med.length - r.med.length = m + 1 by omega, Nat.add_mul, Nat.add_mul, Nat.add_mul, Nat.one_mul]
      omega

theorem cost_dynmscC {med : List Nat} (hk : med.length ≠ 1) (mink maxiter : Nat) :
    (dynmscC L w (mat.counted w) med mink maxiter).Sat fun r t =>
      t ≤ (w.read + 10 * w.step) * (mat.len * (med.length * (med.length + 2) + r.nIter * mat.len
        + r.nSwap * (med.length + 1))) := by
  unfold dynmscC
  dsimp only
  refine sat_ite (fun h => absurd h hk) fun _ => ?_
  refine sat_bind ((cost_mscInitialAssignmentC w mat med).mono fun p c0 h0 => sat_bind (sat_tick (sat_bind ?_)))
  obtain ⟨hl, hk0, hkn, hc0⟩ := h0
  refine (cost_dynLoopC w mat med.length maxiter _ med.length _ hl (by simp) (le_refl _)).mono fun s c1 h1 => ?_
  simp only [Nat.sub_zero, Nat.zero_le, true_and] at h1
  obtain ⟨g1, g4⟩ := h1
  generalize hmk : min (max mink 1) med.length = minK at *
  have hmk' : minK ≤ med.length := by omega
  have hfin : ∀ I2 W2 c2 : Nat, c2 ≤ (w.read + 5 * w.step) * (mat.len * (2 + I2 * mat.len + W2 * 3)) →
      c0 + ((med.length - minK + 1 + med.length) * w.step + (c1 + c2)) ≤
        (w.read + 10 * w.step) * (mat.len * (med.length * (med.length + 2) + (s.retIter + I2) * mat.len
        + (s.retSwaps + W2) * (med.length + 1))) := by
    intro I2 W2 c2 h2
    have g5 : (med.length - s.med.length) * (w.step + ((med.length + mat.len) * w.step +
        (2 * (med.length * w.step) + (mat.len * w.step + mat.len * (w.step + med.length * (w.read + w.step))))))
        ≤ med.length * (w.step + ((med.length + mat.len) * w.step +
        (2 * (med.length * w.step) + (mat.len * w.step + mat.len * (w.step + med.length * (w.read + w.step)))))) :=
      Nat.mul_le_mul_right _ (by omega)
    have g6 : (med.length - minK + 1 + med.length) * w.step ≤ (2 * med.length + 1) * w.step :=
      Nat.mul_le_mul_right _ (by omega)
    have hk2 : 2 ≤ med.length := by omega
    generalize (med.length - s.med.length) * (w.step + ((med.length + mat.len) * w.step +
        (2 * (med.length * w.step) + (mat.len * w.step + mat.len * (w.step + med.length * (w.read + w.step))))))
      = X at *
    generalize (med.length - minK + 1 + med.length) * w.step = Y at *
    generalize s.retIter = I at *
    generalize s.retSwaps = W at *
    generalize mat.len = n at *
    generalize med.length = k at *
    generalize w.read = R at *
    generalize w.step = S at *
    have a1 : n ≤ n * k := Nat.le_mul_of_pos_right _ hk0
    have a2 : n ≤ n * n := Nat.le_mul_of_pos_right _ (by omega)
    have a3 : n * k ≤ n * n := Nat.mul_le_mul_left _ hkn
    have a4 : k * k ≤ n * k := Nat.mul_le_mul_right _ hkn
    have a5 : k ≤ n * k := Nat.le_mul_of_pos_left _ (by omega)
    have a6 : 2 * n ≤ n * k := by rw [Nat.mul_comm]; exact Nat.mul_le_mul_left _ hk2
    have b2 : (S * I) * (1 + n + n * n + 2 * (n * k)) ≤ (S * I) * (10 * (n * n)) :=
      Nat.mul_le_mul_left _ (by omega)
    have b3 : (S * W) * (n * k + n + k + n) ≤ (S * W) * (10 * (n * k + n)) := Nat.mul_le_mul_left _ (by omega)
    have b4 : S * (n * k + 2 * k + 1 + k + 3 * (k * k) + 3 * (n * k) + n * k * k + 10 * n)
        ≤ S * (10 * (n * k * k + 2 * (n * k))) := Nat.mul_le_mul_left _ (by omega)
    have b5 : R * (n * k + n * k * k + 2 * n) ≤ R * (n * k * k + 2 * (n * k)) := Nat.mul_le_mul_left _ (by omega)
    have b6 : (R * W2) * (n * 3) ≤ (R * W2) * (n * k + n) := Nat.mul_le_mul_left _ (by omega)
    have b7 : (S * W2) * (15 * n) ≤ (S * W2) * (10 * (n * k + n)) := Nat.mul_le_mul_left _ (by omega)
    have b8 : (S * I2) * (5 * (n * n)) ≤ (S * I2) * (10 * (n * n)) := Nat.mul_le_mul_left _ (by omega)
    nlinarith
  unfold dynFinishC
  dsimp only
  refine sat_ite (fun h2 => ?_) fun _ => ?_
  · refine sat_bind ((cost_fastermscK2C w mat s.med maxiter).mono fun r c2 hc2 => ?_)
    refine sat_bind (sat_lift fun rl _ => sat_bind (sat_pure ?_))
    have h3 := hfin r.nIter r.nSwap c2 hc2
    exact sat_ite (fun _ => sat_bind (sat_lift fun _ _ => sat_pure (by simpa using h3))) fun _ =>
      sat_bind (sat_pure (sat_pure (by simpa using h3)))
  · refine sat_bind (sat_pure ?_)
    have h3 := hfin 0 0 0 (Nat.zero_le _)
    exact sat_ite (fun _ => sat_bind (sat_lift fun _ _ => sat_pure (by simpa using h3))) fun _ =>
      sat_bind (sat_pure (sat_pure (by simpa using h3)))

end

end KMedoids
