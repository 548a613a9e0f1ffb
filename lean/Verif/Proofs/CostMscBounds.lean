import Verif.Proofs.CostMsc
import Verif.Proofs.CostBounds

/-! # Costs of the parts of the silhouette family -/

namespace KMedoids

set_option linter.unusedSectionVars false
variable {N L : Type} [RDist N] [RLoss L] [RFrom N L]
open RFrom (conv)

theorem idx_mem {α : Type} {a : List α} {i : Nat} {x : α} (h : idx a i = .ok x) : x ∈ a := by
  unfold idx at h
  split at h
  · rename_i y hy
    cases h
    exact List.mem_of_getElem? hy
  · cases h

theorem idx_ok_lt {α : Type} {a : List α} {i : Nat} {x : α} (h : idx a i = .ok x) : i < a.length := by
  unfold idx at h
  split at h
  · rename_i y hy
    exact (List.getElem?_eq_some_iff.mp hy).1
  · cases h

theorem mscIsOwnMedoid_mem {med : List Nat} {data : List (Reco N)} {j : Nat}
    (h : mscIsOwnMedoid med data j = .ok true) : j ∈ med := by
  unfold mscIsOwnMedoid at h
  rcases h1 : idx data j with e | r
  · rw [h1] at h; cases h
  · rw [h1] at h
    rcases h2 : idx med r.near.i with e | m
    · rw [ok_bind, h2] at h; cases h
    · rw [ok_bind, h2, ok_bind] at h
      have hjm : j = m := by
        have := Except.ok.inj h
        simpa using this
      rw [hjm]
      exact idx_mem h2

theorem k2IsOwnMedoid_mem {med assi : List Nat} {j : Nat}
    (h : k2IsOwnMedoid med assi j = .ok true) : j ∈ med := by
  unfold k2IsOwnMedoid at h
  rcases h1 : idx assi j with e | r
  · rw [h1] at h; cases h
  · rw [h1] at h
    rcases h2 : idx med r with e | m
    · rw [ok_bind, h2] at h; cases h
    · rw [ok_bind, h2, ok_bind] at h
      have hjm : j = m := by
        have := Except.ok.inj h
        simpa using this
      rw [hjm]
      exact idx_mem h2

section
variable (w : Weights) (mat : Mat N)

/-- Cost of a scan over all objects that skips medoids. -/
theorem cost_scan_gen {med : List Nat} {own : Nat → Res Bool} (ho : ∀ j, own j = .ok true → j ∈ med)
    {σ β : Type} {n K : Nat} {fbs : Nat → Cnt β} {upd : σ → Nat → β → σ}
    (hf : ∀ j < n, (fbs j).Sat fun _ t => t = K) (best : σ) :
    (foldC w (fun (best : σ) (j : Nat) => do
      let own ← (liftM (own j) : Cnt Bool)
      if own then pure best
      else
        let r ← fbs j
        pure (upd best j r)) best (List.range n)).Sat fun _ t =>
      n * w.step + (n - med.length) * K ≤ t ∧ t ≤ n * (w.step + K) := by
  refine (sat_foldC (I := fun _ => True)
    (g := fun j => if decide (own j = .ok true) then 0 else K)
    (fun s j hj _ => ?_) trivial).mono fun r t h => ?_
  · refine sat_bind (sat_lift fun own hown => sat_ite (fun ho => sat_pure ⟨trivial, ?_⟩) fun ho => ?_)
    · rw [hown, ho]; simp
    · refine sat_bind ((hf j (List.mem_range.mp hj)).mono fun q c hc => sat_pure ⟨trivial, ?_⟩)
      rw [hown]
      simp only [Bool.not_eq_true] at ho
      rw [ho, hc]; simp
  · have hs := sum_countP (List.range n) (fun j => decide (own j = .ok true)) w.step K
    have hc : (List.range n).countP (fun j => decide (own j = .ok true)) ≤ med.length := by
      rw [List.countP_eq_length_filter]
      refine (List.subperm_of_subset (List.nodup_range.filter _) fun j hj => ?_).length_le
      exact ho j (of_decide_eq_true (List.mem_filter.mp hj).2)
    rw [h.2]
    rw [List.length_range] at hs
    generalize hc' : (List.range n).countP (fun j => decide (own j = .ok true)) = q at *
    have hq : q ≤ n := by
      rw [← hc']
      exact (List.countP_le_length).trans (by simp)
    constructor
    · have h1 : (n - med.length) * K + q * K ≤ n * K := by
        rw [← Nat.add_mul]
        by_cases hn : n ≤ med.length
        · exact Nat.mul_le_mul_right _ (by omega)
        · exact Nat.mul_le_mul_right _ (by omega)
      rw [Nat.mul_add] at hs
      omega
    · omega

theorem cost_mscInitRecC (med : List Nat) (c i : Nat) :
    (mscInitRecC w (mat.counted w) med c i).Sat fun _ t =>
      t = w.read + (med.length - 1) * (w.read + w.step) := by
  refine sat_bind (sat_get w mat fun v => ?_)
  refine (sat_foldC (I := fun _ => True) (g := fun _ => w.read) (fun s x _ _ => ?_) trivial).mono
    fun a c hc => ?_
  · refine sat_bind (sat_get w mat fun v => ?_)
    exact sat_ite (fun _ => sat_pure (by simp)) fun _ =>
      sat_ite (fun _ => sat_pure (by simp)) fun _ => sat_ite (fun _ => sat_pure (by simp)) fun _ =>
      sat_pure (by simp)
  · rw [hc.2, sum_const]
    simp only [List.length_drop, List.length_zipIdx]
    ring

theorem cost_mscInitialAssignmentC (med : List Nat) :
    (mscInitialAssignmentC L w (mat.counted w) med).Sat fun r t =>
      r.2.length = mat.len ∧ 0 < med.length ∧ med.length ≤ mat.len ∧
        t = mat.len * (med.length * (w.read + w.step)) := by
  refine sat_bind ((cost_assertSizesC w mat med.length).mono fun _ c0 h0 => ?_)
  refine sat_bind (sat_lift fun fc _ => sat_bind ?_)
  refine (sat_mapC fun x _ => cost_mscInitRecC w mat med fc x).mono fun data c hc => ?_
  refine sat_bind (sat_lift fun loss _ => sat_pure ⟨?_, h0.2.1, h0.2.2, ?_⟩)
  · simpa using hc.1
  · rw [hc.2, h0.1, sum_const]
    obtain ⟨m, hm⟩ := Nat.exists_eq_add_of_le h0.2.1
    rw [show med.length - 1 = m by omega, show med.length = m + 1 by omega, List.length_range]
    show _ = mat.len * _
    rw [show (mat.counted w).len = mat.len from rfl]
    ring

/-- `find_best_swap` of FasterMSC: one read for each object, whatever the number of medoids. -/
theorem cost_mscFindBestSwapC (rem : List L) (data : List (Reco N)) (j : Nat) :
    (mscFindBestSwapC w (mat.counted w) rem data j).Sat fun _ t =>
      t = data.length * (w.read + w.step) + 2 * (rem.length * w.step) := by
  refine sat_bind (sat_tick (sat_bind ?_))
  refine (sat_foldC (I := fun st : List L × L => st.1.length = rem.length) (g := fun _ => w.read)
    (fun s x _ hs => ?_) rfl).mono fun st c hc => ?_
  · refine sat_bind (sat_get w mat fun v => ?_)
    have two : ∀ (a : L) (i i' : Nat) (u u' : L),
        ((liftM (addAt s.1 i u) : Cnt (List L)) >>= fun p => (liftM (addAt p i' u') : Cnt (List L)) >>= fun p =>
          pure (p, a)).Sat fun s' c => s'.1.length = rem.length ∧ w.read + c = w.read := by
      intro a i i' u u'
      exact sat_bind (sat_lift fun l hl => sat_bind (sat_lift fun l' hl' =>
        sat_pure ⟨by rw [addAt_length hl', addAt_length hl, hs], by simp⟩))
    exact sat_ite (fun _ => two _ _ _ _ _) fun _ => sat_ite (fun _ => two _ _ _ _ _) fun _ =>
      sat_ite (fun _ => two _ _ _ _ _) fun _ => sat_pure ⟨hs, by simp⟩
  · refine sat_bind (sat_bind (sat_tick (sat_lift fun r _ => sat_pure ?_)))
    rw [hc.1, hc.2, sum_const]
    simp only [List.length_zipIdx]
    ring

theorem cost_mscUpdateRemovalLossC (data : List (Reco N)) (k : Nat) :
    (mscUpdateRemovalLossC L w data k).Sat fun r t => r.length = k ∧ t = (k + data.length) * w.step := by
  refine sat_bind (sat_tick ?_)
  refine (sat_foldC (I := fun l : List L => l.length = k) (g := fun _ => 0) (fun s x _ hs => ?_)
    (by simp)).mono fun st c hc => ⟨hc.1, ?_⟩
  · exact sat_bind (sat_lift fun l hl => sat_lift fun l' hl' =>
      ⟨by rw [addAt_length hl', addAt_length hl, hs], rfl⟩)
  · rw [hc.2, sum_const]; ring

theorem cost_updateThirdNearestC (med : List Nat) (n s b o : Nat) (doj : N) :
    (updateThirdNearestC w (mat.counted w) med n s b o doj).Sat fun _ t =>
      t ≤ med.length * (w.read + w.step) := by
  refine (sat_foldC_le (I := fun _ => True) (g := fun _ => w.read) (fun s x _ _ => ?_) trivial).mono
    fun a c hc => ?_
  · exact sat_ite (fun _ => sat_pure (by simp)) fun _ =>
      sat_bind (sat_get w mat fun v => sat_pure (by simp))
  · have := hc.2
    rw [sum_const, List.length_zipIdx] at this
    calc c ≤ med.length * (w.step + w.read) := this
      _ = _ := by ring

theorem cost_mscSwapRecC (med : List Nat) (b j : Nat) (p : Reco N × Nat) :
    (mscSwapRecC L w (mat.counted w) med b j p).Sat fun _ t =>
      t ≤ w.read + med.length * (w.read + w.step) := by
  refine sat_ite (fun _ => sat_pure (Nat.zero_le _)) fun _ => ?_
  refine sat_bind (sat_get w mat fun doj => ?_)
  dsimp only
  have leaf : ∀ r : Reco N, (pure r >>= fun reco =>
      (pure (reco, mscLoss L reco.near.d reco.seco.d) : Cnt (Reco N × L))).Sat
      fun _ c => w.read + c ≤ w.read + med.length * (w.read + w.step) :=
    fun r => sat_bind (sat_pure (sat_pure (by omega)))
  have husn : ∀ n' s' (f : DistancePair N → Reco N),
      (updateThirdNearestC w (mat.counted w) med n' s' b p.2 doj >>=
      fun s => pure (f s) >>= fun reco =>
        (pure (reco, mscLoss L reco.near.d reco.seco.d) : Cnt (Reco N × L))).Sat
        fun _ c => w.read + c ≤ w.read + med.length * (w.read + w.step) := by
    intro n' s' f
    refine sat_bind ((cost_updateThirdNearestC w mat med n' s' b p.2 doj).mono fun a c hc => ?_)
    exact sat_bind (sat_pure (sat_pure (by omega)))
  refine sat_ite (fun _ => sat_ite (fun _ => leaf _) fun _ => sat_ite (fun _ => leaf _) fun _ => husn _ _ _)
    fun _ => ?_
  refine sat_ite (fun _ => sat_ite (fun _ => leaf _) fun _ => sat_ite (fun _ => leaf _) fun _ => husn _ _ _)
    fun _ => ?_
  refine sat_ite (fun _ => leaf _) fun _ => ?_
  refine sat_ite (fun _ => leaf _) fun _ => ?_
  refine sat_ite (fun _ => leaf _) fun _ => ?_
  exact sat_ite (fun _ => husn _ _ _) fun _ => leaf _

theorem cost_mscDoSwapC (med : List Nat) (data : List (Reco N)) (b j : Nat) :
    (mscDoSwapC L w (mat.counted w) med data b j).Sat fun r t =>
      r.2.1.length = med.length ∧ r.2.2.length = data.length ∧
        t ≤ data.length * ((med.length + 1) * (w.read + w.step)) := by
  refine sat_bind (sat_lift fun _ _ => sat_bind (sat_lift fun _ _ => sat_bind (sat_lift fun med' hm =>
    sat_bind ?_)))
  refine (sat_mapC_le fun x _ => cost_mscSwapRecC w mat med' b j x).mono fun rs c hc => ?_
  refine sat_bind (sat_lift fun loss _ => sat_pure ⟨setIdx_len hm, ?_, ?_⟩)
  · simpa using hc.1
  · have h := hc.2
    rw [sum_const, List.length_zipIdx, setIdx_len hm] at h
    calc _ = c := by omega
      _ ≤ _ := h
      _ = _ := by ring

/-- One pass of FasterMSC over `js`. -/
theorem cost_mscPassC (js : List Nat) (s : MSCState N L) :
    (mscPassC w (mat.counted w) js s).Sat fun s' t =>
      s'.med.length = s.med.length ∧ s'.data.length = s.data.length ∧ s'.rem.length = s.rem.length ∧
      s.nSwaps ≤ s'.nSwaps ∧
      t ≤ js.length * (w.step + (s.data.length * (w.read + w.step) + 2 * (s.rem.length * w.step)))
        + (s'.nSwaps - s.nSwaps) * (s.data.length * ((s.med.length + 1) * (w.read + w.step))
          + (s.rem.length + s.data.length) * w.step) := by
  induction js generalizing s with
  | nil => exact sat_pure ⟨rfl, rfl, rfl, le_refl _, Nat.zero_le _⟩
  | cons j js ih =>
    generalize hA : w.step + (s.data.length * (w.read + w.step) + 2 * (s.rem.length * w.step)) = A at *
    generalize hB : s.data.length * ((s.med.length + 1) * (w.read + w.step))
          + (s.rem.length + s.data.length) * w.step = B at *
    have hstep : w.step ≤ A := by omega
    have skip : ∀ c0, c0 ≤ A → (mscPassC w (mat.counted w) js s).Sat fun s' t =>
        s'.med.length = s.med.length ∧ s'.data.length = s.data.length ∧ s'.rem.length = s.rem.length ∧
        s.nSwaps ≤ s'.nSwaps ∧ c0 + t ≤ (js.length + 1) * A + (s'.nSwaps - s.nSwaps) * B := by
      intro c0 hc0
      refine (ih s).mono fun s' t h => ⟨h.1, h.2.1, h.2.2.1, h.2.2.2.1, ?_⟩
      have := h.2.2.2.2
      rw [hA, hB] at this
      rw [Nat.add_mul, Nat.one_mul]
      omega
    refine sat_bind (sat_tick (sat_ite (fun _ => sat_pure ⟨rfl, rfl, rfl, le_refl _, ?_⟩) fun _ => ?_))
    · rw [List.length_cons, Nat.add_mul, Nat.one_mul]; omega
    refine sat_bind (sat_lift fun own _ => sat_ite (fun _ => ?_) fun _ => ?_)
    · refine (skip w.step hstep).mono fun s' t h => ?_
      rw [List.length_cons]
      exact ⟨h.1, h.2.1, h.2.2.1, h.2.2.2.1, by have := h.2.2.2.2; omega⟩
    refine sat_bind ((cost_mscFindBestSwapC w mat s.rem s.data j).mono fun r c hc => ?_)
    have hcA : w.step + c = A := by rw [← hA, hc]
    refine sat_ite (fun _ => ?_) fun _ => ?_
    · refine (skip (w.step + c) (by omega)).mono fun s' t h => ?_
      rw [List.length_cons]
      exact ⟨h.1, h.2.1, h.2.2.1, h.2.2.2.1, by have := h.2.2.2.2; omega⟩
    refine sat_bind ((cost_mscDoSwapC w mat s.med s.data r.2 j).mono fun q c1 h1 => ?_)
    refine sat_bind ((cost_mscUpdateRemovalLossC w q.2.2 s.rem.length).mono fun rem c2 h2 => ?_)
    refine (ih ⟨q.2.1, q.2.2, rem, q.1, j, s.nSwaps + 1⟩).mono fun s' t h => ?_
    obtain ⟨e1, e2, e3, e4, e5⟩ := h
    simp only [h1.1, h1.2.1, h2.1] at e1 e2 e3 e4 e5
    refine ⟨e1, e2, e3, by omega, ?_⟩
    rw [hA, hB] at e5
    have hB' : c1 + c2 ≤ B := by
      have := h1.2.2
      have h2' := h2.2
      rw [h1.2.1] at h2'
      omega
    obtain ⟨m, hm⟩ := Nat.exists_eq_add_of_le e4
    rw [hm, show s.nSwaps + 1 + m - (s.nSwaps + 1) = m by omega] at e5
    rw [hm, show s.nSwaps + 1 + m - s.nSwaps = m + 1 by omega, List.length_cons, Nat.add_mul, Nat.add_mul,
      Nat.one_mul, Nat.one_mul]
    omega

/-- The outer loop of FasterMSC. -/
theorem cost_mscLoopC (fuel iter : Nat) (s : MSCState N L) :
    (mscLoopC w (mat.counted w) fuel iter s).Sat fun r t =>
      r.1.med.length = s.med.length ∧ r.1.data.length = s.data.length ∧ r.1.rem.length = s.rem.length ∧
      iter ≤ r.2 ∧ s.nSwaps ≤ r.1.nSwaps ∧
      t ≤ (r.2 - iter) * (w.step +
          mat.len * (w.step + (s.data.length * (w.read + w.step) + 2 * (s.rem.length * w.step))))
        + (r.1.nSwaps - s.nSwaps) * (s.data.length * ((s.med.length + 1) * (w.read + w.step))
          + (s.rem.length + s.data.length) * w.step) := by
  induction fuel generalizing iter s with
  | zero => exact sat_pure ⟨rfl, rfl, rfl, le_refl _, le_refl _, Nat.zero_le _⟩
  | succ fuel ih =>
    refine sat_bind (sat_tick (sat_bind ((cost_mscPassC w mat (List.range mat.len) s).mono fun s' c h => ?_)))
    obtain ⟨h1, h2, h3, h4, h5⟩ := h
    rw [List.length_range] at h5
    generalize hA : mat.len *
      (w.step + (s.data.length * (w.read + w.step) + 2 * (s.rem.length * w.step))) = A at *
    generalize hB : s.data.length * ((s.med.length + 1) * (w.read + w.step))
          + (s.rem.length + s.data.length) * w.step = B at *
    refine sat_ite (fun _ => sat_pure ⟨h1, h2, h3, by simp, h4, ?_⟩) fun _ => ?_
    · show _ ≤ (iter + 1 - iter) * _ + _
      rw [show iter + 1 - iter = 1 by omega, Nat.one_mul]
      simp only []
      omega
    · refine (ih (iter + 1) s').mono fun r t h => ?_
      obtain ⟨f1, e1, f3, e2, e3, e4⟩ := h
      rw [h1, h2, h3, hA, hB] at e4
      refine ⟨f1.trans h1, e1.trans h2, f3.trans h3, by omega, by omega, ?_⟩
      obtain ⟨m, hm⟩ := Nat.exists_eq_add_of_le e2
      obtain ⟨a, ha⟩ := Nat.exists_eq_add_of_le h4
      obtain ⟨b, hb⟩ := Nat.exists_eq_add_of_le e3
      rw [hm, show iter + 1 + m - (iter + 1) = m by omega, hb, show s'.nSwaps + b - s'.nSwaps = b by omega] at e4
      rw [ha, show s.nSwaps + a - s.nSwaps = a by omega] at h5
      rw [hm, show iter + 1 + m - iter = m + 1 by omega, hb, ha,
        show s.nSwaps + a + b - s.nSwaps = a + b by omega, Nat.add_mul, Nat.add_mul, Nat.one_mul]
      omega

/-! ## Two medoids -/

theorem cost_k2InitialAssignmentC (med : List Nat) :
    (k2InitialAssignmentC L w (mat.counted w) med).Sat fun r t =>
      r.2.1.length = mat.len ∧ r.2.2.length = mat.len ∧ t = mat.len * (2 * w.read + w.step) := by
  refine sat_bind (sat_lift fun _ _ => sat_bind (sat_lift fun _ _ => sat_bind (sat_lift fun _ _ =>
    sat_bind (sat_lift fun _ _ => sat_bind ?_))))
  refine (sat_mapC (g := fun _ => 2 * w.read) fun x _ => ?_).mono fun rs c hc => ?_
  · refine sat_bind (sat_lift fun _ _ => sat_bind (sat_get w mat fun d0 => sat_bind (sat_lift fun _ _ =>
      sat_bind (sat_get w mat fun d1 => ?_))))
    exact sat_ite (fun _ => sat_pure (by omega)) fun _ => sat_pure (by omega)
  · refine sat_bind (sat_lift fun loss _ => sat_pure ⟨?_, ?_, ?_⟩)
    · simpa using hc.1
    · simpa using hc.1
    · rw [hc.2, sum_const, List.length_range, show (mat.counted w).len = mat.len from rfl]
      ring

theorem cost_k2FindBestSwapC (data : List (N × N)) (j : Nat) :
    (k2FindBestSwapC L w (mat.counted w) data j).Sat fun _ t =>
      t = data.length * (w.read + w.step) + 2 * w.step := by
  refine sat_bind ?_
  refine (sat_foldC (I := fun _ => True) (g := fun _ => w.read)
    (fun s x _ hs => sat_bind (sat_get w mat fun v => sat_pure (by simp))) trivial).mono fun st c hc => ?_
  refine sat_bind (sat_bind (sat_tick (sat_lift fun r _ => sat_pure ?_)))
  rw [hc.2, sum_const]
  simp only [List.length_zipIdx, List.length_cons, List.length_nil]
  ring

theorem cost_k2DoSwapC (med assi : List Nat) (data : List (N × N)) (hl : assi.length = data.length) (b j : Nat) :
    (k2DoSwapC L w (mat.counted w) med assi data b j).Sat fun r t =>
      r.2.2.1.length = data.length ∧ r.2.2.2.length = data.length ∧ r.2.1.length = med.length ∧
        t ≤ data.length * (w.read + w.step) := by
  refine sat_bind (sat_lift fun _ _ => sat_bind (sat_lift fun _ _ => sat_bind (sat_lift fun med' hm =>
    sat_bind ?_)))
  refine (sat_mapC_le (g := fun _ => w.read) fun x _ => ?_).mono fun rs c hc => ?_
  · have leaf : ∀ r : Nat × (N × N) × L, (pure r : Cnt (Nat × (N × N) × L)).Sat fun _ c => w.read + c ≤ w.read :=
      fun r => sat_pure (le_refl _)
    exact sat_ite (fun _ => sat_ite (fun _ => sat_pure (Nat.zero_le _)) fun _ =>
        sat_bind (sat_get w mat fun v => sat_ite (fun _ => leaf _) fun _ => leaf _)) fun _ =>
      sat_ite (fun _ => sat_pure (Nat.zero_le _)) fun _ =>
        sat_bind (sat_get w mat fun v => sat_ite (fun _ => leaf _) fun _ => leaf _)
  · have h1 := hc.1
    simp only [List.length_zipIdx, List.length_zip, hl, Nat.min_self] at h1
    refine sat_bind (sat_lift fun loss _ => sat_pure ⟨by simpa using h1, by simpa using h1, setIdx_len hm, ?_⟩)
    have h := hc.2
    rw [sum_const, List.length_zipIdx, List.length_zip, hl, Nat.min_self, Nat.add_comm w.step] at h
    omega

theorem cost_k2PassC (js : List Nat) (s : K2State N L) (hl : s.assi.length = s.data.length) :
    (k2PassC w (mat.counted w) js s).Sat fun s' t =>
      s'.assi.length = s.data.length ∧ s'.data.length = s.data.length ∧ s.nSwaps ≤ s'.nSwaps ∧
      t ≤ js.length * (w.step + (s.data.length * (w.read + w.step) + 2 * w.step))
        + (s'.nSwaps - s.nSwaps) * (s.data.length * (w.read + w.step)) := by
  induction js generalizing s with
  | nil => exact sat_pure ⟨hl, rfl, le_refl _, Nat.zero_le _⟩
  | cons j js ih =>
    generalize hA : w.step + (s.data.length * (w.read + w.step) + 2 * w.step) = A at *
    generalize hB : s.data.length * (w.read + w.step) = B at *
    have skip : ∀ c0, c0 ≤ A → (k2PassC w (mat.counted w) js s).Sat fun s' t =>
        s'.assi.length = s.data.length ∧ s'.data.length = s.data.length ∧
        s.nSwaps ≤ s'.nSwaps ∧ c0 + t ≤ (js.length + 1) * A + (s'.nSwaps - s.nSwaps) * B := by
      intro c0 hc0
      refine (ih s hl).mono fun s' t h => ⟨h.1, h.2.1, h.2.2.1, ?_⟩
      have := h.2.2.2
      rw [hB, hA] at this
      rw [Nat.add_mul, Nat.one_mul]
      omega
    refine sat_bind (sat_tick (sat_ite (fun _ => sat_pure ⟨hl, rfl, le_refl _, ?_⟩) fun _ => ?_))
    · rw [List.length_cons, Nat.add_mul, Nat.one_mul]; omega
    refine sat_bind (sat_lift fun own _ => sat_ite (fun _ => ?_) fun _ => ?_)
    · refine (skip w.step (by omega)).mono fun s' t h => ?_
      rw [List.length_cons]
      exact ⟨h.1, h.2.1, h.2.2.1, by have := h.2.2.2; omega⟩
    refine sat_bind ((cost_k2FindBestSwapC w mat s.data j).mono fun r c hc => ?_)
    rw [hB] at hc
    have hcA : w.step + c = A := by rw [← hA, hc]
    refine sat_ite (fun _ => ?_) fun _ => ?_
    · refine (skip (w.step + c) (by omega)).mono fun s' t h => ?_
      rw [List.length_cons]
      exact ⟨h.1, h.2.1, h.2.2.1, by have := h.2.2.2; omega⟩
    refine sat_bind ((cost_k2DoSwapC w mat s.med s.assi s.data hl r.2 j).mono fun q c1 h1 => ?_)
    obtain ⟨g1, g2, -, g3⟩ := h1
    refine (ih ⟨q.2.1, q.2.2.1, q.2.2.2, q.1, j, s.nSwaps + 1⟩ (g1.trans g2.symm)).mono fun s' t h => ?_
    obtain ⟨e1, e2, e4, e5⟩ := h
    simp only [g2] at e1 e2 e4 e5
    refine ⟨e1, e2, by omega, ?_⟩
    rw [hB] at e5 g3
    rw [hA] at e5
    obtain ⟨m, hm⟩ := Nat.exists_eq_add_of_le e4
    rw [hm, show s.nSwaps + 1 + m - (s.nSwaps + 1) = m by omega] at e5
    rw [hm, show s.nSwaps + 1 + m - s.nSwaps = m + 1 by omega, List.length_cons, Nat.add_mul, Nat.add_mul,
      Nat.one_mul, Nat.one_mul]
    omega

theorem cost_k2LoopC (fuel iter : Nat) (s : K2State N L) (hl : s.assi.length = s.data.length) :
    (k2LoopC w (mat.counted w) fuel iter s).Sat fun r t =>
      iter ≤ r.2 ∧ s.nSwaps ≤ r.1.nSwaps ∧
      t ≤ (r.2 - iter) * (w.step + mat.len * (w.step + (s.data.length * (w.read + w.step) + 2 * w.step)))
        + (r.1.nSwaps - s.nSwaps) * (s.data.length * (w.read + w.step)) := by
  induction fuel generalizing iter s with
  | zero => exact sat_pure ⟨le_refl _, le_refl _, Nat.zero_le _⟩
  | succ fuel ih =>
    refine sat_bind (sat_tick (sat_bind ((cost_k2PassC w mat (List.range mat.len) s hl).mono fun s' c h => ?_)))
    obtain ⟨h1, h2, h4, h5⟩ := h
    rw [List.length_range] at h5
    generalize hA : mat.len * (w.step + (s.data.length * (w.read + w.step) + 2 * w.step)) = A at *
    generalize hB : s.data.length * (w.read + w.step) = B at *
    refine sat_ite (fun _ => sat_pure ⟨by simp, h4, ?_⟩) fun _ => ?_
    · show _ ≤ (iter + 1 - iter) * _ + _
      rw [show iter + 1 - iter = 1 by omega, Nat.one_mul]
      simp only []
      omega
    · refine (ih (iter + 1) s' (h1.trans h2.symm)).mono fun r t h => ?_
      obtain ⟨e2, e3, e4⟩ := h
      rw [h2, hB, hA] at e4
      refine ⟨by omega, by omega, ?_⟩
      obtain ⟨m, hm⟩ := Nat.exists_eq_add_of_le e2
      obtain ⟨a, ha⟩ := Nat.exists_eq_add_of_le h4
      obtain ⟨b, hb⟩ := Nat.exists_eq_add_of_le e3
      rw [hm, show iter + 1 + m - (iter + 1) = m by omega, hb, show s'.nSwaps + b - s'.nSwaps = b by omega] at e4
      rw [ha, show s.nSwaps + a - s.nSwaps = a by omega] at h5
      rw [hm, show iter + 1 + m - iter = m + 1 by omega, hb, ha,
        show s.nSwaps + a + b - s.nSwaps = a + b by omega, Nat.add_mul, Nat.add_mul, Nat.one_mul]
      omega

theorem cost_fastmscK2LoopC (k fuel iter : Nat) (s : K2State N L) (hl : s.assi.length = s.data.length) :
    (fastmscK2LoopC w (mat.counted w) k fuel iter s).Sat fun r t =>
      iter ≤ r.2 ∧ s.nSwaps ≤ r.1.nSwaps ∧ r.1.nSwaps - s.nSwaps ≤ r.2 - iter ∧
      t ≤ (r.2 - iter) * (w.step + mat.len * (w.step + (s.data.length * (w.read + w.step) + 2 * w.step)))
        + (r.1.nSwaps - s.nSwaps) * (s.data.length * (w.read + w.step)) := by
  induction fuel generalizing iter s with
  | zero => exact sat_pure ⟨le_refl _, le_refl _, by simp, Nat.zero_le _⟩
  | succ fuel ih =>
    refine sat_bind (sat_tick (sat_bind ?_))
    refine (cost_scan_gen w (med := s.med) (own := k2IsOwnMedoid s.med s.assi)
      (upd := fun (best : L × Nat × Nat) j r =>
        if best.2.2 == usizeMax || rlt r.1 best.1 then (r.1, r.2, j) else best)
      (fun j => k2IsOwnMedoid_mem) (K := s.data.length * (w.read + w.step) + 2 * w.step)
      (fun j _ => cost_k2FindBestSwapC w mat s.data j) _).mono fun best c1 h1 => ?_
    have h1 := h1.2
    rw [show (mat.counted w).len = mat.len from rfl] at h1
    generalize hA : mat.len * (w.step + (s.data.length * (w.read + w.step) + 2 * w.step)) = A at *
    generalize hB : s.data.length * (w.read + w.step) = B at *
    refine sat_ite (fun _ => sat_pure ⟨by simp, le_refl _, by simp, ?_⟩) fun _ => ?_
    · show _ ≤ (iter + 1 - iter) * _ + _
      rw [show iter + 1 - iter = 1 by omega, Nat.one_mul]
      omega
    · refine sat_bind ((cost_k2DoSwapC w mat s.med s.assi s.data hl best.2.1 best.2.2).mono fun q c2 h2 => ?_)
      obtain ⟨g1, g2, -, g3⟩ := h2
      rw [hB] at g3
      refine sat_ite (fun _ => sat_pure ⟨by simp, by simp, by simp, ?_⟩) fun _ => ?_
      · show _ ≤ (iter + 1 - iter) * _ + (s.nSwaps + 1 - s.nSwaps) * B
        rw [show iter + 1 - iter = 1 by omega, show s.nSwaps + 1 - s.nSwaps = 1 by omega, Nat.one_mul,
          Nat.one_mul]
        omega
      · refine (ih (iter + 1) ⟨q.2.1, q.2.2.1, q.2.2.2, q.1, s.lastswap, s.nSwaps + 1⟩
          (g1.trans g2.symm)).mono fun r t h => ?_
        obtain ⟨e2, e3, e5, e4⟩ := h
        simp only [g2] at e3 e4 e5
        rw [hB, hA] at e4
        refine ⟨by omega, by omega, by omega, ?_⟩
        obtain ⟨m, hm⟩ := Nat.exists_eq_add_of_le e2
        obtain ⟨b, hb⟩ := Nat.exists_eq_add_of_le e3
        rw [hm, hb, show iter + 1 + m - (iter + 1) = m by omega,
          show s.nSwaps + 1 + b - (s.nSwaps + 1) = b by omega] at e4
        rw [hm, hb, show iter + 1 + m - iter = m + 1 by omega,
          show s.nSwaps + 1 + b - s.nSwaps = b + 1 by omega, Nat.add_mul m 1, Nat.add_mul b 1, Nat.one_mul,
          Nat.one_mul]
        omega

/-! ## FastMSC and PAMMEDSIL -/

theorem cost_fastmscLoopC (fuel iter : Nat) (s : MPState N L) (hd : s.data.length = mat.len) :
    (fastmscLoopC w (mat.counted w) s.med.length fuel iter s).Sat fun r t =>
      r.1.data.length = mat.len ∧ iter ≤ r.2 ∧ s.nSwaps ≤ r.1.nSwaps ∧
        r.1.nSwaps - s.nSwaps ≤ r.2 - iter ∧
      t ≤ (r.2 - iter) * (w.step + (s.med.length + mat.len) * w.step +
          mat.len * (w.step + (mat.len * (w.read + w.step) + 2 * (s.med.length * w.step))))
        + (r.1.nSwaps - s.nSwaps) * (mat.len * ((s.med.length + 1) * (w.read + w.step))) := by
  generalize hk : s.med.length = k
  induction fuel generalizing iter s with
  | zero => exact sat_pure ⟨hd, le_refl _, le_refl _, by simp, Nat.zero_le _⟩
  | succ fuel ih =>
    refine sat_bind (sat_tick (sat_bind ((cost_mscUpdateRemovalLossC w s.data k).mono fun rem c0 h0 =>
      sat_bind ?_)))
    refine (cost_scan_gen w (med := s.med) (own := mscIsOwnMedoid s.med s.data)
      (upd := fun (best : L × Nat × Nat) j r => if rle r.1 best.1 then best else (r.1, r.2, j))
      (fun j => mscIsOwnMedoid_mem) (K := s.data.length * (w.read + w.step) + 2 * (k * w.step))
      (fun j _ => h0.1 ▸ cost_mscFindBestSwapC w mat rem s.data j) _).mono fun best c1 h1 => ?_
    have hA : w.step + (c0 + c1) ≤ w.step + (k + mat.len) * w.step +
        mat.len * (w.step + (mat.len * (w.read + w.step) + 2 * (k * w.step))) := by
      have a1 := h0.2
      have a2 := h1.2
      rw [hd] at a1 a2
      rw [show (mat.counted w).len = mat.len from rfl] at a2
      omega
    generalize hA' : w.step + (k + mat.len) * w.step +
        mat.len * (w.step + (mat.len * (w.read + w.step) + 2 * (k * w.step))) = A at *
    refine sat_ite (fun _ => ?_) fun _ => sat_pure ⟨hd, by simp, le_refl _, by simp, ?_⟩
    · refine sat_bind ((cost_mscDoSwapC w mat s.med s.data best.2.1 best.2.2).mono fun q c2 h2 => ?_)
      have hD := h2.2.2
      rw [hk, hd] at hD
      generalize hD' : mat.len * ((k + 1) * (w.read + w.step)) = D at *
      refine sat_ite (fun _ => sat_pure ⟨h2.2.1.trans hd, by simp, by simp, by simp, ?_⟩) fun _ => ?_
      · show _ ≤ (iter + 1 - iter) * A + (s.nSwaps + 1 - s.nSwaps) * D
        rw [show iter + 1 - iter = 1 by omega, show s.nSwaps + 1 - s.nSwaps = 1 by omega, Nat.one_mul,
          Nat.one_mul]
        omega
      · refine (ih (iter + 1) ⟨q.2.1, q.2.2, q.1, s.nSwaps + 1⟩ (h2.2.1.trans hd)
          (h2.1.trans hk)).mono fun r t h => ?_
        obtain ⟨e1, e2, e3, e5, e4⟩ := h
        simp only at e3 e4 e5
        refine ⟨e1, by omega, by omega, by omega, ?_⟩
        obtain ⟨m, hm⟩ := Nat.exists_eq_add_of_le e2
        obtain ⟨b, hb⟩ := Nat.exists_eq_add_of_le e3
        rw [hm, hb, show iter + 1 + m - (iter + 1) = m by omega,
          show s.nSwaps + 1 + b - (s.nSwaps + 1) = b by omega] at e4
        rw [hm, hb, show iter + 1 + m - iter = m + 1 by omega,
          show s.nSwaps + 1 + b - s.nSwaps = b + 1 by omega, Nat.add_mul m 1, Nat.add_mul b 1, Nat.one_mul,
          Nat.one_mul]
        omega
    · show _ ≤ (iter + 1 - iter) * A + _
      rw [show iter + 1 - iter = 1 by omega, Nat.one_mul]
      omega

/-- `find_best_swap_pammedsil`, with the loop body for two medoids or for more. -/
theorem cost_pmsFindBestSwapC {step : CMat N → Nat → Nat → L → Reco N × Nat → Cnt L}
    (hs : ∀ m j a (x : Reco N × Nat), (step (mat.counted w) m j a x).Sat fun _ c =>
      c = if x.2 = j then 0 else w.read) (med : List Nat) (data : List (Reco N)) (j : Nat) :
    (pmsFindBestSwapC L w step (mat.counted w) med data j).Sat fun _ t =>
      t = med.length * (w.step + (data.length * w.step + (data.length - 1) * w.read)) := by
  refine sat_bind (sat_lift fun recj hj => ?_)
  have hlt := idx_ok_lt hj
  have inner : ∀ m (a : L), (foldC w (step (mat.counted w) m j) a data.zipIdx).Sat
      fun _ t => t = data.length * w.step + (data.length - 1) * w.read := by
    intro m a
    refine (sat_foldC (I := fun _ => True) (g := fun p : Reco N × Nat => if p.2 = j then 0 else w.read)
      (fun s x _ _ => (hs m j s x).mono fun a c h => ⟨trivial, h⟩) trivial).mono fun a c hc => ?_
    rw [hc.2, sum_zipIdx_ne data 0 j w.read w.step (Nat.zero_le _) (by omega)]
  refine (sat_foldC (I := fun _ => True)
    (g := fun _ => data.length * w.step + (data.length - 1) * w.read) (fun s m _ _ => ?_) trivial).mono
    fun a c hc => ?_
  · refine sat_bind ((inner m _).mono fun a c hc => sat_pure ⟨trivial, ?_⟩)
    omega
  · rw [hc.2, sum_const, List.length_range]
    omega

theorem cost_pmsStepC (m j : Nat) (a : L) (x : Reco N × Nat) :
    (pmsStepC (mat.counted w) m j a x).Sat fun _ c => c = if x.2 = j then 0 else w.read := by
  refine sat_ite (fun h => sat_pure (by rw [if_pos h])) fun h => ?_
  refine sat_bind (sat_get w mat fun v => ?_)
  have e : ∀ a : L, (pure a : Cnt L).Sat fun _ c => w.read + c = if x.2 = j then 0 else w.read :=
    fun a => sat_pure (by rw [if_neg h]; rfl)
  exact sat_ite (fun _ => sat_ite (fun _ => e _) fun _ => sat_ite (fun _ => e _) fun _ => e _) fun _ =>
    sat_ite (fun _ => sat_ite (fun _ => e _) fun _ => sat_ite (fun _ => e _) fun _ => e _) fun _ =>
    sat_ite (fun _ => e _) fun _ => sat_ite (fun _ => e _) fun _ => e _

theorem cost_pmsStepK2C (m j : Nat) (a : L) (x : Reco N × Nat) :
    (pmsStepK2C (mat.counted w) m j a x).Sat fun _ c => c = if x.2 = j then 0 else w.read := by
  refine sat_ite (fun h => sat_pure (by rw [if_pos h])) fun h => ?_
  refine sat_bind (sat_get w mat fun v => ?_)
  have e : ∀ a : L, (pure a : Cnt L).Sat fun _ c => w.read + c = if x.2 = j then 0 else w.read :=
    fun a => sat_pure (by rw [if_neg h]; rfl)
  exact sat_ite (fun _ => sat_ite (fun _ => e _) fun _ => e _) fun _ =>
    sat_ite (fun _ => sat_ite (fun _ => e _) fun _ => e _) fun _ =>
    sat_ite (fun _ => e _) fun _ => sat_ite (fun _ => e _) fun _ => e _

/-- The loop of PAMMEDSIL, with a lower bound. -/
theorem cost_pmsLoopC (k' fuel iter : Nat) (s : MPState N L) (hd : s.data.length = mat.len) :
    (pmsLoopC w (mat.counted w) k' fuel iter s).Sat fun r t =>
      r.1.data.length = mat.len ∧ iter ≤ r.2 ∧ s.nSwaps ≤ r.1.nSwaps ∧
        r.1.nSwaps - s.nSwaps ≤ r.2 - iter ∧
      (r.2 - iter) * ((mat.len - s.med.length) *
        (s.med.length * (w.step + (mat.len * w.step + (mat.len - 1) * w.read)))) ≤ t ∧
      t ≤ (r.2 - iter) * (w.step +
          mat.len * (w.step + s.med.length * (w.step + (mat.len * w.step + (mat.len - 1) * w.read))))
        + (r.1.nSwaps - s.nSwaps) * (mat.len * ((s.med.length + 1) * (w.read + w.step))) := by
  generalize hk : s.med.length = k
  induction fuel generalizing iter s with
  | zero => exact sat_pure ⟨hd, le_refl _, le_refl _, by simp, by simp, Nat.zero_le _⟩
  | succ fuel ih =>
    have hstep : pmsScanStepC (L := L) w (mat.counted w) k' s.med s.data = (fun best j => do
        let own ← (liftM (mscIsOwnMedoid s.med s.data j) : Cnt Bool)
        if own then pure best
        else
          let r ← (if k' = 2 then pmsFindBestSwapC L w pmsStepK2C (mat.counted w) s.med s.data j
            else pmsFindBestSwapC L w pmsStepC (mat.counted w) s.med s.data j)
          pure (if rle r.1 best.1 then best else (r.1, r.2, j))) := by
      funext best j
      unfold pmsScanStepC
      by_cases h2 : k' = 2
      · simp only [if_pos h2]
      · simp only [if_neg h2]
    refine sat_bind (sat_tick (sat_bind ?_))
    rw [hstep]
    refine (cost_scan_gen w (med := s.med) (own := mscIsOwnMedoid s.med s.data)
      (upd := fun (best : L × Nat × Nat) j r => if rle r.1 best.1 then best else (r.1, r.2, j))
      (fbs := fun j => if k' = 2 then pmsFindBestSwapC L w pmsStepK2C (mat.counted w) s.med s.data j
        else pmsFindBestSwapC L w pmsStepC (mat.counted w) s.med s.data j)
      (fun j => mscIsOwnMedoid_mem)
      (K := k * (w.step + (s.data.length * w.step + (s.data.length - 1) * w.read)))
      (fun j _ => sat_ite (fun _ => hk ▸ cost_pmsFindBestSwapC w mat (cost_pmsStepK2C w mat) s.med s.data j)
        fun _ => hk ▸ cost_pmsFindBestSwapC w mat (cost_pmsStepC w mat) s.med s.data j) _).mono
      fun best c1 h1 => ?_
    obtain ⟨hlo, hhi⟩ := h1
    rw [hd, show (mat.counted w).len = mat.len from rfl] at hlo hhi
    rw [hk] at hlo
    generalize hK : k * (w.step + (mat.len * w.step + (mat.len - 1) * w.read)) = K at *
    generalize hA : mat.len * (w.step + K) = A at *
    generalize hE : (mat.len - k) * K = E at *
    refine sat_ite (fun _ => ?_) fun _ => sat_pure ⟨hd, by simp, le_refl _, by simp, ?_, ?_⟩
    · refine sat_bind ((cost_mscDoSwapC w mat s.med s.data best.2.1 best.2.2).mono fun q c2 h2 => ?_)
      have hD := h2.2.2
      rw [hk, hd] at hD
      generalize hD' : mat.len * ((k + 1) * (w.read + w.step)) = D at *
      refine sat_ite (fun _ => sat_pure ⟨h2.2.1.trans hd, by simp, by simp, by simp, ?_, ?_⟩) fun _ => ?_
      · show (iter + 1 - iter) * E ≤ _
        rw [show iter + 1 - iter = 1 by omega, Nat.one_mul]
        omega
      · show _ ≤ (iter + 1 - iter) * _ + (s.nSwaps + 1 - s.nSwaps) * D
        rw [show iter + 1 - iter = 1 by omega, show s.nSwaps + 1 - s.nSwaps = 1 by omega, Nat.one_mul,
          Nat.one_mul]
        omega
      · refine (ih (iter + 1) ⟨q.2.1, q.2.2, q.1, s.nSwaps + 1⟩ (h2.2.1.trans hd)
          (h2.1.trans hk)).mono fun r t h => ?_
        obtain ⟨e1, e2, e3, e5, e6, e4⟩ := h
        simp only at e3 e4 e5
        refine ⟨e1, by omega, by omega, by omega, ?_, ?_⟩
        · obtain ⟨m, hm⟩ := Nat.exists_eq_add_of_le e2
          rw [hm, show iter + 1 + m - (iter + 1) = m by omega] at e6
          rw [hm, show iter + 1 + m - iter = m + 1 by omega, Nat.add_mul m 1, Nat.one_mul]
          omega
        · obtain ⟨m, hm⟩ := Nat.exists_eq_add_of_le e2
          obtain ⟨b, hb⟩ := Nat.exists_eq_add_of_le e3
          rw [hm, hb, show iter + 1 + m - (iter + 1) = m by omega,
            show s.nSwaps + 1 + b - (s.nSwaps + 1) = b by omega] at e4
          rw [hm, hb, show iter + 1 + m - iter = m + 1 by omega,
            show s.nSwaps + 1 + b - s.nSwaps = b + 1 by omega, Nat.add_mul m 1, Nat.add_mul b 1, Nat.one_mul,
            Nat.one_mul]
          omega
    · show (iter + 1 - iter) * E ≤ _
      rw [show iter + 1 - iter = 1 by omega, Nat.one_mul]
      omega
    · show _ ≤ (iter + 1 - iter) * _ + _
      rw [show iter + 1 - iter = 1 by omega, Nat.one_mul]
      omega

end

end KMedoids
