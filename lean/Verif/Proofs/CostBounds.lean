import Verif.Proofs.Cost
import Mathlib.Tactic.Ring
import Mathlib.Data.List.Nodup
import Mathlib.Data.List.Perm.Subperm
import Mathlib.Tactic.Linarith

/-! # Costs of the parts of the PAM family -/

namespace KMedoids

section
variable {α β σ : Type}

/-- What holds for the result and the cost of every run that does not panic. -/
def Cnt.Sat (x : Cnt α) (P : α → Nat → Prop) : Prop := ∀ a c, x.run = .ok (a, c) → P a c

theorem sat_pure {a : α} {P : α → Nat → Prop} (h : P a 0) : (pure a : Cnt α).Sat P := by
  intro a' c e
  cases e
  exact h

theorem sat_bind {x : Cnt α} {f : α → Cnt β} {P : β → Nat → Prop}
    (h : x.Sat fun a c => (f a).Sat fun b c' => P b (c + c')) : (x >>= f).Sat P := by
  intro b t e
  obtain ⟨x⟩ := x
  rcases x with x | ⟨a, c⟩
  · cases e
  · have h' := h a c rfl
    have e' : (match (f a).run with
        | .error e => (⟨.error e⟩ : Cnt β)
        | .ok (b, c') => ⟨.ok (b, c + c')⟩).run = .ok (b, t) := e
    rcases hf : (f a).run with y | ⟨b', c'⟩
    · rw [hf] at e'; cases e'
    · rw [hf] at e'
      cases e'
      exact h' _ _ hf

theorem sat_lift {x : Res α} {P : α → Nat → Prop} (h : ∀ a, x = .ok a → P a 0) :
    (liftM x : Cnt α).Sat P := by
  intro a c e
  rcases x with x | x
  · cases e
  · cases e; exact h _ rfl

theorem sat_tick {c : Nat} {P : Unit → Nat → Prop} (h : P () c) : (Cnt.tick c).Sat P := by
  intro a c e
  cases e
  exact h

theorem Cnt.Sat.mono {x : Cnt α} {P Q : α → Nat → Prop} (h : x.Sat P) (hpq : ∀ a c, P a c → Q a c) :
    x.Sat Q := fun a c e => hpq a c (h a c e)

theorem sat_ite {p : Prop} [Decidable p] {x y : Cnt α} {P : α → Nat → Prop} (hx : p → x.Sat P)
    (hy : ¬p → y.Sat P) : (if p then x else y).Sat P := by
  split
  · exact hx ‹_›
  · exact hy ‹_›

/-- Costs of a loop whose bodies cost `g x`. -/
theorem sat_foldC {w : Weights} {f : σ → α → Cnt σ} {I : σ → Prop} {g : α → Nat} {xs : List α}
    (h : ∀ s, ∀ x ∈ xs, I s → (f s x).Sat fun s' c => I s' ∧ c = g x) {s : σ} (hs : I s) :
    (foldC w f s xs).Sat fun s' c => I s' ∧ c = (xs.map fun x => w.step + g x).sum := by
  induction xs generalizing s with
  | nil => exact sat_pure ⟨hs, rfl⟩
  | cons x xs ih =>
    refine sat_bind (sat_tick (sat_bind ?_))
    refine (h s x (by simp) hs).mono fun s' c hc => ?_
    refine (ih (fun s x hx => h s x (by simp [hx])) hc.1).mono fun s'' c' hc' => ⟨hc'.1, ?_⟩
    rw [hc.2, hc'.2, List.map_cons, List.sum_cons]
    omega

/-- The same with bounds. -/
theorem sat_foldC_le {w : Weights} {f : σ → α → Cnt σ} {I : σ → Prop} {g : α → Nat} {xs : List α}
    (h : ∀ s, ∀ x ∈ xs, I s → (f s x).Sat fun s' c => I s' ∧ c ≤ g x) {s : σ} (hs : I s) :
    (foldC w f s xs).Sat fun s' c => I s' ∧ c ≤ (xs.map fun x => w.step + g x).sum := by
  induction xs generalizing s with
  | nil => exact sat_pure ⟨hs, le_refl _⟩
  | cons x xs ih =>
    refine sat_bind (sat_tick (sat_bind ?_))
    refine (h s x (by simp) hs).mono fun s' c hc => ?_
    refine (ih (fun s x hx => h s x (by simp [hx])) hc.1).mono fun s'' c' hc' => ⟨hc'.1, ?_⟩
    rw [List.map_cons, List.sum_cons]
    have := hc.2
    have := hc'.2
    omega

theorem sat_mapC {w : Weights} {f : α → Cnt β} {g : α → Nat} {xs : List α}
    (h : ∀ x ∈ xs, (f x).Sat fun _ c => c = g x) :
    (mapC w f xs).Sat fun ys c => ys.length = xs.length ∧ c = (xs.map fun x => w.step + g x).sum := by
  induction xs with
  | nil => exact sat_pure ⟨rfl, rfl⟩
  | cons x xs ih =>
    refine sat_bind (sat_tick (sat_bind ?_))
    refine (h x (by simp)).mono fun y c hc => sat_bind ?_
    refine (ih fun x hx => h x (by simp [hx])).mono fun ys c' hc' => sat_pure ⟨?_, ?_⟩
    · simp [hc'.1]
    · rw [hc, hc'.2, List.map_cons, List.sum_cons]
      omega

theorem sat_mapC_le {w : Weights} {f : α → Cnt β} {g : α → Nat} {xs : List α}
    (h : ∀ x ∈ xs, (f x).Sat fun _ c => c ≤ g x) :
    (mapC w f xs).Sat fun ys c => ys.length = xs.length ∧ c ≤ (xs.map fun x => w.step + g x).sum := by
  induction xs with
  | nil => exact sat_pure ⟨rfl, le_refl _⟩
  | cons x xs ih =>
    refine sat_bind (sat_tick (sat_bind ?_))
    refine (h x (by simp)).mono fun y c hc => sat_bind ?_
    refine (ih fun x hx => h x (by simp [hx])).mono fun ys c' hc' => sat_pure ⟨?_, ?_⟩
    · simp [hc'.1]
    · rw [List.map_cons, List.sum_cons]
      have := hc'.2
      omega

theorem sum_const (xs : List α) (c : Nat) : (xs.map fun _ => c).sum = xs.length * c := by
  induction xs with
  | nil => simp
  | cons x xs ih => rw [List.map_cons, List.sum_cons, ih, List.length_cons, Nat.add_mul, Nat.one_mul]; omega

/-- Exactly one of the numbers below `m` is `j`. -/
theorem sum_zipIdx_ne (xs : List α) (i j a b : Nat) (h1 : i ≤ j) (h2 : j < i + xs.length) :
    ((xs.zipIdx i).map fun p : α × Nat => b + if p.2 = j then 0 else a).sum
      = xs.length * b + (xs.length - 1) * a := by
  induction xs generalizing i with
  | nil => simp at h2; omega
  | cons x xs ih =>
    rw [List.zipIdx_cons, List.map_cons, List.sum_cons]
    rcases Nat.eq_or_lt_of_le h1 with h | h
    · have hrest : ((xs.zipIdx (i + 1)).map fun p : α × Nat => b + if p.2 = j then 0 else a)
          = ((xs.zipIdx (i + 1)).map fun _ => b + a) := by
        apply List.map_congr_left
        intro p hp
        have := (List.mem_zipIdx hp).1
        rw [if_neg (by omega)]
      rw [hrest, sum_const]
      simp only [h, if_true, List.length_zipIdx, List.length_cons, Nat.add_sub_cancel]
      ring
    · rw [ih (i + 1) (by omega) (by simp at h2; omega)]
      have hl : 1 ≤ xs.length := by simp at h2; omega
      obtain ⟨m, hm⟩ := Nat.exists_eq_add_of_le hl
      simp only [show i ≠ j from by omega, if_false, List.length_cons, hm]
      have : 1 + m - 1 = m := by omega
      have h' : 1 + m + 1 - 1 = m + 1 := by omega
      rw [this, h']
      ring

end

set_option linter.unusedSectionVars false
variable {N L : Type} [RDist N] [RLoss L] [RFrom N L]
open RFrom (conv)

theorem sat_get (w : Weights) (mat : Mat N) {x y : Nat} {P : N → Nat → Prop} (h : ∀ v, P v w.read) :
    ((mat.counted w).get x y).Sat P := by
  refine sat_bind (sat_tick (sat_lift fun a _ => ?_))
  exact h a

theorem addAt_length {a a' : List L} {i : Nat} {v : L} (h : addAt a i v = .ok a') : a'.length = a.length := by
  unfold addAt at h
  rcases hx : idx a i with e | x
  · rw [hx] at h; cases h
  · rw [hx] at h; cases h; simp

section
variable (w : Weights) (mat : Mat N)

theorem cost_assertSizesC (k : Nat) :
    (assertSizesC (mat.counted w) k).Sat fun _ c => c = 0 ∧ 0 < k ∧ k ≤ mat.len := by
  refine sat_bind (sat_lift fun s _ => sat_bind (sat_lift fun _ _ => sat_bind (sat_lift fun _ _ =>
    sat_bind (sat_lift fun _ h1 => sat_lift fun _ h2 => ⟨rfl, ?_, ?_⟩))))
  · simp only [rassert] at h1
    split at h1
    · rename_i h; simp at h; exact h.1
    · cases h1
  · simp only [rassert] at h2
    split at h2
    · rename_i h; exact of_decide_eq_true h
    · cases h2

theorem cost_initAssignRecC (med : List Nat) (c i : Nat) :
    (initAssignRecC w (mat.counted w) med c i).Sat fun _ t =>
      t = w.read + (med.length - 1) * (w.read + w.step) := by
  refine sat_bind (sat_get w mat fun v => ?_)
  refine (sat_foldC (I := fun _ => True) (g := fun _ => w.read) (fun s x _ _ => ?_) trivial).mono
    fun a c hc => ?_
  · refine sat_bind (sat_get w mat fun v => ?_)
    exact sat_ite (fun _ => sat_pure (by simp)) fun _ =>
      sat_ite (fun _ => sat_pure (by simp)) fun _ => sat_pure (by simp)
  · rw [hc.2, sum_const]
    simp only [List.length_drop, List.length_zipIdx]
    ring

/-- `initial_assignment` reads each distance to a medoid once. -/
theorem cost_initialAssignmentC (med : List Nat) :
    (initialAssignmentC L w (mat.counted w) med).Sat fun r t =>
      r.2.length = mat.len ∧ 0 < med.length ∧ med.length ≤ mat.len ∧
        t = mat.len * (med.length * (w.read + w.step)) := by
  refine sat_bind ((cost_assertSizesC w mat med.length).mono fun _ c0 h0 => ?_)
  refine sat_bind (sat_lift fun fc _ => sat_bind ?_)
  refine (sat_mapC fun x _ => cost_initAssignRecC w mat med fc x).mono fun data c hc => ?_
  refine sat_bind (sat_lift fun loss _ => sat_pure ⟨?_, h0.2.1, h0.2.2, ?_⟩)
  · simpa using hc.1
  · rw [hc.2, h0.1, sum_const]
    obtain ⟨m, hm⟩ := Nat.exists_eq_add_of_le h0.2.1
    rw [show med.length - 1 = m by omega, show med.length = m + 1 by omega, List.length_range]
    show _ = mat.len * _
    rw [show (mat.counted w).len = mat.len from rfl]
    ring

/-- `find_best_swap`: one read for each object, whatever the number of medoids. -/
theorem cost_findBestSwapC (rem : List L) (data : List (Rec N)) (j : Nat) :
    (findBestSwapC w (mat.counted w) rem data j).Sat fun _ t =>
      t = data.length * (w.read + w.step) + 2 * (rem.length * w.step) := by
  refine sat_bind (sat_tick (sat_bind ?_))
  refine (sat_foldC (I := fun st : List L × L => st.1.length = rem.length) (g := fun _ => w.read)
    (fun s x _ hs => ?_) rfl).mono fun st c hc => ?_
  · refine sat_bind (sat_get w mat fun v => ?_)
    refine sat_ite (fun _ => ?_) fun _ => sat_ite (fun _ => ?_) fun _ => sat_pure ⟨hs, by simp⟩
    · exact sat_bind (sat_lift fun l hl => sat_pure ⟨by rw [addAt_length hl, hs], by simp⟩)
    · exact sat_bind (sat_lift fun l hl => sat_pure ⟨by rw [addAt_length hl, hs], by simp⟩)
  · refine sat_bind (sat_bind (sat_tick (sat_lift fun r _ => sat_pure ?_)))
    rw [hc.1, hc.2, sum_const]
    simp only [List.length_zipIdx]
    ring

theorem cost_updateRemovalLossC (data : List (Rec N)) (k : Nat) :
    (updateRemovalLossC L w data k).Sat fun r t => r.length = k ∧ t = (k + data.length) * w.step := by
  refine sat_bind (sat_tick ?_)
  refine (sat_foldC (I := fun l : List L => l.length = k) (g := fun _ => 0) (fun s x _ hs => ?_)
    (by simp)).mono fun st c hc => ⟨hc.1, ?_⟩
  · exact sat_lift fun l hl => ⟨by rw [addAt_length hl, hs], rfl⟩
  · rw [hc.2, sum_const]; ring

theorem cost_updateSecondNearestC (med : List Nat) (n b o : Nat) (doj : N) :
    (updateSecondNearestC w (mat.counted w) med n b o doj).Sat fun _ t =>
      t ≤ med.length * (w.read + w.step) := by
  refine (sat_foldC_le (I := fun _ => True) (g := fun _ => w.read) (fun s x _ _ => ?_) trivial).mono
    fun a c hc => ?_
  · exact sat_ite (fun _ => sat_pure (by simp)) fun _ =>
      sat_bind (sat_get w mat fun v => sat_pure (by simp))
  · have := hc.2
    rw [sum_const, List.length_zipIdx] at this
    calc c ≤ med.length * (w.step + w.read) := this
      _ = _ := by ring

theorem cost_doSwapRecC (med : List Nat) (b j : Nat) (p : Rec N × Nat) :
    (doSwapRecC (L := L) w (mat.counted w) med b j p).Sat fun _ t =>
      t ≤ w.read + med.length * (w.read + w.step) := by
  refine sat_ite (fun _ => sat_pure (Nat.zero_le _)) fun _ => ?_
  refine sat_bind (sat_get w mat fun doj => ?_)
  dsimp only
  have leaf : ∀ r : Rec N, (pure r >>= fun reco => (pure (reco, conv reco.near.d) : Cnt (Rec N × L))).Sat
      fun _ c => w.read + c ≤ w.read + med.length * (w.read + w.step) :=
    fun r => sat_bind (sat_pure (sat_pure (by omega)))
  have husn : ∀ n' (f : DistancePair N → Rec N), (updateSecondNearestC w (mat.counted w) med n' b p.2 doj >>=
      fun s => pure (f s) >>= fun reco => (pure (reco, conv reco.near.d) : Cnt (Rec N × L))).Sat
        fun _ c => w.read + c ≤ w.read + med.length * (w.read + w.step) := by
    intro n' f
    refine sat_bind ((cost_updateSecondNearestC w mat med n' b p.2 doj).mono fun a c hc => ?_)
    exact sat_bind (sat_pure (sat_pure (by omega)))
  refine sat_ite (fun _ => sat_ite (fun _ => leaf _) fun _ => husn _ _) fun _ => ?_
  refine sat_ite (fun _ => leaf _) fun _ => ?_
  refine sat_ite (fun _ => leaf _) fun _ => ?_
  exact sat_ite (fun _ => husn _ _) fun _ => leaf _

theorem setIdx_len {α : Type} {a a' : List α} {i : Nat} {v : α} (h : setIdx a i v = .ok a') :
    a'.length = a.length := by
  unfold setIdx at h
  split at h
  · cases h; simp
  · cases h

theorem cost_doSwapC (med : List Nat) (data : List (Rec N)) (b j : Nat) :
    (doSwapC L w (mat.counted w) med data b j).Sat fun r t =>
      r.2.1.length = med.length ∧ r.2.2.length = data.length ∧
        t ≤ data.length * ((med.length + 1) * (w.read + w.step)) := by
  refine sat_bind (sat_lift fun _ _ => sat_bind (sat_lift fun _ _ => sat_bind (sat_lift fun med' hm =>
    sat_bind ?_)))
  refine (sat_mapC_le fun x _ => cost_doSwapRecC w mat med' b j x).mono fun rs c hc => ?_
  refine sat_bind (sat_lift fun loss _ => sat_pure ⟨setIdx_len hm, ?_, ?_⟩)
  · simpa using hc.1
  · have h := hc.2
    rw [sum_const, List.length_zipIdx, setIdx_len hm] at h
    calc _ = c := by omega
      _ ≤ _ := h
      _ = _ := by ring

/-- One pass of FasterPAM over `js`. -/
theorem cost_fpPassC (js : List Nat) (s : FPState N L) :
    (fpPassC w (mat.counted w) js s).Sat fun s' t =>
      s'.med.length = s.med.length ∧ s'.data.length = s.data.length ∧ s'.rem.length = s.rem.length ∧
      s.nSwaps ≤ s'.nSwaps ∧
      t ≤ js.length * (w.step + (s.data.length * (w.read + w.step) + 2 * (s.rem.length * w.step)))
        + (s'.nSwaps - s.nSwaps) * (s.data.length * ((s.med.length + 1) * (w.read + w.step))
          + (s.rem.length + s.data.length) * w.step) := by
  induction js generalizing s with
  | nil => exact sat_pure ⟨rfl, rfl, rfl, le_refl _, Nat.zero_le _⟩
  | cons j js ih =>
    generalize hA : w.step + (s.data.length * (w.read + w.step) + 2 * (s.rem.length * w.step)) = A at *
    generalize hB : s.data.length * ((s.med.length + 1) * (w.read + w.step))
          + (s.rem.length + s.data.length) * w.step = B at *
    have hstep : w.step ≤ A := by omega
    have skip : ∀ c0, c0 ≤ A → (fpPassC w (mat.counted w) js s).Sat fun s' t =>
        s'.med.length = s.med.length ∧ s'.data.length = s.data.length ∧ s'.rem.length = s.rem.length ∧
        s.nSwaps ≤ s'.nSwaps ∧ c0 + t ≤ (js.length + 1) * A + (s'.nSwaps - s.nSwaps) * B := by
      intro c0 hc0
      refine (ih s).mono fun s' t h => ⟨h.1, h.2.1, h.2.2.1, h.2.2.2.1, ?_⟩
      have := h.2.2.2.2
      rw [hA, hB] at this
      rw [Nat.add_mul, Nat.one_mul]
      omega
    refine sat_bind (sat_tick (sat_ite (fun _ => sat_pure ⟨rfl, rfl, rfl, le_refl _, ?_⟩) fun _ => ?_))
    · rw [List.length_cons, Nat.add_mul, Nat.one_mul]; omega
    refine sat_bind (sat_lift fun own _ => sat_ite (fun _ => ?_) fun _ => ?_)
    · refine (skip w.step hstep).mono fun s' t h => ?_
      rw [List.length_cons]
      exact ⟨h.1, h.2.1, h.2.2.1, h.2.2.2.1, by have := h.2.2.2.2; omega⟩
    refine sat_bind ((cost_findBestSwapC w mat s.rem s.data j).mono fun r c hc => ?_)
    have hcA : w.step + c = A := by rw [← hA, hc]
    refine sat_ite (fun _ => ?_) fun _ => ?_
    · refine (skip (w.step + c) (by omega)).mono fun s' t h => ?_
      rw [List.length_cons]
      exact ⟨h.1, h.2.1, h.2.2.1, h.2.2.2.1, by have := h.2.2.2.2; omega⟩
    refine sat_bind ((cost_doSwapC w mat s.med s.data r.2 j).mono fun q c1 h1 => ?_)
    refine sat_bind ((cost_updateRemovalLossC w q.2.2 s.rem.length).mono fun rem c2 h2 => ?_)
    refine (ih ⟨q.2.1, q.2.2, rem, q.1, j, s.nSwaps + 1⟩).mono fun s' t h => ?_
    obtain ⟨e1, e2, e3, e4, e5⟩ := h
    simp only [h1.1, h1.2.1, h2.1] at e1 e2 e3 e4 e5
    refine ⟨e1, e2, e3, by omega, ?_⟩
    rw [hA, hB] at e5
    have hB' : c1 + c2 ≤ B := by
      have := h1.2.2
      have h2' := h2.2
      rw [h1.2.1] at h2'
      omega
    obtain ⟨m, hm⟩ := Nat.exists_eq_add_of_le e4
    rw [hm, show s.nSwaps + 1 + m - (s.nSwaps + 1) = m by omega] at e5
    rw [hm, show s.nSwaps + 1 + m - s.nSwaps = m + 1 by omega, List.length_cons, Nat.add_mul, Nat.add_mul,
      Nat.one_mul, Nat.one_mul]
    omega

/-- The outer loop of FasterPAM. -/
theorem cost_fpLoopC (seq : List Nat) (fuel iter : Nat) (s : FPState N L) :
    (fpLoopC w (mat.counted w) seq fuel iter s).Sat fun r t =>
      r.1.data.length = s.data.length ∧ iter ≤ r.2 ∧ s.nSwaps ≤ r.1.nSwaps ∧
      t ≤ (r.2 - iter) * (w.step +
          seq.length * (w.step + (s.data.length * (w.read + w.step) + 2 * (s.rem.length * w.step))))
        + (r.1.nSwaps - s.nSwaps) * (s.data.length * ((s.med.length + 1) * (w.read + w.step))
          + (s.rem.length + s.data.length) * w.step) := by
  induction fuel generalizing iter s with
  | zero => exact sat_pure ⟨rfl, le_refl _, le_refl _, Nat.zero_le _⟩
  | succ fuel ih =>
    refine sat_bind (sat_tick (sat_bind ((cost_fpPassC w mat seq s).mono fun s' c h => ?_)))
    obtain ⟨h1, h2, h3, h4, h5⟩ := h
    generalize hA : seq.length *
      (w.step + (s.data.length * (w.read + w.step) + 2 * (s.rem.length * w.step))) = A at *
    generalize hB : s.data.length * ((s.med.length + 1) * (w.read + w.step))
          + (s.rem.length + s.data.length) * w.step = B at *
    refine sat_ite (fun _ => sat_pure ⟨h2, by simp, h4, ?_⟩) fun _ => ?_
    · show _ ≤ (iter + 1 - iter) * _ + _
      rw [show iter + 1 - iter = 1 by omega, Nat.one_mul]
      simp only []
      omega
    · refine (ih (iter + 1) s').mono fun r t h => ?_
      obtain ⟨e1, e2, e3, e4⟩ := h
      rw [h1, h2, h3, hA, hB] at e4
      refine ⟨e1.trans h2, by omega, by omega, ?_⟩
      obtain ⟨m, hm⟩ := Nat.exists_eq_add_of_le e2
      obtain ⟨a, ha⟩ := Nat.exists_eq_add_of_le h4
      obtain ⟨b, hb⟩ := Nat.exists_eq_add_of_le e3
      rw [hm, show iter + 1 + m - (iter + 1) = m by omega, hb, show s'.nSwaps + b - s'.nSwaps = b by omega] at e4
      rw [ha, show s.nSwaps + a - s.nSwaps = a by omega] at h5
      rw [hm, show iter + 1 + m - iter = m + 1 by omega, hb, ha,
        show s.nSwaps + a + b - s.nSwaps = a + b by omega, Nat.add_mul, Nat.add_mul, Nat.one_mul]
      omega

/-! ## One cluster, alternating -/

theorem sum_zipIdx_label (xs : List Nat) (i m a b : Nat) :
    ((xs.zipIdx i).map fun p : Nat × Nat => a + if p.1 = m then b else 0).sum
      = xs.length * a + xs.count m * b := by
  induction xs generalizing i with
  | nil => simp
  | cons x xs ih =>
    rw [List.zipIdx_cons, List.map_cons, List.sum_cons, ih, List.length_cons, List.count_cons]
    by_cases h : x = m
    · simp only [h, if_true, beq_self_eq_true]; ring
    · simp only [h, if_false, beq_iff_eq]; ring

theorem cost_partitionSumC (assi : List Nat) (m c : Nat) :
    (partitionSumC L w (mat.counted w) assi m c).Sat fun _ t =>
      t ≤ assi.length * w.step + assi.count m * w.read := by
  refine (sat_foldC_le (I := fun _ => True) (g := fun p : Nat × Nat => if p.1 = m then w.read else 0)
    (fun s x _ _ => ?_) trivial).mono fun a c hc => ?_
  · refine sat_ite (fun h => sat_bind (sat_get w mat fun v => sat_pure ⟨trivial, ?_⟩))
      fun _ => sat_pure ⟨trivial, Nat.zero_le _⟩
    rw [if_pos h.2]
    exact le_refl _
  · have := hc.2
    rwa [sum_zipIdx_label] at this

theorem cost_chooseC (assi med : List Nat) (m : Nat) :
    (chooseMedoidWithinPartitionC L w (mat.counted w) assi med m).Sat fun r t =>
      r.2.length = med.length ∧
      t ≤ (assi.count m + 1) * (assi.length * w.step + assi.count m * w.read) + assi.length * w.step := by
  refine sat_bind (sat_lift fun first _ => sat_bind ?_)
  refine (cost_partitionSumC w mat assi m first).mono fun sumb c0 h0 => sat_bind ?_
  refine (sat_foldC_le (I := fun _ => True) (g := fun p : Nat × Nat => if p.1 = m then
    assi.length * w.step + assi.count m * w.read else 0) (fun s x _ _ => ?_) trivial).mono fun r c hc => ?_
  · refine sat_ite (fun h => sat_bind ?_) fun _ => sat_pure ⟨trivial, Nat.zero_le _⟩
    refine (cost_partitionSumC w mat assi m x.2).mono fun a c hc => sat_pure ⟨trivial, ?_⟩
    rw [if_pos h.2]
    exact hc
  · refine sat_bind (sat_lift fun med' h => sat_pure ⟨setIdx_len h, ?_⟩)
    have := hc.2
    rw [sum_zipIdx_label] at this
    rw [Nat.add_mul, Nat.one_mul]
    omega

theorem cost_singleClusterC (med : List Nat) :
    (singleClusterC L w (mat.counted w) med).Sat fun r t =>
      r.nIter = 1 ∧ t ≤ mat.len * (mat.len + 1) * w.read + mat.len * (mat.len + 3) * w.step := by
  refine sat_bind (sat_tick (sat_bind ?_))
  refine (cost_chooseC w mat (List.replicate mat.len 0) med 0).mono fun r c hc => sat_pure ⟨rfl, ?_⟩
  have h := hc.2
  rw [List.length_replicate, List.count_replicate_self] at h
  show mat.len * w.step + (c + 0) ≤ _
  nlinarith [Nat.zero_le (mat.len * w.read), Nat.zero_le (mat.len * w.step)]

theorem cost_assignNearestC (med : List Nat) :
    (assignNearestC L w (mat.counted w) med).Sat fun r t =>
      r.2.length = mat.len ∧ 0 < med.length ∧ med.length ≤ mat.len ∧
        t = mat.len * (med.length * (w.read + w.step)) := by
  refine sat_bind ((cost_assertSizesC w mat med.length).mono fun _ c0 h0 => ?_)
  refine sat_bind (sat_lift fun fc _ => sat_bind ?_)
  have hrec : ∀ i, (assignNearestRecC w (mat.counted w) med fc i).Sat fun _ t =>
      t = w.read + (med.length - 1) * (w.read + w.step) := by
    intro i
    refine sat_bind (sat_get w mat fun v => ?_)
    refine (sat_foldC (I := fun _ => True) (g := fun _ => w.read) (fun s x _ _ => ?_) trivial).mono
      fun a c hc => ?_
    · exact sat_bind (sat_get w mat fun v => sat_pure (by simp))
    · rw [hc.2, sum_const]
      simp only [List.length_drop, List.length_zipIdx]
      ring
  refine (sat_mapC fun x _ => hrec x).mono fun rs c hc => sat_pure ⟨?_, h0.2.1, h0.2.2, ?_⟩
  · simpa using hc.1
  · rw [hc.2, h0.1, sum_const]
    obtain ⟨m, hm⟩ := Nat.exists_eq_add_of_le h0.2.1
    rw [show med.length - 1 = m by omega, show med.length = m + 1 by omega, List.length_range]
    show _ = mat.len * _
    rw [show (mat.counted w).len = mat.len from rfl]
    ring

theorem sum_count_le (assi : List Nat) (k : Nat) :
    ((List.range k).map fun i => assi.count i).sum ≤ assi.length := by
  induction assi with
  | nil => simp
  | cons x xs ih =>
    have h : ∀ ms : List Nat, ms.Nodup →
        (ms.map fun i => (x :: xs).count i).sum ≤ (ms.map fun i => xs.count i).sum + 1 := by
      intro ms
      induction ms with
      | nil => simp
      | cons m ms ihm =>
        intro hnd
        rw [List.nodup_cons] at hnd
        rw [List.map_cons, List.map_cons, List.sum_cons, List.sum_cons, List.count_cons]
        by_cases hx : x = m
        · have : (ms.map fun i => (x :: xs).count i) = ms.map fun i => xs.count i := by
            apply List.map_congr_left
            intro i hi
            rw [List.count_cons, if_neg]
            · rfl
            · simp only [beq_iff_eq]
              intro h
              exact hnd.1 (by rw [← hx, h]; exact hi)
          rw [this]
          simp only [hx, beq_self_eq_true, if_true]
          omega
        · have := ihm hnd.2
          simp only [beq_iff_eq, hx, if_false]
          omega
    have := h (List.range k) List.nodup_range
    rw [List.length_cons]
    omega

theorem cost_alternatingUpdateC (assi med : List Nat) :
    (alternatingUpdateC L w (mat.counted w) assi med).Sat fun r t =>
      r.2.length = med.length ∧
      t ≤ (assi.length + med.length) * (assi.length * (w.read + w.step))
        + med.length * ((assi.length + 1) * w.step) := by
  have hc : ∀ i, (assi.count i + 1) * (assi.length * w.step + assi.count i * w.read)
      ≤ (assi.count i + 1) * (assi.length * (w.read + w.step)) := by
    intro i
    refine Nat.mul_le_mul_left _ ?_
    have := Nat.mul_le_mul_right w.read (List.count_le_length (a := i) (l := assi))
    rw [Nat.mul_add]
    omega
  refine (sat_foldC_le (I := fun st : Bool × List Nat => st.2.length = med.length)
    (g := fun i => (assi.count i + 1) * (assi.length * (w.read + w.step)) + assi.length * w.step)
    (fun s x _ hs => ?_) rfl).mono fun r c h => ⟨h.1, ?_⟩
  · refine sat_bind ((cost_chooseC w mat assi s.2 x).mono fun r c h => sat_pure ⟨h.1.trans hs, ?_⟩)
    have := h.2
    have := hc x
    omega
  · refine h.2.trans ?_
    have hsum : ∀ ms : List Nat, (ms.map fun i => w.step + ((assi.count i + 1)
        * (assi.length * (w.read + w.step)) + assi.length * w.step)).sum
        = ((ms.map fun i => assi.count i).sum + ms.length) * (assi.length * (w.read + w.step))
          + ms.length * ((assi.length + 1) * w.step) := by
      intro ms
      induction ms with
      | nil => simp
      | cons m ms ih =>
        rw [List.map_cons, List.sum_cons, ih, List.map_cons, List.sum_cons, List.length_cons]
        ring
    rw [hsum, List.length_range]
    have := Nat.mul_le_mul_right (assi.length * (w.read + w.step))
      (Nat.add_le_add_right (sum_count_le assi med.length) med.length)
    omega

theorem cost_alternatingLoopC (fuel iter : Nat) (loss : L) (assi med : List Nat)
    (ha : assi.length = mat.len) :
    (alternatingLoopC w (mat.counted w) fuel iter loss assi med).Sat fun r t =>
      r.med.length = med.length ∧ iter ≤ r.nIter ∧
      t ≤ (r.nIter - iter) * (w.step + ((mat.len + med.length) * (mat.len * (w.read + w.step))
        + med.length * ((mat.len + 1) * w.step)) + mat.len * (med.length * (w.read + w.step))) := by
  induction fuel generalizing iter loss assi med with
  | zero => exact sat_pure ⟨rfl, le_refl _, Nat.zero_le _⟩
  | succ fuel ih =>
    refine sat_bind (sat_tick (sat_bind ((cost_alternatingUpdateC w mat assi med).mono fun r c h => ?_)))
    have h2 := h.2
    rw [ha] at h2
    refine sat_ite (fun _ => sat_pure ⟨h.1, by simp, ?_⟩) fun _ => ?_
    · show _ ≤ (iter + 1 - iter) * _
      rw [show iter + 1 - iter = 1 by omega, Nat.one_mul]
      omega
    · refine sat_bind ((cost_assignNearestC w mat r.2).mono fun q c1 h1 => ?_)
      refine (ih (iter + 1) q.1 q.2 r.2 h1.1).mono fun r' t h' => ?_
      obtain ⟨e1, e2, e3⟩ := h'
      rw [h.1] at e1 e3
      refine ⟨e1, by omega, ?_⟩
      have h3 := h1.2.2.2
      rw [h.1] at h3
      obtain ⟨m, hm⟩ := Nat.exists_eq_add_of_le e2
      rw [hm, show iter + 1 + m - (iter + 1) = m by omega] at e3
      rw [hm, show iter + 1 + m - iter = m + 1 by omega, Nat.add_mul m 1, Nat.one_mul]
      omega

/-! ## The scans of FastPAM1 and PAM -/

/-- The objects that a scan skips are medoids, so there are at most `k` of them. -/
theorem own_count_le (med : List Nat) (data : List (Rec N)) (n : Nat) :
    (List.range n).countP (fun j => decide (isOwnMedoid med data j = .ok true)) ≤ med.length := by
  rw [List.countP_eq_length_filter]
  refine (List.subperm_of_subset (List.nodup_range.filter _) fun j hj => ?_).length_le
  have h := of_decide_eq_true (List.mem_filter.mp hj).2
  unfold isOwnMedoid at h
  rcases h1 : idx data j with e | r
  · rw [h1] at h; cases h
  · rw [h1] at h
    rcases h2 : idx med r.near.i with e | m
    · rw [ok_bind, h2] at h; cases h
    · rw [ok_bind, h2, ok_bind] at h
      have hjm : j = m := by
        have := Except.ok.inj h
        simpa using this
      rw [hjm]
      unfold idx at h2
      split at h2
      · rename_i x hx
        cases h2
        exact List.mem_of_getElem? hx
      · cases h2

theorem sum_countP {α : Type} (xs : List α) (p : α → Bool) (a b : Nat) :
    (xs.map fun x => a + if p x then 0 else b).sum + xs.countP p * b = xs.length * (a + b) := by
  induction xs with
  | nil => simp
  | cons x xs ih =>
    rw [List.map_cons, List.sum_cons, List.length_cons, List.countP_cons]
    by_cases h : p x = true
    · simp only [h, if_true]
      rw [Nat.add_mul, Nat.one_mul, Nat.add_mul xs.length, Nat.one_mul]
      omega
    · simp only [h, if_false, Bool.false_eq_true]
      rw [Nat.add_mul xs.length, Nat.one_mul, Nat.add_zero]
      omega

/-- Cost of a scan over all objects that asks `fbs` for the candidates. -/
theorem cost_scan {med : List Nat} {data : List (Rec N)} {n K : Nat} {fbs : Nat → Cnt (L × Nat)}
    (hf : ∀ j < n, (fbs j).Sat fun _ t => t = K) (best : L × Nat × Nat) :
    (foldC w (fun (best : L × Nat × Nat) (j : Nat) => do
      let own ← (liftM (isOwnMedoid med data j) : Cnt Bool)
      if own then pure best
      else
        let (change, b) ← fbs j
        pure (if rge change best.1 then best else (change, b, j))) best (List.range n)).Sat fun _ t =>
      n * w.step + (n - med.length) * K ≤ t ∧ t ≤ n * (w.step + K) := by
  refine (sat_foldC (I := fun _ => True)
    (g := fun j => if decide (isOwnMedoid med data j = .ok true) then 0 else K)
    (fun s j hj _ => ?_) trivial).mono fun r t h => ?_
  · refine sat_bind (sat_lift fun own hown => sat_ite (fun ho => sat_pure ⟨trivial, ?_⟩) fun ho => ?_)
    · rw [hown, ho]; simp
    · refine sat_bind ((hf j (List.mem_range.mp hj)).mono fun q c hc => sat_pure ⟨trivial, ?_⟩)
      rw [hown]
      simp only [Bool.not_eq_true] at ho
      rw [ho, hc]; simp
  · have hs := sum_countP (List.range n) (fun j => decide (isOwnMedoid med data j = .ok true)) w.step K
    have hc := own_count_le med data n
    rw [h.2]
    rw [List.length_range] at hs
    generalize hc' : (List.range n).countP (fun j => decide (isOwnMedoid med data j = .ok true)) = q at *
    have hq : q ≤ n := by
      rw [← hc']
      exact (List.countP_le_length).trans (by simp)
    constructor
    · have h1 : (n - med.length) * K + q * K ≤ n * K := by
        rw [← Nat.add_mul]
        by_cases hn : n ≤ med.length
        · exact Nat.mul_le_mul_right _ (by omega)
        · exact Nat.mul_le_mul_right _ (by omega)
      rw [Nat.mul_add] at hs
      omega
    · omega

theorem cost_findBestSwapPamC (med : List Nat) (data : List (Rec N)) (j : Nat) :
    (findBestSwapPamC L w (mat.counted w) med data j).Sat fun _ t =>
      t = med.length * (w.step + (data.length * w.step + (data.length - 1) * w.read)) := by
  refine sat_bind (sat_lift fun recj hj => ?_)
  have hlt : j < data.length := by
    unfold idx at hj
    split at hj
    · rename_i x hx
      exact (List.getElem?_eq_some_iff.mp hx).1
    · cases hj
  have inner : ∀ m (a : L), (foldC w (findBestSwapPamStepC (mat.counted w) m j) a data.zipIdx).Sat
      fun _ t => t = data.length * w.step + (data.length - 1) * w.read := by
    intro m a
    refine (sat_foldC (I := fun _ => True) (g := fun p : Rec N × Nat => if p.2 = j then 0 else w.read)
      (fun s x _ _ => ?_) trivial).mono fun a c hc => ?_
    · refine sat_ite (fun h => sat_pure ⟨trivial, by rw [if_pos h]⟩) fun h => ?_
      refine sat_bind (sat_get w mat fun v => ?_)
      have e : ∀ a : L, (pure a : Cnt L).Sat fun _ c => True ∧ w.read + c = if x.2 = j then 0 else w.read :=
        fun a => sat_pure ⟨trivial, by rw [if_neg h]; rfl⟩
      exact sat_ite (fun _ => sat_ite (fun _ => e _) fun _ => e _) fun _ =>
        sat_ite (fun _ => e _) fun _ => e _
    · rw [hc.2, sum_zipIdx_ne data 0 j w.read w.step (Nat.zero_le _) (by omega)]
  refine (sat_foldC (I := fun _ => True)
    (g := fun _ => data.length * w.step + (data.length - 1) * w.read) (fun s m _ _ => ?_) trivial).mono
    fun a c hc => ?_
  · refine sat_bind ((inner m _).mono fun a c hc => sat_pure ⟨trivial, ?_⟩)
    omega
  · rw [hc.2, sum_const, List.length_range]
    omega

/-- The loop of FastPAM1. -/
theorem cost_fastpam1LoopC (fuel iter : Nat) (s : PState N L) (hd : s.data.length = mat.len) :
    (fastpam1LoopC w (mat.counted w) s.med.length fuel iter s).Sat fun r t =>
      r.1.data.length = mat.len ∧ iter ≤ r.2 ∧ s.nSwaps ≤ r.1.nSwaps ∧
        r.1.nSwaps - s.nSwaps ≤ r.2 - iter ∧
      t ≤ (r.2 - iter) * (w.step + (s.med.length + mat.len) * w.step +
          mat.len * (w.step + (mat.len * (w.read + w.step) + 2 * (s.med.length * w.step))))
        + (r.1.nSwaps - s.nSwaps) * (mat.len * ((s.med.length + 1) * (w.read + w.step))) := by
  generalize hk : s.med.length = k
  induction fuel generalizing iter s with
  | zero => exact sat_pure ⟨hd, le_refl _, le_refl _, by simp, Nat.zero_le _⟩
  | succ fuel ih =>
    refine sat_bind (sat_tick (sat_bind ((cost_updateRemovalLossC w s.data k).mono fun rem c0 h0 =>
      sat_bind ?_)))
    refine (cost_scan w (K := s.data.length * (w.read + w.step) + 2 * (k * w.step))
      (fun j _ => h0.1 ▸ cost_findBestSwapC w mat rem s.data j) _).mono fun best c1 h1 => ?_
    have hA : w.step + (c0 + c1) ≤ w.step + (k + mat.len) * w.step +
        mat.len * (w.step + (mat.len * (w.read + w.step) + 2 * (k * w.step))) := by
      have a1 := h0.2
      have a2 := h1.2
      rw [hd] at a1 a2
      rw [show (mat.counted w).len = mat.len from rfl] at a2
      omega
    generalize hA' : w.step + (k + mat.len) * w.step +
        mat.len * (w.step + (mat.len * (w.read + w.step) + 2 * (k * w.step))) = A at *
    refine sat_ite (fun _ => ?_) fun _ => sat_pure ⟨hd, by simp, le_refl _, by simp, ?_⟩
    · refine sat_bind ((cost_doSwapC w mat s.med s.data best.2.1 best.2.2).mono fun q c2 h2 => ?_)
      have hD := h2.2.2
      rw [hk, hd] at hD
      generalize hD' : mat.len * ((k + 1) * (w.read + w.step)) = D at *
      refine sat_ite (fun _ => sat_pure ⟨h2.2.1.trans hd, by simp, by simp, by simp, ?_⟩) fun _ => ?_
      · show _ ≤ (iter + 1 - iter) * A + (s.nSwaps + 1 - s.nSwaps) * D
        rw [show iter + 1 - iter = 1 by omega, show s.nSwaps + 1 - s.nSwaps = 1 by omega, Nat.one_mul,
          Nat.one_mul]
        omega
      · refine (ih (iter + 1) ⟨q.2.1, q.2.2, q.1, s.nSwaps + 1⟩ (h2.2.1.trans hd)
          (h2.1.trans hk)).mono fun r t h => ?_
        obtain ⟨e1, e2, e3, e5, e4⟩ := h
        simp only at e3 e4 e5
        refine ⟨e1, by omega, by omega, by omega, ?_⟩
        obtain ⟨m, hm⟩ := Nat.exists_eq_add_of_le e2
        obtain ⟨b, hb⟩ := Nat.exists_eq_add_of_le e3
        rw [hm, hb, show iter + 1 + m - (iter + 1) = m by omega,
          show s.nSwaps + 1 + b - (s.nSwaps + 1) = b by omega] at e4
        rw [hm, hb, show iter + 1 + m - iter = m + 1 by omega,
          show s.nSwaps + 1 + b - s.nSwaps = b + 1 by omega, Nat.add_mul m 1, Nat.add_mul b 1, Nat.one_mul,
          Nat.one_mul]
        omega
    · show _ ≤ (iter + 1 - iter) * A + _
      rw [show iter + 1 - iter = 1 by omega, Nat.one_mul]
      omega

/-- The loop of PAM, with a lower bound. -/
theorem cost_pamLoopC (fuel iter : Nat) (s : PState N L) (hd : s.data.length = mat.len) :
    (pamLoopC w (mat.counted w) s.med.length fuel iter s).Sat fun r t =>
      r.1.data.length = mat.len ∧ iter ≤ r.2 ∧ s.nSwaps ≤ r.1.nSwaps ∧
        r.1.nSwaps - s.nSwaps ≤ r.2 - iter ∧
      (r.2 - iter) * ((mat.len - s.med.length) *
        (s.med.length * (w.step + (mat.len * w.step + (mat.len - 1) * w.read)))) ≤ t ∧
      t ≤ (r.2 - iter) * (w.step +
          mat.len * (w.step + s.med.length * (w.step + (mat.len * w.step + (mat.len - 1) * w.read))))
        + (r.1.nSwaps - s.nSwaps) * (mat.len * ((s.med.length + 1) * (w.read + w.step))) := by
  generalize hk : s.med.length = k
  induction fuel generalizing iter s with
  | zero => exact sat_pure ⟨hd, le_refl _, le_refl _, by simp, by simp, Nat.zero_le _⟩
  | succ fuel ih =>
    refine sat_bind (sat_tick (sat_bind ?_))
    refine (cost_scan w (K := k * (w.step + (s.data.length * w.step + (s.data.length - 1) * w.read)))
      (fun j _ => hk ▸ cost_findBestSwapPamC w mat s.med s.data j) _).mono fun best c1 h1 => ?_
    obtain ⟨hlo, hhi⟩ := h1
    rw [hd, show (mat.counted w).len = mat.len from rfl] at hlo hhi
    rw [hk] at hlo
    generalize hK : k * (w.step + (mat.len * w.step + (mat.len - 1) * w.read)) = K at *
    generalize hA : mat.len * (w.step + K) = A at *
    generalize hE : (mat.len - k) * K = E at *
    refine sat_ite (fun _ => ?_) fun _ => sat_pure ⟨hd, by simp, le_refl _, by simp, ?_, ?_⟩
    · refine sat_bind ((cost_doSwapC w mat s.med s.data best.2.1 best.2.2).mono fun q c2 h2 => ?_)
      have hD := h2.2.2
      rw [hk, hd] at hD
      generalize hD' : mat.len * ((k + 1) * (w.read + w.step)) = D at *
      refine sat_ite (fun _ => sat_pure ⟨h2.2.1.trans hd, by simp, by simp, by simp, ?_, ?_⟩) fun _ => ?_
      · show (iter + 1 - iter) * E ≤ _
        rw [show iter + 1 - iter = 1 by omega, Nat.one_mul]
        omega
      · show _ ≤ (iter + 1 - iter) * _ + (s.nSwaps + 1 - s.nSwaps) * D
        rw [show iter + 1 - iter = 1 by omega, show s.nSwaps + 1 - s.nSwaps = 1 by omega, Nat.one_mul,
          Nat.one_mul]
        omega
      · refine (ih (iter + 1) ⟨q.2.1, q.2.2, q.1, s.nSwaps + 1⟩ (h2.2.1.trans hd)
          (h2.1.trans hk)).mono fun r t h => ?_
        obtain ⟨e1, e2, e3, e5, e6, e4⟩ := h
        simp only at e3 e4 e5
        refine ⟨e1, by omega, by omega, by omega, ?_, ?_⟩
        · obtain ⟨m, hm⟩ := Nat.exists_eq_add_of_le e2
          rw [hm, show iter + 1 + m - (iter + 1) = m by omega] at e6
          rw [hm, show iter + 1 + m - iter = m + 1 by omega, Nat.add_mul m 1, Nat.one_mul]
          omega
        · obtain ⟨m, hm⟩ := Nat.exists_eq_add_of_le e2
          obtain ⟨b, hb⟩ := Nat.exists_eq_add_of_le e3
          rw [hm, hb, show iter + 1 + m - (iter + 1) = m by omega,
            show s.nSwaps + 1 + b - (s.nSwaps + 1) = b by omega] at e4
          rw [hm, hb, show iter + 1 + m - iter = m + 1 by omega,
            show s.nSwaps + 1 + b - s.nSwaps = b + 1 by omega, Nat.add_mul m 1, Nat.add_mul b 1, Nat.one_mul,
            Nat.one_mul]
          omega
    · show (iter + 1 - iter) * E ≤ _
      rw [show iter + 1 - iter = 1 by omega, Nat.one_mul]
      omega
    · show _ ≤ (iter + 1 - iter) * _ + _
      rw [show iter + 1 - iter = 1 by omega, Nat.one_mul]
      omega

/-! ## BUILD -/

theorem cost_buildNextC (near : List N) (k : Nat) :
    (buildNextC L w (mat.counted w) near k).Sat fun _ t =>
      t = near.length * (w.step + (near.length * w.step + (near.length - 1) * w.read)) := by
  refine (sat_foldC (I := fun _ => True)
    (g := fun _ => near.length * w.step + (near.length - 1) * w.read) (fun s i hi _ => ?_) trivial).mono
    fun a c hc => ?_
  · refine sat_bind (sat_bind (sat_lift fun di _ => ?_))
    refine (sat_foldC (I := fun _ => True) (g := fun p : N × Nat => if p.2 = i then 0 else w.read)
      (fun s x _ _ => ?_) trivial).mono fun a c hc => ?_
    · refine sat_ite (fun h => sat_bind (sat_get w mat fun v => sat_pure ⟨trivial, by rw [if_neg h]; rfl⟩))
        fun h => sat_pure ⟨trivial, ?_⟩
      rw [if_pos (by omega)]
    · refine sat_pure ⟨trivial, ?_⟩
      rw [hc.2, sum_zipIdx_ne near 0 i w.read w.step (Nat.zero_le _)
        (by have := List.mem_range.mp hi; omega)]
      omega
  · rw [hc.2, sum_const, List.length_range]

theorem cost_buildFirstC (k : Nat) :
    (buildFirstC L w (mat.counted w) k).Sat fun _ t =>
      t = mat.len * (w.step + (mat.len * w.step + (mat.len - 1) * w.read)) := by
  refine (sat_foldC (I := fun _ => True)
    (g := fun _ => mat.len * w.step + (mat.len - 1) * w.read) (fun s i hi _ => ?_) trivial).mono
    fun a c hc => ?_
  · refine sat_bind ?_
    refine (sat_foldC (I := fun _ => True) (g := fun j => if j = i then 0 else w.read)
      (fun s x _ _ => ?_) trivial).mono fun a c hc => ?_
    · refine sat_ite (fun h => sat_bind (sat_get w mat fun v => sat_pure ⟨trivial, by rw [if_neg h]; rfl⟩))
        fun h => sat_pure ⟨trivial, ?_⟩
      rw [if_pos (by omega)]
    · refine sat_pure ⟨trivial, ?_⟩
      have hz : ((List.range mat.len).map fun x => w.step + if x = i then 0 else w.read)
          = ((List.range mat.len).zipIdx.map fun p : Nat × Nat => w.step + if p.2 = i then 0 else w.read) := by
        apply List.ext_getElem
        · simp
        · intro q h1 h2; simp
      rw [hc.2, show (mat.counted w).len = mat.len from rfl, hz,
        sum_zipIdx_ne (List.range mat.len) 0 i w.read w.step (Nat.zero_le _)
          (by have := List.mem_range.mp hi; simpa using this), List.length_range]
      omega
  · rw [hc.2, sum_const, List.length_range]
    rfl

theorem cost_buildLoopC (k : Nat) (ls meds : List Nat) (data : List (Rec N)) (loss : L)
    (hd : data.length = mat.len) :
    (buildLoopC w (mat.counted w) k ls meds data loss).Sat fun r t =>
      r.2.1.length = mat.len ∧ r.1.length ≤ meds.length + ls.length ∧
      t ≤ ls.length * (w.step + (mat.len * (w.step + (mat.len * w.step + (mat.len - 1) * w.read))
        + mat.len * (w.read + w.step))) := by
  induction ls generalizing meds data loss with
  | nil => exact sat_pure ⟨hd, by simp, Nat.zero_le _⟩
  | cons l ls ih =>
    refine sat_bind (sat_tick (sat_bind ((cost_buildNextC w mat (data.map (·.near.d)) k).mono fun b c h => ?_)))
    rw [List.length_map, hd] at h
    generalize hA : mat.len * (w.step + (mat.len * w.step + (mat.len - 1) * w.read)) = A at *
    refine sat_ite (fun _ => sat_pure ⟨hd, by simp, ?_⟩) fun _ => sat_bind ?_
    · rw [List.length_cons, Nat.add_mul, Nat.one_mul]
      omega
    · refine (sat_mapC_le (g := fun _ => w.read) fun x _ => ?_).mono fun data' c1 h1 => ?_
      · refine sat_ite (fun _ => sat_pure (Nat.zero_le _)) fun _ => sat_bind (sat_get w mat fun v => ?_)
        exact sat_ite (fun _ => sat_pure (le_refl _)) fun _ =>
          sat_ite (fun _ => sat_pure (le_refl _)) fun _ => sat_pure (le_refl _)
      · have hl : data'.length = mat.len := by
          have := h1.1
          rw [List.length_zipIdx, hd] at this
          exact this
        refine (ih (meds ++ [b.2]) data' (buildLoss L b.2 data') hl).mono fun r t h2 => ⟨h2.1, ?_, ?_⟩
        · have := h2.2.1
          simp only [List.length_append, List.length_cons, List.length_nil] at this ⊢
          omega
        · have h3 := h1.2
          rw [sum_const, List.length_zipIdx, hd, Nat.add_comm w.step w.read] at h3
          have h4 := h2.2.2
          rw [List.length_cons, Nat.add_mul, Nat.one_mul]
          omega

theorem cost_pamBuildInitializeC (k : Nat) :
    (pamBuildInitializeC L w (mat.counted w) k).Sat fun r t =>
      r.2.1.length = mat.len ∧ r.1.length ≤ 1 + (k - 1) ∧
      t ≤ (1 + (k - 1)) * (w.step + (mat.len * (w.step + (mat.len * w.step + (mat.len - 1) * w.read))
        + mat.len * (w.read + w.step))) := by
  refine sat_bind (sat_lift fun s _ => sat_bind (sat_lift fun _ _ => sat_bind ?_))
  refine (cost_buildFirstC w mat k).mono fun best c0 h0 => sat_bind ?_
  refine (sat_mapC (g := fun _ => w.read) fun x _ =>
    sat_bind (sat_get w mat fun v => sat_pure rfl)).mono fun data c1 h1 => ?_
  have hl : data.length = mat.len := by
    have := h1.1
    rw [List.length_range] at this
    exact this
  refine (cost_buildLoopC w mat k ((List.range k).drop 1) [best.2] data best.1 hl).mono fun r t h => ?_
  obtain ⟨e1, e2, e3⟩ := h
  simp only [List.length_drop, List.length_range, List.length_singleton] at e2 e3
  refine ⟨e1, e2, ?_⟩
  have h2 := h1.2
  rw [sum_const, List.length_range, show (mat.counted w).len = mat.len from rfl,
    Nat.add_comm w.step w.read] at h2
  rw [Nat.add_mul, Nat.one_mul]
  omega

end

end KMedoids
