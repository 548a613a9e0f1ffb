import Verif.Model.ParMutex
import Verif.Proofs.Par

/-! # Every interleaving of the workers computes the same sums (up to merge order) -/

set_option linter.unusedSectionVars false

namespace KMedoids

open RFrom (conv)

variable {N L : Type} [RDist N] [RLoss L] [RFrom N L]

/-- `base` with the first `i` entries of `priv` added. -/
def partialMerge (base priv : List L) (i : Nat) : List L :=
  (List.zipWith RLoss.add base priv).take i ++ base.drop i

/-- What the shared data looks like while worker `w` holds the mutex. -/
def Holding (base : List L × L) (w : Worker N L) (shared : List L × L) : Prop :=
  (∃ i, w.phase = .vec i ∧ i ≤ base.1.length ∧ shared = (partialMerge base.1 w.priv.1 i, base.2)) ∨
  (w.phase = .acc ∧ shared = ((parMerge base w.priv).1, base.2)) ∨
  (w.phase = .unlock ∧ shared = parMerge base w.priv)

/-- Invariant of the pool. `W x` is what worker `x` computes, `order` the workers that are done. -/
structure PoolInv (W : Nat → List L × L) (parts k : Nat) (d : Nat → Nat → N) (j : Nat)
    (init : List L × L) (inRange : Rec N × Nat → Prop) (s : PoolState N L) (order : List Nat) : Prop where
  size : s.workers.length = parts
  nodup : order.Nodup
  range : ∀ x ∈ order, x < parts
  priv : ∀ (x : Nat) (w : Worker N L), s.workers[x]? = some w →
    w.todo.foldl (fbsStepP d j) w.priv = W x ∧ w.priv.1.length = k ∧ (∀ p ∈ w.todo, inRange p) ∧
    (w.phase ≠ .work → w.todo = []) ∧ (w.phase = .done ↔ x ∈ order)
  free : s.lock = none → s.shared = order.foldl (fun st x => parMerge st (W x)) init ∧
    ∀ (x : Nat) (w : Worker N L), s.workers[x]? = some w → w.phase = .work ∨ w.phase = .done
  held : ∀ y, s.lock = some y → (∃ w, s.workers[y]? = some w ∧
    Holding (order.foldl (fun st x => parMerge st (W x)) init) w s.shared) ∧
    ∀ (x : Nat) (w : Worker N L), x ≠ y → s.workers[x]? = some w → w.phase = .work ∨ w.phase = .done

theorem getElem?_set_cases {α : Type} {l : List α} {x y : Nat} {a b : α} (h : (l.set x a)[y]? = some b) :
    (x = y ∧ b = a) ∨ (x ≠ y ∧ l[y]? = some b) := by
  by_cases hxy : x = y
  · subst hxy
    left
    have hlt := (List.getElem?_eq_some_iff.mp h).1
    rw [List.length_set] at hlt
    rw [List.getElem?_set_self hlt] at h
    exact ⟨rfl, (Option.some.inj h).symm⟩
  · right; rw [List.getElem?_set_ne hxy] at h; exact ⟨hxy, h⟩

theorem partialMerge_succ {base priv : List L} (h : base.length = priv.length) {i : Nat}
    (hi : i < base.length) :
    (partialMerge base priv i).modify i (RLoss.add · (priv.getD i RLoss.zero)) =
      partialMerge base priv (i + 1) := by
  apply List.ext_getElem?
  intro m
  have hz : (List.zipWith RLoss.add base priv).length = base.length := by simp [h]
  have hget : ∀ i m, i ≤ base.length → (partialMerge base priv i)[m]? =
      if m < i then (List.zipWith RLoss.add base priv)[m]? else base[m]? := by
    intro i m hi
    unfold partialMerge
    by_cases hm : m < i
    · rw [List.getElem?_append_left (by simp [hz]; omega), List.getElem?_take, if_pos hm, if_pos hm]
    · rw [List.getElem?_append_right (by simp [hz]; omega), if_neg hm]
      simp [hz, Nat.min_eq_left hi, show i + (m - i) = m by omega]
  rw [List.getElem?_modify, hget i m (by omega), hget (i + 1) m (by omega)]
  by_cases hm : i = m
  · subst hm
    have hi' : i < priv.length := h ▸ hi
    simp [hi, hi']
  · by_cases h1 : m < i
    · simp [hm, h1, show m < i + 1 by omega]
    · simp [hm, h1, show ¬ m < i + 1 by omega]

theorem merge_length {W : Nat → List L × L} {k : Nat} (hW : ∀ x, (W x).1.length = k) {init : List L × L}
    (hi : init.1.length = k) (order : List Nat) :
    (order.foldl (fun st x => parMerge st (W x)) init).1.length = k :=
  foldl_inv (fun st : List L × L => st.1.length = k) (fun st x _ h => by simp [parMerge, h, hW]) hi

theorem PoolInv.step {W : Nat → List L × L} {parts k : Nat} {d : Nat → Nat → N} {j : Nat}
    {init : List L × L} {inRange : Rec N × Nat → Prop} {mat : Mat N}
    (hW : ∀ x, (W x).1.length = k) (hinit : init.1.length = k)
    (hrun : ∀ (st : List L × L) p, inRange p → st.1.length = k →
      parFindStep mat j st p = .ok (fbsStepP d j st p) ∧ (fbsStepP d j st p).1.length = k)
    {s t : PoolState N L} {order : List Nat} (h : PoolInv W parts k d j init inRange s order)
    (hst : PoolStep mat j s t) : ∃ order', PoolInv W parts k d j init inRange t order' := by
  have hml := merge_length hW hinit order
  cases hst with
  | @work x w p todo priv hw hph ht hst =>
    obtain ⟨a1, a2, a3, a4, a5⟩ := h.priv x w hw
    obtain ⟨r1, r2⟩ := hrun w.priv p (a3 p (by simp [ht])) a2
    rw [r1] at hst
    cases hst
    have hxo : x ∉ order := fun hx => by have := a5.mpr hx; rw [hph] at this; cases this
    refine ⟨order, ⟨by simp [h.size], h.nodup, h.range, ?_, ?_, ?_⟩⟩
    · intro y v hv
      rcases getElem?_set_cases hv with ⟨rfl, rfl⟩ | ⟨-, hv⟩
      · refine ⟨by rw [← a1, ht]; rfl, r2, fun q hq => a3 q (by simp [ht, hq]), fun hc => absurd rfl hc, ?_⟩
        exact ⟨fun hc => (by cases hc), fun hx => absurd hx hxo⟩
      · exact h.priv y v hv
    · intro hl
      refine ⟨(h.free hl).1, fun y v hv => ?_⟩
      rcases getElem?_set_cases hv with ⟨rfl, rfl⟩ | ⟨-, hv⟩
      · exact Or.inl rfl
      · exact (h.free hl).2 y v hv
    · intro y hl
      obtain ⟨⟨v, hv, hh⟩, ho⟩ := h.held y hl
      have hxy : x ≠ y := by
        rintro rfl
        rw [hw] at hv; cases hv
        rcases hh with ⟨i, hi, -⟩ | ⟨hi, -⟩ | ⟨hi, -⟩ <;> rw [hph] at hi <;> cases hi
      refine ⟨⟨v, by rw [List.getElem?_set_ne hxy]; exact hv, hh⟩, fun z u hz hu => ?_⟩
      rcases getElem?_set_cases hu with ⟨rfl, rfl⟩ | ⟨-, hu⟩
      · exact Or.inl rfl
      · exact ho z u hz hu
  | @lock x w hw hph ht hfree =>
    obtain ⟨a1, a2, a3, a4, a5⟩ := h.priv x w hw
    have hxo : x ∉ order := fun hx => by have := a5.mpr hx; rw [hph] at this; cases this
    have hlt := (List.getElem?_eq_some_iff.mp hw).1
    refine ⟨order, ⟨by simp [h.size], h.nodup, h.range, ?_, by simp, ?_⟩⟩
    · intro y v hv
      rcases getElem?_set_cases hv with ⟨rfl, rfl⟩ | ⟨-, hv⟩
      · exact ⟨a1, a2, a3, fun _ => ht, fun hc => (by cases hc), fun hx => absurd hx hxo⟩
      · exact h.priv y v hv
    · intro y hl
      cases hl
      refine ⟨⟨_, List.getElem?_set_self hlt, Or.inl ⟨0, rfl, Nat.zero_le _, ?_⟩⟩, fun z u hz hu => ?_⟩
      · simp only [partialMerge, List.take_zero, List.drop_zero, List.nil_append]
        exact (h.free hfree).1
      · rcases getElem?_set_cases hu with ⟨rfl, rfl⟩ | ⟨-, hu⟩
        · exact absurd rfl hz
        · exact (h.free hfree).2 z u hu
  | @vec x i w hw hph hi =>
    obtain ⟨a1, a2, a3, a4, a5⟩ := h.priv x w hw
    have hlt := (List.getElem?_eq_some_iff.mp hw).1
    have hlock : s.lock = some x := by
      cases hl : s.lock with
      | none => rcases (h.free hl).2 x w hw with hc | hc <;> rw [hph] at hc <;> cases hc
      | some y =>
        by_cases hxy : x = y
        · rw [hxy]
        · rcases (h.held y hl).2 x w hxy hw with hc | hc <;> rw [hph] at hc <;> cases hc
    obtain ⟨⟨v, hv, hh⟩, ho⟩ := h.held x hlock
    rw [hw] at hv; cases hv
    have hxo : x ∉ order := fun hx => by have := a5.mpr hx; rw [hph] at this; cases this
    obtain ⟨i', hi', hle, hsh⟩ : ∃ i', w.phase = .vec i' ∧
        i' ≤ (order.foldl (fun st x => parMerge st (W x)) init).1.length ∧
        s.shared = (partialMerge (order.foldl (fun st x => parMerge st (W x)) init).1 w.priv.1 i',
          (order.foldl (fun st x => parMerge st (W x)) init).2) := by
      rcases hh with hh | ⟨hc, -⟩ | ⟨hc, -⟩
      · exact hh
      · rw [hph] at hc; cases hc
      · rw [hph] at hc; cases hc
    rw [hph] at hi'; cases hi'
    have hlen : s.shared.1.length = (order.foldl (fun st x => parMerge st (W x)) init).1.length := by
      rw [hsh]; simp [partialMerge, hml, a2, Nat.min_eq_left (hml ▸ hle)]; omega
    refine ⟨order, ⟨by simp [h.size], h.nodup, h.range, ?_, by simp [hlock], ?_⟩⟩
    · intro y v hv
      rcases getElem?_set_cases hv with ⟨rfl, rfl⟩ | ⟨-, hv⟩
      · exact ⟨a1, a2, a3, fun _ => a4 (by rw [hph]; simp), fun hc => (by cases hc), fun hx => absurd hx hxo⟩
      · exact h.priv y v hv
    · intro y hl
      rw [hlock] at hl; cases hl
      refine ⟨⟨_, List.getElem?_set_self hlt, Or.inl ⟨i + 1, rfl, by rw [← hlen]; exact hi, ?_⟩⟩,
        fun z u hz hu => ?_⟩
      · dsimp only
        rw [hsh]
        dsimp only
        rw [partialMerge_succ (by rw [hml, a2]) (by rw [← hlen]; exact hi)]
      · rcases getElem?_set_cases hu with ⟨rfl, rfl⟩ | ⟨-, hu⟩
        · exact absurd rfl hz
        · exact ho z u hz hu
  | @vecEnd x i w hw hph hi =>
    obtain ⟨a1, a2, a3, a4, a5⟩ := h.priv x w hw
    have hlt := (List.getElem?_eq_some_iff.mp hw).1
    have hlock : s.lock = some x := by
      cases hl : s.lock with
      | none => rcases (h.free hl).2 x w hw with hc | hc <;> rw [hph] at hc <;> cases hc
      | some y =>
        by_cases hxy : x = y
        · rw [hxy]
        · rcases (h.held y hl).2 x w hxy hw with hc | hc <;> rw [hph] at hc <;> cases hc
    obtain ⟨⟨v, hv, hh⟩, ho⟩ := h.held x hlock
    rw [hw] at hv; cases hv
    have hxo : x ∉ order := fun hx => by have := a5.mpr hx; rw [hph] at this; cases this
    obtain ⟨i', hi', hle, hsh⟩ : ∃ i', w.phase = .vec i' ∧
        i' ≤ (order.foldl (fun st x => parMerge st (W x)) init).1.length ∧
        s.shared = (partialMerge (order.foldl (fun st x => parMerge st (W x)) init).1 w.priv.1 i',
          (order.foldl (fun st x => parMerge st (W x)) init).2) := by
      rcases hh with hh | ⟨hc, -⟩ | ⟨hc, -⟩
      · exact hh
      · rw [hph] at hc; cases hc
      · rw [hph] at hc; cases hc
    rw [hph] at hi'; cases hi'
    have hlen : s.shared.1.length = (order.foldl (fun st x => parMerge st (W x)) init).1.length := by
      rw [hsh]; simp [partialMerge, hml, a2, Nat.min_eq_left (hml ▸ hle)]; omega
    have hik : i = (order.foldl (fun st x => parMerge st (W x)) init).1.length := by omega
    refine ⟨order, ⟨by simp [h.size], h.nodup, h.range, ?_, by simp [hlock], ?_⟩⟩
    · intro y v hv
      rcases getElem?_set_cases hv with ⟨rfl, rfl⟩ | ⟨-, hv⟩
      · exact ⟨a1, a2, a3, fun _ => a4 (by rw [hph]; simp), fun hc => (by cases hc), fun hx => absurd hx hxo⟩
      · exact h.priv y v hv
    · intro y hl
      rw [hlock] at hl; cases hl
      refine ⟨⟨_, List.getElem?_set_self hlt, Or.inr (Or.inl ⟨rfl, ?_⟩)⟩, fun z u hz hu => ?_⟩
      · dsimp only
        rw [hsh, hik]
        simp only [partialMerge, List.drop_length, List.append_nil, parMerge]
        rw [List.take_of_length_le (by simp)]
      · rcases getElem?_set_cases hu with ⟨rfl, rfl⟩ | ⟨-, hu⟩
        · exact absurd rfl hz
        · exact ho z u hz hu
  | @acc x w hw hph =>
    obtain ⟨a1, a2, a3, a4, a5⟩ := h.priv x w hw
    have hlt := (List.getElem?_eq_some_iff.mp hw).1
    have hlock : s.lock = some x := by
      cases hl : s.lock with
      | none => rcases (h.free hl).2 x w hw with hc | hc <;> rw [hph] at hc <;> cases hc
      | some y =>
        by_cases hxy : x = y
        · rw [hxy]
        · rcases (h.held y hl).2 x w hxy hw with hc | hc <;> rw [hph] at hc <;> cases hc
    obtain ⟨⟨v, hv, hh⟩, ho⟩ := h.held x hlock
    rw [hw] at hv; cases hv
    have hxo : x ∉ order := fun hx => by have := a5.mpr hx; rw [hph] at this; cases this
    have hsh : s.shared = ((parMerge (order.foldl (fun st x => parMerge st (W x)) init) w.priv).1,
        (order.foldl (fun st x => parMerge st (W x)) init).2) := by
      rcases hh with ⟨i, hc, -⟩ | ⟨-, hh⟩ | ⟨hc, -⟩
      · rw [hph] at hc; cases hc
      · exact hh
      · rw [hph] at hc; cases hc
    refine ⟨order, ⟨by simp [h.size], h.nodup, h.range, ?_, by simp [hlock], ?_⟩⟩
    · intro y v hv
      rcases getElem?_set_cases hv with ⟨rfl, rfl⟩ | ⟨-, hv⟩
      · exact ⟨a1, a2, a3, fun _ => a4 (by rw [hph]; simp), fun hc => (by cases hc), fun hx => absurd hx hxo⟩
      · exact h.priv y v hv
    · intro y hl
      rw [hlock] at hl; cases hl
      refine ⟨⟨_, List.getElem?_set_self hlt, Or.inr (Or.inr ⟨rfl, ?_⟩)⟩, fun z u hz hu => ?_⟩
      · dsimp only
        rw [hsh]
        rfl
      · rcases getElem?_set_cases hu with ⟨rfl, rfl⟩ | ⟨-, hu⟩
        · exact absurd rfl hz
        · exact ho z u hz hu
  | @unlock x w hw hph =>
    obtain ⟨a1, a2, a3, a4, a5⟩ := h.priv x w hw
    have hlt := (List.getElem?_eq_some_iff.mp hw).1
    have hlock : s.lock = some x := by
      cases hl : s.lock with
      | none => rcases (h.free hl).2 x w hw with hc | hc <;> rw [hph] at hc <;> cases hc
      | some y =>
        by_cases hxy : x = y
        · rw [hxy]
        · rcases (h.held y hl).2 x w hxy hw with hc | hc <;> rw [hph] at hc <;> cases hc
    obtain ⟨⟨v, hv, hh⟩, ho⟩ := h.held x hlock
    rw [hw] at hv; cases hv
    have hxo : x ∉ order := fun hx => by have := a5.mpr hx; rw [hph] at this; cases this
    have hsh : s.shared = parMerge (order.foldl (fun st x => parMerge st (W x)) init) w.priv := by
      rcases hh with ⟨i, hc, -⟩ | ⟨hc, -⟩ | ⟨-, hh⟩
      · rw [hph] at hc; cases hc
      · rw [hph] at hc; cases hc
      · exact hh
    have htodo := a4 (by rw [hph]; simp)
    rw [htodo] at a1
    refine ⟨order ++ [x], ⟨by simp [h.size], ?_, ?_, ?_, ?_, by simp⟩⟩
    · rw [List.nodup_append]
      refine ⟨h.nodup, by simp, fun a ha b hb => ?_⟩
      rw [List.mem_singleton.mp hb]; rintro rfl; exact hxo ha
    · intro y hy
      rcases List.mem_append.mp hy with hy | hy
      · exact h.range y hy
      · rw [List.mem_singleton.mp hy, ← h.size]; exact hlt
    · intro y v hv
      rcases getElem?_set_cases hv with ⟨rfl, rfl⟩ | ⟨hne, hv⟩
      · exact ⟨by simpa [htodo] using a1, a2, a3, fun _ => htodo, fun _ => by simp, fun _ => rfl⟩
      · obtain ⟨b1, b2, b3, b4, b5⟩ := h.priv y v hv
        refine ⟨b1, b2, b3, b4, b5.trans ⟨fun hy => by simp [hy], fun hy => ?_⟩⟩
        rcases List.mem_append.mp hy with hy | hy
        · exact hy
        · exact absurd (List.mem_singleton.mp hy).symm hne
    · intro _
      refine ⟨?_, fun y v hv => ?_⟩
      · rw [List.foldl_append, List.foldl_cons, List.foldl_nil, ← a1]; exact hsh
      · rcases getElem?_set_cases hv with ⟨rfl, rfl⟩ | ⟨hne, hv⟩
        · exact Or.inr rfl
        · exact ho y v (Ne.symm hne) hv

/-- Amount of work left. -/
def Phase.rank (k : Nat) : Phase → Nat
  | .work => k + 5
  | .vec i => (k - i) + 4
  | .acc => 3
  | .unlock => 2
  | .done => 0

/-- Work left in the pool. -/
def PoolState.work (s : PoolState N L) : Nat :=
  (s.workers.map fun w => w.todo.length + w.phase.rank s.shared.1.length).sum

theorem sum_set_lt {α : Type} (f : α → Nat) {l : List α} {x : Nat} {w w' : α} (hw : l[x]? = some w)
    (h : f w' < f w) : ((l.set x w').map f).sum < (l.map f).sum := by
  induction l generalizing x with
  | nil => simp at hw
  | cons a l ih =>
    cases x with
    | zero => simp at hw; subst hw; simp; omega
    | succ x =>
      simp only [List.getElem?_cons_succ] at hw
      have := ih hw
      simp only [List.set_cons_succ, List.map_cons, List.sum_cons]; omega

/-- Every step makes progress: no infinite execution. -/
theorem PoolStep.decreases {mat : Mat N} {j : Nat} {s t : PoolState N L} (h : PoolStep mat j s t) :
    t.work < s.work := by
  unfold PoolState.work
  cases h with
  | work hw hph ht hst =>
    refine sum_set_lt _ hw ?_
    simp [ht, hph]
  | lock hw hph ht hfree =>
    refine sum_set_lt _ hw ?_
    simp [hph, Phase.rank]
  | vec hw hph hi =>
    simp only [List.length_modify]
    refine sum_set_lt _ hw ?_
    simp [hph, Phase.rank]; omega
  | @vecEnd x i w hw hph hi =>
    refine sum_set_lt _ hw ?_
    simp [hph, Phase.rank]
  | acc hw hph =>
    refine sum_set_lt _ hw ?_
    simp [hph, Phase.rank]
  | unlock hw hph =>
    refine sum_set_lt _ hw ?_
    simp [hph, Phase.rank]

/-- While a worker is not done, some worker can move: no deadlock. -/
theorem PoolInv.progress {W : Nat → List L × L} {parts k : Nat} {d : Nat → Nat → N} {j : Nat}
    {init : List L × L} {inRange : Rec N × Nat → Prop} {mat : Mat N}
    (hrun : ∀ (st : List L × L) p, inRange p → st.1.length = k →
      parFindStep mat j st p = .ok (fbsStepP d j st p) ∧ (fbsStepP d j st p).1.length = k)
    {s : PoolState N L} {order : List Nat} (h : PoolInv W parts k d j init inRange s order)
    (hf : ¬ s.finished) : ∃ t, PoolStep mat j s t := by
  cases hl : s.lock with
  | some y =>
    obtain ⟨⟨w, hw, hh⟩, -⟩ := h.held y hl
    rcases hh with ⟨i, hi, -, -⟩ | ⟨hi, -⟩ | ⟨hi, -⟩
    · by_cases hlt : i < s.shared.1.length
      · exact ⟨_, .vec hw hi hlt⟩
      · exact ⟨_, .vecEnd hw hi (not_lt.mp hlt)⟩
    · exact ⟨_, .acc hw hi⟩
    · exact ⟨_, .unlock hw hi⟩
  | none =>
    unfold PoolState.finished at hf
    push Not at hf
    obtain ⟨w, hmem, hne⟩ := hf
    obtain ⟨x, hx⟩ := List.mem_iff_getElem?.mp hmem
    have hph : w.phase = .work := by
      rcases (h.free hl).2 x w hx with hc | hc
      · exact hc
      · exact absurd hc hne
    obtain ⟨-, a2, a3, -⟩ := h.priv x w hx
    cases ht : w.todo with
    | nil => exact ⟨_, .lock hx hph ht hl⟩
    | cons p todo =>
      exact ⟨_, .work hx hph ht (hrun w.priv p (a3 p (by simp [ht])) a2).1⟩

/-- When all workers are done, every worker has been merged exactly once. -/
theorem PoolInv.final {W : Nat → List L × L} {parts k : Nat} {d : Nat → Nat → N} {j : Nat}
    {init : List L × L} {inRange : Rec N × Nat → Prop} {s : PoolState N L} {order : List Nat}
    (h : PoolInv W parts k d j init inRange s order) (hf : s.finished) :
    order.Perm (List.range parts) ∧ s.shared = order.foldl (fun st x => parMerge st (W x)) init := by
  constructor
  · rw [List.perm_ext_iff_of_nodup h.nodup List.nodup_range]
    intro x
    rw [List.mem_range]
    refine ⟨h.range x, fun hx => ?_⟩
    have hx' : x < s.workers.length := h.size.symm ▸ hx
    have hw : s.workers[x]? = some s.workers[x] := List.getElem?_eq_getElem hx'
    exact ((h.priv x _ hw).2.2.2.2).mp (hf _ (List.getElem_mem hx'))
  · cases hl : s.lock with
    | none => exact (h.free hl).1
    | some y =>
      obtain ⟨⟨w, hw, hh⟩, -⟩ := h.held y hl
      have hd := hf w (List.mem_of_getElem? hw)
      rcases hh with ⟨i, hi, -, -⟩ | ⟨hi, -⟩ | ⟨hi, -⟩ <;> rw [hd] at hi <;> cases hi

theorem PoolInv.steps {W : Nat → List L × L} {parts k : Nat} {d : Nat → Nat → N} {j : Nat}
    {init : List L × L} {inRange : Rec N × Nat → Prop} {mat : Mat N}
    (hW : ∀ x, (W x).1.length = k) (hinit : init.1.length = k)
    (hrun : ∀ (st : List L × L) p, inRange p → st.1.length = k →
      parFindStep mat j st p = .ok (fbsStepP d j st p) ∧ (fbsStepP d j st p).1.length = k)
    {s t : PoolState N L} {order : List Nat} (h : PoolInv W parts k d j init inRange s order)
    (hst : PoolSteps mat j s t) : ∃ order', PoolInv W parts k d j init inRange t order' := by
  induction hst with
  | refl => exact ⟨order, h⟩
  | tail _ h' ih => obtain ⟨o, ho⟩ := ih; exact ho.step hW hinit hrun h'

theorem workerP_length (d : Nat → Nat → N) (n k : Nat) (data : List (Rec N)) (j parts x : Nat) :
    (workerP L d n k data j parts x).1.length = k := by
  refine foldl_inv (fun st : List L × L => st.1.length = k) (fun st p _ h => ?_) (by simp)
  unfold fbsStepP
  split
  · simpa using h
  · split
    · simpa using h
    · exact h

theorem parFindStep_eq {mat : Mat N} {n k : Nat} {d : Nat → Nat → N} (hm : IsMatrix mat n d) {j : Nat}
    (hj : j < n) {p : Rec N × Nat} (hp : p.2 < n ∧ p.1.near.i < k) {st : List L × L}
    (hst : st.1.length = k) :
    parFindStep mat j st p = .ok (fbsStepP d j st p) ∧ (fbsStepP d j st p).1.length = k := by
  have hi : p.1.near.i < st.1.length := hst ▸ hp.2
  simp only [parFindStep, hm.get _ _ hp.1 hj, ok_bind, fbsStepP]
  split
  · simp [addAt_eq hi, hst]
  · split
    · simp [addAt_eq hi, hst]
    · exact ⟨rfl, hst⟩

theorem poolInit_inv {mat : Mat N} {n : Nat} {d : Nat → Nat → N} (hm : IsMatrix mat n d)
    {rem : List L} {data : List (Rec N)} {j : Nat} (hl : data.length = n)
    (hidx : ∀ r ∈ data, RecIdx rem.length r) (parts : Nat) :
    PoolInv (fun x => workerP L d n rem.length data j parts x) parts rem.length d j (rem, RLoss.zero)
      (fun p => p.2 < n ∧ p.1.near.i < rem.length) (poolInit mat parts rem data) [] := by
  have hget : ∀ (x : Nat) (w : Worker N L), (poolInit mat parts rem data).workers[x]? = some w →
      w = ⟨workerRange n parts x data, (List.replicate rem.length RLoss.zero, RLoss.zero), .work⟩ := by
    intro x w hw
    simp only [poolInit, hm.len, List.getElem?_map] at hw
    obtain ⟨y, hy, rfl⟩ := Option.map_eq_some_iff.mp hw
    obtain ⟨hlt, he⟩ := List.getElem?_eq_some_iff.mp hy
    simp at he
    subst he; rfl
  refine ⟨by simp [poolInit], by simp, by simp, ?_, ?_, by simp [poolInit]⟩
  · intro x w hw
    rw [hget x w hw]
    refine ⟨rfl, by simp, fun p hp => ?_, fun hc => absurd rfl hc, by simp⟩
    have hp := List.mem_of_mem_take (List.mem_of_mem_drop hp)
    exact ⟨hl ▸ mem_zipIdx_lt hp, (hidx _ (mem_zipIdx_mem hp)).1⟩
  · intro _
    exact ⟨rfl, fun x w hw => by rw [hget x w hw]; exact Or.inl rfl⟩

theorem pool_reachable {mat : Mat N} {n : Nat} {d : Nat → Nat → N} (hm : IsMatrix mat n d)
    {rem : List L} {data : List (Rec N)} {j : Nat} (hj : j < n) (hl : data.length = n)
    (hidx : ∀ r ∈ data, RecIdx rem.length r) {parts : Nat} {s : PoolState N L}
    (hs : PoolSteps mat j (poolInit mat parts rem data) s) :
    ∃ order, PoolInv (fun x => workerP L d n rem.length data j parts x) parts rem.length d j
      (rem, RLoss.zero) (fun p => p.2 < n ∧ p.1.near.i < rem.length) s order :=
  PoolInv.steps (k := rem.length) (init := (rem, RLoss.zero))
    (fun x => workerP_length d n _ data j parts x) rfl (fun _ _ h1 h2 => parFindStep_eq hm hj h1 h2)
    (poolInit_inv hm hl hidx parts) hs

end KMedoids
