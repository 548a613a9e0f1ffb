import Verif.Model.ParPanic
import Verif.Proofs.ParMutex

/-! # The scope of `par_find_best_swap` with panics: invariant of all interleavings -/

namespace KMedoids

variable {P L : Type}

theorem foldRes_app {α σ : Type} (f : σ → α → Res σ) (xs ys : List α) (s : σ) :
    foldRes f s (xs ++ ys) = (foldRes f s xs >>= fun t => foldRes f t ys) := by
  induction xs generalizing s with
  | nil => rfl
  | cons x xs ih =>
    simp only [List.cons_append, foldRes_cons]
    cases f s x with
    | error e => rfl
    | ok t => simp only [ok_bind]; exact ih t

theorem mapRes_app {α β : Type} (f : α → Res β) (xs ys : List α) :
    mapRes f (xs ++ ys) = (mapRes f xs >>= fun a => mapRes f ys >>= fun b => .ok (a ++ b)) := by
  induction xs with
  | nil =>
    simp only [List.nil_append, mapRes_nil, ok_bind]
    cases mapRes f ys <;> rfl
  | cons x xs ih =>
    simp only [List.cons_append, mapRes_cons, ih]
    cases f x with
    | error e => rfl
    | ok y =>
      simp only [ok_bind]
      cases mapRes f xs with
      | error e => rfl
      | ok a =>
        simp only [ok_bind]
        cases mapRes f ys <;> rfl

theorem mapRes_len {α β : Type} {f : α → Res β} {xs : List α} {ys : List β} (h : mapRes f xs = .ok ys) :
    ys.length = xs.length := by
  induction xs generalizing ys with
  | nil => cases h; rfl
  | cons x xs ih =>
    simp only [mapRes_cons] at h
    obtain ⟨y, -, h⟩ := bind_eq_ok.mp h
    obtain ⟨zs, hz, h⟩ := bind_eq_ok.mp h
    cases h
    simp [ih hz]

theorem mergeR_length {add : L → L → Res L} {k : Nat} {st w v : List L × L} (h1 : st.1.length = k) (h2 : w.1.length = k)
    (h : mergeR add st w = .ok v) : v.1.length = k := by
  obtain ⟨u, hu, h⟩ := bind_eq_ok.mp h
  obtain ⟨a, -, h⟩ := bind_eq_ok.mp h
  cases h
  simp [mapRes_len hu, h1, h2]

/-- Not in the critical section. -/
def TPhase.idle (p : TPhase) : Prop := p = .work ∨ p = .done ∨ p = .panicked

/-- What the shared data looks like while task `w` holds the mutex. -/
def HoldingR (add : L → L → Res L) (base : List L × L) (w : Task P L) (shared : List L × L) : Prop :=
  (∃ i pre, w.phase = .vec i ∧ i ≤ base.1.length ∧
    mapRes (fun p : L × L => add p.1 p.2) ((base.1.zip w.priv.1).take i) = .ok pre ∧
    shared = (pre ++ base.1.drop i, base.2)) ∨
  (w.phase = .acc ∧ mapRes (fun p : L × L => add p.1 p.2) (base.1.zip w.priv.1) = .ok shared.1 ∧ shared.2 = base.2) ∨
  (w.phase = .unlock ∧ mergeR add base w.priv = .ok shared)

/-- Invariant of the scope. `W x` is what task `x` computes, `R` the tasks one after the other, `order` the tasks that are
done. -/
structure ScopeInv (step : List L × L → P → Res (List L × L)) (add : L → L → Res L) (W : Nat → Res (List L × L))
    (R : List Nat → Res (List L × L)) (parts k : Nat) (s : Scope P L) (order : List Nat) : Prop where
  size : s.tasks.length = parts
  nodup : order.Nodup
  range : ∀ x ∈ order, x < parts
  priv : ∀ (x : Nat) (w : Task P L), s.tasks[x]? = some w → w.priv.1.length = k ∧
    (w.phase = .work → foldRes step w.priv w.todo = W x) ∧
    (w.phase ≠ .work → w.phase ≠ .panicked → W x = .ok w.priv) ∧
    (w.phase = .panicked → s.poisoned = false → ∃ e, W x = .error e) ∧
    (w.phase = .done ↔ x ∈ order)
  free : s.lock = none → (s.poisoned = false → R order = .ok s.shared ∧ s.shared.1.length = k) ∧
    ∀ (x : Nat) (w : Task P L), s.tasks[x]? = some w → w.phase.idle
  held : ∀ y, s.lock = some y → s.poisoned = false ∧
    (∃ base w, R order = .ok base ∧ base.1.length = k ∧ s.tasks[y]? = some w ∧ HoldingR add base w s.shared) ∧
    ∀ (x : Nat) (w : Task P L), x ≠ y → s.tasks[x]? = some w → w.phase.idle
  bad : s.poisoned = true → s.panics ∧
    ∃ o x e, (o ++ [x]).Nodup ∧ (∀ z ∈ o ++ [x], z < parts) ∧ R (o ++ [x]) = .error e

variable {step : List L × L → P → Res (List L × L)} {add : L → L → Res L} {W : Nat → Res (List L × L)}
  {R : List Nat → Res (List L × L)} {parts k : Nat} {s t : Scope P L} {order : List Nat}

theorem ScopeInv.lock_of (h : ScopeInv step add W R parts k s order) {x : Nat} {w : Task P L}
    (hw : s.tasks[x]? = some w) (hn : ¬ w.phase.idle) : s.lock = some x := by
  cases hl : s.lock with
  | none => exact absurd ((h.free hl).2 x w hw) hn
  | some y =>
    by_cases hxy : x = y
    · rw [hxy]
    · exact absurd ((h.held y hl).2.2 x w hxy hw) hn

/-- A panic with the mutex locked. -/
theorem ScopeInv.poison (hR : ∀ o x, R (o ++ [x]) = (R o >>= fun st => W x >>= fun w => mergeR add st w))
    (h : ScopeInv step add W R parts k s order) {x : Nat} {w : Task P L}
    (hw : s.tasks[x]? = some w) (hn : ¬ w.phase.idle)
    (herr : ∀ base, R order = .ok base → HoldingR add base w s.shared → base.1.length = k → w.priv.1.length = k →
      ∃ e, mergeR add base w.priv = .error e) :
    ScopeInv step add W R parts k
      { s with tasks := s.tasks.set x { w with phase := .panicked }, lock := none, poisoned := true } order := by
  have hlt := (List.getElem?_eq_some_iff.mp hw).1
  have hlock := h.lock_of hw hn
  obtain ⟨-, ⟨base, v, hb, hbl, hv, hh⟩, ho⟩ := h.held x hlock
  rw [hw] at hv; cases hv
  obtain ⟨a1, -, a3, -, a5⟩ := h.priv x w hw
  obtain ⟨e, he⟩ := herr base hb hh hbl a1
  have hWx : W x = .ok w.priv := a3 (fun hc => hn (.inl hc)) (fun hc => hn (.inr (.inr hc)))
  have hxo : x ∉ order := fun hx => hn (.inr (.inl (a5.mpr hx)))
  refine ⟨by simp [h.size], h.nodup, h.range, ?_, ?_, by simp, ?_⟩
  · intro y v hv
    rcases getElem?_set_cases hv with ⟨rfl, rfl⟩ | ⟨-, hv⟩
    · exact ⟨a1, fun hc => (by cases hc), fun _ hc => absurd rfl hc, fun _ hc => (by cases hc), fun hc => (by cases hc),
        fun hx => absurd hx hxo⟩
    · obtain ⟨b1, b2, b3, -, b5⟩ := h.priv y v hv
      exact ⟨b1, b2, b3, fun _ hc => (by cases hc), b5⟩
  · intro _
    refine ⟨fun hc => (by cases hc), fun y v hv => ?_⟩
    rcases getElem?_set_cases hv with ⟨rfl, rfl⟩ | ⟨hne, hv⟩
    · exact .inr (.inr rfl)
    · exact ho y v (Ne.symm hne) hv
  · intro _
    refine ⟨⟨_, List.mem_of_getElem? (List.getElem?_set_self hlt), rfl⟩, order, x, e, ?_, ?_, ?_⟩
    · rw [List.nodup_append]
      refine ⟨h.nodup, by simp, fun a ha b hb => ?_⟩
      rw [List.mem_singleton.mp hb]; rintro rfl; exact hxo ha
    · intro y hy
      rcases List.mem_append.mp hy with hy | hy
      · exact h.range y hy
      · rw [List.mem_singleton.mp hy, ← h.size]; exact hlt
    · rw [hR, hb, ok_bind, hWx, ok_bind, he]

/-- A step of the task that holds the mutex, to a phase in which it still holds it. -/
theorem ScopeInv.inside (h : ScopeInv step add W R parts k s order) {x : Nat} {w : Task P L}
    (hw : s.tasks[x]? = some w) (hn : ¬ w.phase.idle) {ph : TPhase} (hph : ¬ ph.idle) {shared : List L × L}
    (hs : ∀ base, base.1.length = k → w.priv.1.length = k → HoldingR add base w s.shared →
      HoldingR add base { w with phase := ph } shared) :
    ScopeInv step add W R parts k { s with tasks := s.tasks.set x { w with phase := ph }, shared := shared } order := by
  have hlt := (List.getElem?_eq_some_iff.mp hw).1
  have hlock := h.lock_of hw hn
  obtain ⟨hp, ⟨base, v, hb, hbl, hv, hh⟩, ho⟩ := h.held x hlock
  rw [hw] at hv; cases hv
  obtain ⟨a1, -, a3, -, a5⟩ := h.priv x w hw
  have hWx : W x = .ok w.priv := a3 (fun hc => hn (.inl hc)) (fun hc => hn (.inr (.inr hc)))
  have hxo : x ∉ order := fun hx => hn (.inr (.inl (a5.mpr hx)))
  refine ⟨by simp [h.size], h.nodup, h.range, ?_, by simp [hlock], ?_, by simp [hp]⟩
  · intro y v hv
    rcases getElem?_set_cases hv with ⟨rfl, rfl⟩ | ⟨-, hv⟩
    · exact ⟨a1, fun hc => absurd (.inl hc) hph, fun _ _ => hWx, fun hc => absurd (.inr (.inr hc)) hph,
        fun hc => absurd (.inr (.inl hc)) hph, fun hx => absurd hx hxo⟩
    · exact h.priv y v hv
  · intro y hl
    have hl : s.lock = some y := hl
    rw [hlock] at hl; cases hl
    refine ⟨hp, ⟨base, _, hb, hbl, List.getElem?_set_self hlt, hs base hbl a1 hh⟩, fun z u hz hu => ?_⟩
    rcases getElem?_set_cases hu with ⟨rfl, rfl⟩ | ⟨-, hu⟩
    · exact absurd rfl hz
    · exact ho z u hz hu

/-- A step of a task that does not hold the mutex and does not get it. -/
theorem ScopeInv.outside (h : ScopeInv step add W R parts k s order) {x : Nat} {w w' : Task P L}
    (hw : s.tasks[x]? = some w) (hph : w.phase = .work) (hph' : w'.phase = .work ∨ w'.phase = .panicked)
    (h1 : w'.priv.1.length = k) (h2 : w'.phase = .work → foldRes step w'.priv w'.todo = W x)
    (h3 : w'.phase = .panicked → s.poisoned = false → ∃ e, W x = .error e) :
    ScopeInv step add W R parts k { s with tasks := s.tasks.set x w' } order := by
  have hlt := (List.getElem?_eq_some_iff.mp hw).1
  obtain ⟨-, -, -, -, a5⟩ := h.priv x w hw
  have hxo : x ∉ order := fun hx => by have := a5.mpr hx; rw [hph] at this; cases this
  have hidle : w'.phase.idle := by
    rcases hph' with hc | hc
    · exact .inl hc
    · exact .inr (.inr hc)
  refine ⟨by simp [h.size], h.nodup, h.range, ?_, ?_, ?_, ?_⟩
  · intro y v hv
    rcases getElem?_set_cases hv with ⟨rfl, rfl⟩ | ⟨-, hv⟩
    · refine ⟨h1, h2, fun c1 c2 => ?_, h3, fun hc => ?_, fun hx => absurd hx hxo⟩
      · rcases hph' with hc | hc
        · exact absurd hc c1
        · exact absurd hc c2
      · rcases hph' with hc' | hc' <;> rw [hc] at hc' <;> cases hc'
    · exact h.priv y v hv
  · intro hl
    refine ⟨(h.free hl).1, fun y v hv => ?_⟩
    rcases getElem?_set_cases hv with ⟨rfl, rfl⟩ | ⟨-, hv⟩
    · exact hidle
    · exact (h.free hl).2 y v hv
  · intro y hl
    obtain ⟨hp, ⟨base, v, hb, hbl, hv, hh⟩, ho⟩ := h.held y hl
    have hxy : x ≠ y := by
      rintro rfl
      rw [hw] at hv; cases hv
      rcases hh with ⟨i, pre, hi, -⟩ | ⟨hi, -⟩ | ⟨hi, -⟩ <;> rw [hph] at hi <;> cases hi
    refine ⟨hp, ⟨base, v, hb, hbl, by rw [List.getElem?_set_ne hxy]; exact hv, hh⟩, fun z u hz hu => ?_⟩
    rcases getElem?_set_cases hu with ⟨rfl, rfl⟩ | ⟨-, hu⟩
    · exact hidle
    · exact ho z u hz hu
  · intro hp
    obtain ⟨⟨v, hv, hvp⟩, hb⟩ := h.bad hp
    refine ⟨?_, hb⟩
    obtain ⟨y, hy⟩ := List.mem_iff_getElem?.mp hv
    by_cases hxy : x = y
    · subst hxy
      rw [hw] at hy; cases hy
      rw [hph] at hvp; cases hvp
    · exact ⟨v, List.mem_of_getElem? (i := y) (by rw [List.getElem?_set_ne hxy]; exact hy), hvp⟩

theorem not_idle_vec (i : Nat) : ¬ (TPhase.vec i).idle := by rintro (h | h | h) <;> cases h
theorem not_idle_acc : ¬ TPhase.acc.idle := by rintro (h | h | h) <;> cases h
theorem not_idle_unlock : ¬ TPhase.unlock.idle := by rintro (h | h | h) <;> cases h

theorem ScopeInv.next (hlen : ∀ st p st', step st p = .ok st' → st'.1.length = st.1.length)
    (hR : ∀ o x, R (o ++ [x]) = (R o >>= fun st => W x >>= fun w => mergeR add st w))
    (h : ScopeInv step add W R parts k s order) (hst : ScopeStep step add s t) :
    ∃ order', ScopeInv step add W R parts k t order' := by
  have hzip : ∀ {base : List L × L} {w : Task P L} {i : Nat} {b : L} {pre : List L}, base.1.length = k → w.priv.1.length = k →
      mapRes (fun p : L × L => add p.1 p.2) ((base.1.zip w.priv.1).take i) = .ok pre → i < k →
      w.priv.1[i]? = some b → ∀ {a : L}, (pre ++ base.1.drop i)[i]? = some a →
      pre.length = i ∧ base.1[i]? = some a ∧ (base.1.zip w.priv.1)[i]? = some (a, b) := by
    intro base w i b pre h1 h2 hm hi hb a ha
    have hl : pre.length = i := by
      rw [mapRes_len hm]
      simp [h1, h2]
      omega
    rw [List.getElem?_append_right (by omega), hl, Nat.sub_self, List.getElem?_drop, Nat.add_zero] at ha
    refine ⟨hl, ha, ?_⟩
    rw [List.getElem?_zip_eq_some]
    exact ⟨ha, hb⟩
  cases hst with
  | @work x w p todo priv hw hph ht hst =>
    obtain ⟨a1, a2, -⟩ := h.priv x w hw
    refine ⟨order, h.outside hw hph (.inl rfl) (by rw [hlen _ _ _ hst, a1]) (fun _ => ?_) (fun hc => by cases hc)⟩
    rw [← a2 hph, ht, foldRes_cons, hst, ok_bind]
  | @workPanic x w p todo e hw hph ht hst =>
    obtain ⟨a1, a2, -⟩ := h.priv x w hw
    refine ⟨order, h.outside hw hph (.inr rfl) a1 (fun hc => by cases hc) (fun _ _ => ⟨e, ?_⟩)⟩
    rw [← a2 hph, ht, foldRes_cons, hst, error_bind]
  | @lockPanic x w hw hph ht hfree hp =>
    obtain ⟨a1, -⟩ := h.priv x w hw
    exact ⟨order, h.outside hw hph (.inr rfl) a1 (fun hc => by cases hc) (fun _ hc => by rw [hp] at hc; cases hc)⟩
  | @lock x w hw hph ht hfree hp =>
    obtain ⟨a1, a2, a3, a4, a5⟩ := h.priv x w hw
    have hxo : x ∉ order := fun hx => by have := a5.mpr hx; rw [hph] at this; cases this
    have hlt := (List.getElem?_eq_some_iff.mp hw).1
    have hWx : W x = .ok w.priv := by rw [← a2 hph, ht]; rfl
    obtain ⟨hf, hidle⟩ := h.free hfree
    obtain ⟨hf1, hf2⟩ := hf hp
    refine ⟨order, ⟨by simp [h.size], h.nodup, h.range, ?_, by simp, ?_, by simp [hp]⟩⟩
    · intro y v hv
      rcases getElem?_set_cases hv with ⟨rfl, rfl⟩ | ⟨-, hv⟩
      · exact ⟨a1, fun hc => (by cases hc), fun _ _ => hWx, fun hc => (by cases hc), fun hc => (by cases hc),
          fun hx => absurd hx hxo⟩
      · exact h.priv y v hv
    · intro y hl
      cases hl
      refine ⟨hp, ⟨s.shared, _, hf1, hf2, List.getElem?_set_self hlt, Or.inl ⟨0, [], rfl, Nat.zero_le _, rfl, rfl⟩⟩,
        fun z u hz hu => ?_⟩
      rcases getElem?_set_cases hu with ⟨rfl, rfl⟩ | ⟨-, hu⟩
      · exact absurd rfl hz
      · exact hidle z u hu
  | @vec x i w a b c hw hph ha hb hc =>
    refine ⟨order, h.inside hw (hph ▸ not_idle_vec i) (not_idle_vec (i + 1)) fun base h1 h2 hh => ?_⟩
    rcases hh with ⟨i', pre, hi', hle, hm, hsh⟩ | ⟨hc', -⟩ | ⟨hc', -⟩
    · rw [hph] at hi'; cases hi'
      rw [hsh] at ha
      have hi : i < k := by rw [← h2]; exact (List.getElem?_eq_some_iff.mp hb).1
      obtain ⟨hl, hba, hz⟩ := hzip h1 h2 hm hi hb ha
      refine .inl ⟨i + 1, pre ++ [c], rfl, by omega, ?_, ?_⟩
      · rw [List.take_add_one, hz, mapRes_app, hm, ok_bind]
        simp [hc]
      · rw [hsh]
        congr 1
        rw [List.set_append_right _ _ (by omega), hl, Nat.sub_self]
        rw [List.drop_eq_getElem_cons (by omega : i < base.1.length), List.set_cons_zero]
        simp
    · rw [hph] at hc'; cases hc'
    · rw [hph] at hc'; cases hc'
  | @vecPanic x i w a b e hw hph ha hb hc =>
    refine ⟨order, h.poison hR hw (hph ▸ not_idle_vec i) fun base _ hh h1 h2 => ?_⟩
    rcases hh with ⟨i', pre, hi', hle, hm, hsh⟩ | ⟨hc', -⟩ | ⟨hc', -⟩
    · rw [hph] at hi'; cases hi'
      rw [hsh] at ha
      have hi : i < k := by rw [← h2]; exact (List.getElem?_eq_some_iff.mp hb).1
      obtain ⟨hl, hba, hz⟩ := hzip h1 h2 hm hi hb ha
      refine ⟨e, ?_⟩
      unfold mergeR
      have hsplit : base.1.zip w.priv.1 = (base.1.zip w.priv.1).take i ++ (a, b) :: (base.1.zip w.priv.1).drop (i + 1) := by
        have hlt := (List.getElem?_eq_some_iff.mp hz)
        obtain ⟨g1, g2⟩ := hlt
        rw [← g2, ← List.drop_eq_getElem_cons g1, List.take_append_drop]
      rw [hsplit, mapRes_app, hm, ok_bind, mapRes_cons]
      simp only [hc, error_bind]
    · rw [hph] at hc'; cases hc'
    · rw [hph] at hc'; cases hc'
  | @vecEnd x i w hw hph hi =>
    refine ⟨order, h.inside hw (hph ▸ not_idle_vec i) not_idle_acc fun base h1 h2 hh => ?_⟩
    rcases hh with ⟨i', pre, hi', hle, hm, hsh⟩ | ⟨hc', -⟩ | ⟨hc', -⟩
    · rw [hph] at hi'; cases hi'
      have hl : pre.length = i := by
        rw [mapRes_len hm]
        simp [h1, h2]
        omega
      have hlen' : s.shared.1.length = k := by
        rw [hsh]
        simp [hl, h1]
        omega
      have hik : k ≤ i := by omega
      refine .inr (.inl ⟨rfl, ?_, by rw [hsh]⟩)
      rw [List.take_of_length_le (by simp [h1, h2]; omega)] at hm
      rw [hsh]
      show _ = Except.ok (pre ++ List.drop i base.1)
      rw [List.drop_eq_nil_of_le (by omega), List.append_nil]
      exact hm
    · rw [hph] at hc'; cases hc'
    · rw [hph] at hc'; cases hc'
  | @acc x w c hw hph hc =>
    refine ⟨order, h.inside hw (hph ▸ not_idle_acc) not_idle_unlock fun base h1 h2 hh => ?_⟩
    rcases hh with ⟨i', pre, hi', -⟩ | ⟨-, hm, hs2⟩ | ⟨hc', -⟩
    · rw [hph] at hi'; cases hi'
    · refine .inr (.inr ⟨rfl, ?_⟩)
      rw [hs2] at hc
      unfold mergeR
      rw [hm, ok_bind]
      simp only [hc, ok_bind]
    · rw [hph] at hc'; cases hc'
  | @accPanic x w e hw hph hc =>
    refine ⟨order, h.poison hR hw (hph ▸ not_idle_acc) fun base _ hh h1 h2 => ?_⟩
    rcases hh with ⟨i', pre, hi', -⟩ | ⟨-, hm, hs2⟩ | ⟨hc', -⟩
    · rw [hph] at hi'; cases hi'
    · refine ⟨e, ?_⟩
      rw [hs2] at hc
      unfold mergeR
      rw [hm, ok_bind]
      simp only [hc, error_bind]
    · rw [hph] at hc'; cases hc'
  | @unlock x w hw hph =>
    obtain ⟨a1, a2, a3, a4, a5⟩ := h.priv x w hw
    have hn : ¬ w.phase.idle := hph ▸ not_idle_unlock
    have hlt := (List.getElem?_eq_some_iff.mp hw).1
    have hlock := h.lock_of hw hn
    obtain ⟨hp, ⟨base, v, hb, hbl, hv, hh⟩, ho⟩ := h.held x hlock
    rw [hw] at hv; cases hv
    have hxo : x ∉ order := fun hx => by have := a5.mpr hx; rw [hph] at this; cases this
    have hWx : W x = .ok w.priv := a3 (by rw [hph]; simp) (by rw [hph]; simp)
    have hm : mergeR add base w.priv = .ok s.shared := by
      rcases hh with ⟨i, pre, hc, -⟩ | ⟨hc, -⟩ | ⟨-, hh⟩
      · rw [hph] at hc; cases hc
      · rw [hph] at hc; cases hc
      · exact hh
    refine ⟨order ++ [x], ⟨by simp [h.size], ?_, ?_, ?_, ?_, by simp, by simp [hp]⟩⟩
    · rw [List.nodup_append]
      refine ⟨h.nodup, by simp, fun a ha b hb => ?_⟩
      rw [List.mem_singleton.mp hb]; rintro rfl; exact hxo ha
    · intro y hy
      rcases List.mem_append.mp hy with hy | hy
      · exact h.range y hy
      · rw [List.mem_singleton.mp hy, ← h.size]; exact hlt
    · intro y v hv
      rcases getElem?_set_cases hv with ⟨rfl, rfl⟩ | ⟨hne, hv⟩
      · exact ⟨a1, fun hc => (by cases hc), fun _ _ => hWx, fun hc => (by cases hc), fun _ => by simp, fun _ => rfl⟩
      · obtain ⟨b1, b2, b3, b4, b5⟩ := h.priv y v hv
        refine ⟨b1, b2, b3, b4, b5.trans ⟨fun hy => by simp [hy], fun hy => ?_⟩⟩
        rcases List.mem_append.mp hy with hy | hy
        · exact hy
        · exact absurd (List.mem_singleton.mp hy).symm hne
    · intro _
      refine ⟨fun _ => ⟨?_, mergeR_length hbl a1 hm⟩, fun y v hv => ?_⟩
      · rw [hR, hb, ok_bind, hWx, ok_bind, hm]
      · rcases getElem?_set_cases hv with ⟨rfl, rfl⟩ | ⟨hne, hv⟩
        · exact .inr (.inl rfl)
        · exact ho y v (Ne.symm hne) hv

/-- Amount of work left. -/
def TPhase.rank (k : Nat) : TPhase → Nat
  | .work => k + 5
  | .vec i => (k - i) + 4
  | .acc => 3
  | .unlock => 2
  | .done => 0
  | .panicked => 0

/-- Work left in the scope: an upper bound on the number of steps. -/
def Scope.work (s : Scope P L) : Nat :=
  (s.tasks.map fun w => w.todo.length + w.phase.rank s.shared.1.length).sum

theorem ScopeStep.decreases (h : ScopeStep step add s t) : t.work < s.work := by
  unfold Scope.work
  cases h with
  | work hw hph ht hst => exact sum_set_lt _ hw (by simp [ht, hph])
  | workPanic hw hph ht hst => exact sum_set_lt _ hw (by simp [hph, TPhase.rank])
  | lock hw hph ht hfree hp => exact sum_set_lt _ hw (by simp [hph, TPhase.rank])
  | lockPanic hw hph ht hfree hp => exact sum_set_lt _ hw (by simp [hph, TPhase.rank])
  | vec hw hph ha hb hc =>
    simp only [List.length_set]
    refine sum_set_lt _ hw ?_
    have := (List.getElem?_eq_some_iff.mp ha).1
    simp [hph, TPhase.rank]; omega
  | vecPanic hw hph ha hb hc => exact sum_set_lt _ hw (by simp [hph, TPhase.rank])
  | vecEnd hw hph hi => exact sum_set_lt _ hw (by simp [hph, TPhase.rank])
  | acc hw hph hc => exact sum_set_lt _ hw (by simp [hph, TPhase.rank])
  | accPanic hw hph hc => exact sum_set_lt _ hw (by simp [hph, TPhase.rank])
  | unlock hw hph => exact sum_set_lt _ hw (by simp [hph, TPhase.rank])

/-- While a task is running, some task can move. -/
theorem ScopeInv.progress (h : ScopeInv step add W R parts k s order) (hf : ¬ s.ended) : ∃ t, ScopeStep step add s t := by
  cases hl : s.lock with
  | some y =>
    obtain ⟨-, ⟨base, w, -, hbl, hw, hh⟩, -⟩ := h.held y hl
    have a1 := (h.priv y w hw).1
    rcases hh with ⟨i, pre, hi, hle, hm, hsh⟩ | ⟨hi, -⟩ | ⟨hi, -⟩
    · by_cases hlt : i < s.shared.1.length
      · have hl' : s.shared.1.length = k := by
          rw [hsh]
          simp [mapRes_len hm, hbl, a1]
          omega
        have hi' : i < w.priv.1.length := by omega
        cases hc : add s.shared.1[i] w.priv.1[i] with
        | ok c => exact ⟨_, .vec hw hi (List.getElem?_eq_getElem hlt) (List.getElem?_eq_getElem hi') hc⟩
        | error e => exact ⟨_, .vecPanic hw hi (List.getElem?_eq_getElem hlt) (List.getElem?_eq_getElem hi') hc⟩
      · exact ⟨_, .vecEnd hw hi (not_lt.mp hlt)⟩
    · cases hc : add s.shared.2 w.priv.2 with
      | ok c => exact ⟨_, .acc hw hi hc⟩
      | error e => exact ⟨_, .accPanic hw hi hc⟩
    · exact ⟨_, .unlock hw hi⟩
  | none =>
    unfold Scope.ended at hf
    push Not at hf
    obtain ⟨w, hmem, hne1, hne2⟩ := hf
    obtain ⟨x, hx⟩ := List.mem_iff_getElem?.mp hmem
    have hph : w.phase = .work := by
      rcases (h.free hl).2 x w hx with hc | hc | hc
      · exact hc
      · exact absurd hc hne1
      · exact absurd hc hne2
    cases ht : w.todo with
    | nil =>
      cases hp : s.poisoned with
      | false => exact ⟨_, .lock hx hph ht hl hp⟩
      | true => exact ⟨_, .lockPanic hx hph ht hl hp⟩
    | cons p todo =>
      cases hst : step w.priv p with
      | ok priv => exact ⟨_, .work hx hph ht hst⟩
      | error e => exact ⟨_, .workPanic hx hph ht hst⟩

/-- A list without repetitions can be completed to a permutation. -/
theorem exists_perm_append {parts : Nat} {o : List Nat} (hn : o.Nodup) (hr : ∀ z ∈ o, z < parts) :
    ∃ o', (o ++ o').Perm (List.range parts) := by
  refine ⟨(List.range parts).filter fun z => z ∉ o, ?_⟩
  rw [List.perm_ext_iff_of_nodup]
  · intro z
    simp only [List.mem_append, List.mem_filter, List.mem_range, decide_eq_true_eq]
    constructor
    · rintro (h | h)
      · exact hr z h
      · exact h.1
    · intro h
      by_cases hz : z ∈ o
      · exact .inl hz
      · exact .inr ⟨h, hz⟩
  · rw [List.nodup_append]
    refine ⟨hn, List.nodup_range.filter _, fun a ha b hb => ?_⟩
    rintro rfl
    simp only [List.mem_filter, decide_eq_true_eq] at hb
    exact hb.2 ha
  · exact List.nodup_range

/-- When all tasks have ended, the outcome is that of running them one after the other in some order. -/
theorem ScopeInv.final (hR : ∀ o x, R (o ++ [x]) = (R o >>= fun st => W x >>= fun w => mergeR add st w))
    (h : ScopeInv step add W R parts k s order) (hf : s.ended) :
    ∃ o, o.Perm (List.range parts) ∧ ((¬ s.panics ∧ R o = .ok s.shared) ∨ (s.panics ∧ ∃ e, R o = .error e)) := by
  have happ : ∀ o o' e, R o = .error e → R (o ++ o') = .error e := by
    intro o o'
    induction o' generalizing o with
    | nil => intro e he; rwa [List.append_nil]
    | cons y o' ih =>
      intro e he
      rw [show o ++ y :: o' = (o ++ [y]) ++ o' by simp]
      exact ih _ e (by rw [hR, he]; rfl)
  by_cases hpan : s.panics
  · cases hp : s.poisoned with
    | true =>
      obtain ⟨-, o, x, e, h1, h2, h3⟩ := h.bad hp
      obtain ⟨o', ho'⟩ := exists_perm_append h1 h2
      exact ⟨_, ho', .inr ⟨hpan, e, happ _ _ e h3⟩⟩
    | false =>
      obtain ⟨w, hw, hph⟩ := hpan
      obtain ⟨x, hx⟩ := List.mem_iff_getElem?.mp hw
      obtain ⟨e, he⟩ := (h.priv x w hx).2.2.2.1 hph hp
      have hxp : x < parts := h.size ▸ (List.getElem?_eq_some_iff.mp hx).1
      have hxo : x ∉ order := fun hc => by
        have := (h.priv x w hx).2.2.2.2.mpr hc
        rw [hph] at this; cases this
      obtain ⟨o', ho'⟩ := exists_perm_append (o := order ++ [x]) (parts := parts)
        (by
          rw [List.nodup_append]
          refine ⟨h.nodup, by simp, fun a ha b hb => ?_⟩
          rw [List.mem_singleton.mp hb]; rintro rfl; exact hxo ha)
        (by
          intro y hy
          rcases List.mem_append.mp hy with hy | hy
          · exact h.range y hy
          · rw [List.mem_singleton.mp hy]; exact hxp)
      refine ⟨_, ho', .inr ⟨⟨w, hw, hph⟩, ?_⟩⟩
      cases hr : R order with
      | error e' => exact ⟨e', happ _ _ _ (by rw [hR, hr]; rfl)⟩
      | ok st => exact ⟨e, happ _ _ _ (by rw [hR, hr, ok_bind, he]; rfl)⟩
  · have hp : s.poisoned = false := by
      cases hp : s.poisoned with
      | false => rfl
      | true => exact absurd (h.bad hp).1 hpan
    have hall : ∀ w ∈ s.tasks, w.phase = .done := fun w hw => by
      rcases hf w hw with hc | hc
      · exact hc
      · exact absurd ⟨w, hw, hc⟩ hpan
    refine ⟨order, ?_, .inl ⟨hpan, ?_⟩⟩
    · rw [List.perm_ext_iff_of_nodup h.nodup List.nodup_range]
      intro x
      rw [List.mem_range]
      refine ⟨h.range x, fun hx => ?_⟩
      have hx' : x < s.tasks.length := h.size.symm ▸ hx
      have hw : s.tasks[x]? = some s.tasks[x] := List.getElem?_eq_getElem hx'
      exact ((h.priv x _ hw).2.2.2.2).mp (hall _ (List.getElem_mem hx'))
    · cases hl : s.lock with
      | none => exact ((h.free hl).1 hp).1
      | some y =>
        obtain ⟨-, ⟨base, w, -, -, hw, hh⟩, -⟩ := h.held y hl
        have hd := hall w (List.mem_of_getElem? hw)
        rcases hh with ⟨i, pre, hi, -⟩ | ⟨hi, -⟩ | ⟨hi, -⟩ <;> rw [hd] at hi <;> cases hi

/-- What task `x` computes. -/
def taskResult (step : List L × L → P → Res (List L × L)) (slices : List (List P)) (priv : List L × L) (x : Nat) :
    Res (List L × L) := do
  let l ← idx slices x
  foldRes step priv l

theorem runInOrder_snoc (step : List L × L → P → Res (List L × L)) (add : L → L → Res L) (slices : List (List P))
    (priv shared : List L × L) (o : List Nat) (x : Nat) :
    runInOrder step add slices priv shared (o ++ [x]) =
      (runInOrder step add slices priv shared o >>= fun st => taskResult step slices priv x >>= fun w => mergeR add st w) := by
  unfold runInOrder taskResult
  rw [foldRes_app]
  congr 1
  funext st
  simp only [foldRes_cons, foldRes_nil]
  cases idx slices x with
  | error e => rfl
  | ok l =>
    simp only [ok_bind]
    cases foldRes step priv l with
    | error e => rfl
    | ok w =>
      simp only [ok_bind]
      cases mergeR add st w <;> rfl

theorem scope_reachable (hlen : ∀ st p st', step st p = .ok st' → st'.1.length = st.1.length) {slices : List (List P)}
    {priv shared : List L × L} (hk : priv.1.length = shared.1.length)
    (hs : ScopeSteps step add (scopeInit slices priv shared) s) :
    ∃ order, ScopeInv step add (taskResult step slices priv) (runInOrder step add slices priv shared) slices.length
      shared.1.length s order := by
  generalize he : scopeInit slices priv shared = s0 at hs
  induction hs with
  | refl =>
    subst he
    have hget : ∀ (x : Nat) (w : Task P L), (scopeInit slices priv shared).tasks[x]? = some w →
        ∃ l, slices[x]? = some l ∧ w = ⟨l, priv, .work⟩ := by
      intro x w hw
      simp only [scopeInit, List.getElem?_map] at hw
      obtain ⟨l, hl, rfl⟩ := Option.map_eq_some_iff.mp hw
      exact ⟨l, hl, rfl⟩
    refine ⟨[], by simp [scopeInit], by simp, by simp, ?_, ?_, by simp [scopeInit], by simp [scopeInit]⟩
    · intro x w hw
      obtain ⟨l, hl, rfl⟩ := hget x w hw
      refine ⟨hk, fun _ => ?_, fun hc => absurd rfl hc, fun hc => (by cases hc), fun hc => (by cases hc), fun hc => (by cases hc)⟩
      simp [taskResult, idx_of_get hl]
    · intro _
      refine ⟨fun _ => ⟨rfl, rfl⟩, fun x w hw => ?_⟩
      obtain ⟨l, hl, rfl⟩ := hget x w hw
      exact .inl rfl
  | tail _ h' ih =>
    obtain ⟨o, ho⟩ := ih
    exact ho.next hlen (runInOrder_snoc step add slices priv shared) h'

end KMedoids
