import Verif.Proofs.GenLoops

/-!
# Eager local search

The textbook description of FasterPAM, without caches and without early termination: visit the objects in
a given order; for each object that is not a medoid find the best medoid to replace, and replace it if this
improves the objective; repeat until a complete pass changes nothing. Shown here: the first-improvement loops
of the crate compute exactly this.
-/

set_option linter.unusedSectionVars false

namespace KMedoids

/-! ## Definition -/

section spec

variable {L : Type} [LinearOrder L]

/-- The first of the numbers below `k` at which `f` is smallest. -/
def firstMin (f : Nat → L) (k : Nat) : Nat :=
  (List.range k).foldl (fun b m => if f m < f b then m else b) 0

/-- Object `j` is considered: the best medoid to be replaced by it is determined, and replaced if this is an
improvement. The second component counts replacements. -/
def eagerStep (T : List Nat → L) (s : List Nat × Nat) (j : Nat) : List Nat × Nat :=
  if j ∈ s.1 then s
  else
    let m := firstMin (fun m => T (s.1.set m j)) s.1.length
    if T (s.1.set m j) < T s.1 then (s.1.set m j, s.2 + 1) else s

/-- One pass over all objects: medoids and number of replacements. -/
def eagerPass (T : List Nat → L) (seq : List Nat) (med : List Nat) : List Nat × Nat :=
  seq.foldl (eagerStep T) (med, 0)

/-- At most `fuel` passes, until one changes nothing: medoids, number of passes, number of replacements. -/
def eagerRun (T : List Nat → L) (seq : List Nat) : Nat → List Nat → List Nat × Nat × Nat
  | 0, med => (med, 0, 0)
  | fuel + 1, med =>
    let p := eagerPass T seq med
    if p.2 = 0 then (p.1, 1, 0)
    else
      let r := eagerRun T seq fuel p.1
      (r.1, r.2.1 + 1, r.2.2 + p.2)

/-! ## Basic facts -/

theorem firstMin_spec (f : Nat → L) {k : Nat} (hk : 1 ≤ k) :
    firstMin f k < k ∧ (∀ m < k, f (firstMin f k) ≤ f m) ∧ ∀ m < firstMin f k, f (firstMin f k) < f m := by
  induction k with
  | zero => omega
  | succ k ih =>
    have e : firstMin f (k + 1) = if f k < f (firstMin f k) then k else firstMin f k := by
      unfold firstMin; rw [List.range_succ, List.foldl_append]; rfl
    rcases Nat.eq_zero_or_pos k with rfl | hk
    · have : firstMin f (0 + 1) = 0 := by rw [e]; simp [firstMin]
      rw [this]
      refine ⟨by omega, fun m hm => ?_, fun m hm => by omega⟩
      obtain rfl : m = 0 := by omega
      exact le_refl _
    · obtain ⟨h1, h2, h3⟩ := ih hk
      rw [e]
      split
      · rename_i hlt
        refine ⟨by omega, fun m hm => ?_, fun m hm => lt_of_lt_of_le hlt (h2 m hm)⟩
        rcases Nat.lt_succ_iff_lt_or_eq.mp hm with h | rfl
        · exact le_trans (le_of_lt hlt) (h2 m h)
        · exact le_refl _
      · rename_i hlt
        refine ⟨by omega, fun m hm => ?_, h3⟩
        rcases Nat.lt_succ_iff_lt_or_eq.mp hm with h | rfl
        · exact h2 m h
        · exact not_lt.mp hlt

theorem firstMin_unique (f : Nat → L) {k b : Nat} (hb : b < k) (h1 : ∀ m < k, f b ≤ f m)
    (h2 : ∀ m < b, f b < f m) : firstMin f k = b := by
  obtain ⟨g1, g2, g3⟩ := firstMin_spec f (k := k) (by omega)
  rcases lt_trichotomy (firstMin f k) b with h | h | h
  · exact absurd (h2 _ h) (not_lt.mpr (g2 b hb))
  · exact h
  · exact absurd (g3 _ h) (not_lt.mpr (h1 _ g1))

theorem firstMin_congr {f : Nat → L} {M : Type} [LinearOrder M] {g : Nat → M} {k : Nat}
    (h : ∀ a b, a < k → b < k → (f a < f b ↔ g a < g b)) : firstMin f k = firstMin g k := by
  rcases Nat.eq_zero_or_pos k with rfl | hk
  · rfl
  · obtain ⟨g1, g2, g3⟩ := firstMin_spec f hk
    refine (firstMin_unique g g1 (fun m hm => not_lt.mp fun hlt => ?_) fun m hm => ?_).symm
    · exact absurd ((h m _ hm g1).mpr hlt) (not_lt.mpr (g2 m hm))
    · exact (h _ m g1 (by omega)).mp (g3 m hm)

theorem eagerStep_settled {T : List Nat → L} {s : List Nat × Nat} {j : Nat} (hk : 1 ≤ s.1.length)
    (h : Settled T j s.1) : eagerStep T s j = s := by
  unfold eagerStep
  rcases h with h | h
  · rw [if_pos h]
  · split
    · rfl
    · dsimp only
      rw [if_neg (not_lt.mpr (h _ (firstMin_spec _ hk).1))]

theorem eager_settled {T : List Nat → L} {seq : List Nat} {s : List Nat × Nat} (hk : 1 ≤ s.1.length)
    (h : ∀ x ∈ seq, Settled T x s.1) : seq.foldl (eagerStep T) s = s := by
  induction seq with
  | nil => rfl
  | cons j js ih =>
    rw [List.foldl_cons, eagerStep_settled hk (h j (by simp))]
    exact ih fun x hx => h x (by simp [hx])

theorem eagerStep_shift (T : List Nat → L) (med : List Nat) (c e j : Nat) :
    eagerStep T (med, c + e) j = ((eagerStep T (med, e) j).1, c + (eagerStep T (med, e) j).2) := by
  unfold eagerStep
  dsimp only
  split
  · rfl
  · split <;> simp [Nat.add_assoc]

theorem eager_shift (T : List Nat → L) (seq : List Nat) (med : List Nat) (c e : Nat) :
    seq.foldl (eagerStep T) (med, c + e) =
      ((seq.foldl (eagerStep T) (med, e)).1, c + (seq.foldl (eagerStep T) (med, e)).2) := by
  induction seq generalizing med e with
  | nil => rfl
  | cons j js ih =>
    rw [List.foldl_cons, List.foldl_cons, eagerStep_shift]
    exact ih _ _

/-- Replacements counted in a pass: none exactly if nothing changes, and then all are settled. -/
theorem eagerStep_count (T : List Nat → L) (s : List Nat × Nat) (j : Nat) :
    (eagerStep T s j = s ∧ (1 ≤ s.1.length → Settled T j s.1)) ∨
      ((eagerStep T s j).2 = s.2 + 1 ∧ T (eagerStep T s j).1 < T s.1) := by
  unfold eagerStep
  split
  · rename_i h; exact Or.inl ⟨rfl, fun _ => Or.inl h⟩
  · dsimp only
    split
    · rename_i h; exact Or.inr ⟨rfl, h⟩
    · rename_i h
      refine Or.inl ⟨rfl, fun hk => Or.inr fun m hm => ?_⟩
      exact le_trans (not_lt.mp h) ((firstMin_spec (fun m => T (s.1.set m j)) hk).2.1 m hm)

theorem eager_count (T : List Nat → L) (seq : List Nat) (s : List Nat × Nat) :
    (seq.foldl (eagerStep T) s = s ∧ (1 ≤ s.1.length → ∀ x ∈ seq, Settled T x s.1)) ∨
      (s.2 < (seq.foldl (eagerStep T) s).2 ∧ T (seq.foldl (eagerStep T) s).1 < T s.1) := by
  induction seq generalizing s with
  | nil => exact Or.inl ⟨rfl, by simp⟩
  | cons j js ih =>
    rw [List.foldl_cons]
    rcases eagerStep_count T s j with ⟨h1, h2⟩ | ⟨h1, h2⟩
    · rw [h1]
      rcases ih s with ⟨i1, i2⟩ | h
      · refine Or.inl ⟨i1, fun hk x hx => ?_⟩
        rcases List.mem_cons.mp hx with rfl | hx
        · exact h2 hk
        · exact i2 hk x hx
      · exact Or.inr h
    · right
      rcases ih (eagerStep T s j) with ⟨i1, -⟩ | ⟨i1, i2⟩
      · rw [i1]; exact ⟨by omega, h2⟩
      · exact ⟨by omega, lt_trans i2 h2⟩

theorem eagerRun_done {T : List Nat → L} {seq : List Nat} {med : List Nat} (h : (eagerPass T seq med).2 = 0)
    (fuel : Nat) : eagerRun T seq (fuel + 1) med = (med, 1, 0) := by
  have hm : eagerPass T seq med = (med, 0) := by
    rcases eager_count T seq (med, 0) with ⟨h, -⟩ | ⟨h', -⟩
    · exact h
    · unfold eagerPass at h; dsimp only at h'; omega
  rw [eagerRun, hm]
  rfl

theorem eagerRun_more {T : List Nat → L} {seq : List Nat} {med : List Nat} (h : (eagerPass T seq med).2 ≠ 0)
    (fuel : Nat) : eagerRun T seq (fuel + 1) med =
      ((eagerRun T seq fuel (eagerPass T seq med).1).1, (eagerRun T seq fuel (eagerPass T seq med).1).2.1 + 1,
        (eagerRun T seq fuel (eagerPass T seq med).1).2.2 + (eagerPass T seq med).2) := by
  rw [eagerRun]
  dsimp only
  rw [if_neg h]

/-- Stop after `a` passes and start again from the medoids reached. -/
theorem eagerRun_add (T : List Nat → L) (seq : List Nat) (a b : Nat) (med : List Nat) :
    (eagerRun T seq (a + b) med).1 = (eagerRun T seq b (eagerRun T seq a med).1).1 ∧
    (eagerRun T seq (a + b) med).2.2 = (eagerRun T seq a med).2.2 + (eagerRun T seq b (eagerRun T seq a med).1).2.2 ∧
    ((eagerRun T seq (a + b) med).2.1 =
        (eagerRun T seq a med).2.1 + (eagerRun T seq b (eagerRun T seq a med).1).2.1 ∨
      (eagerRun T seq (a + b) med).2.1 = (eagerRun T seq a med).2.1 ∧
        (eagerRun T seq b (eagerRun T seq a med).1).2 = (min b 1, 0)) := by
  induction a generalizing med with
  | zero =>
    rw [Nat.zero_add]
    exact ⟨rfl, (Nat.zero_add _).symm, Or.inl (Nat.zero_add _).symm⟩
  | succ a ih =>
    have e : a + 1 + b = a + b + 1 := by omega
    rw [e]
    by_cases h0 : (eagerPass T seq med).2 = 0
    · rw [eagerRun_done h0, eagerRun_done h0]
      cases b with
      | zero => exact ⟨rfl, rfl, Or.inl rfl⟩
      | succ b =>
        dsimp only
        rw [eagerRun_done h0]
        have : min (b + 1) 1 = 1 := by omega
        rw [this]
        exact ⟨rfl, rfl, Or.inr ⟨rfl, rfl⟩⟩
    · rw [eagerRun_more h0, eagerRun_more h0]
      obtain ⟨i1, i2, i3⟩ := ih (eagerPass T seq med).1
      dsimp only
      refine ⟨i1, by omega, ?_⟩
      rcases i3 with i3 | ⟨i3, i4⟩
      · exact Or.inl (by omega)
      · exact Or.inr ⟨by omega, i4⟩

theorem eagerStep_length (T : List Nat → L) (s : List Nat × Nat) (j : Nat) :
    (eagerStep T s j).1.length = s.1.length := by
  unfold eagerStep
  split
  · rfl
  · dsimp only; split <;> simp

theorem eager_length (T : List Nat → L) (seq : List Nat) (s : List Nat × Nat) :
    (seq.foldl (eagerStep T) s).1.length = s.1.length := by
  induction seq generalizing s with
  | nil => rfl
  | cons j js ih => rw [List.foldl_cons, ih, eagerStep_length]

/-- Two objectives that order the medoid lists of length `k` in the same way, in possibly different
numberings of the objects, lead to the same search. -/
theorem eagerStep_map {M : Type} [LinearOrder M] {T : List Nat → L} {T' : List Nat → M} {n k : Nat} {σ : Nat → Nat}
    (hσ : ∀ x y, x < n → y < n → σ x = σ y → x = y)
    (hT : ∀ a b : List Nat, a.length = k → b.length = k → (T' a < T' b ↔ T (a.map σ) < T (b.map σ)))
    {s' : List Nat × Nat} (hl : s'.1.length = k) (hr : ∀ m ∈ s'.1, m < n) {j : Nat} (hj : j < n) :
    eagerStep T (s'.1.map σ, s'.2) (σ j) = ((eagerStep T' s' j).1.map σ, (eagerStep T' s' j).2) ∧
      (eagerStep T' s' j).1.length = k ∧ ∀ m ∈ (eagerStep T' s' j).1, m < n := by
  have hmem : σ j ∈ s'.1.map σ ↔ j ∈ s'.1 := by
    refine ⟨fun h => ?_, fun h => List.mem_map_of_mem h⟩
    obtain ⟨x, hx, e⟩ := List.mem_map.mp h
    exact hσ x j (hr x hx) hj e ▸ hx
  have hf : firstMin (fun m => T ((s'.1.map σ).set m (σ j))) (s'.1.map σ).length =
      firstMin (fun m => T' (s'.1.set m j)) s'.1.length := by
    rw [List.length_map]
    refine firstMin_congr fun a b _ _ => ?_
    rw [hT _ _ (by simpa using hl) (by simpa using hl), List.map_set, List.map_set]
  refine ⟨?_, by rw [eagerStep_length, hl], ?_⟩
  · unfold eagerStep
    dsimp only
    rw [hf]
    by_cases h : j ∈ s'.1
    · rw [if_pos (hmem.mpr h), if_pos h]
    · rw [if_neg (fun q => h (hmem.mp q)), if_neg h, ← List.map_set]
      have := hT (s'.1.set (firstMin (fun m => T' (s'.1.set m j)) s'.1.length) j) s'.1 (by simpa using hl) hl
      by_cases h2 : T' (s'.1.set (firstMin (fun m => T' (s'.1.set m j)) s'.1.length) j) < T' s'.1
      · rw [if_pos (this.mp h2), if_pos h2]
      · rw [if_neg (fun q => h2 (this.mpr q)), if_neg h2]
  · intro m hm
    unfold eagerStep at hm
    split at hm
    · exact hr m hm
    · dsimp only at hm
      split at hm
      · rcases List.mem_or_eq_of_mem_set hm with h | rfl
        · exact hr m h
        · exact hj
      · exact hr m hm

theorem eager_map {M : Type} [LinearOrder M] {T : List Nat → L} {T' : List Nat → M} {n k : Nat} {σ : Nat → Nat}
    (hσ : ∀ x y, x < n → y < n → σ x = σ y → x = y)
    (hT : ∀ a b : List Nat, a.length = k → b.length = k → (T' a < T' b ↔ T (a.map σ) < T (b.map σ)))
    {seq : List Nat} (hseq : ∀ j ∈ seq, j < n) {s' : List Nat × Nat} (hl : s'.1.length = k)
    (hr : ∀ m ∈ s'.1, m < n) :
    (seq.map σ).foldl (eagerStep T) (s'.1.map σ, s'.2) =
        ((seq.foldl (eagerStep T') s').1.map σ, (seq.foldl (eagerStep T') s').2) ∧
      (seq.foldl (eagerStep T') s').1.length = k ∧ ∀ m ∈ (seq.foldl (eagerStep T') s').1, m < n := by
  induction seq generalizing s' with
  | nil => exact ⟨rfl, hl, hr⟩
  | cons j js ih =>
    obtain ⟨h1, h2, h3⟩ := eagerStep_map hσ hT hl hr (hseq j (by simp))
    rw [List.map_cons, List.foldl_cons, List.foldl_cons, h1]
    exact ih (fun x hx => hseq x (by simp [hx])) h2 h3

theorem eagerRun_map {M : Type} [LinearOrder M] {T : List Nat → L} {T' : List Nat → M} {n k : Nat} {σ : Nat → Nat}
    (hσ : ∀ x y, x < n → y < n → σ x = σ y → x = y)
    (hT : ∀ a b : List Nat, a.length = k → b.length = k → (T' a < T' b ↔ T (a.map σ) < T (b.map σ)))
    {seq : List Nat} (hseq : ∀ j ∈ seq, j < n) (fuel : Nat) {med' : List Nat} (hl : med'.length = k)
    (hr : ∀ m ∈ med', m < n) :
    eagerRun T (seq.map σ) fuel (med'.map σ) =
      ((eagerRun T' seq fuel med').1.map σ, (eagerRun T' seq fuel med').2) := by
  induction fuel generalizing med' with
  | zero => rfl
  | succ fuel ih =>
    obtain ⟨h1, h2, h3⟩ := eager_map hσ hT hseq (s' := (med', 0)) hl hr
    have h1 : eagerPass T (seq.map σ) (med'.map σ) =
        ((eagerPass T' seq med').1.map σ, (eagerPass T' seq med').2) := h1
    unfold eagerRun
    dsimp only
    rw [h1]
    dsimp only
    split
    · rfl
    · rw [ih (med' := (eagerPass T' seq med').1) h2 h3]

end spec

/-! ## The loops of the crate -/

section loops

variable {L : Type} [AddCommGroup L] [LinearOrder L] [IsOrderedAddMonoid L] [RLoss L] [LawfulLoss L]
variable {S : Type} {T : List Nat → L} {n : Nat} {I : S → Prop} {med : S → List Nat} {last nSwaps : S → Nat}
variable {loss : S → L} {cand : S → Nat → Option S}

/-- In addition to `CandSpec`: the exchange is the first best one for the object. -/
structure EagerSpec (T : List Nat → L) (n : Nat) (I : S → Prop) (med : S → List Nat)
    (last nSwaps : S → Nat) (loss : S → L) (cand : S → Nat → Option S) : Prop where
  base : CandSpec T n I med last nSwaps loss cand
  pos : ∀ s, I s → 1 ≤ (med s).length
  first : ∀ s j s', I s → j < n → cand s j = some s' →
    med s' = (med s).set (firstMin (fun m => T ((med s).set m j)) (med s).length) j

theorem passG_eager (H : EagerSpec T n I med last nSwaps loss cand) {js : List Nat} (hjs : ∀ j ∈ js, j < n)
    (hnd : js.Nodup) {s : S} (hs : I s) (hh : HistG T last med js s) :
    (med (passG last cand js s), nSwaps (passG last cand js s)) =
      js.foldl (eagerStep T) (med s, nSwaps s) := by
  induction js generalizing s with
  | nil => rfl
  | cons j js ih =>
    have hj : j < n := hjs j (by simp)
    have ih' := fun {s : S} (h : I s) => ih (fun j hj => hjs j (by simp [hj])) hnd.of_cons (s := s) h
    have hjn : j ∉ js := (List.nodup_cons.mp hnd).1
    unfold passG
    by_cases h1 : j = last s
    · rw [if_pos h1]
      rcases hh with hh | ⟨pre, post, e, hmed, hpost⟩
      · exact absurd (by rw [h1]; simp) hh
      · have hpj : js = post := by
          rw [← h1] at e
          exact split_unique (a := []) e hnd
        refine (eager_settled (H.pos s hs) fun x hx => ?_).symm
        rcases List.mem_cons.mp hx with rfl | hx
        · exact Or.inl (h1 ▸ hmed)
        · exact hpost x (hpj ▸ hx)
    · rw [if_neg h1]
      rw [List.foldl_cons]
      cases hc : cand s j with
      | none =>
        rw [eagerStep_settled (H.pos s hs) (H.base.none s j hs hj hc)]
        refine ih' hs ?_
        rcases hh with hh | ⟨pre, post, e, hmed, hpost⟩
        · exact Or.inl fun h => hh (by simp [h])
        · cases pre with
          | nil => simp only [List.nil_append, List.cons.injEq] at e; exact absurd e.1 h1
          | cons p pre =>
            simp only [List.cons_append, List.cons.injEq] at e
            exact Or.inr ⟨pre, post, e.2, hmed, hpost⟩
      | some s' =>
        obtain ⟨g1, g2, g3, b, -, g4, -, g5⟩ := H.base.some s j s' hs hj hc
        have hstep : eagerStep T (med s, nSwaps s) j = (med s', nSwaps s') := by
          unfold eagerStep
          dsimp only
          rw [if_neg g4, ← H.first s j s' hs hj hc, if_pos g5, g3]
        rw [hstep]
        exact ih' g1 (Or.inl (by rw [g2]; exact hjn))

/-- **Whole runs of the first-improvement loops are eager local searches.** -/
theorem loopG_eager (H : EagerSpec T n I med last nSwaps loss cand) {seq : List Nat} (hseq : ∀ j ∈ seq, j < n)
    (hnd : seq.Nodup) {fuel iter : Nat} {s : S} (hs : I s) (hh : HistG T last med seq s) :
    let r := loopG (passG last cand seq) nSwaps loss fuel iter s
    let e := eagerRun T seq fuel (med s)
    med r.1 = e.1 ∧ r.2 = iter + e.2.1 ∧ nSwaps r.1 = nSwaps s + e.2.2 := by
  induction fuel generalizing iter s with
  | zero => exact ⟨rfl, rfl, rfl⟩
  | succ fuel ih =>
    obtain ⟨h1, c, h2, h3⟩ := passG_ex H.base hseq hs
    have hp := passG_eager H hseq hnd hs hh
    have hsh := eager_shift T seq (med s) (nSwaps s) 0
    rw [Nat.add_zero] at hsh
    rw [hsh, Prod.mk.injEq] at hp
    obtain ⟨p1, p2⟩ := hp
    have p1 : med (passG last cand seq s) = (eagerPass T seq (med s)).1 := p1
    have p2 : nSwaps (passG last cand seq s) = nSwaps s + (eagerPass T seq (med s)).2 := p2
    dsimp only
    unfold loopG eagerRun
    dsimp only
    rcases passG_pass H.base hseq hnd hs (done := []) (js := seq) rfl hh (by simp) with
      ⟨e, hset⟩ | ⟨hlt, hh'⟩
    · have h0 : (eagerPass T seq (med s)).2 = 0 := by rw [e] at p2; omega
      rw [if_pos h0, if_pos (by rw [e]; simp)]
      exact ⟨p1, rfl, by dsimp only; omega⟩
    · have hdec : loss (passG last cand seq s) < loss s := by
        rw [H.base.loss _ h1, H.base.loss _ hs]; exact h3.lt (by omega)
      have hcond : (nSwaps (passG last cand seq s) == nSwaps s ||
          rge (loss (passG last cand seq s)) (loss s)) = false := by
        rw [rgeL]
        simp only [Bool.or_eq_false_iff, beq_eq_false_iff_ne, decide_eq_false_iff_not, not_le]
        exact ⟨by omega, hdec⟩
      rw [if_neg (by rw [hcond]; simp), if_neg (by omega)]
      obtain ⟨i1, i2, i3⟩ := ih (iter := iter + 1) h1 hh'
      rw [p1] at i1 i2 i3
      exact ⟨i1, by dsimp only; omega, by dsimp only; omega⟩

end loops

end KMedoids
