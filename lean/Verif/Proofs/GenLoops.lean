import Verif.Proofs.PureMsc
import Verif.Proofs.LossLoops

/-!
# Exact outcome of the generic optimisation loops

The loops `passG`, `loopG` (first improvement) and `loopB` (best improvement) of `PureMsc`, for an
objective `T` that is minimised.
-/

set_option linter.unusedSectionVars false

namespace KMedoids

variable {L : Type} [AddCommGroup L] [LinearOrder L] [IsOrderedAddMonoid L] [RLoss L] [LawfulLoss L]
variable {S : Type}

/-- One exchange: `med'` results from `med` by replacing one medoid by `j`, and is better. -/
def Better (T : List Nat → L) (j : Nat) (med med' : List Nat) : Prop :=
  ∃ b, b < med.length ∧ j ∉ med ∧ med' = med.set b j ∧ T med' < T med

theorem Better.chain {T : List Nat → L} {n j : Nat} {med med' : List Nat} (h : Better T j med med')
    (hj : j < n) : SwapChain T n 1 med med' := by
  obtain ⟨b, h1, h2, rfl, h3⟩ := h
  exact .step (.refl _) b j h1 hj h2 h3

theorem Better.mem {T : List Nat → L} {j : Nat} {med med' : List Nat} (h : Better T j med med') :
    j ∈ med' := by
  obtain ⟨b, h1, -, rfl, -⟩ := h
  exact List.mem_of_getElem? (i := b) (by simp [h1])

/-- What is known about one candidate of a first-improvement loop. -/
structure CandSpec (T : List Nat → L) (n : Nat) (I : S → Prop) (med : S → List Nat)
    (last nSwaps : S → Nat) (loss : S → L) (cand : S → Nat → Option S) : Prop where
  none : ∀ s j, I s → j < n → cand s j = none → Settled T j (med s)
  some : ∀ s j s', I s → j < n → cand s j = some s' →
    I s' ∧ last s' = j ∧ nSwaps s' = nSwaps s + 1 ∧ Better T j (med s) (med s')
  loss : ∀ s, I s → loss s = T (med s)

section first
variable {T : List Nat → L} {n : Nat} {I : S → Prop} {med : S → List Nat} {last nSwaps : S → Nat}
variable {loss : S → L} {cand : S → Nat → Option S}

theorem passG_ex (H : CandSpec T n I med last nSwaps loss cand) {js : List Nat}
    (hjs : ∀ j ∈ js, j < n) {s : S} (hs : I s) :
    I (passG last cand js s) ∧ ∃ c, nSwaps (passG last cand js s) = nSwaps s + c ∧
      SwapChain T n c (med s) (med (passG last cand js s)) := by
  induction js generalizing s with
  | nil => exact ⟨hs, 0, rfl, .refl _⟩
  | cons j js ih =>
    have hj : j < n := hjs j (by simp)
    have ih' := fun {s : S} (h : I s) => ih (fun j hj => hjs j (by simp [hj])) h
    unfold passG
    by_cases h1 : j = last s
    · rw [if_pos h1]; exact ⟨hs, 0, rfl, .refl _⟩
    · rw [if_neg h1]
      cases hc : cand s j with
      | none => exact ih' hs
      | some s' =>
        obtain ⟨g1, -, g3, g4⟩ := H.some s j s' hs hj hc
        obtain ⟨i1, c, i2, i3⟩ := ih' g1
        exact ⟨i1, 1 + c, by dsimp only; omega, (g4.chain hj).trans i3⟩

/-- All objects after the last exchange in the visiting order are settled. -/
def HistG (T : List Nat → L) (last : S → Nat) (med : S → List Nat) (seq : List Nat) (s : S) : Prop :=
  last s ∉ seq ∨ ∃ pre post, seq = pre ++ last s :: post ∧ last s ∈ med s ∧
    ∀ x ∈ post, Settled T x (med s)

/-- Rest of a pass after an exchange happened in it. -/
theorem passG_after (H : CandSpec T n I med last nSwaps loss cand) {seq : List Nat}
    (hseq : ∀ j ∈ seq, j < n) (hnd : seq.Nodup) {pre post js : List Nat} {s : S} (hs : I s)
    (hsplit : seq = (pre ++ last s :: post) ++ js) (hmed : last s ∈ med s)
    (hpost : ∀ x ∈ post, Settled T x (med s)) :
    HistG T last med seq (passG last cand js s) := by
  induction js generalizing s pre post with
  | nil => right; exact ⟨pre, post, by simpa [passG] using hsplit, hmed, hpost⟩
  | cons j js ih =>
    have hj : j < n := hseq j (by rw [hsplit]; simp)
    have h1 : j ≠ last s := by
      intro h
      rw [hsplit, List.nodup_append] at hnd
      exact hnd.2.2 (last s) (by simp) j (by simp) h.symm
    have hsplit' : seq = (pre ++ last s :: (post ++ [j])) ++ js := by rw [hsplit]; simp
    unfold passG
    rw [if_neg h1]
    cases hc : cand s j with
    | none =>
      refine ih hs hsplit' hmed fun x hx => ?_
      rcases List.mem_append.mp hx with hx | hx
      · exact hpost x hx
      · rw [List.mem_singleton.mp hx]; exact H.none s j hs hj hc
    | some s' =>
      obtain ⟨g1, g2, g3, g4⟩ := H.some s j s' hs hj hc
      exact ih (s := s') (pre := pre ++ last s :: post) (post := []) g1
        (by rw [hsplit, g2]; simp) (by rw [g2]; exact g4.mem) (by simp)

/-- A pass either changes nothing and settles all objects, or performs an exchange. -/
theorem passG_pass (H : CandSpec T n I med last nSwaps loss cand) {seq : List Nat}
    (hseq : ∀ j ∈ seq, j < n) (hnd : seq.Nodup) {done js : List Nat} {s : S} (hs : I s)
    (hsplit : seq = done ++ js) (hh : HistG T last med seq s)
    (hdone : ∀ x ∈ done, Settled T x (med s)) :
    (passG last cand js s = s ∧ ∀ x ∈ seq, Settled T x (med s)) ∨
    (nSwaps s < nSwaps (passG last cand js s) ∧ HistG T last med seq (passG last cand js s)) := by
  induction js generalizing done with
  | nil => left; exact ⟨rfl, by rw [hsplit]; simpa using hdone⟩
  | cons j js ih =>
    have hj : j < n := hseq j (by rw [hsplit]; simp)
    have hsplit' : seq = (done ++ [j]) ++ js := by rw [hsplit]; simp
    unfold passG
    by_cases h1 : j = last s
    · rw [if_pos h1]
      left
      refine ⟨rfl, ?_⟩
      rcases hh with hh | ⟨pre, post, e, hmed, hpost⟩
      · exact absurd (by rw [hsplit, ← h1]; simp) hh
      · have hpj : post = js := by
          rw [← h1] at e
          exact split_unique (e ▸ hsplit) (e ▸ hnd)
        subst hpj
        intro x hx
        rw [hsplit] at hx
        rcases List.mem_append.mp hx with hx | hx
        · exact hdone x hx
        · rcases List.mem_cons.mp hx with rfl | hx
          · exact Or.inl (h1 ▸ hmed)
          · exact hpost x hx
    · rw [if_neg h1]
      cases hc : cand s j with
      | none =>
        refine ih hsplit' fun x hx => ?_
        rcases List.mem_append.mp hx with hx | hx
        · exact hdone x hx
        · rw [List.mem_singleton.mp hx]; exact H.none s j hs hj hc
      | some s' =>
        obtain ⟨g1, g2, g3, g4⟩ := H.some s j s' hs hj hc
        right
        refine ⟨?_, ?_⟩
        · obtain ⟨-, c, e, -⟩ := passG_ex H (js := js)
            (fun x hx => hseq x (by rw [hsplit]; simp [hx])) g1
          dsimp only; omega
        · exact passG_after H hseq hnd g1 (pre := done) (post := [])
            (by rw [hsplit, g2]; simp) (by rw [g2]; exact g4.mem) (by simp)

/-- The whole loop. -/
theorem loopG_ex (H : CandSpec T n I med last nSwaps loss cand) {seq : List Nat}
    (hseq : ∀ j ∈ seq, j < n) {fuel iter : Nat} {s : S} (hs : I s) :
    let r := loopG (passG last cand seq) nSwaps loss fuel iter s
    I r.1 ∧ ∃ c, nSwaps r.1 = nSwaps s + c ∧ SwapChain T n c (med s) (med r.1) ∧ r.2 ≤ iter + c + 1 := by
  induction fuel generalizing iter s with
  | zero => exact ⟨hs, 0, rfl, .refl _, by simp [loopG]⟩
  | succ fuel ih =>
    obtain ⟨h1, c, h2, h3⟩ := passG_ex H hseq hs
    unfold loopG
    dsimp only
    split
    · exact ⟨h1, c, h2, h3, by dsimp only; omega⟩
    · rename_i hc
      obtain ⟨i1, c', i2, i3, i4⟩ := ih (iter := iter + 1) h1
      refine ⟨i1, c + c', by omega, h3.trans i3, ?_⟩
      have : c ≠ 0 := by
        rintro rfl; simp [h2] at hc
      omega

/-- Converged runs end in a state in which every visited object is settled. -/
theorem loopG_converged (H : CandSpec T n I med last nSwaps loss cand) {seq : List Nat}
    (hseq : ∀ j ∈ seq, j < n) (hnd : seq.Nodup) {fuel iter : Nat} {s : S} (hs : I s)
    (hh : HistG T last med seq s)
    (hconv : (loopG (passG last cand seq) nSwaps loss fuel iter s).2 < iter + fuel) :
    ∀ x ∈ seq, Settled T x (med (loopG (passG last cand seq) nSwaps loss fuel iter s).1) := by
  induction fuel generalizing iter s with
  | zero => simp [loopG] at hconv
  | succ fuel ih =>
    obtain ⟨h1, c, h2, h3⟩ := passG_ex H hseq hs
    rcases passG_pass H hseq hnd hs (done := []) (js := seq) rfl hh (by simp) with
      ⟨e, hset⟩ | ⟨hlt, hh'⟩
    · unfold loopG
      simp only [e, beq_self_eq_true, Bool.true_or, if_true]
      exact hset
    · have hdec : loss (passG last cand seq s) < loss s := by
        rw [H.loss _ h1, H.loss _ hs]; exact h3.lt (by omega)
      have hcond : (nSwaps (passG last cand seq s) == nSwaps s ||
          rge (loss (passG last cand seq s)) (loss s)) = false := by
        rw [rgeL]
        simp only [Bool.or_eq_false_iff, beq_eq_false_iff_ne, decide_eq_false_iff_not, not_le]
        exact ⟨by omega, hdec⟩
      unfold loopG at hconv ⊢
      simp only [hcond, Bool.false_eq_true, if_false] at hconv ⊢
      exact ih h1 hh' (by omega)

end first

/-- What is known about one step of a best-improvement loop. -/
structure BestSpec (T : List Nat → L) (n : Nat) (I : S → Prop) (med : S → List Nat)
    (nSwaps : S → Nat) (step : S → Option (S × Bool)) : Prop where
  none : ∀ s, I s → step s = none → ∀ x, x < n → Settled T x (med s)
  some : ∀ s s' b, I s → step s = some (s', b) →
    I s' ∧ b = false ∧ nSwaps s' = nSwaps s + 1 ∧ ∃ j, j < n ∧ Better T j (med s) (med s')

theorem loopB_ex {T : List Nat → L} {n : Nat} {I : S → Prop} {med : S → List Nat} {nSwaps : S → Nat}
    {step : S → Option (S × Bool)} (H : BestSpec T n I med nSwaps step) {fuel iter : Nat} {s : S}
    (hs : I s) :
    let r := loopB step fuel iter s
    I r.1 ∧ (∃ c, nSwaps r.1 = nSwaps s + c ∧ SwapChain T n c (med s) (med r.1) ∧ r.2 ≤ iter + c + 1) ∧
      (r.2 < iter + fuel → ∀ x, x < n → Settled T x (med r.1)) := by
  induction fuel generalizing iter s with
  | zero => exact ⟨hs, ⟨0, rfl, .refl _, by simp [loopB]⟩, by simp [loopB]⟩
  | succ fuel ih =>
    unfold loopB
    cases hst : step s with
    | none => exact ⟨hs, ⟨0, rfl, .refl _, by simp⟩, fun _ => H.none s hs hst⟩
    | some p =>
      obtain ⟨s', b⟩ := p
      obtain ⟨g1, rfl, g3, j, hj, g4⟩ := H.some s s' b hs hst
      dsimp only
      obtain ⟨i1, ⟨c, i2, i3, i4⟩, i5⟩ := ih (iter := iter + 1) g1
      exact ⟨i1, ⟨1 + c, by omega, (g4.chain hj).trans i3, by omega⟩, fun h => i5 (by omega)⟩

end KMedoids
