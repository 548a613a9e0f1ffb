import Verif.Proofs.Quiet
import Verif.Proofs.RelErr

/-!
# Errors in the loops

`V` is the exact objective of a state (to be minimised), `loss` the computed one. If every exchange makes `V` worse by at
most `E`, and the computed losses are accurate, then so does, up to a few `E`, the whole loop: it stops as soon as the
computed loss does not decrease.
-/

set_option linter.unusedSectionVars false

namespace KMedoids

variable {S L K : Type} [RLoss L] [Field K] [LinearOrder K] [IsStrictOrderedRing K]
variable {fin : L → Prop} {val : L → K} {u B : K}

/-- Computed losses in the right order. -/
theorem near_le {e0 E : K} (h2 : 2 * e0 ≤ E) {x y S T : K} (hx : |x - S| ≤ e0) (hy : |y - T| ≤ e0) (h : x ≤ y) :
    S ≤ T + E := by
  have h5 := (abs_le.mp hx).1
  have h6 := (abs_le.mp hy).2
  linarith

/-! ## First improvement -/

section first
variable {n : Nat} {I : S → Prop} {last nSwaps : S → Nat} {cand : S → Nat → Option S} {Rej : S → Nat → Prop}

theorem passG_step (H : CandRej n I last nSwaps cand Rej) {V : S → K} {E : K}
    (hc : ∀ s j s', I s → j < n → cand s j = some s' → V s' ≤ V s + E) {js : List Nat} (hjs : ∀ j ∈ js, j < n) {s : S}
    (hs : I s) : ∃ c ≤ js.length, nSwaps (passG last cand js s) = nSwaps s + c ∧ I (passG last cand js s) ∧
      V (passG last cand js s) ≤ V s + c * E := by
  induction js generalizing s with
  | nil => exact ⟨0, le_rfl, rfl, hs, by simp [passG]⟩
  | cons j js ih =>
    have hj := hjs j (by simp)
    have ih' := fun {s : S} => ih (s := s) fun x hx => hjs x (by simp [hx])
    unfold passG
    split
    · exact ⟨0, Nat.zero_le _, rfl, hs, by simp⟩
    · split
      · obtain ⟨c, c1, c2⟩ := ih' hs
        exact ⟨c, c1.trans (by simp), c2⟩
      · rename_i s' h'
        obtain ⟨a1, -, a3, -⟩ := H.some s j s' hs hj h'
        obtain ⟨c, c1, c2, c3, c4⟩ := ih' a1
        have h1 := hc s j s' hs hj h'
        refine ⟨c + 1, by simpa using c1, by rw [c2, a3]; omega, c3, ?_⟩
        push_cast
        linarith

/-- The first bound grows with the number of exchanges, the second one does not. -/
theorem loopG_step (M : StdModel fin val u B) (H : CandRej n I last nSwaps cand Rej) {V : S → K} {loss : S → L} {E e0 : K}
    (hE : 0 ≤ E) (h2 : 2 * e0 ≤ E) (hc : ∀ s j s', I s → j < n → cand s j = some s' → V s' ≤ V s + E)
    (hl : ∀ s, I s → fin (loss s) ∧ |val (loss s) - V s| ≤ e0) {seq : List Nat} (hseq : ∀ j ∈ seq, j < n)
    {fuel iter : Nat} {s : S} (hs : I s) {T x : K} (hx : |x - T| ≤ e0) (hxs : val (loss s) ≤ x) :
    (∃ c, nSwaps (loopG (passG last cand seq) nSwaps loss fuel iter s).1 = nSwaps s + c ∧
      V (loopG (passG last cand seq) nSwaps loss fuel iter s).1 ≤ V s + c * E) ∧
    V (loopG (passG last cand seq) nSwaps loss fuel iter s).1 ≤ T + ((seq.length : K) + 1) * E := by
  induction fuel generalizing iter s with
  | zero =>
    refine ⟨⟨0, rfl, by simp [loopG]⟩, ?_⟩
    have h1 := near_le h2 (hl s hs).2 hx hxs
    have h3 : 0 ≤ (seq.length : K) * E := mul_nonneg (Nat.cast_nonneg _) hE
    show V s ≤ _
    linarith
  | succ fuel ih =>
    obtain ⟨c, c1, c2, c3, c4⟩ := passG_step H hc hseq hs
    unfold loopG
    dsimp only
    split
    · refine ⟨⟨c, c2, c4⟩, ?_⟩
      have h1 := near_le h2 (hl s hs).2 hx hxs
      have h3 : (c : K) * E ≤ seq.length * E := mul_le_mul_of_nonneg_right (by exact_mod_cast c1) hE
      linarith
    · rename_i hcc
      simp only [Bool.or_eq_true, not_or] at hcc
      have hlt := not_le.mp fun h => hcc.2 ((M.rge_iff (hl _ c3).1 (hl _ hs).1).mpr h)
      obtain ⟨⟨c', d1, d2⟩, d3⟩ := ih (iter := iter + 1) c3 (hlt.le.trans hxs)
      refine ⟨⟨c + c', by rw [d1, c2]; omega, ?_⟩, d3⟩
      push_cast
      linarith

end first

/-! ## Best improvement -/

section best
variable {I : S → Prop} {nSwaps : S → Nat} {step : S → Option (S × Bool)}

/-- An iteration without exchange is the last one. -/
theorem loopB_quiet (hi : ∀ s s' b, I s → step s = some (s', b) → nSwaps s' = nSwaps s + 1 ∧ (b = false → I s'))
    {fuel iter : Nat} {s : S} (hs : I s)
    (h : nSwaps (loopB step fuel iter s).1 + iter < nSwaps s + (loopB step fuel iter s).2) :
    I (loopB step fuel iter s).1 ∧ step (loopB step fuel iter s).1 = none := by
  induction fuel generalizing iter s with
  | zero => simp [loopB] at h
  | succ fuel ih =>
    unfold loopB at h ⊢
    cases hst : step s with
    | none => simp only [hst]; exact ⟨hs, trivial⟩
    | some p =>
      obtain ⟨s', b⟩ := p
      obtain ⟨h1, h2⟩ := hi s s' b hs hst
      cases b with
      | true => simp only [hst] at h; omega
      | false =>
        simp only [hst] at h ⊢
        exact ih (h2 rfl) (by omega)

/-- What is known of a step: `s1` is the state after the exchange with its own computed loss. -/
structure StepErr (val : L → K) (I : S → Prop) (nSwaps : S → Nat) (V : S → K) (loss : S → L) (E : K) (s s' : S) (b : Bool) :
    Prop where
  count : nSwaps s' = nSwaps s + 1
  le : V s' ≤ V s + E
  go : b = false → I s' ∧ val (loss s') < val (loss s)
  stop : b = true → loss s' = loss s ∧ ∃ s1, I s1 ∧ V s1 = V s' ∧ val (loss s) ≤ val (loss s1)

/-- The objective gets hardly worse, and the loss kept in the state is accurate. -/
theorem loopB_step {V : S → K} {loss : S → L} {E e0 : K} (hE : 0 ≤ E) (h2 : 2 * e0 ≤ E)
    (hl : ∀ s, I s → |val (loss s) - V s| ≤ e0)
    (hstep : ∀ s s' b, I s → step s = some (s', b) → StepErr val I nSwaps V loss E s s' b)
    {fuel iter : Nat} {s : S} (hs : I s) {T x : K} (hx : |x - T| ≤ e0) (hxs : val (loss s) ≤ x) :
    (∃ c, nSwaps (loopB step fuel iter s).1 = nSwaps s + c ∧ V (loopB step fuel iter s).1 ≤ V s + c * E) ∧
    V (loopB step fuel iter s).1 ≤ T + 2 * E ∧
    ∃ s0, I s0 ∧ loss (loopB step fuel iter s).1 = loss s0 ∧ |V s0 - V (loopB step fuel iter s).1| ≤ E := by
  induction fuel generalizing iter s with
  | zero =>
    have h1 := near_le h2 (hl s hs) hx hxs
    exact ⟨⟨0, rfl, by simp [loopB]⟩, by show V s ≤ _; linarith, s, hs, rfl, by simpa [loopB] using hE⟩
  | succ fuel ih =>
    have h1 := near_le h2 (hl s hs) hx hxs
    unfold loopB
    cases hst : step s with
    | none => exact ⟨⟨0, rfl, by simp⟩, by dsimp only; linarith, s, hs, rfl, by simpa using hE⟩
    | some p =>
      obtain ⟨s', b⟩ := p
      have g := hstep s s' b hs hst
      cases b with
      | true =>
        dsimp only
        obtain ⟨g1, s1, g2, g3, g4⟩ := g.stop rfl
        have h3 := near_le h2 (hl s hs) (hl s1 g2) g4
        have h4 := g.le
        refine ⟨⟨1, g.count, by simpa using h4⟩, by linarith, s, hs, g1, ?_⟩
        rw [abs_le, ← g3]
        rw [← g3] at h4
        constructor <;> linarith
      | false =>
        dsimp only
        obtain ⟨g1, g2⟩ := g.go rfl
        obtain ⟨⟨c, c1, c2⟩, c3, c4⟩ := ih (iter := iter + 1) g1 (g2.le.trans hxs)
        refine ⟨⟨1 + c, by rw [c1, g.count]; omega, ?_⟩, c3, c4⟩
        push_cast
        linarith [g.le]

end best

end KMedoids
