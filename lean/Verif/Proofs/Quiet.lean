import Verif.Proofs.GenLoops

/-!
# The last pass of a first-improvement loop, for any arithmetic

`Rej s j` – object `j` is rejected in state `s`. If the last pass made no exchange, every object is rejected in the final
state, although the pass may have stopped early at the object of the last exchange.
-/

namespace KMedoids

variable {S : Type} {L : Type} [RLoss L]

/-- What is known about one candidate. -/
structure CandRej (n : Nat) (I : S → Prop) (last nSwaps : S → Nat) (cand : S → Nat → Option S)
    (Rej : S → Nat → Prop) : Prop where
  none : ∀ s j, I s → j < n → cand s j = none → Rej s j
  some : ∀ s j s', I s → j < n → cand s j = some s' → I s' ∧ last s' = j ∧ nSwaps s' = nSwaps s + 1 ∧ Rej s' j

/-- All objects after the last exchange in the visiting order are rejected. -/
def HistR (last : S → Nat) (Rej : S → Nat → Prop) (seq : List Nat) (s : S) : Prop :=
  last s ∉ seq ∨ ∃ pre post, seq = pre ++ last s :: post ∧ Rej s (last s) ∧ ∀ x ∈ post, Rej s x

variable {n : Nat} {I : S → Prop} {last nSwaps : S → Nat} {cand : S → Nat → Option S} {Rej : S → Nat → Prop}

theorem passG_count (H : CandRej n I last nSwaps cand Rej) {js : List Nat} (hjs : ∀ j ∈ js, j < n) {s : S} (hs : I s) :
    I (passG last cand js s) ∧ nSwaps s ≤ nSwaps (passG last cand js s) := by
  induction js generalizing s with
  | nil => exact ⟨hs, le_rfl⟩
  | cons j js ih =>
    have ih' := fun {s : S} (hs : I s) => ih (fun x hx => hjs x (by simp [hx])) hs
    unfold passG
    split
    · exact ⟨hs, le_rfl⟩
    · split
      · exact ih' hs
      · rename_i s' hc
        obtain ⟨h1, -, h3, -⟩ := H.some s j s' hs (hjs j (by simp)) hc
        have := ih' h1
        exact ⟨this.1, by omega⟩

theorem passG_afterR (H : CandRej n I last nSwaps cand Rej) {seq : List Nat}
    (hseq : ∀ j ∈ seq, j < n) (hnd : seq.Nodup) {pre post js : List Nat} {s : S} (hs : I s)
    (hsplit : seq = (pre ++ last s :: post) ++ js) (hl : Rej s (last s)) (hpost : ∀ x ∈ post, Rej s x) :
    HistR last Rej seq (passG last cand js s) := by
  induction js generalizing s pre post with
  | nil => right; exact ⟨pre, post, by simpa [passG] using hsplit, hl, hpost⟩
  | cons j js ih =>
    have hj : j < n := hseq j (by rw [hsplit]; simp)
    have h1 : j ≠ last s := by
      intro h
      rw [hsplit, List.nodup_append] at hnd
      exact hnd.2.2 (last s) (by simp) j (by simp) h.symm
    unfold passG
    rw [if_neg h1]
    split
    · rename_i hc
      refine ih hs (pre := pre) (post := post ++ [j]) (by rw [hsplit]; simp) hl fun x hx => ?_
      rcases List.mem_append.mp hx with hx | hx
      · exact hpost x hx
      · rw [List.mem_singleton.mp hx]; exact H.none s j hs hj hc
    · rename_i s' hc
      obtain ⟨h1, h2, -, h4⟩ := H.some s j s' hs hj hc
      exact ih h1 (pre := pre ++ last s :: post) (post := []) (by rw [hsplit, h2]; simp) (h2.symm ▸ h4) (by simp)

/-- A pass either changes nothing and rejects all objects, or performs an exchange. -/
theorem passG_passR (H : CandRej n I last nSwaps cand Rej) {seq : List Nat}
    (hseq : ∀ j ∈ seq, j < n) (hnd : seq.Nodup) {done js : List Nat} {s : S} (hs : I s)
    (hsplit : seq = done ++ js) (hh : HistR last Rej seq s) (hdone : ∀ x ∈ done, Rej s x) :
    (passG last cand js s = s ∧ ∀ x ∈ seq, Rej s x) ∨
    (nSwaps s < nSwaps (passG last cand js s) ∧ HistR last Rej seq (passG last cand js s)) := by
  induction js generalizing done with
  | nil => left; exact ⟨rfl, by rw [hsplit]; simpa using hdone⟩
  | cons j js ih =>
    have hj : j < n := hseq j (by rw [hsplit]; simp)
    unfold passG
    by_cases h1 : j = last s
    · rw [if_pos h1]
      left
      refine ⟨rfl, ?_⟩
      rcases hh with hh | ⟨pre, post, e, hl, hpost⟩
      · exact absurd (by rw [hsplit, ← h1]; simp) hh
      · have hpj : post = js := by
          rw [← h1] at e
          exact split_unique (e ▸ hsplit) (e ▸ hnd)
        subst hpj
        intro x hx
        rw [hsplit] at hx
        rcases List.mem_append.mp hx with hx | hx
        · exact hdone x hx
        · rcases List.mem_cons.mp hx with rfl | hx
          · rw [h1]; exact hl
          · exact hpost x hx
    · rw [if_neg h1]
      split
      · rename_i hc
        refine ih (done := done ++ [j]) (by rw [hsplit]; simp) fun x hx => ?_
        rcases List.mem_append.mp hx with hx | hx
        · exact hdone x hx
        · rw [List.mem_singleton.mp hx]; exact H.none s j hs hj hc
      · rename_i s' hc
        obtain ⟨h1, h2, h3, h4⟩ := H.some s j s' hs hj hc
        right
        refine ⟨?_, passG_afterR H hseq hnd h1 (pre := done) (post := []) (by rw [hsplit, h2]; simp) (h2.symm ▸ h4)
          (by simp)⟩
        have := (passG_count H (js := js) (fun x hx => hseq x (by rw [hsplit]; simp [hx])) h1).2
        omega

/-- `loopG` with one more pass allowed, if that pass is made. -/
theorem loopG_succ {pass : S → S} {loss : S → L} {fuel iter : Nat} {s : S}
    (h : (loopG pass nSwaps loss (fuel + 1) iter s).2 = iter + fuel + 1) :
    (loopG pass nSwaps loss (fuel + 1) iter s).1 = pass (loopG pass nSwaps loss fuel iter s).1 := by
  induction fuel generalizing iter s with
  | zero =>
    simp only [loopG]
    split <;> rfl
  | succ fuel ih =>
    rw [loopG] at h ⊢
    by_cases hc : (nSwaps (pass s) == nSwaps s || rge (loss (pass s)) (loss s)) = true
    · rw [if_pos hc] at h; dsimp only at h; omega
    · rw [if_neg hc] at h ⊢
      rw [ih (by rw [h]; omega)]
      conv_rhs => rw [loopG]
      rw [if_neg hc]

/-- **The last pass made no exchange: all objects are rejected.** -/
theorem loopG_quiet (H : CandRej n I last nSwaps cand Rej) {loss : S → L} {seq : List Nat} (hseq : ∀ j ∈ seq, j < n)
    (hnd : seq.Nodup) {s : S} (hs : I s) (hh : HistR last Rej seq s) {fuel iter : Nat}
    (hit : (loopG (passG last cand seq) nSwaps loss (fuel + 1) iter s).2 = iter + fuel + 1)
    (hq : nSwaps (loopG (passG last cand seq) nSwaps loss (fuel + 1) iter s).1 =
      nSwaps (loopG (passG last cand seq) nSwaps loss fuel iter s).1) :
    I (loopG (passG last cand seq) nSwaps loss (fuel + 1) iter s).1 ∧
      ∀ x ∈ seq, Rej (loopG (passG last cand seq) nSwaps loss (fuel + 1) iter s).1 x := by
  have hinv : ∀ s, I s ∧ HistR last Rej seq s →
      I (passG last cand seq s) ∧ HistR last Rej seq (passG last cand seq s) := by
    rintro s ⟨h1, h2⟩
    refine ⟨(passG_count H hseq h1).1, ?_⟩
    rcases passG_passR H hseq hnd h1 (done := []) rfl h2 (by simp) with ⟨e, -⟩ | ⟨-, h⟩
    · rw [e]; exact h2
    · exact h
  obtain ⟨h1, h2⟩ := (loopG_inv (L := L) (loss := loss) (nSwaps := nSwaps) (fuel := fuel) (iter := iter) _ hinv ⟨hs, hh⟩).1
  rw [loopG_succ hit] at hq ⊢
  rcases passG_passR H hseq hnd h1 (done := []) rfl h2 (by simp) with ⟨e, h⟩ | ⟨h, -⟩
  · rw [e]; exact ⟨h1, h⟩
  · omega

end KMedoids
