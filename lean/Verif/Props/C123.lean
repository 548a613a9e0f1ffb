import Verif.Props.C119

/-!
# C123: stopping and continuing PAMSIL

C90 says that PAM, FastPAM1, FastMSC and PAMMEDSIL can be stopped and continued without changing the result. For the code of
`pamsil_swap` this is false: the labels of the last candidate of the previous iteration decide which objects are tried first. For the
repaired function of C119 it is true, in any arithmetic, including loss and labels.
-/

set_option linter.unusedSectionVars false

namespace KMedoids

open RFrom (conv)

section any
variable {N L : Type} [RDist N] [RLoss L] [RFrom N L]

theorem fixPsLoopP_shift (d : Nat → Nat → N) (n k fuel iter : Nat) (sil : L) (med : List Nat) (sw : Nat) :
    fixPsLoopP d n k fuel iter sil med sw =
      ((fixPsLoopP d n k fuel 0 sil med 0).1, (fixPsLoopP d n k fuel 0 sil med 0).2.1,
        iter + (fixPsLoopP d n k fuel 0 sil med 0).2.2.1, sw + (fixPsLoopP d n k fuel 0 sil med 0).2.2.2) := by
  induction fuel generalizing iter sil med sw with
  | zero => rfl
  | succ fuel ih =>
    unfold fixPsLoopP
    dsimp only
    split
    · rw [ih (iter + 1) _ _ (sw + 1), ih (0 + 1) _ _ (0 + 1)]
      refine Prod.ext rfl (Prod.ext rfl (Prod.ext ?_ ?_)) <;> dsimp only <;> omega
    · refine Prod.ext rfl (Prod.ext rfl (Prod.ext ?_ ?_)) <;> dsimp only <;> omega

/-- `a + b` iterations are `a` iterations, and then `b` more unless the search had ended. -/
theorem fixPsLoopP_add (d : Nat → Nat → N) (n k a b : Nat) (sil : L) (med : List Nat) :
    let r1 := fixPsLoopP d n k a 0 sil med 0
    let r2 := fixPsLoopP d n k b 0 r1.1 r1.2.1 0
    let r := fixPsLoopP d n k (a + b) 0 sil med 0
    r.1 = r2.1 ∧ r.2.1 = r2.2.1 ∧ r.2.2.2 = r1.2.2.2 + r2.2.2.2 ∧
      (r.2.2.1 = r1.2.2.1 + r2.2.2.1 ∨ r.2.2.1 = r1.2.2.1 ∧ r2.2.2.2 = 0 ∧ r2.2.2.1 = min b 1) := by
  induction a generalizing sil med with
  | zero => simp [fixPsLoopP]
  | succ a ih =>
    rw [show a + 1 + b = (a + b) + 1 by omega]
    by_cases h : rgt (fixBest d n k med (sil, k, usizeMax)).1 sil = true
    · have e : ∀ f, fixPsLoopP d n k (f + 1) 0 sil med 0 =
          ((fixPsLoopP d n k f 0 (fixBest d n k med (sil, k, usizeMax)).1
              (med.set (fixBest d n k med (sil, k, usizeMax)).2.1 (fixBest d n k med (sil, k, usizeMax)).2.2) 0).1,
            (fixPsLoopP d n k f 0 (fixBest d n k med (sil, k, usizeMax)).1
              (med.set (fixBest d n k med (sil, k, usizeMax)).2.1 (fixBest d n k med (sil, k, usizeMax)).2.2) 0).2.1,
            1 + (fixPsLoopP d n k f 0 (fixBest d n k med (sil, k, usizeMax)).1
              (med.set (fixBest d n k med (sil, k, usizeMax)).2.1 (fixBest d n k med (sil, k, usizeMax)).2.2) 0).2.2.1,
            1 + (fixPsLoopP d n k f 0 (fixBest d n k med (sil, k, usizeMax)).1
              (med.set (fixBest d n k med (sil, k, usizeMax)).2.1 (fixBest d n k med (sil, k, usizeMax)).2.2) 0).2.2.2) := by
        intro f
        rw [← fixPsLoopP_shift]
        conv_lhs => unfold fixPsLoopP
        dsimp only
        rw [if_pos h]
      have hi := ih (fixBest d n k med (sil, k, usizeMax)).1
        (med.set (fixBest d n k med (sil, k, usizeMax)).2.1 (fixBest d n k med (sil, k, usizeMax)).2.2)
      dsimp only at hi ⊢
      rw [e, e]
      dsimp only
      obtain ⟨h1, h2, h3, h4⟩ := hi
      refine ⟨h1, h2, by omega, ?_⟩
      rcases h4 with h4 | ⟨h4, h5, h6⟩
      · left; omega
      · right; exact ⟨by omega, h5, h6⟩
    · have e : ∀ f, fixPsLoopP d n k (f + 1) 0 sil med 0 = (sil, med, 1, 0) := by
        intro f
        unfold fixPsLoopP
        dsimp only
        rw [if_neg h]
      dsimp only
      rw [e, e]
      dsimp only
      cases b with
      | zero => simp [fixPsLoopP]
      | succ b => rw [e]; simp

/-- **C123, repaired pamsil_swap, any arithmetic.** If the run is stopped after at most `a` iterations and continued from its medoids
for at most `b` iterations, medoids, loss, labels and swaps are those of one run. The iterations are too, except that a run that had
already ended needs one more to notice. -/
theorem C123_resume (hirr : ∀ x : L, rgt x x = false) {mat : Mat N} {n : Nat} {d : Nat → Nat → N} (hm : IsMatrix mat n d)
    {med : List Nat} (hv : ValidMeds n med) (hk : 2 ≤ med.length) (a b : Nat) {r r1 r2 : SwapResult L}
    (hr : pamsilSwapFixed L mat med (a + b) = .ok r) (hr1 : pamsilSwapFixed L mat med a = .ok r1)
    (hr2 : pamsilSwapFixed L mat r1.med b = .ok r2) :
    r2.med = r.med ∧ r2.loss = r.loss ∧ r2.assi = r.assi ∧ r1.nSwap + r2.nSwap = r.nSwap ∧
      (r1.nIter + r2.nIter = r.nIter ∨ r1.nIter = r.nIter ∧ r2.nSwap = 0 ∧ r2.nIter = min b 1) := by
  have h1 := fixPsLoopP_ok hirr (d := d) hv rfl (fuel := a) (iter := 0) (nSwaps := 0) (sil := silM L d n med) rfl
  have hadd := fixPsLoopP_add (L := L) d n med.length a b (silM L d n med) med
  have e1 := pamsilSwapFixed_eq (L := L) hirr hm hv hk a
  have e := pamsilSwapFixed_eq (L := L) hirr hm hv hk (a + b)
  dsimp only at h1 hadd e1 e
  rw [hr] at e
  rw [hr1] at e1
  generalize fixPsLoopP d n med.length a 0 (silM L d n med) med 0 = s1 at *
  generalize fixPsLoopP d n med.length (a + b) 0 (silM L d n med) med 0 = s at *
  obtain ⟨q1, q2, -, q4, -⟩ := h1
  cases e
  cases e1
  have e2 := pamsilSwapFixed_eq (L := L) hirr hm q1 (by omega) b
  dsimp only at e2 hr2
  rw [hr2, q2, ← q4] at e2
  cases e2
  dsimp only
  obtain ⟨g1, g2, g3, g4⟩ := hadd
  refine ⟨g2.symm, g1.symm, by rw [g2], g3.symm, ?_⟩
  rcases g4 with g4 | ⟨g4, g5, g6⟩
  · exact .inl g4.symm
  · exact .inr ⟨g4.symm, g5, g6⟩

/-- **C123, a larger limit, any arithmetic.** If the repaired function stops before its limit, every larger limit gives the same. -/
theorem C123_limit (hirr : ∀ x : L, rgt x x = false) {mat : Mat N} {n : Nat} {d : Nat → Nat → N} (hm : IsMatrix mat n d)
    {med : List Nat} (hv : ValidMeds n med) (hk : 2 ≤ med.length) (a b : Nat) {r : SwapResult L}
    (hr : pamsilSwapFixed L mat med a = .ok r) (hlt : r.nIter < a) : pamsilSwapFixed L mat med (a + b) = .ok r := by
  have key : ∀ (fuel : Nat) (sil : L) (med : List Nat) (iter sw : Nat),
      (fixPsLoopP d n med.length fuel iter sil med sw).2.2.1 < iter + fuel →
      fixPsLoopP d n med.length (fuel + b) iter sil med sw = fixPsLoopP d n med.length fuel iter sil med sw := by
    intro fuel
    induction fuel with
    | zero => intro sil med iter sw h; simp [fixPsLoopP] at h
    | succ fuel ih =>
      intro sil med iter sw h
      rw [show fuel + 1 + b = (fuel + b) + 1 by omega]
      unfold fixPsLoopP at h ⊢
      dsimp only at h ⊢
      split
      · rename_i hgt
        rw [if_pos hgt] at h
        have := ih (fixBest d n med.length med (sil, med.length, usizeMax)).1
          (med.set (fixBest d n med.length med (sil, med.length, usizeMax)).2.1
            (fixBest d n med.length med (sil, med.length, usizeMax)).2.2) (iter + 1) (sw + 1)
        rw [List.length_set] at this
        exact this (by omega)
      · rfl
  have e1 := pamsilSwapFixed_eq (L := L) hirr hm hv hk a
  have e := pamsilSwapFixed_eq (L := L) hirr hm hv hk (a + b)
  dsimp only at e1 e
  rw [hr] at e1
  have hl : (fixPsLoopP d n med.length a 0 (silM L d n med) med 0).2.2.1 < 0 + a := by
    have : r.nIter = (fixPsLoopP d n med.length a 0 (silM L d n med) med 0).2.2.1 := by
      injection e1 with e1; rw [e1]
    omega
  rw [e, key a _ _ _ _ hl, ← e1]

end any

/-- Stop and continue for the code of `pamsil_swap`; false, see `C123_negation`. -/
def C123_full_for_the_code : Prop := ∀ (mat : Mat ℕ) (n : Nat) (d : Nat → Nat → ℕ), IsMatrix mat n d → Dissim n d → Symm n d →
  (∀ x y, x < n → y < n → x ≠ y → 0 < d x y) → ∀ med : List Nat, ValidMeds n med → med.Nodup → 2 ≤ med.length →
  ∀ (a b : Nat) (r r1 r2 : SwapResult ℚ), pamsilSwap ℚ mat med (a + b) = .ok r → pamsilSwap ℚ mat med a = .ok r1 →
    pamsilSwap ℚ mat r1.med b = .ok r2 → r2.loss = r.loss

/-- Six objects with positive, symmetric distances. -/
def exStop : List (List ℕ) :=
  [[0, 3, 4, 3, 2, 8], [3, 0, 8, 9, 8, 5], [4, 8, 0, 4, 2, 5], [3, 9, 4, 0, 4, 7], [2, 8, 2, 4, 0, 6], [8, 5, 5, 7, 6, 0]]

theorem exStop_isMatrix : IsMatrix (ofRows exStop : Mat ℕ) 6 (rowsD exStop) :=
  ⟨rfl, rfl, fun x y hx hy => by
    have : ∀ x < 6, ∀ y < 6, (ofRows exStop : Mat ℕ).get x y = .ok (rowsD exStop x y) := by decide +kernel
    exact this x hx y hy⟩

/-- **C123, finding.** From medoids 0, 4, 2 one run of `pamsil_swap` ends with medoid 1 twice and silhouette 43/189. Stopped after one
iteration and continued it ends with medoids 5, 2, 1 and silhouette 23/90. -/
theorem C123_negation : ¬ C123_full_for_the_code := by
  intro h
  have hpos : ∀ x < 6, ∀ y < 6, x ≠ y → 0 < rowsD exStop x y := by decide +kernel
  have hsym : ∀ x < 6, ∀ y < 6, rowsD exStop x y = rowsD exStop y x := by decide +kernel
  have := h (ofRows exStop) 6 (rowsD exStop) exStop_isMatrix ⟨by decide +kernel, fun _ _ _ _ => Nat.zero_le _⟩
    (fun x y hx hy => hsym x hx y hy) (fun x y hx hy => hpos x hx y hy) [0, 4, 2]
    ⟨⟨by decide, by decide, by decide, by decide⟩, by decide⟩ (by decide) (by decide) 1 5
    ⟨43/189, [1, 2, 1, 1, 1, 0], 3, 2, [1, 4, 1]⟩ ⟨59/264, [0, 2, 1, 0, 1, 2], 1, 1, [0, 4, 1]⟩
    ⟨23/90, [2, 2, 1, 1, 1, 0], 3, 2, [5, 2, 1]⟩ (by decide +kernel) (by decide +kernel) (by decide +kernel)
  revert this
  decide +kernel

/-- The repaired function on the same matrix: three swaps, stopped after one. -/
example : ∃ r r1 r2 : SwapResult ℚ, pamsilSwapFixed ℚ (ofRows exStop : Mat ℕ) [0, 4, 2] (1 + 5) = .ok r ∧
    pamsilSwapFixed ℚ (ofRows exStop : Mat ℕ) [0, 4, 2] 1 = .ok r1 ∧ r1.med = [0, 4, 1] ∧ r1.nSwap = 1 ∧
    pamsilSwapFixed ℚ (ofRows exStop : Mat ℕ) r1.med 5 = .ok r2 ∧ r = ⟨23/90, [2, 2, 1, 1, 1, 0], 4, 3, [5, 2, 1]⟩ ∧
    r2.med = r.med ∧ r2.loss = r.loss ∧ r2.assi = r.assi ∧ r1.nSwap + r2.nSwap = r.nSwap := by
  have hv : ValidMeds 6 [0, 4, 2] := ⟨⟨by decide, by decide, by decide, by decide⟩, by decide⟩
  have hr : pamsilSwapFixed ℚ (ofRows exStop : Mat ℕ) [0, 4, 2] (1 + 5) = .ok ⟨23/90, [2, 2, 1, 1, 1, 0], 4, 3, [5, 2, 1]⟩ := by
    decide +kernel
  have hr1 : pamsilSwapFixed ℚ (ofRows exStop : Mat ℕ) [0, 4, 2] 1 = .ok ⟨59/264, [0, 2, 1, 0, 1, 2], 1, 1, [0, 4, 1]⟩ := by
    decide +kernel
  have hr2 : pamsilSwapFixed ℚ (ofRows exStop : Mat ℕ) [0, 4, 1] 5 = .ok ⟨23/90, [2, 2, 1, 1, 1, 0], 3, 2, [5, 2, 1]⟩ := by
    decide +kernel
  obtain ⟨a1, a2, a3, a4, -⟩ := C123_resume rgtL_irrefl exStop_isMatrix hv (by decide) 1 5 hr hr1 hr2
  exact ⟨_, _, _, hr, hr1, rfl, rfl, hr2, rfl, a1, a2, a3, a4⟩

/-- The hypotheses of `C123_limit`. -/
example : pamsilSwapFixed ℚ (ofRows exStop : Mat ℕ) [0, 4, 2] (6 + 1000) =
    .ok ⟨23/90, [2, 2, 1, 1, 1, 0], 4, 3, [5, 2, 1]⟩ :=
  C123_limit rgtL_irrefl exStop_isMatrix ⟨⟨by decide, by decide, by decide, by decide⟩, by decide⟩ (by decide) 6 1000
    (by decide +kernel) (by decide)

end KMedoids
