import Verif.Proofs.Descent
import Verif.Props.C18_C23

/-!
# C55: alternating converges on symmetric matrices, and need not converge on others

Exact loss arithmetic, zero diagonal, no negative distances, distinct initial medoids.
-/

set_option linter.unusedSectionVars false

namespace KMedoids

open RFrom (conv)

section exact
variable {N L : Type} [LinearOrder N] [Zero N] [RDist N] [LawfulDist N]
variable [AddCommGroup L] [LinearOrder L] [IsOrderedAddMonoid L] [RLoss L] [LawfulLoss L]
variable [RFrom N L] [LawfulFrom N L]

/-- **C55.** On a symmetric matrix every iteration except the last decreases the total deviation, so there are
at most as many iterations as `k`-subsets of the objects. With `maxiter` above that number the function ends by
itself: then every medoid is a best member of its cluster. -/
theorem C55_alternating {mat : Mat N} {n : Nat} {d : Nat → Nat → N} (hm : IsMatrix mat n d)
    (hd : Dissim n d) (hs : Symm n d) {med : List Nat} (hv : ValidMeds n med) (hnd : med.Nodup) (maxiter : Nat)
    {r : AltResult L} (hr : alternating L mat med maxiter = .ok r) :
    r.nIter ≤ Nat.choose n med.length ∧
    (2 ≤ r.nIter → totalDev (conv : N → L) n d r.med < totalDev (conv : N → L) n d med) ∧
    (Nat.choose n med.length < maxiter → r.nIter < maxiter ∧
      ∀ m c x : Nat, r.med[m]? = some c → r.assi[x]? = some m →
        clusterSum (conv : N → L) d r.assi m c ≤ clusterSum (conv : N → L) d r.assi m x) := by
  obtain ⟨-, -, hopt⟩ := C23_alternating hm hd hv hnd maxiter hr
  rw [(alternating_eq (L := L) hm hv maxiter).1] at hr
  cases hr
  obtain ⟨c, h1, h2, h3⟩ := altLoopP_descent (L := L) hd hs (fuel := maxiter) (iter := 0)
    (loss := nearAssiLossP L d n med) hv hnd (nearAssiP_ok hd hv hnd)
  have hc := h1.count_sel (fun x y hxy => totalDev_toFinset hxy) ⟨rfl, hnd, hv.range⟩
  unfold altP at *
  refine ⟨by omega, fun h => h1.lt (by omega), fun h => ?_⟩
  have hlt : (altLoopP d n maxiter 0 (nearAssiLossP L d n med) (nearAssiP d n med) med).nIter < maxiter := by
    omega
  exact ⟨hlt, hopt hlt⟩

end exact

/-! ## Second run, any loss arithmetic -/

section dist
variable {N L : Type} [LinearOrder N] [Zero N] [RDist N] [LawfulDist N] [RLoss L] [RFrom N L]

theorem altLoopP_conv {d : Nat → Nat → N} {n fuel iter : Nat} {loss : L} {assi med : List Nat}
    (h1 : assi = nearAssiP d n med) (h2 : loss = nearAssiLossP L d n med)
    (hlt : (altLoopP d n fuel iter loss assi med).nIter < iter + fuel) :
    let r := altLoopP d n fuel iter loss assi med
    (altUpdateP L d r.assi r.med).1 = false ∧ r.assi = nearAssiP d n r.med ∧
      r.loss = nearAssiLossP L d n r.med := by
  induction fuel generalizing iter loss assi med with
  | zero => simp [altLoopP] at hlt
  | succ fuel ih =>
    unfold altLoopP at hlt ⊢
    dsimp only at hlt ⊢
    split at hlt
    · rename_i h
      have h' : (altUpdateP L d assi med).1 = false := by simpa using h
      rw [if_pos h]
      dsimp only
      rw [altUpdateP_unchanged h']
      exact ⟨h', h1, h2⟩
    · rename_i h
      rw [if_neg h]
      exact ih rfl rfl (by omega)

/-- **C55, second run.** Running alternating again on the medoids of a converged run takes one iteration and
changes nothing. The matrix can be anything, and the sums may be rounded in any way. -/
theorem C55_alternating_twice {mat : Mat N} {n : Nat} {d : Nat → Nat → N} (hm : IsMatrix mat n d)
    {med : List Nat} (hv : ValidMeds n med) {maxiter : Nat} {r : AltResult L}
    (hr : alternating L mat med maxiter = .ok r) (hlt : r.nIter < maxiter) (maxiter' : Nat) :
    alternating L mat r.med maxiter' = .ok ⟨r.loss, r.assi, min 1 maxiter', r.med⟩ := by
  obtain ⟨e, -, -, g1, g2⟩ := alternating_eq (L := L) hm hv maxiter
  rw [e] at hr
  cases hr
  have hv' : ValidMeds n (altP L d n med maxiter).med := ⟨by rw [g1]; exact hv.sizes, g2⟩
  rw [(alternating_eq (L := L) hm hv' maxiter').1]
  have hc := altLoopP_conv (L := L) (d := d) (n := n) (fuel := maxiter) (iter := 0) (med := med) rfl rfl
    (by simpa [altP] using hlt)
  change (altUpdateP L d (altP L d n med maxiter).assi (altP L d n med maxiter).med).1 = false ∧
    (altP L d n med maxiter).assi = nearAssiP d n (altP L d n med maxiter).med ∧
    (altP L d n med maxiter).loss = nearAssiLossP L d n (altP L d n med maxiter).med at hc
  generalize altP L d n med maxiter = r at hc hv' hlt ⊢
  obtain ⟨c1, c2, c3⟩ := hc
  cases maxiter' with
  | zero => simp [altP, altLoopP, ← c2, ← c3]
  | succ f =>
    unfold altP altLoopP
    dsimp only
    rw [← c2, ← c3, c1, altUpdateP_unchanged c1]
    simp

end dist

/-! ## Symmetry is needed -/

/-- Three objects on a directed ring. -/
def cycRows : List (List ℕ) := [[0, 2, 3], [3, 0, 2], [2, 3, 0]]
def cycMat : Mat ℕ := ofRows cycRows
def cycD (x y : Nat) : ℕ := (cycRows.getD x []).getD y 0

theorem cycMat_isMatrix : IsMatrix cycMat 3 cycD :=
  ⟨rfl, by decide, fun x y hx hy => by
    have : ∀ x < 3, ∀ y < 3, cycMat.get x y = .ok (cycD x y) := by decide +kernel
    exact this x hx y hy⟩

theorem cyc_step {fuel iter : Nat} {loss loss' : ℤ} {assi med med' assi' : List Nat}
    (h1 : alternatingUpdate ℤ cycMat assi med = .ok (true, med'))
    (h2 : assignNearest ℤ cycMat med' = .ok (loss', assi')) :
    alternatingLoop cycMat (fuel + 1) iter loss assi med =
      alternatingLoop cycMat fuel (iter + 1) loss' assi' med' := by
  rw [alternatingLoop, h1]
  simp only [ok_bind, Bool.not_true, Bool.false_eq_true, if_false, h2]

/-- The six states the run cycles through. -/
def cycStates : List (List Nat × List Nat) :=
  [([0, 1, 0], [0, 1]), ([1, 1, 0], [2, 1]), ([1, 0, 0], [2, 0]), ([1, 0, 1], [1, 0]), ([0, 0, 1], [1, 2]),
    ([0, 1, 1], [0, 2])]

theorem cyc_loop (fuel iter : Nat) (loss : ℤ) : ∀ s ∈ cycStates,
    ∃ r : AltResult ℤ, alternatingLoop cycMat fuel iter loss s.1 s.2 = .ok r ∧ r.nIter = iter + fuel := by
  induction fuel generalizing iter loss with
  | zero => exact fun s _ => ⟨_, rfl, rfl⟩
  | succ fuel ih =>
    intro s hs
    have hstep : ∀ s ∈ cycStates, ∃ s' ∈ cycStates,
        alternatingUpdate ℤ cycMat s.1 s.2 = .ok (true, s'.2) ∧ assignNearest ℤ cycMat s'.2 = .ok (2, s'.1) := by
      decide +kernel
    obtain ⟨s', hs', h1, h2⟩ := hstep s hs
    rw [cyc_step h1 h2]
    obtain ⟨r, hr, he⟩ := ih (iter + 1) 2 s' hs'
    exact ⟨r, hr, by omega⟩

/-- **C55, symmetry is needed.** There are three objects with an asymmetric distance that satisfies the triangle
inequality, on which alternating runs until `maxiter`, however large. -/
theorem C55_needs_symmetry : ∃ (mat : Mat ℕ) (d : Nat → Nat → ℕ), IsMatrix mat 3 d ∧ Dissim 3 d ∧
    (∀ x < 3, ∀ y < 3, x ≠ y → 0 < d x y) ∧ (∀ x < 3, ∀ y < 3, ∀ z < 3, d x z ≤ d x y + d y z) ∧
    ∃ med, ValidMeds 3 med ∧ med.Nodup ∧
      ∀ maxiter, ∃ r, alternating ℤ mat med maxiter = .ok r ∧ r.nIter = maxiter := by
  refine ⟨cycMat, cycD, cycMat_isMatrix, ⟨fun x hx => ?_, fun _ _ _ _ => Nat.zero_le _⟩, by decide, by decide,
    [0, 1], ⟨⟨by decide, by decide, by decide, by decide⟩, by decide⟩, by decide, fun maxiter => ?_⟩
  · have : ∀ x < 3, cycD x x = 0 := by decide
    exact this x hx
  · have h : assignNearest ℤ cycMat [0, 1] = .ok (2, [0, 1, 0]) := by decide +kernel
    obtain ⟨r, hr, he⟩ := cyc_loop maxiter 0 2 _ (by decide : ([0, 1, 0], [0, 1]) ∈ cycStates)
    exact ⟨r, by rw [alternating, h]; exact hr, by omega⟩

/-- The hypotheses of C55 are met; three iterations, the bound is 20. -/
example : IsMatrix exMat 6 exD ∧ Dissim 6 exD ∧ Symm 6 exD ∧ ValidMeds 6 [0, 1, 2] ∧ [0, 1, 2].Nodup ∧
    Nat.choose 6 3 = 20 ∧ alternating ℤ exMat [0, 1, 2] 21 = .ok ⟨6, [0, 1, 0, 2, 2, 2], 3, [0, 1, 4]⟩ ∧
    alternating ℤ exMat [0, 1, 4] 21 = .ok ⟨6, [0, 1, 0, 2, 2, 2], 1, [0, 1, 4]⟩ :=
  ⟨exMat_isMatrix, exD_dissim, exD_symm, ex_valid (by decide) (by decide) (by decide), by decide,
    by decide, by decide +kernel, by decide +kernel⟩

end KMedoids
