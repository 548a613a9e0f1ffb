import Verif.Proofs.Iter

/-!
# Closure properties used for C60

`StopsSame` and `PanicsSame` describe a function of the iteration limit; both are preserved by the
constructs from which the optimisers are built.
-/

set_option linter.unusedSectionVars false

namespace KMedoids

variable {N L : Type} [RDist N] [RLoss L] [RFrom N L] {R A S : Type}

/-- A run that used fewer iterations than the limit is the run for every limit it does not exceed. -/
def StopsSame (nIter : R → Nat) (f : Nat → Res R) : Prop :=
  ∀ m r, f m = .ok r → nIter r < m → ∀ m', nIter r ≤ m' → f m' = .ok r

/-- A panic within some limit is the outcome for every larger limit. -/
def PanicsSame (f : Nat → Res R) : Prop :=
  ∀ m e, f m = .error e → ∀ m', m ≤ m' → f m' = .error e

theorem StopsSame.const {nIter : R → Nat} {x : Res R} : StopsSame nIter (fun _ => x) :=
  fun _ _ h _ _ _ => h

theorem PanicsSame.const {x : Res R} : PanicsSame (fun _ => x) := fun _ _ h _ _ => h

theorem StopsSame.bind {nIter : R → Nat} {x : Res A} {f : A → Nat → Res R}
    (h : ∀ a, StopsSame nIter (f a)) : StopsSame nIter (fun m => x >>= fun a => f a m) := by
  cases x with
  | error e => exact StopsSame.const
  | ok a => exact h a

theorem PanicsSame.bind {x : Res A} {f : A → Nat → Res R}
    (h : ∀ a, PanicsSame (f a)) : PanicsSame (fun m => x >>= fun a => f a m) := by
  cases x with
  | error e => exact PanicsSame.const
  | ok a => exact h a

theorem StopsSame.ite {nIter : R → Nat} {c : Prop} [Decidable c] {f g : Nat → Res R}
    (hf : StopsSame nIter f) (hg : StopsSame nIter g) : StopsSame nIter (fun m => if c then f m else g m) := by
  by_cases h : c
  · simpa only [if_pos h] using hf
  · simpa only [if_neg h] using hg

theorem PanicsSame.ite {c : Prop} [Decidable c] {f g : Nat → Res R}
    (hf : PanicsSame f) (hg : PanicsSame g) : PanicsSame (fun m => if c then f m else g m) := by
  by_cases h : c
  · simpa only [if_pos h] using hf
  · simpa only [if_neg h] using hg

/-- What follows the loop may panic; it does not depend on the limit. -/
theorem StopsSame.iter {nIter : R → Nat} {step : Nat → S → Res (S × Bool)} {s : S}
    {g : S × Nat → Res R} (hg : ∀ x r, g x = .ok r → nIter r = x.2) :
    StopsSame nIter (fun m => iterR step m 0 s >>= g) := by
  intro m r h hr m' hm'
  obtain ⟨x, hx, h⟩ := bind_eq_ok.mp h
  have hn := hg x r h
  show iterR step m' 0 s >>= g = .ok r
  rw [iterR_stop (t := x.1) (j := x.2) hx (by omega) (fuel' := m') (by omega)]
  exact h

theorem PanicsSame.iter {step : Nat → S → Res (S × Bool)} {s : S} {g : S × Nat → R} :
    PanicsSame (fun m => iterR step m 0 s >>= fun x => .ok (g x)) := by
  intro m e h m' hm'
  cases hx : iterR step m 0 s with
  | ok x => simp only [hx] at h; cases h
  | error e' =>
    simp only [hx] at h ⊢
    rw [iterR_error hx hm']
    exact h

end KMedoids
