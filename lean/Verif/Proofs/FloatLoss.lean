import Verif.Ieee
import Verif.Proofs.Loss

/-!
# Floating point losses

`FloatLoss`: the standard model for losses together with a conversion of distances.
-/

set_option linter.unusedSectionVars false
set_option linter.overlappingInstances false

namespace KMedoids

variable {N L K : Type} [LinearOrder N] [Zero N] [RDist N] [LawfulDist N] [RLoss L] [RFrom N L]
  [Field K] [LinearOrder K] [IsStrictOrderedRing K]
open RFrom (conv)

/-- Floating point losses for distances of type `N`: the standard model, and the conversion gives finite numbers, is
monotone and maps zero to zero. -/
structure FloatLoss (N : Type) {L K : Type} [LinearOrder N] [Zero N] [RLoss L] [RFrom N L] [Field K] [LinearOrder K]
    [IsStrictOrderedRing K] (fin : L → Prop) (val : L → K) (u B : K) : Prop where
  std : StdModel fin val u B
  conv_fin : ∀ x : N, fin (conv x : L)
  conv_mono : Monotone fun x : N => val (conv x : L)
  conv_zero : (conv (0 : N) : L) = RLoss.zero

/-- IEEE 754: distances are finite numbers of a format, the loss has the same format. -/
theorem ieee_floatLoss (F : Fmt) :
    FloatLoss (Finite F) (Ieee.Fin (F := F)) Ieee.val (1 / 2 ^ F.p) (2 ^ (F.emax - 1)) where
  std := Ieee.stdModel F
  conv_fin x := ⟨x.q, rfl, x.rep ▸ F.rnd_grid x.q⟩
  conv_mono _ _ h := h
  conv_zero := rfl

variable {fin : L → Prop} {val : L → K} {u B : K}

/-- The exact total deviation, in terms of the values of the converted distances. -/
abbrev exactDev (N : Type) {L K : Type} [LinearOrder N] [Zero N] [RFrom N L] [Field K] (val : L → K) (n : Nat)
    (d : Nat → Nat → N) (med : List Nat) : K :=
  totalDev (fun x : N => val (conv x : L)) n d med

theorem FloatLoss.val_nonneg (M : FloatLoss N fin val u B) {x : N} (h : 0 ≤ x) : 0 ≤ val (conv x : L) := by
  have : val (conv (0 : N) : L) ≤ val (conv x : L) := M.conv_mono h
  rwa [M.conv_zero, M.std.zero] at this

theorem minDist_nonneg {n : Nat} {d : Nat → Nat → N} (hd : Dissim n d) {med : List Nat} (hne : med ≠ [])
    (hr : ∀ c ∈ med, c < n) {o : Nat} (ho : o < n) : 0 ≤ minDist d o med := by
  obtain ⟨c, hc, e⟩ := (minDist_spec d o med hne).1
  exact e ▸ hd.nonneg o c ho (hr c hc)

end KMedoids
