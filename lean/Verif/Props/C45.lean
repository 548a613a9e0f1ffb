import Verif.Examples
import Verif.Laws
import Verif.Proofs.Hom
import Mathlib.Data.Int.Cast.Lemmas

/-!
# C45: scale invariance and independence of the number type

A map of the number types that respects comparisons, zero, `+`, `-` and the conversion does not change the
medoids, the assignment, the counters or the panics of the PAM family, and maps the loss. Nothing is assumed
about the arithmetic itself, the matrix or the initial medoids.
-/

set_option linter.unusedSectionVars false
set_option linter.overlappingInstances false

namespace KMedoids

open RFrom (conv)

variable {N N' L L' : Type} [RDist N] [RDist N'] [RLoss L] [RLoss L'] [RFrom N L] [RFrom N' L']

/-- Two runs that agree in everything but the loss, which is mapped by `g`; the same panic if they panic. -/
def SameSwap (g : L → L') : Res (SwapResult L) → Res (SwapResult L') → Prop
  | .ok r, .ok r' => r'.med = r.med ∧ r'.assi = r.assi ∧ r'.nIter = r.nIter ∧ r'.nSwap = r.nSwap ∧
      r'.loss = g r.loss
  | .error e, .error e' => e = e'
  | _, _ => False

/-- As `SameSwap`, for BUILD. -/
def SameBuild (g : L → L') : Res (BuildResult L) → Res (BuildResult L') → Prop
  | .ok r, .ok r' => r'.med = r.med ∧ r'.assi = r.assi ∧ r'.loss = g r.loss
  | .error e, .error e' => e = e'
  | _, _ => False

/-- As `SameSwap`, for Alternating. -/
def SameAlt (g : L → L') : Res (AltResult L) → Res (AltResult L') → Prop
  | .ok r, .ok r' => r'.med = r.med ∧ r'.assi = r.assi ∧ r'.nIter = r.nIter ∧ r'.loss = g r.loss
  | .error e, .error e' => e = e'
  | _, _ => False

theorem sameSwap_of (g : L → L') {a : Res (SwapResult L)} {b : Res (SwapResult L')}
    (h : b = rmap (SwapResult.map g) a) : SameSwap g a b := by
  subst h
  cases a with
  | error e => exact rfl
  | ok r => exact ⟨rfl, rfl, rfl, rfl, rfl⟩

variable {f : N → N'} {g : L → L'}

theorem C45_fasterpam (H : NumHom f g) (mat : Mat N) (med : List Nat) (maxiter : Nat) :
    SameSwap g (fasterpam L mat med maxiter) (fasterpam L' (mat.map f) med maxiter) :=
  sameSwap_of g (H.fasterpam_hom mat med maxiter)

theorem C45_rand_fasterpam (H : NumHom f g) (mat : Mat N) (med : List Nat) (maxiter : Nat) (seq : List Nat) :
    SameSwap g (randFasterpam L mat med maxiter seq) (randFasterpam L' (mat.map f) med maxiter seq) :=
  sameSwap_of g (H.randFasterpam_hom mat med maxiter seq)

theorem C45_par_fasterpam (H : NumHom f g) (sc0 : Sched) (scF scS : Nat → Nat → Sched) (mat : Mat N)
    (med : List Nat) (maxiter : Nat) (seq : List Nat) :
    SameSwap g (parFasterpam L sc0 scF scS mat med maxiter seq)
      (parFasterpam L' sc0 scF scS (mat.map f) med maxiter seq) :=
  sameSwap_of g (H.parFasterpam_hom sc0 scF scS mat med maxiter seq)

theorem C45_fastpam1 (H : NumHom f g) (mat : Mat N) (med : List Nat) (maxiter : Nat) :
    SameSwap g (fastpam1 L mat med maxiter) (fastpam1 L' (mat.map f) med maxiter) :=
  sameSwap_of g (H.fastpam1_hom mat med maxiter)

theorem C45_pam_swap (H : NumHom f g) (mat : Mat N) (med : List Nat) (maxiter : Nat) :
    SameSwap g (pamSwap L mat med maxiter) (pamSwap L' (mat.map f) med maxiter) :=
  sameSwap_of g (H.pamSwap_hom mat med maxiter)

theorem C45_pam (H : NumHom f g) (mat : Mat N) (k maxiter : Nat) :
    SameSwap g (pam L mat k maxiter) (pam L' (mat.map f) k maxiter) :=
  sameSwap_of g (H.pam_hom mat k maxiter)

theorem C45_pam_build (H : NumHom f g) (mat : Mat N) (k : Nat) :
    SameBuild g (pamBuild L mat k) (pamBuild L' (mat.map f) k) := by
  rw [H.pamBuild_hom mat k]
  cases pamBuild L mat k with
  | error e => exact rfl
  | ok r => exact ⟨rfl, rfl, rfl⟩

theorem C45_alternating (H : NumHom f g) (mat : Mat N) (med : List Nat) (maxiter : Nat) :
    SameAlt g (alternating L mat med maxiter) (alternating L' (mat.map f) med maxiter) := by
  rw [H.alternating_hom mat med maxiter]
  cases alternating L mat med maxiter with
  | error e => exact rfl
  | ok r => exact ⟨rfl, rfl, rfl, rfl⟩

/-! ## which maps qualify -/

/-- Order-preserving additive embeddings between exact number types. -/
theorem C45_embedding [LinearOrder N] [Zero N] [LawfulDist N] [LinearOrder N'] [Zero N'] [LawfulDist N']
    [AddCommGroup L] [LinearOrder L] [LawfulLoss L] [AddCommGroup L'] [LinearOrder L'] [LawfulLoss L']
    {f : N → N'} {g : L →+ L'} (hf : StrictMono f) (hf0 : f 0 = 0) (hg : StrictMono g)
    (hc : ∀ x, g (conv x) = conv (f x)) : NumHom f g where
  distCmp x y := by
    rw [LawfulDist.pcmp_eq, LawfulDist.pcmp_eq]
    rcases lt_trichotomy x y with h | rfl | h
    · rw [compare_lt_iff_lt.mpr h, compare_lt_iff_lt.mpr (hf h)]
    · rw [compare_eq_iff_eq.mpr rfl, compare_eq_iff_eq.mpr rfl]
    · rw [compare_gt_iff_gt.mpr h, compare_gt_iff_gt.mpr (hf h)]
  distZero := by rw [LawfulDist.zero_eq, LawfulDist.zero_eq, hf0]
  lossCmp x y := by
    rw [LawfulLoss.pcmp_eq, LawfulLoss.pcmp_eq]
    rcases lt_trichotomy x y with h | rfl | h
    · rw [compare_lt_iff_lt.mpr h, compare_lt_iff_lt.mpr (hg h)]
    · rw [compare_eq_iff_eq.mpr rfl, compare_eq_iff_eq.mpr rfl]
    · rw [compare_gt_iff_gt.mpr h, compare_gt_iff_gt.mpr (hg h)]
  lossZero := by rw [LawfulLoss.zero_eq, LawfulLoss.zero_eq, map_zero]
  lossAdd x y := by rw [LawfulLoss.add_eq, LawfulLoss.add_eq, map_add]
  lossSub x y := by rw [LawfulLoss.sub_eq, LawfulLoss.sub_eq, map_sub]
  lossNeg x := by rw [LawfulLoss.neg_eq, LawfulLoss.neg_eq, map_neg]
  lossConv := hc

/-- Multiplication of all distances by a positive constant, in an exact field used for distances and losses;
the loss is multiplied by the same constant. -/
theorem C45_scale {R : Type} [Field R] [LinearOrder R] [IsStrictOrderedRing R] [RDist R] [LawfulDist R]
    [RLoss R] [LawfulLoss R] [RFrom R R] (hconv : ∀ x : R, (conv x : R) = x) {c : R} (hc : 0 < c) :
    NumHom (fun x : R => c * x) (fun l : R => c * l) :=
  C45_embedding (f := fun x : R => c * x) (g := AddMonoidHom.mulLeft c)
    (fun _ _ h => mul_lt_mul_of_pos_left h hc) (mul_zero c) (fun _ _ h => mul_lt_mul_of_pos_left h hc)
    (fun x => by rw [hconv, hconv]; rfl)

/-- Multiplication of all distances by a positive integer, with natural-number distances and integer losses. -/
theorem C45_scale_int {c : ℕ} (hc : 0 < c) : NumHom (fun x : ℕ => c * x) (fun l : ℤ => (c : ℤ) * l) :=
  C45_embedding (f := fun x : ℕ => c * x) (g := AddMonoidHom.mulLeft (c : ℤ))
    (fun _ _ h => Nat.mul_lt_mul_of_pos_left h hc) (Nat.mul_zero c)
    (fun _ _ h => mul_lt_mul_of_pos_left h (Int.natCast_pos.mpr hc))
    (fun x => by simp [conv])

/-- Integer arithmetic and rational arithmetic give the same result. -/
theorem C45_int_rat : NumHom (fun x : ℕ => x) (fun l : ℤ => (l : ℚ)) :=
  C45_embedding (N := ℕ) (N' := ℕ) (f := fun x => x) (g := Int.castAddHom ℚ) (fun _ _ h => h) rfl
    (fun _ _ h => Int.cast_lt.mpr h) (fun x => by simp [conv])

/-- An instance in which something happens: all distances times 7. -/
example : fasterpam ℤ (exMat.map (7 * ·)) [0, 1] 10 =
    .ok ⟨42, [1, 1, 1, 0, 0, 0], 2, 3, [4, 1]⟩ ∧ NumHom (fun x : ℕ => 7 * x) (fun l : ℤ => 7 * l) :=
  ⟨by decide +kernel, C45_scale_int (by decide)⟩

end KMedoids
