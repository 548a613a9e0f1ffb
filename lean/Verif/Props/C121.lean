import Verif.Props.C24_C28
import Verif.Proofs.SilFixed

/-!
# C121: skipping empty clusters repairs the silhouettes

`silhouette` gives the worst value if a label is unused (C26), `par_silhouette` if there is only one cluster (C27).
With the one change of `Model/Repaired3.lean` the full statements of both hold.
-/

set_option linter.unusedSectionVars false

namespace KMedoids

open RFrom (conv)

section any
variable {N L : Type} [RDist N] [RLoss L] [RFrom N L]

/-- **C121, full C27, any arithmetic.** The repaired `par_silhouette` returns the value of the repaired `silhouette`, whatever the
labels, operation by operation; the samples are one per object, or none. -/
theorem C121_par {mat : Mat N} {n : Nat} {d : Nat → Nat → N} (hm : IsMatrix mat n d)
    {assi : List Nat} (hl : assi.length ≤ n) (samples : Bool) :
    ∃ (avg : L) (sil : List L), parSilhouetteFixed L mat assi = .ok avg ∧
      silhouetteFixed L mat assi samples = .ok (avg, sil) ∧ sil.length = if samples then assi.length else 0 := by
  refine ⟨_, _, parSilhouetteFixed_eq hm hl, silhouetteFixed_eq hm hl samples, ?_⟩
  cases samples <;> simp [fixSilValsP]

/-- **C121, nothing else changes, any arithmetic.** With at least two clusters and no unused label the repaired functions are
those of the code. -/
theorem C121_same {mat : Mat N} {n : Nat} {d : Nat → Nat → N} (hm : IsMatrix mat n d)
    {assi : List Nat} (hl : assi.length ≤ n) (hg : NoGap assi) (h1 : 1 ∈ assi) (samples : Bool) :
    silhouetteFixed L mat assi samples = silhouette L mat assi samples ∧
      parSilhouetteFixed L mat assi = parSilhouette L mat assi := by
  have hv : fixSilValsP L d assi = silValsP L d assi := by
    refine List.map_congr_left fun p hp => ?_
    exact fixSilValueP_same d hg h1 (mem_zipIdx_get hp)
  have hb : bufLen assi ≠ 1 := by have := lt_bufLen h1; omega
  rw [silhouetteFixed_eq hm hl, silhouette_eq hm hl, parSilhouetteFixed_eq hm hl, parSilhouette_eq hm hl,
    silhouetteP, if_neg hb, fixSilAvgP, silAvgP, hv]
  exact ⟨rfl, rfl⟩

end any

section exact
variable {N L : Type} [LinearOrder N] [Zero N] [RDist N] [LawfulDist N]
variable [Field L] [LinearOrder L] [IsStrictOrderedRing L] [RLoss L] [LawfulField L]
variable [RFrom N L] [LawfulFrom N L]

/-- **C121, full C24.** Whatever the labels, the repaired functions return the mean of the textbook silhouettes, and them as
samples. -/
theorem C121_silhouette {mat : Mat N} {n : Nat} {d : Nat → Nat → N} (hm : IsMatrix mat n d)
    (hnn : ∀ x y, x < n → y < n → 0 ≤ d x y) {assi : List Nat} (hl : assi.length ≤ n) (hu : n ≤ u32Max)
    (h0 : assi ≠ []) :
    silhouetteFixed L mat assi true =
      .ok (mean (silList (conv : N → L) d assi), silList (conv : N → L) d assi) ∧
    silhouetteFixed L mat assi false = .ok (mean (silList (conv : N → L) d assi), []) ∧
    parSilhouetteFixed L mat assi = .ok (mean (silList (conv : N → L) d assi)) := by
  have hv : fixSilValsP L d assi = silList (conv : N → L) d assi := by
    refine List.map_congr_left fun p hp => ?_
    have hp2 := mem_zipIdx_lt hp
    exact fixSilValueP_eq (fun j hj => hnn _ _ (by omega) (by omega)) (mem_zipIdx_get hp)
  have ha : fixSilAvgP L d assi = mean (silList (conv : N → L) d assi) := by
    rw [fixSilAvgP, hv, sum_foldl, ofU32L, asU32_le (by omega),
      divL _ (by exact_mod_cast (List.length_pos_iff.mpr h0).ne'), mean]
    simp [silList]
  rw [silhouetteFixed_eq hm hl, silhouetteFixed_eq hm hl, parSilhouetteFixed_eq hm hl, ha, hv]
  exact ⟨rfl, rfl, rfl⟩

/-- **C121, full C26.** Renaming the labels changes neither average nor samples, also if labels become unused. -/
theorem C121_rename {mat : Mat N} {n : Nat} {d : Nat → Nat → N} (hm : IsMatrix mat n d)
    (hnn : ∀ x y, x < n → y < n → 0 ≤ d x y) {assi : List Nat} (hl : assi.length ≤ n) (hu : n ≤ u32Max)
    (h0 : assi ≠ []) (f : Nat → Nat) (hf : ∀ a ∈ assi, ∀ b ∈ assi, f a = f b → a = b) (samples : Bool) :
    silhouetteFixed L mat (assi.map f) samples = silhouetteFixed L mat assi samples ∧
      parSilhouetteFixed L mat (assi.map f) = parSilhouetteFixed L mat assi := by
  have h1 := C121_silhouette (L := L) hm hnn hl hu h0
  have h2 := C121_silhouette (L := L) hm hnn (assi := assi.map f) (by simpa using hl) hu (by simpa using h0)
  rw [silList_map d hf] at h2
  refine ⟨?_, by rw [h1.2.2, h2.2.2]⟩
  cases samples
  · rw [h1.2.1, h2.2.1]
  · rw [h1.1, h2.1]

end exact

/-- The counterexample of C26: labels 0, 0, 0, 2, 2, 2. The code returns -1. -/
example : silhouette ℚ exMat [0, 0, 0, 2, 2, 2] false = .ok (-1, []) ∧
    silhouetteFixed ℚ exMat [0, 0, 0, 2, 2, 2] false = .ok (42871 / 62118, []) ∧
    silhouetteFixed ℚ exMat [0, 0, 0, 1, 1, 1] false = .ok (42871 / 62118, []) :=
  ⟨by decide +kernel, by decide +kernel, by decide +kernel⟩

example : silhouetteFixed ℚ exMat ([0, 0, 0, 1, 1, 1].map (2 * ·)) true =
    silhouetteFixed ℚ exMat [0, 0, 0, 1, 1, 1] true :=
  (C121_rename exMat_isMatrix (fun x y _ _ => Nat.zero_le _) (by decide) (by decide) (by decide) _
    (fun a _ b _ h => by omega) true).1

/-- The counterexample of C27: a single cluster. The parallel code returns -1. -/
example : parSilhouette ℚ (ofRows [[0, 1], [1, 0]] : Mat ℕ) [0, 0] = .ok (-1) ∧
    parSilhouetteFixed ℚ (ofRows [[0, 1], [1, 0]] : Mat ℕ) [0, 0] = .ok 0 ∧
    silhouetteFixed ℚ (ofRows [[0, 1], [1, 0]] : Mat ℕ) [0, 0] true = .ok (0, [0, 0]) :=
  ⟨by decide +kernel, by decide +kernel, by decide +kernel⟩

/-- A single cluster with another label. -/
example : silhouette ℚ exMat [3, 3, 3, 3, 3, 3] false = .ok (-1, []) ∧
    silhouetteFixed ℚ exMat [3, 3, 3, 3, 3, 3] false = .ok (0, []) :=
  ⟨by decide +kernel, by decide +kernel⟩

/-- Three clusters without unused labels, one a singleton: nothing changes. -/
example : silhouetteFixed ℚ exMat [0, 0, 0, 1, 1, 2] true = silhouette ℚ exMat [0, 0, 0, 1, 1, 2] true := by
  refine (C121_same exMat_isMatrix (by decide) (fun c c' h h' => ?_) (by decide) true).1
  have : c' ≤ 2 := by simp at h'; omega
  have : c = 0 ∨ c = 1 ∨ c = 2 := by omega
  rcases this with rfl | rfl | rfl <;> decide

end KMedoids
