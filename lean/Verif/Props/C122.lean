import Verif.Props.C90
import Verif.Props.C39_C43
import Verif.Proofs.PmsBuildFixed

/-!
# C122: considering object 0 repairs the BUILD phase of PAMMEDSIL

With `.skip(1)` removed (`Model/Repaired4.lean`) BUILD of PAMMEDSIL finds the medoids of BUILD of PAM, and the full C43 holds.
-/

set_option linter.unusedSectionVars false

namespace KMedoids

open RFrom (conv)

section any
variable {N L : Type} [RDist N] [RLoss L] [RFrom N L]

/-- **C122, any arithmetic, any distances.** The repaired BUILD phase returns the medoids of `pam_build`, in the same order, and its
records hold the labels of `pam_build`. -/
theorem C122_build {mat : Mat N} {n k : Nat} {d : Nat → Nat → N} (hm : IsMatrix mat n d) (hs : Sizes n k) :
    ∃ meds data, ∃ loss loss' : L, pammedsilBuildFixed L mat k = .ok (meds, data, loss) ∧
      pamBuild L mat k = .ok ⟨loss', data.map (·.near.i), meds⟩ := by
  obtain ⟨h1, h2⟩ := fixPmsBuildP_lockstep (L := L) d n k
  refine ⟨(fixPmsBuildP L d n k).1, (fixPmsBuildP L d n k).2.1, (fixPmsBuildP L d n k).2.2, (buildP L d n k).2.2,
    (fixPmsBuild_eq hm hs).1, ?_⟩
  have h3 : (fixPmsBuildP L d n k).2.1.map (·.near.i) = (buildP L d n k).2.1.map (·.near.i) := by
    have := congrArg (List.map (·.i)) h2
    simpa only [List.map_map, Function.comp_def] using this
  rw [pamBuild_eq hm hs, h1, h3]
  rfl

/-- **C122, no panic.** -/
theorem C122_pammedsil_no_panic [SaneZero L] {mat : Mat N} {n k : Nat} {d : Nat → Nat → N} (hm : IsMatrix mat n d)
    (hs : Sizes n k) (maxiter : Nat) : ∃ r, pammedsilFixed L mat k maxiter = .ok r :=
  ⟨_, pammedsilFixed_eq hm hs maxiter⟩

end any

section exact
variable {N L : Type} [LinearOrder N] [Zero N] [RDist N] [LawfulDist N]
variable [Field L] [LinearOrder L] [IsStrictOrderedRing L] [RLoss L] [LawfulField L]
variable [RFrom N L] [LawfulFrom N L]

/-- **C122, full C43.** Every medoid of the repaired BUILD phase gives the smallest total deviation among all objects; there are
fewer than `k` only if their total deviation is 0. -/
theorem C122_greedy {mat : Mat N} {n k : Nat} {d : Nat → Nat → N} (hm : IsMatrix mat n d) (hd : Dissim n d)
    (hs : Sizes n k) {meds : List Nat} {data : List (Reco N)} {loss : L}
    (hb : pammedsilBuildFixed L mat k = .ok (meds, data, loss)) :
    1 ≤ meds.length ∧ meds.length ≤ k ∧ meds.Nodup ∧ (∀ m ∈ meds, m < n) ∧
      Greedy (totalDev (conv : N → L) n d) n meds ∧
      (meds.length < k → totalDev (conv : N → L) n d meds = 0) ∧
      meds = greedyBuild (totalDev (conv : N → L) n d) 0 n k := by
  obtain ⟨ms, dt, l1, l2, h1, h2⟩ := C122_build (L := L) hm hs
  rw [h1] at hb
  have e : ms = meds := by injection hb with hb; exact (Prod.mk.inj hb).1
  subst e
  obtain ⟨a1, a2, a3, a4, -, -⟩ := C19_pam_build hm hd hs h2
  exact ⟨a1, a2, a3, a4, (C21_pam_build hm hd hs h2).2, (C20_pam_build hm hd hs h2).1, C90_pam_build hm hd hs h2⟩

/-- **C122, C51 for the repaired function.** It is `pammedsil_swap` started from the medoids of `pam_build`. -/
theorem C122_pammedsil {mat : Mat N} {n k : Nat} {d : Nat → Nat → N} (hm : IsMatrix mat n d) (hd : Dissim n d)
    (hs : Sizes n k) (maxiter : Nat) {b : BuildResult L} (hb : pamBuild L mat k = .ok b) :
    pammedsilFixed L mat k maxiter = pammedsilSwap L mat b.med maxiter := by
  have hn : 0 < n := lt_of_lt_of_le hs.pos hs.le
  have hv := fixPmsBuildP_valid (L := L) hm hs
  have e : b.med = (fixPmsBuildP L d n k).1 := by
    rw [pamBuild_eq hm hs] at hb
    cases hb
    exact (fixPmsBuildP_lockstep d n k).1.symm
  obtain ⟨h1, h2⟩ := fixPmsBuildP_data (L := L) (k := k) hd hn
  rw [e, pammedsilFixed_eq hm hs, pammedsilSwap_eq hm hv, h1]
  congr 1
  unfold pammedsilSwapP
  by_cases hl : (fixPmsBuildP L d n k).1.length = 1
  · obtain ⟨c, hc⟩ := List.length_eq_one_iff.mp hl
    rw [hc]; rfl
  · rw [h2 (by have := hv.sizes.pos; omega)]
    rfl

/-- **C122, nothing else changes.** If the greedy search does not take object 0 as a further medoid, the repaired function is that of
the code. -/
theorem C122_same {mat : Mat N} {n k : Nat} {d : Nat → Nat → N} (hm : IsMatrix mat n d)
    (hs : Sizes n k) (maxiter : Nat) {b : BuildResult L} (hb : pamBuild L mat k = .ok b) (h0 : 0 ∉ b.med.tail) :
    pammedsilBuildFixed L mat k = pammedsilBuildInitialize L mat k ∧
      pammedsilFixed L mat k maxiter = pammedsil L mat k maxiter := by
  have hn : 0 < n := lt_of_lt_of_le hs.pos hs.le
  have e : b.med = (fixPmsBuildP L d n k).1 := by
    rw [pamBuild_eq hm hs] at hb
    cases hb
    exact (fixPmsBuildP_lockstep d n k).1.symm
  have h : pmsBuildP L d n k = fixPmsBuildP L d n k := by
    refine fixPmsBuildLoopP_same hn _ _ _ _ (by simp) ?_
    rw [e] at h0
    simpa [fixPmsBuildP] using h0
  rw [(fixPmsBuild_eq hm hs).1, (pmsBuild_eq hm hs).1, pammedsilFixed_eq hm hs, pammedsil_eq hm hs, pammedsilP, h]
  exact ⟨rfl, rfl⟩

end exact

/-- The counterexample of C43, points at 100, 0, 0, 10: object 0 is now the second medoid. -/
example : (pammedsilBuildInitialize ℚ (ofRows exSkip : Mat ℕ) 2).map (·.1) = .ok [1, 3] ∧
    (pammedsilBuildFixed ℚ (ofRows exSkip : Mat ℕ) 2).map (·.1) = .ok [1, 0] ∧
    pammedsilFixed ℚ (ofRows exSkip : Mat ℕ) 2 9 = .ok ⟨35/36, [1, 0, 0, 0], 1, 0, [1, 0]⟩ :=
  ⟨by decide +kernel, by decide +kernel, by decide +kernel⟩

/-- An outlier (object 0) and two equal objects: two medoids instead of one. -/
example : pammedsil ℚ (ofRows [[0, 6, 6], [6, 0, 0], [6, 0, 0]] : Mat ℕ) 2 9 = .ok ⟨6, [0, 0, 0], 1, 0, [1]⟩ ∧
    pammedsilFixed ℚ (ofRows [[0, 6, 6], [6, 0, 0], [6, 0, 0]] : Mat ℕ) 2 9 = .ok ⟨1, [1, 0, 0], 1, 0, [1, 0]⟩ :=
  ⟨by decide +kernel, by decide +kernel⟩

/-- The hypotheses of `C122_same`: here the greedy search takes objects 2, 4 and 5. -/
example : pammedsilFixed ℚ exMat 3 9 = pammedsil ℚ exMat 3 9 :=
  (C122_same exMat_isMatrix (ex_sizes (by decide) (by decide)) 9
    (b := ⟨3, [0, 0, 0, 1, 1, 2], [2, 4, 5]⟩) (by decide +kernel) (by decide)).2

end KMedoids
