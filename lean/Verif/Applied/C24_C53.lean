import Verif.ExampleRuns
import Verif.Props.C24_C28
import Verif.Props.C29_C35
import Verif.Props.C36_C38
import Verif.Props.C39_C43
import Verif.Props.C53

/-!
# The theorems of C24 to C43, C47 to C51 and C53, applied

See `Verif.Applied.C01_C23`.
-/

namespace KMedoids

open RFrom (conv)

theorem exD_nonneg : ∀ x y, x < 6 → y < 6 → 0 ≤ exD x y := fun _ _ _ _ => Nat.zero_le _

/-- The labels of the optimal clustering leave no gap. -/
theorem exNoGap : NoGap [1, 1, 1, 0, 0, 2] := fun c c' h h' =>
  have : ∀ c' ∈ [1, 1, 1, 0, 0, 2], ∀ c ≤ c', c ∈ [1, 1, 1, 0, 0, 2] := by decide
  this c' h' c h
theorem exNoGap' : NoGap [2, 2, 2, 1, 1, 0] := fun c c' h h' =>
  have : ∀ c' ∈ [2, 2, 2, 1, 1, 0], ∀ c ≤ c', c ∈ [2, 2, 2, 1, 1, 0] := by decide
  this c' h' c h

/-! ## C24 to C28 -/

example : silhouette ℚ exMat [1, 1, 1, 0, 0, 2] false = .ok (mean (silList conv exD [1, 1, 1, 0, 0, 2]), []) :=
  (C24_silhouette exMat_isMatrix exD_nonneg (by decide) (by decide) (by decide) exNoGap).2
example := C24_par_silhouette (L := ℚ) exMat_isMatrix exD_nonneg (assi := [1, 1, 1, 0, 0, 2]) (by decide) (by decide)
  (by decide) exNoGap
example := C25_silhouette (L := ℚ) exMat_isMatrix (assi := [1, 1, 1, 0, 0, 2]) (by decide)
example := C25_silhouette (L := ℚ) exMat_isMatrix (assi := [7, 1, 4]) (by decide)
example := (C25_silhouette_range exMat_isMatrix exD_nonneg (assi := [1, 1, 1, 0, 0, 2]) (by decide) (by decide) (by decide)
  (avg := (11453 / 16632 : ℚ)) (sil := silList conv exD [1, 1, 1, 0, 0, 2]) (by decide +kernel))
example : silhouette ℚ exMat [2, 2, 2, 1, 1, 0] false = silhouette ℚ exMat [1, 1, 1, 0, 0, 2] false :=
  C26_silhouette_partial exMat_isMatrix exD_nonneg (assi := [1, 1, 1, 0, 0, 2]) (by decide) (by decide) (by decide)
    (fun a => (a + 1) % 3) (by decide) exNoGap exNoGap' false
example := C26_gap (L := ℚ) exMat_isMatrix exD_nonneg (assi := [3, 3, 3, 0, 0, 2]) (by decide) (c := 1) (c' := 3)
  (by decide) (by decide) (by decide)
example := C27_par_silhouette_partial (L := ℚ) exMat_isMatrix (assi := [1, 1, 1, 0, 0, 2]) (by decide) (by decide) false
example : medoidSilhouette ℚ exMat [4, 1, 5] false = .ok (medSil conv 6 exD [4, 1, 5], []) :=
  (C28_medoid_silhouette exMat_isMatrix exD_nonneg (ex_valid (by decide) (by decide) (by decide)) (by decide)).2
example := C28_medoid_silhouette_range exMat_isMatrix exD_nonneg (meds := [4, 1, 5])
  (ex_valid (by decide) (by decide) (by decide)) (by decide) (avg := (14 / 15 : ℚ))
  (sil := (List.range 6).map (medSil1 (conv : ℕ → ℚ) exD [4, 1, 5])) (by decide +kernel)

/-! ## C29 to C35 -/

example := C29_fastermsc (L := ℚ) exMat_isMatrix exV (by decide) 9
example := C29_pammedsil_swap (L := ℚ) exMat_isMatrix exV (by decide) 9
example := C29_fastmsc_partial (L := ℚ) exMat_isMatrix exV (by decide) (by decide) 9
example := C29_fastmsc_two (L := ℚ) (mat := (ofRows [[0, 3], [3, 0]] : Mat ℕ)) (d := fun x y => if x = y then 0 else 3)
  ⟨rfl, rfl, fun x y hx hy => by
    have : ∀ x < 2, ∀ y < 2, (ofRows [[0, 3], [3, 0]] : Mat ℕ).get x y = .ok (if x = y then 0 else 3) := by decide
    exact this x hx y hy⟩ (by decide) (by decide) (by decide +kernel) (med := [1, 0])
  ⟨⟨by decide, by decide, by decide, by decide⟩, by decide⟩ rfl 9
example := C30_msc exMat_isMatrix exD_dissim exV exN (by decide) (.inl exRun_fastermsc)
example := C30_msc exMat_isMatrix exD_dissim exV2 exN2 (by decide) (.inr (.inl exRun_fastmsc2))
example := C31_msc exMat_isMatrix exD_dissim exV2 exN2 (by decide) (.inl exRun_fastermsc2)
example := C31_msc_own exMat_isMatrix exD_dissim exV exN (by decide) (.inr (.inr exRun_pammedsilSwap))
example := C32_msc exMat_isMatrix exD_dissim exV exN (by decide) (.inr (.inl exRun_fastmsc))
example : SilSwapOptimal ℚ 6 exD [4, 1] := C33_msc exMat_isMatrix exD_dissim exV2 exN2 (by decide)
  (.inr (.inl exRun_fastmsc2)) (by decide)
example := C33_msc_counters exMat_isMatrix exD_dissim exV exN (by decide) (.inl exRun_fastermsc)
example := C34_fastmsc_partial (L := ℚ) exMat_isMatrix exD_dissim exV exN (by decide) 9
example := C34_fastmsc_two_partial (L := ℚ) exMat_isMatrix exD_dissim exV2 exN2 rfl 9
example := C35_single_partial (L := ℚ) exMat_isMatrix exD_dissim exV5 9 (r := ⟨20, [0, 0, 0, 0, 0, 0], 1, 1, [2]⟩)
  (.inl (by decide +kernel))

/-! ## C35 to C38, C47, C48 -/

example := C35_dynmsc_single_partial (L := ℚ) exMat_isMatrix exD_dissim exV5 1 9
  (r := ⟨20, [0, 0, 0, 0, 0, 0], 1, 1, [2], [20]⟩) (by decide +kernel)
example := C36_dynmsc exMat_isMatrix exD_dissim exV exN (by decide) exRun_dynmsc
example := C37_dynmsc_partial exMat_isMatrix exD_dissim exV exN (by decide) exRun_dynmsc (.inl (by decide))
example := C38_inverted_partial (L := ℚ) exMat_isMatrix exD_dissim exV exN (by decide)
  (r := ⟨26 / 45, [0, 1, 2, 2, 2, 2], 0, 0, [0, 1, 2], [1 / 3, 26 / 45]⟩) (by decide +kernel)
example := C47_dynmsc (L := ℚ) exMat_isMatrix exV (by decide) 1 9
example := C47_dynmsc_single (L := ℚ) exMat_isMatrix (c := 5) (by decide) 1 9
example : dynmsc ℚ exMat [0, 1, 2] 3 9 = .ok ⟨14 / 15, [1, 1, 1, 0, 0, 2], 2, 3, [4, 1, 5], [14 / 15]⟩ :=
  C48_dynmsc_eq exMat_isMatrix exD_dissim exV exN (by decide) exRun_fastermsc
example := C48_dynmsc_ge exMat_isMatrix exD_dissim exV exN (by decide) exRun_dynmsc exRun_fastermsc

/-! ## C39 to C43, C49 to C51 -/

example := C29_pammedsil (L := ℚ) exMat_isMatrix exS3 9
example := C39_pamsil_swap exMat_isMatrix exV (by decide) exRun_pamsilSwap
example := C39_pamsil_swap_nearest exMat_isMatrix exD_dissim exV (by decide) exRun_pamsilSwap
example : (11453 / 16632 : ℚ) = mean (silList conv exD [2, 2, 2, 0, 0, 1]) :=
  C39_pamsil_swap_textbook exMat_isMatrix exD_dissim exV (by decide) exRun_pamsilSwap (by decide)
example := C40_pamsil_swap exMat_isMatrix exV (by decide) exRun_pamsilSwap
example := C41_pamsil (L := ℚ) exMat_isMatrix exD_dissim exS3 9
example := C42_pamsil_swap_partial (L := ℚ) exMat_isMatrix exD_dissim (med := [1, 2, 3])
  (ex_valid (by decide) (by decide) (by decide)) (by decide) (by decide) (maxiter := 9)
  (r := ⟨11453 / 16632, [1, 1, 1, 2, 2, 0], 2, 1, [5, 2, 3]⟩) (by decide +kernel) (by decide)
example := C42_pamsil_partial (L := ℚ) exMat_isMatrix exD_dissim exS3 (b := ⟨3, [0, 0, 0, 1, 1, 2], [2, 4, 5]⟩)
  (by decide +kernel) rfl (by decide) exRun_pamsil (by decide)
example := C43_pammedsil_build_partial (L := ℚ) exMat_isMatrix exD_dissim exS3
example := C49_pamsil_partial exMat_isMatrix exD_dissim exS3 (by decide) exRun_pamsil
example : pamsilBuildInitialize ℚ exMat 3 = .ok [2, 4, 5] :=
  C50_pamsil_build exMat_isMatrix exD_dissim exS3 (b := ⟨3, [0, 0, 0, 1, 1, 2], [2, 4, 5]⟩) (by decide +kernel)

theorem exBuild_pammedsil : pammedsilBuildInitialize ℚ exMat 3 = .ok ([2, 4, 5],
    [⟨⟨0, 1⟩, ⟨1, 6⟩, ⟨2, 10⟩⟩, ⟨⟨0, 1⟩, ⟨1, 6⟩, ⟨2, 10⟩⟩, ⟨⟨0, 0⟩, ⟨1, 5⟩, ⟨2, 9⟩⟩, ⟨⟨1, 1⟩, ⟨0, 4⟩, ⟨2, 5⟩⟩,
      ⟨⟨1, 0⟩, ⟨2, 4⟩, ⟨0, 5⟩⟩, ⟨⟨2, 0⟩, ⟨1, 4⟩, ⟨0, 9⟩⟩], 7 / 12) := by decide +kernel

example : pammedsil ℚ exMat 3 9 = pammedsilSwap ℚ exMat [2, 4, 5] 9 :=
  (C51_pammedsil exMat_isMatrix exD_dissim exS3 9 exBuild_pammedsil).1
example : ∃ r, pamsilSwap ℚ exMat [0, 1, 2] 9 = .ok r :=
  C41_pamsil_swap_partial exMat_isMatrix exV 9 (.inr (.inr ⟨0, 3, 13 / 24, by decide, by decide, by decide,
    ⟨6, [1, 1, 2, 0, 0, 0], by decide +kernel, by decide +kernel⟩, by decide +kernel⟩))

/-! ## C53 -/

example := C53_check exMat_isMatrix exV.range (initDataP exD 6 [0, 1, 2])
example := C53_rand_fasterpam (L := ℤ) exMat_isMatrix exD_dissim exV 9 exSeq
example := C53_par_fasterpam (L := ℤ) exSched (fun _ _ => exSched) (fun _ _ => exSched) exMat_isMatrix exD_dissim exV 9 exSeq
example := C53_fastpam1 (L := ℤ) exMat_isMatrix exD_dissim exV 9
example := C53_pam_swap (L := ℤ) exMat_isMatrix exD_dissim exV 9
example := C53_fastmsc (L := ℚ) exMat_isMatrix exD_dissim exV2 9
example := C53_pammedsil_swap_partial (L := ℚ) exMat_isMatrix exD_dissim exV (by decide) 9
example : pammedsilA ℚ exMat 3 9 = pammedsil ℚ exMat 3 9 :=
  C53_pammedsil_partial exMat_isMatrix exD_dissim exS3
    (fun _ _ _ e => by rw [exBuild_pammedsil] at e; cases e; decide) 9

end KMedoids
