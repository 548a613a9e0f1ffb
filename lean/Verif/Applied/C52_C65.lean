import Verif.Applied.C24_C53
import Verif.Props.C52
import Verif.Props.C54
import Verif.Props.C55
import Verif.Props.C56
import Verif.Props.C62
import Verif.Props.C63
import Verif.Props.C64
import Verif.Props.C65
import Verif.Props.C90

/-!
# The theorems of C52, C54 to C56, C62 to C65 and the rest of C90, applied

See `Verif.Applied.C01_C23`.
-/

namespace KMedoids

open RFrom (conv)

/-! ## C52 -/

example := C05_par_fasterpam_partial (L := ℤ) exSched (fun _ _ => exSched) (fun _ _ => exSched) (mat := exMat) (med := [])
  (.kZero rfl) (by decide) 9 exSeq
example := C52_no_panic (L := ℤ) exSched (fun _ _ => exSched) (fun _ _ => exSched) exMat_isMatrix exV 9 exSeq_lt
example := C52_counters exSched (fun _ _ => exSched) (fun _ _ => exSched) exMat_isMatrix exV (by decide) 9 exSeq_lt rfl
  exRun_par
example := C52_nearest exSched (fun _ _ => exSched) (fun _ _ => exSched) exMat_isMatrix exD_dissim exV exN 9 exSeq_lt exRun_par
example := C52_exact exSched (fun _ _ => exSched_ok) exMat_isMatrix exD_dissim exV exN exSym1 9 exSeq_perm exRun_par

/-! ## C54 -/

example := C54_msc_chain exMat_isMatrix exD_dissim exV exN (by decide) (.inl exRun_fastermsc)
example := C54_msc_converges exMat_isMatrix exD_dissim exV exN (by decide) (.inr (.inl exRun_fastmsc))
/-- The run of FasterMSC from its own result. -/
theorem exAgain_fastermsc : fastermsc ℚ exMat [4, 1, 5] 9 = .ok ⟨14 / 15, [1, 1, 1, 0, 0, 2], 1, 0, [4, 1, 5]⟩ := by
  decide +kernel
theorem exV415 : ValidMeds 6 [4, 1, 5] := ex_valid (by decide) (by decide) (by decide)
example := C54_msc_from_optimum exMat_isMatrix exD_dissim exV415 (by decide) (by decide) (.inl exAgain_fastermsc)
  (C33_msc exMat_isMatrix exD_dissim exV exN (by decide) (.inl exRun_fastermsc) (by decide))
example := C54_msc_twice exMat_isMatrix exD_dissim exV exN (by decide) (.inl exRun_fastermsc) (by decide)
  (.inl exAgain_fastermsc)
example :=
  C54_pammedsil exMat_isMatrix exD_dissim exS3 exBuild_pammedsil (by decide) exRun_pammedsil

/-! ## C55 and C56 -/

example := C55_alternating exMat_isMatrix exD_dissim exD_symm exV exN 9 exRun_alternating
example : alternating ℤ exMat [0, 1, 4] 50 = .ok ⟨6, [0, 1, 0, 2, 2, 2], 1, [0, 1, 4]⟩ :=
  C55_alternating_twice exMat_isMatrix exV exRun_alternating (by decide) 50
example := C56_pamsil_swap exMat_isMatrix exV (by decide) exRun_pamsilSwap
example := C56_pamsil exMat_isMatrix exD_dissim exS3 (by decide) exRun_pamsil

/-! ## C62 -/

theorem exOptimal : SwapOptimal (conv : ℕ → ℤ) 6 exD [4, 1, 5] :=
  C11_fasterpam exMat_isMatrix exD_dissim exV exN exSym1 9 exRun_fasterpam (by decide)

example := C62_swapOptimal_cluster exD_symm exV415.range
  (C07_fasterpam exMat_isMatrix exD_dissim exV exN 9 exRun_fasterpam) exOptimal (m := 0) (c := 4) (x := 3) rfl rfl
example := C62_alternating exMat_isMatrix exD_dissim exD_symm exV415 (by decide) exOptimal 9
  (r := ⟨2, [1, 1, 1, 0, 0, 2], 1, [4, 1, 5]⟩) (by decide +kernel)
example := C62_alternating_then_pam exMat_isMatrix exD_dissim exV exN exSym1 exRun_alternating
  (r' := ⟨2, [1, 1, 1, 2, 2, 0], 2, 2, [5, 1, 4]⟩) (maxiter' := 9) (.inl (by decide +kernel))

/-! ## C63 -/

/-- Three groups of points that coincide. -/
def groups : List ℕ := [4, 4, 9, 9, 9, 1]
theorem groups_perfect : HasPerfect 6 3 (lineD groups) := ⟨[0, 2, 5], by decide, by decide, by decide⟩

example := C63_pam (L := ℤ) (lineMat_isMatrix groups) (lineD_dissim groups 6) (lineD_zeroTwins groups 6)
  (ex_sizes (by decide) (by decide)) (lineD_metric groups 6).symm groups_perfect (maxiter := 9)
  (r := ⟨0, [0, 0, 1, 1, 1, 2], 1, 0, [0, 2, 5]⟩) (by decide +kernel)

/-! ## C64 and C65 -/

/-- Six points on a line. -/
def onLine : List ℕ := [0, 1, 3, 10, 12, 30]

theorem onLine_run : fasterpam ℤ (lineMat onLine) [0, 1, 2] 9 = .ok ⟨5, [1, 1, 1, 0, 0, 2], 2, 3, [4, 1, 5]⟩ := by
  decide +kernel
theorem onLine_pam : pam ℤ (lineMat onLine) 3 9 = .ok ⟨5, [0, 0, 0, 2, 2, 1], 2, 1, [1, 5, 3]⟩ := by decide +kernel
theorem onLine_pam2 : pam ℤ (lineMat onLine) 2 9 = .ok ⟨21, [0, 0, 0, 0, 0, 1], 1, 0, [2, 5]⟩ := by decide +kernel
theorem onLine_build2 : pamBuild ℤ (lineMat onLine) 2 = .ok ⟨21, [0, 0, 0, 0, 0, 1], [2, 5]⟩ := by decide +kernel
theorem onLine_build : pamBuild ℤ (lineMat onLine) 3 = .ok ⟨7, [0, 0, 0, 2, 2, 1], [2, 5, 3]⟩ := by decide +kernel
theorem onLine_par : parFasterpam ℤ exSched (fun _ _ => exSched) (fun _ _ => exSched) (lineMat onLine) [0, 1, 2] 9 exSeq =
    .ok ⟨5, [1, 1, 1, 2, 2, 0], 2, 2, [5, 1, 3]⟩ := by decide +kernel
theorem onLine_S2 : Sizes 6 2 := ex_sizes (by decide) (by decide)

example := C64_swapOptimal (lineD_dissim onLine 6) (lineD_metric onLine 6) exV415.range
  (C11_fasterpam (lineMat_isMatrix onLine) (lineD_dissim onLine 6) exV exN (fun _ => (lineD_metric onLine 6).symm) 9 onLine_run
    (by decide)) (other := [3, 0]) (by decide) (by decide) (by decide)
example := C64_pam_family (lineMat_isMatrix onLine) (lineD_dissim onLine 6) (lineD_metric onLine 6) exV exN (.inl onLine_run)
  (by decide) (other := [3, 0]) (by decide) (by decide) (by decide)
example := C64_par_fasterpam exSched (fun _ _ => exSched_ok) (lineMat_isMatrix onLine) (lineD_dissim onLine 6)
  (lineD_metric onLine 6) exV exN exSeq_perm onLine_par (by decide) (other := [3, 0]) (by decide) (by decide) (by decide)
example := C64_pam (lineMat_isMatrix onLine) (lineD_dissim onLine 6) (lineD_metric onLine 6) exS3 onLine_pam
  (by decide) (other := [3, 0]) (by decide) (by decide) (by decide)

example := C65_pam_build_prefix (k := 2) (by decide) (by decide) onLine_build
example := C65_pamsil_build_prefix (L := ℚ) (mat := lineMat onLine) (by decide) (k := 2) (k' := 3) (by decide) (by decide)
  (meds' := [2, 5, 3]) (by decide +kernel)
example :=
  C65_pammedsil_build_prefix (by decide) (k := 2) (by decide) (by decide) exBuild_pammedsil
example : (7 : ℤ) ≤ 21 := C65_pam_build_antitone (lineMat_isMatrix onLine) (lineD_dissim onLine 6) onLine_S2 exS3 (by decide)
  onLine_build2 onLine_build
example : (5 : ℤ) ≤ 21 := C65_pam_le_build (lineMat_isMatrix onLine) (lineD_dissim onLine 6) (lineD_metric onLine 6).symm
  onLine_S2 exS3 (by decide) onLine_build2 onLine_pam
example := C65_pam_metric (lineMat_isMatrix onLine) (lineD_dissim onLine 6) (lineD_metric onLine 6) onLine_S2 exS3 (by decide)
  onLine_pam2 onLine_pam (by decide)

/-! ## C90 -/

example : [2, 4, 5] = greedyBuild (totalDev (conv : ℕ → ℚ) 6 exD) 1 6 3 :=
  C90_pammedsil_build exMat_isMatrix exD_dissim exS3 exBuild_pammedsil
example :=
  C90_pammedsil exMat_isMatrix exD_dissim exS3 9
    (by rw [← C90_pammedsil_build exMat_isMatrix exD_dissim exS3 exBuild_pammedsil]; decide) exRun_pammedsil

end KMedoids
