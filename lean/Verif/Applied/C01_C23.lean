import Verif.ExampleRuns
import Verif.Props.C01_C03
import Verif.Props.C04_C05_C10
import Verif.Props.C06_C07
import Verif.Props.C08_C16
import Verif.Props.C17
import Verif.Props.C18_C23
import Verif.Props.C44

/-!
# The theorems of C01–C23 and C44, applied

Each of them applied to a concrete input: all hypotheses can be met at once, and the classes of assumptions on the
arithmetic have instances.
-/

namespace KMedoids

open RFrom (conv)

/-! ## C01–C03 -/

example : ∃ v, exTri.get 4 2 = .ok v := C01_get_in_bounds exTri (by decide) 4 2 (by decide) (by decide)
example := C01_is_square_iff exTri (by decide)
example := C01_is_square_zero (⟨0, []⟩ : LowerTriangle ℕ) rfl
example := C01_no_usize_overflow 4294967295 4294967295 (by decide) (by decide)
example : exTri.get 4 2 = exTri.get 2 4 := C02_symmetric exTri 4 2
example := C02_diagonal exTri 4
example := C02_cell exTri (x := 4) (y := 2) (by decide)
example := C02_no_aliasing (x := 2) (y := 4) (x' := 2) (y' := 4) (by decide) (by decide) rfl
example := C02_every_cell_used 6 14 (by decide)
example : IsMatrix (⟨6, packLower 6 exD⟩ : LowerTriangle ℕ).toMat 6 exD :=
  C02_round_trip 6 (by decide) exD exD_symm exD_dissim.diag
example := C02_presents exTri (by decide)
example := C03_first_k 3 6 exS3
example : (firstK 3)[2]? = some 2 := C03_first_k_entries 3 2 (by decide)

/-! ## C04: any arithmetic. A matrix with NaN, negative entries, a diagonal that is not zero, and a medoid twice. -/

def roughD (x y : Nat) : Toy :=
  (([[some 1, none, some (-2)], [some 0, some 0, none], [none, some 3, some 2]] : List (List Toy)).getD x []).getD y none

def roughMat : Mat Toy := Array2.toMat ⟨3, 3, roughD⟩

theorem roughMat_isMatrix : IsMatrix roughMat 3 roughD :=
  ⟨rfl, rfl, fun x y hx hy => by simp [roughMat, Array2.toMat, hx, hy]⟩

theorem roughV : ValidMeds 3 [2, 2] := ⟨⟨by decide, by decide, by decide, by decide⟩, by decide⟩
theorem roughS : Sizes 3 2 := ⟨by decide, by decide, by decide, by decide⟩

example := C04_rand_fasterpam (L := Toy) roughMat_isMatrix roughV 9 (seq := [2, 0, 1]) (by decide)
example := C04_fasterpam (L := Toy) roughMat_isMatrix roughV 9
example := C04_pam_swap (L := Toy) roughMat_isMatrix roughV 9
example := C04_fastpam1 (L := Toy) roughMat_isMatrix roughV 9
example := C04_alternating (L := Toy) roughMat_isMatrix roughV 9
example := C04_pam_build (L := Toy) roughMat_isMatrix roughS
example := C04_pam (L := Toy) roughMat_isMatrix roughS 9

/-! ## C05: three medoids for two objects; a matrix that is not square; no medoids -/

def oblongMat : Mat ℕ := Array2.toMat ⟨2, 3, fun _ _ => 1⟩

example : Panics (pamSwap ℤ (ofRows [[0, 1], [1, 0]]) [0, 1, 0] 9) := C05_pam_swap (.kTooLarge (by decide)) 9
example : Panics (alternating ℤ oblongMat [0, 1] 9) := C05_alternating (.notSquare (by decide)) 9
example : Panics (pam ℤ oblongMat 2 9) := C05_pam (.notSquare (by decide)) 9
example : Panics (pamBuild ℤ exMat 0) := C05_pam_build (.kZero rfl)
example : Panics (randFasterpam ℤ exMat [] 9 exSeq) := C05_rand_fasterpam_partial (.kZero rfl) (by decide) 9 exSeq
example : Panics (fasterpam ℤ oblongMat [0, 1] 9) := C05_fasterpam_partial (.notSquare (by decide)) (by decide) 9
example : Panics (fastpam1 ℤ exMat [0, 1, 2, 3, 4, 5, 0] 9) := C05_fastpam1_partial (.kTooLarge (by decide)) (by decide) 9

/-! ## C06, C07 -/

example : [5, 1, 3].Nodup := C06_rand_fasterpam exMat_isMatrix exD_dissim exV exN 9 exSeq_lt exRun_rand
example : [4, 1, 5].Nodup := C06_fasterpam exMat_isMatrix exD_dissim exV exN 9 exRun_fasterpam
example : [4, 1, 5].Nodup := C06_pam_swap exMat_isMatrix exD_dissim exV exN 9 exRun_pamSwap
example : [4, 1, 5].Nodup := C06_fastpam1 exMat_isMatrix exD_dissim exV exN 9 exRun_fastpam1
example : [0, 1, 4].Nodup := C06_alternating exMat_isMatrix exD_dissim exV exN 9 exRun_alternating
example : NearestAssignment 6 exD [5, 1, 3] [1, 1, 1, 2, 2, 0] :=
  C07_rand_fasterpam exMat_isMatrix exD_dissim exV exN 9 exSeq_lt exRun_rand
example : NearestAssignment 6 exD [4, 1, 5] [1, 1, 1, 0, 0, 2] :=
  C07_fasterpam exMat_isMatrix exD_dissim exV exN 9 exRun_fasterpam
example := C07_pam_swap exMat_isMatrix exD_dissim exV exN 9 exRun_pamSwap
example := C07_fastpam1 exMat_isMatrix exD_dissim exV exN 9 exRun_fastpam1
example : NearestAssignment 6 exD [0, 1, 4] [0, 1, 0, 2, 2, 2] :=
  C07_alternating exMat_isMatrix exD_dissim exV exN 9 exRun_alternating

/-! ## C08, C09 -/

example : 2 = totalDev (conv : ℕ → ℤ) 6 exD [5, 1, 3] :=
  C08_rand_fasterpam exMat_isMatrix exD_dissim exV exN exSym1 9 exSeq_perm exRun_rand
example : 2 = totalDev (conv : ℕ → ℤ) 6 exD [4, 1, 5] :=
  C08_fasterpam exMat_isMatrix exD_dissim exV exN exSym1 9 exRun_fasterpam
example : 20 = totalDev (conv : ℕ → ℤ) 6 exD [2] :=
  C08_fasterpam exMat_isMatrix exD_dissim exV5 (by decide) exSym1 9 exRun_single
example := C08_pam_swap exMat_isMatrix exD_dissim exV exN exSym1 9 exRun_pamSwap
example := C08_fastpam1 exMat_isMatrix exD_dissim exV exN exSym1 9 exRun_fastpam1
example : 6 = totalDev (conv : ℕ → ℤ) 6 exD [0, 1, 4] :=
  C08_alternating exMat_isMatrix exD_dissim exV exN 9 exRun_alternating
example := C09_rand_fasterpam exMat_isMatrix exD_dissim exV exN exSym1 9 exSeq_perm exRun_rand
example : totalDev (conv : ℕ → ℤ) 6 exD [4, 1, 5] < totalDev (conv : ℕ → ℤ) 6 exD [0, 1, 2] :=
  (C09_fasterpam exMat_isMatrix exD_dissim exV exN exSym1 9 exRun_fasterpam).2.1 (by decide)
example := C09_pam_swap exMat_isMatrix exD_dissim exV exN exSym1 9 exRun_pamSwap
example := C09_fastpam1 exMat_isMatrix exD_dissim exV exN exSym1 9 exRun_fastpam1

/-! ## C10 -/

example := C10_rand_fasterpam exMat_isMatrix exV (by decide) 9 exSeq_lt rfl exRun_rand
example := C10_fasterpam exMat_isMatrix exV (by decide) 9 exRun_fasterpam
example := C10_pam_swap exMat_isMatrix exV (by decide) 9 exRun_pamSwap
example := C10_fastpam1 exMat_isMatrix exV (by decide) 9 exRun_fastpam1
example := C10_single exMat_isMatrix exV5 9 [] (.inr (.inl exRun_single))

/-! ## C11–C16 -/

example : SwapOptimal (conv : ℕ → ℤ) 6 exD [5, 1, 3] :=
  C11_rand_fasterpam exMat_isMatrix exD_dissim exV exN exSym1 9 exSeq_perm exRun_rand (by decide)
example : SwapOptimal (conv : ℕ → ℤ) 6 exD [4, 1, 5] :=
  C11_fasterpam exMat_isMatrix exD_dissim exV exN exSym1 9 exRun_fasterpam (by decide)
example := C12_pam_swap exMat_isMatrix exD_dissim exV exN exSym1 9 exRun_pamSwap (by decide)
example := C12_fastpam1 exMat_isMatrix exD_dissim exV exN exSym1 9 exRun_fastpam1 (by decide)
example : SwapOptimal (conv : ℕ → ℤ) 6 exD [0, 4, 5] :=
  C12_pam exMat_isMatrix exD_dissim exS3 9 exRun_pam exSym1 (by decide)
example := C13_pam_swap exMat_isMatrix exD_dissim exV exN exSym1 exRun_pamSwap1
example := C13_fastpam1 exMat_isMatrix exD_dissim exV exN exSym1 exRun_fastpam1_1
example : fastpam1 ℤ exMat [0, 1, 2] 9 = pamSwap ℤ exMat [0, 1, 2] 9 :=
  (C14_fastpam1_eq_pam_swap exMat_isMatrix exD_dissim exV exN 9).1

theorem exOpt1 : SwapOptimal (conv : ℕ → ℤ) 6 exD [5, 1, 3] :=
  C11_rand_fasterpam exMat_isMatrix exD_dissim exV exN exSym1 9 exSeq_perm exRun_rand (by decide)
theorem exOpt2 : SwapOptimal (conv : ℕ → ℤ) 6 exD [4, 1, 5] :=
  C11_fasterpam exMat_isMatrix exD_dissim exV exN exSym1 9 exRun_fasterpam (by decide)
theorem exV' : ValidMeds 6 [4, 1, 5] := ex_valid (by decide) (by decide) (by decide)

example := C15_rand_fasterpam_from_optimum exMat_isMatrix exD_dissim
  (ex_valid (med := [5, 1, 3]) (by decide) (by decide) (by decide)) (by decide) exSym1 9 exSeq_perm exAgain_rand exOpt1
example := C15_fasterpam_from_optimum exMat_isMatrix exD_dissim exV' (by decide) exSym1 9 exAgain_fasterpam exOpt2
example := C15_pam_swap_from_optimum exMat_isMatrix exD_dissim exV' (by decide) exSym1 9 exAgain_pamSwap exOpt2
example := C15_fastpam1_from_optimum exMat_isMatrix exD_dissim exV' (by decide) exSym1 9 exAgain_fastpam1 exOpt2
example := C15_rand_fasterpam exMat_isMatrix exD_dissim exV exN 9 exSeq_perm exRun_rand (by decide) 9 exSeq_perm
  exAgain_rand
example := C15_fasterpam exMat_isMatrix exD_dissim exV exN 9 exRun_fasterpam (by decide) 9 exAgain_fasterpam
example := C15_pam_swap exMat_isMatrix exD_dissim exV exN 9 exRun_pamSwap (by decide) 9 exAgain_pamSwap
example := C15_fastpam1 exMat_isMatrix exD_dissim exV exN 9 exRun_fastpam1 (by decide) 9 exAgain_fastpam1
example := C16_rand_fasterpam exMat_isMatrix exD_dissim exV exN 9 exSeq_perm exRun_rand
example := C16_fasterpam exMat_isMatrix exD_dissim exV exN 9 exRun_fasterpam
example := C16_pam_swap exMat_isMatrix exD_dissim exV exN 9 exRun_pamSwap
example := C16_fastpam1 exMat_isMatrix exD_dissim exV exN 9 exRun_fastpam1

/-! ## C17 -/

example : parFasterpam ℤ exSched (fun _ _ => exSched) (fun _ _ => exSched) exMat [0, 1, 2] 9 exSeq =
    randFasterpam ℤ exMat [0, 1, 2] 9 exSeq :=
  (C17_par_fasterpam exSched (fun _ _ => exSched_ok) exMat_isMatrix exD_dissim exV exN 9 exSeq_lt).1

/-- Three workers on the six objects: some interleaving ends, and its result is that of the sequential search. -/
example : ∃ s : PoolState ℕ ℤ,
    PoolSteps exMat 5 (poolInit exMat 3 [5, 6, 7] (initDataP exD 6 [0, 1, 2])) s ∧ s.finished ∧
    (findMin s.shared.1).bind (fun r => .ok (RLoss.add r.2 s.shared.2, r.1)) =
      findBestSwap exMat ([5, 6, 7] : List ℤ) (initDataP exD 6 [0, 1, 2]) 5 ∧
    ∃ sc : Sched, sc.Ok ∧ sc.parts = 3 ∧
      parFindBestSwap sc exMat ([5, 6, 7] : List ℤ) (initDataP exD 6 [0, 1, 2]) 5 =
        (findMin s.shared.1).bind (fun r => .ok (RLoss.add r.2 s.shared.2, r.1)) := by
  have hl : (initDataP exD 6 [0, 1, 2]).length = 6 := by decide +kernel
  have hi : ∀ r ∈ initDataP exD 6 [0, 1, 2], r.near.i < ([5, 6, 7] : List ℤ).length ∧
      r.seco.i < ([5, 6, 7] : List ℤ).length := by decide +kernel
  obtain ⟨-, -, s, hs, hf⟩ := C17_pool_completes (parts := 3) (j := 5) exMat_isMatrix (by decide) hl hi (.refl _)
  exact ⟨s, hs, hf, C17_pool_result exMat_isMatrix (by decide) (by decide) hl (by decide) hi hs hf,
    C17_pool_refines exMat_isMatrix (by decide) (by decide) hl hi hs hf⟩

/-! ## C18–C23 -/

example := C18_single exMat_isMatrix exD_dissim exV5 9 [] (.inr (.inl exRun_single))
example := C18_single_symm exMat_isMatrix exD_dissim exD_symm exV5 9 [] (.inr (.inl exRun_single))
example := C19_pam_build exMat_isMatrix exD_dissim exS3 exRun_build
example : [2, 4, 5, 0, 3].length < 6 → totalDev (conv : ℕ → ℤ) 6 exD [2, 4, 5, 0, 3] = 0 :=
  (C20_pam_build (r := ⟨0, [3, 3, 0, 4, 1, 2], [2, 4, 5, 0, 3]⟩) exMat_isMatrix exD_dissim
    (ex_sizes (by decide) (by decide)) (by decide +kernel)).1
example := C21_pam_build exMat_isMatrix exD_dissim exS3 exRun_build
example : pam ℤ exMat 3 9 = pamSwap ℤ exMat [2, 4, 5] 9 := (C22_pam exMat_isMatrix exD_dissim exS3 9 exRun_build).1
example := C23_alternating exMat_isMatrix exD_dissim exV exN 9 exRun_alternating

/-! ## C44: a full matrix and a triangular one -/

example := C44_rand_fasterpam (L := ℤ) exMat_isMatrix exTri_isMatrix exV 9 exSeq_lt
example : fasterpam ℤ exMat [0, 1, 2] 9 = fasterpam ℤ exTri.toMat [0, 1, 2] 9 :=
  C44_fasterpam exMat_isMatrix exTri_isMatrix exV 9
example := C44_par_fasterpam (L := ℤ) exMat_isMatrix exTri_isMatrix exV exSched (fun _ _ => exSched) (fun _ _ => exSched)
  9 exSeq_lt
example := C44_pam_swap (L := ℤ) exMat_isMatrix exTri_isMatrix exV 9
example := C44_fastpam1 (L := ℤ) exMat_isMatrix exTri_isMatrix exV 9
example := C44_pam_build (L := ℤ) exMat_isMatrix exTri_isMatrix exS3
example := C44_pam (L := ℤ) exMat_isMatrix exTri_isMatrix exS3 9
example := C44_alternating (L := ℤ) exMat_isMatrix exTri_isMatrix exV 9
example := C44_silhouette (L := ℚ) exMat_isMatrix exTri_isMatrix (assi := [1, 1, 1, 0, 0, 2]) (by decide) false
example := C44_medoid_silhouette (L := ℚ) exMat_isMatrix exTri_isMatrix exV false
example := C44_fastermsc (L := ℚ) exMat_isMatrix exTri_isMatrix exV 9
example := C44_fastmsc (L := ℚ) exMat_isMatrix exTri_isMatrix exV 9
example := C44_pammedsil_swap (L := ℚ) exMat_isMatrix exTri_isMatrix exV 9
example := C44_pammedsil (L := ℚ) exMat_isMatrix exTri_isMatrix exS3 9
example := C44_pamsil_swap (L := ℚ) exMat_isMatrix exTri_isMatrix exV 9
example := C44_pamsil (L := ℚ) exMat_isMatrix exTri_isMatrix exS3 9
example := C44_dynmsc (L := ℚ) exMat_isMatrix exTri_isMatrix exV 1 9
example := C44_adapters (d := exD) (n := 6) (by decide) exD_symm exD_dissim.diag

end KMedoids
