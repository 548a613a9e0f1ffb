import Verif.ExampleRuns
import Verif.Props.C45
import Verif.Props.C46
import Verif.Props.C57
import Verif.Props.C60
import Verif.Props.C61
import Verif.Props.C84
import Verif.Props.C85
import Verif.Props.C88
import Verif.Props.C90

/-!
# The theorems of C45, C46, C57, C60, C61, C84, C85, C88 and C90, applied

See `Verif.Applied.C01_C23`.
-/

namespace KMedoids

open RFrom (conv)

/-! ## C45: losses in `ℤ` and in `ℚ` -/

example : SameSwap (fun l : ℤ => (l : ℚ)) (fasterpam ℤ exMat [0, 1, 2] 9) (fasterpam ℚ (exMat.map fun x => x) [0, 1, 2] 9) :=
  C45_fasterpam C45_int_rat exMat [0, 1, 2] 9
example := C45_rand_fasterpam C45_int_rat exMat [0, 1, 2] 9 exSeq
example := C45_par_fasterpam C45_int_rat exSched (fun _ _ => exSched) (fun _ _ => exSched) exMat [0, 1, 2] 9 exSeq
example := C45_fastpam1 C45_int_rat exMat [0, 1, 2] 9
example := C45_pam_swap C45_int_rat exMat [0, 1, 2] 9
example := C45_pam C45_int_rat exMat 3 9
example := C45_pam_build C45_int_rat exMat 3
example := C45_alternating C45_int_rat exMat [0, 1, 2] 9
example := C45_embedding (N := ℕ) (N' := ℚ) (L := ℤ) (L' := ℚ) (f := fun x => (x : ℚ)) (g := Int.castAddHom ℚ)
  Nat.strictMono_cast rfl Int.cast_strictMono (fun _ => rfl)
example := C45_scale (R := ℚ) (fun _ => rfl) (c := 7 / 2) (by decide +kernel)

/-! ## C46: six objects, distances in `u32`, losses in `i64` -/

def exMat32 : Mat UInt32 := exMat.map UInt32.ofNat

example := C46_fasterpam C46_wrapping exMat32 (by decide) [0, 1, 2] 9
example := C46_rand_fasterpam C46_wrapping exMat32 (by decide) [0, 1, 2] 9 exSeq
example := C46_par_fasterpam C46_wrapping exSched (fun _ _ => exSched_ok) (scS := fun _ _ => exSched) exMat32 (by decide)
  [0, 1, 2] 9 exSeq
example := C46_fastpam1 C46_checked exMat32 (by decide) [0, 1, 2] 9
example := C46_pam_swap C46_checked exMat32 (by decide) [0, 1, 2] 9
example := C46_pam C46_checked exMat32 (by decide) 3 9
example := C46_pam_build C46_checked exMat32 (by decide) 3
example := C46_alternating C46_checked exMat32 (by decide) [0, 1, 2] 9
example := C46_u32_i64 exMat32 (by decide) [0, 1, 2] 9
example : fasterpam CheckedI64 exMat32 [0, 1, 2] 9 = .ok ⟨.ofInt 2, [1, 1, 1, 0, 0, 2], 2, 3, [4, 1, 5]⟩ := by decide +kernel
example := (C46_u32_i64_checked exMat32 (by decide) [0, 1, 2] 9).2 ⟨.ofInt 2, [1, 1, 1, 0, 0, 2], 2, 3, [4, 1, 5]⟩
  (by decide +kernel)

/-! ## C57 -/

example := C57_silhouette C57_nat_rat exMat [1, 1, 1, 0, 0, 2] true
example := C57_par_silhouette C57_nat_rat exMat [1, 1, 1, 0, 0, 2]
example := C57_medoid_silhouette C57_nat_rat exMat [4, 1, 5] true
example := C57_fastermsc C57_nat_rat exMat [0, 1, 2] 9
example := C57_fastmsc C57_nat_rat exMat [0, 1, 2] 9
example := C57_pammedsil_swap C57_nat_rat exMat [0, 1, 2] 9
example := C57_dynmsc C57_nat_rat exMat [0, 1, 2] 1 9
example := C57_pamsil_swap C57_scale_rat (exMat.map fun x : ℕ => (x : ℚ)) [0, 1, 2] 9
example := C57_pamsil C57_scale_rat (exMat.map fun x : ℕ => (x : ℚ)) 3 9
example := C57_pammedsil C57_scale_rat (exMat.map fun x : ℕ => (x : ℚ)) 3 9

/-! ## C60: limits one and nine -/

example := (C60_rand_fasterpam (L := ℤ) exMat [0, 1, 2] exSeq)
example := (C60_par_fasterpam (L := ℤ) exSched (fun _ _ => exSched) (fun _ _ => exSched) exMat [0, 1, 2] exSeq)
example := (C60_fastpam1 (L := ℤ) exMat [0, 1, 2])
example := (C60_pam_swap (L := ℤ) exMat [0, 1, 2])
example := (C60_pam (L := ℤ) exMat 3)
example := (C60_alternating (L := ℤ) exMat [0, 1, 2])
example := (C60_fastermsc (L := ℚ) exMat [0, 1, 2])
example := (C60_fastmsc (L := ℚ) exMat [0, 1, 2])
example := (C60_pammedsil_swap (L := ℚ) exMat [0, 1, 2])
example := (C60_pammedsil (L := ℚ) exMat 3)
example : pamsilSwap ℚ exMat [0, 1, 2] 1000 = .ok ⟨11453 / 16632, [2, 2, 2, 0, 0, 1], 3, 2, [3, 5, 2]⟩ :=
  C60_pamsil_swap_stop ℚ exMat [0, 1, 2] 9 _ exRun_pamsilSwap (by decide) 1000 (by decide)
example := C60_pamsil_stop ℚ exMat 3 9 _ exRun_pamsil (by decide) 1000 (by decide)
example := (C60_pamsil (L := ℚ) exMat_isMatrix exS3)
example := C60_rand_fasterpam_longer (L := ℤ) exMat_isMatrix exD_dissim exV exN exSeq_lt (m := 1) (m' := 9) (by decide)
  (r := ⟨2, [1, 1, 1, 2, 2, 0], 1, 2, [5, 1, 3]⟩) (by decide +kernel) exRun_rand
example := C60_fasterpam_longer (L := ℤ) exMat_isMatrix exD_dissim exV exN (m := 0) (m' := 9) (by decide)
  (r := ⟨18, [0, 1, 2, 2, 2, 2], 0, 0, [0, 1, 2]⟩) (by decide +kernel) exRun_fasterpam
example := C60_par_fasterpam_longer (L := ℤ) exSched exSched (scF := fun _ _ => exSched) (scF' := fun _ _ => exSched)
  (fun _ _ => exSched_ok) (fun _ _ => exSched_ok) exMat_isMatrix exD_dissim exV exN exSeq_lt (m := 9) (m' := 9) le_rfl
  exRun_par exRun_par
example := C60_fastpam1_longer exMat_isMatrix exD_dissim exV exN (m := 1) (m' := 9) (by decide) exRun_fastpam1_1
  exRun_fastpam1
example := C60_pam_longer (L := ℤ) exMat_isMatrix exD_dissim exS3 (m := 0) (m' := 9) (by decide)
  (r := ⟨3, [0, 0, 0, 1, 1, 2], 0, 0, [2, 4, 5]⟩) (by decide +kernel) exRun_pam
example := C60_alternating_longer (L := ℤ) exMat_isMatrix exD_dissim exD_symm exV exN (m := 9) (m' := 9) le_rfl
  exRun_alternating exRun_alternating
example := C60_msc_longer (L := ℚ) exMat_isMatrix exD_dissim exV exN (by decide) (m := 9) (m' := 10) (by decide)
  (.inr (.inl ⟨exRun_fastmsc, (show fastmsc ℚ exMat [0, 1, 2] 10 = .ok ⟨14 / 15, [1, 1, 1, 0, 0, 2], 3, 2, [4, 1, 5]⟩ by
    decide +kernel)⟩))
example := C60_pamsil_swap_longer (L := ℚ) exMat_isMatrix exV (m := 9) (m' := 9) le_rfl exRun_pamsilSwap exRun_pamsilSwap
example := C60_pamsil_longer (L := ℚ) exMat_isMatrix exD_dissim exS3 (m := 9) (m' := 9) le_rfl exRun_pamsil exRun_pamsil

/-! ## C61 -/

/-- The numbers backwards. -/
theorem flip_renumbering : Renumbering 6 (fun x => 5 - x) :=
  ⟨fun x hx => by show 5 - x < 6; omega, fun x y hx hy h => by have h' : 5 - x = 5 - y := h; omega⟩

def flipMat : Mat ℕ := Array2.toMat ⟨6, 6, fun x y => exD (5 - x) (5 - y)⟩
theorem flipMat_isMatrix : IsMatrix flipMat 6 (fun x y => exD (5 - x) (5 - y)) :=
  ⟨rfl, rfl, fun x y hx hy => by simp [flipMat, Array2.toMat, hx, hy]⟩

example : medoidSilhouette ℚ exMat [5, 4, 1] true = medoidSilhouette ℚ exMat [4, 1, 5] true :=
  C61_medoid_silhouette_order exMat_isMatrix (ex_valid (by decide) (by decide) (by decide)) (by decide) true
example := C61_rand_fasterpam_order (L := ℤ) rfl exMat_isMatrix exD_dissim exV exV exN exN exSeq_lt exSeq_lt exRun_rand
  exRun_rand (by decide)
example := C61_fasterpam_order (L := ℤ) rfl exMat_isMatrix exD_dissim exV
  (ex_valid (med := [4, 1, 5]) (by decide) (by decide) (by decide)) exN (by decide) exRun_fasterpam exAgain_fasterpam
  (by decide)
example := C61_alternating_order (L := ℤ) exMat_isMatrix exD_dissim exV exV exN exN exRun_alternating exRun_alternating
  (by decide)
example := C61_totalDev (L := ℤ) flip_renumbering exD (med := [4, 1, 5]) (med' := [0, 4, 1]) (by decide)
example := C61_swapOptimal (L := ℤ) flip_renumbering exD (med := [4, 1, 5]) (med' := [0, 4, 1]) (by decide) (by decide)
example := C61_silhouette (L := ℚ) flip_renumbering exMat_isMatrix flipMat_isMatrix (assi := [1, 1, 1, 0, 0, 2])
  (assi' := [2, 0, 0, 1, 1, 1]) ⟨by decide, by decide, by decide⟩
example := C61_par_silhouette (L := ℚ) flip_renumbering exMat_isMatrix flipMat_isMatrix (assi := [1, 1, 1, 0, 0, 2])
  (assi' := [2, 0, 0, 1, 1, 1]) ⟨by decide, by decide, by decide⟩
example := C61_medoid_silhouette (L := ℚ) flip_renumbering exMat_isMatrix flipMat_isMatrix exD_dissim.nonneg
  (med := [4, 1, 5]) (med' := [0, 4, 1]) (ex_valid (by decide) (by decide) (by decide))
  (ex_valid (by decide) (by decide) (by decide)) (by decide)

/-! ## C84: a full and a triangular matrix -/

theorem exStorage : Storage exMat := C84_storage_array2 _
theorem exTriStorage : Storage exTri.toMat := C84_storage_lower _

example := C84_rand_fasterpam (L := Toy) (C84_storage_array2 (⟨3, 3, fun _ _ => none⟩ : Array2 Toy)) (med := [2, 2])
  (by decide) 9 (seq := [2, 0, 1]) (by decide)
example : ¬ ∃ r, randFasterpam ℤ exMat [0, 6] 9 exSeq = .ok r := fun h =>
  absurd ((C84_rand_fasterpam exStorage (by decide) 9 (show ∀ j ∈ exSeq, j < exMat.len by decide)).mp h).range (by decide)
example := C84_par_fasterpam (L := ℤ) exSched (fun _ _ => exSched) (fun _ _ => exSched) exStorage (med := [0, 1, 2])
  (by decide) 9 (seq := exSeq) (by decide)
example := C84_fastpam1 (L := ℤ) exTriStorage (med := [0, 1, 2]) (by decide) 9
example := C84_pam_swap (L := ℤ) exTriStorage (med := [0, 1, 2]) 9
example := C84_alternating (L := ℤ) exTriStorage (med := [0, 1, 2]) 9
example := C84_pam_build (L := ℤ) exTriStorage (k := 3)
example := C84_pam (L := ℤ) exTriStorage (k := 3) 9
example := C84_fastermsc (L := ℚ) exTriStorage (med := [0, 1, 2]) (by decide) (by decide) 9
example := C84_fastmsc (L := ℚ) exTriStorage (med := [0, 1, 2]) (by decide) (by decide) 9
example := C84_fastermsc_two (L := ℚ) exTriStorage 0 1 9
example := C84_fastermsc_two_valid (L := ℚ) exTriStorage (by decide) 0 1 9
example := C84_fastmsc_two (L := ℚ) exStorage 0 1 9 ⟨_, exRun_fastmsc2⟩
example := C84_fastmsc_two_valid (L := ℚ) exTriStorage (by decide) 0 1 9
example := C84_pammedsil_swap (L := ℚ) exTriStorage (med := [0, 1, 2]) 9
example := C84_pammedsil (L := ℚ) exTriStorage (k := 3) 9
example := C84_dynmsc (L := ℚ) exTriStorage (med := [0, 1, 2]) (by decide) 1 9
example := C84_pamsil_swap (L := ℚ) exStorage 9 ⟨_, exRun_pamsilSwap⟩
example := C84_pamsil (L := ℚ) 9 ⟨_, exRun_pamsil⟩
example := C84_single (L := ℤ) (mat := exTri.toMat) 5
example := C84_single_lower (L := ℤ) exTri 5
example := C84_single_square (L := ℤ) exTriStorage (by decide) (by decide) 5
example := C84_single_functions (L := ℚ) exTri.toMat 5 9 exSeq exSched (fun _ _ => exSched) (fun _ _ => exSched)

/-! ## C85: reads cost 3, steps cost 2 -/

example := C85_same (L := ℤ) ⟨3, 2⟩ exMat [0, 1, 2] 9 3 exSeq
example := C85_find_best_swap (L := ℤ) ⟨3, 2⟩ exMat [5, 6, 7] (initDataP exD 6 [0, 1, 2]) 5
  (r := (-5, 0)) (by decide +kernel)
example := C85_find_best_swap_pam (L := ℤ) ⟨3, 2⟩ exMat [0, 1, 2] (initDataP exD 6 [0, 1, 2]) 4
  (r := (-13, 0)) (by decide +kernel)
example := C85_rand_fasterpam ⟨3, 2⟩ exMat (by decide) 9 (by decide) exRun_rand
example := C85_fasterpam ⟨3, 2⟩ exMat (by decide) 9 exRun_fasterpam
example := C85_fastpam1 ⟨3, 2⟩ exMat (by decide) 9 exRun_fastpam1
example := C85_pam_swap ⟨3, 2⟩ exMat (by decide) 9 exRun_pamSwap
example := C85_pam_build ⟨3, 2⟩ exMat 3 exRun_build
example := C85_pam ⟨3, 2⟩ exMat 3 9 exRun_pam
example := C85_alternating ⟨3, 2⟩ exMat [0, 1, 2] 9 exRun_alternating
example := C85_speedup_reads (L := ℤ) exMat_isMatrix exD_dissim exV exN (by decide) (by decide) (maxiter := 9) (by decide)
example := C85_speedup (L := ℤ) exMat_isMatrix exD_dissim exV exN (by decide) (by decide) (maxiter := 9) (by decide)
  ⟨3, 2⟩ (by decide)

/-! ## C88 -/

example := C88_same (L := ℚ) ⟨3, 2⟩ exMat [0, 1, 2] [1, 1, 1, 0, 0, 2] 1 9 3 true
example := C88_fastermsc ⟨3, 2⟩ exMat (by decide) 9 exRun_fastermsc
example := C88_fastmsc ⟨3, 2⟩ exMat (by decide) 9 exRun_fastmsc
example := C88_pammedsil_swap ⟨3, 2⟩ exMat (by decide) 9 exRun_pammedsilSwap
example := C88_pammedsil ⟨3, 2⟩ exMat 3 9 exRun_pammedsil
example := C88_dynmsc ⟨3, 2⟩ exMat (by decide) 1 9 exRun_dynmsc
example := C88_silhouette ⟨3, 2⟩ exMat (k := 3) (by decide) false exRun_silhouette
example := C88_silhouette_reads exMat [1, 1, 1, 0, 0, 2] false exRun_silhouette
example := C88_medoid_silhouette ⟨3, 2⟩ exMat (by decide) false exRun_medsil
example := C88_medoid_silhouette_reads exMat (by decide) false exRun_medsil
example := C88_pamsil_swap ⟨3, 2⟩ exMat (by decide) (by decide) 9 exRun_pamsilSwap
example := C88_pamsil ⟨3, 2⟩ exMat (by decide) 9 exRun_pamsil
example := C88_speedup_reads (L := ℚ) exMat_isMatrix exD_dissim exV exN (by decide) (by decide) (maxiter := 9) (by decide)
example := C88_speedup (L := ℚ) exMat_isMatrix exD_dissim exV exN (by decide) (by decide) (maxiter := 9) (by decide)
  ⟨3, 2⟩ (by decide)

/-! ## C90 -/

example := C90_pam_swap exMat_isMatrix exD_dissim exV exN (by decide) 9 exRun_pamSwap
example := C90_fastpam1 exMat_isMatrix exD_dissim exV exN (by decide) 9 exRun_fastpam1
example : [2, 4, 5] = greedyBuild (totalDev (conv : ℕ → ℤ) 6 exD) 0 6 3 :=
  C90_pam_build exMat_isMatrix exD_dissim exS3 exRun_build
example := C90_pam exMat_isMatrix exD_dissim exS3 9
  (by rw [← C90_pam_build exMat_isMatrix exD_dissim exS3 exRun_build]; decide) exRun_pam
example := C90_pam_swap_resume (L := ℤ) exMat_isMatrix exD_dissim exV exN (by decide) 1 8 exRun_pamSwap exRun_pamSwap1
  (r2 := ⟨2, [1, 1, 1, 0, 0, 2], 2, 1, [4, 1, 5]⟩) (by decide +kernel)
example := C90_fastpam1_resume (L := ℤ) exMat_isMatrix exD_dissim exV exN (by decide) 1 8 exRun_fastpam1 exRun_fastpam1_1
  (r2 := ⟨2, [1, 1, 1, 0, 0, 2], 2, 1, [4, 1, 5]⟩) (by decide +kernel)
example := C90_pammedsil_swap exMat_isMatrix exD_dissim exV exN (by decide) 9 exRun_pammedsilSwap
example := C90_fastmsc exMat_isMatrix exD_dissim exV exN (by decide) 9 exRun_fastmsc
example := C90_pammedsil_swap_resume (L := ℚ) exMat_isMatrix exD_dissim exV exN (by decide) 3 6 exRun_pammedsilSwap
  (r1 := ⟨14 / 15, [1, 1, 1, 0, 0, 2], 3, 2, [4, 1, 5]⟩) (by decide +kernel)
  (r2 := ⟨14 / 15, [1, 1, 1, 0, 0, 2], 1, 0, [4, 1, 5]⟩) (by decide +kernel)
example := C90_fastmsc_resume (L := ℚ) exMat_isMatrix exD_dissim exV exN (by decide) 3 6 exRun_fastmsc
  (r1 := ⟨14 / 15, [1, 1, 1, 0, 0, 2], 3, 2, [4, 1, 5]⟩) (by decide +kernel)
  (r2 := ⟨14 / 15, [1, 1, 1, 0, 0, 2], 1, 0, [4, 1, 5]⟩) (by decide +kernel)

end KMedoids
