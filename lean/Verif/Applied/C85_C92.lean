import Verif.Applied.C45_C90
import Verif.Props.C86
import Verif.Props.C87
import Verif.Props.C89
import Verif.Props.C91
import Verif.Props.C92

/-!
# The theorems of C86, C87, C89, C91, C92 and the rest of C61, C85 and C88, applied

See `Verif.Applied.C01_C23`.
-/

namespace KMedoids

open RFrom (conv)

/-! ## C61, C85, C88 -/

theorem exV543 : ValidMeds 6 [5, 4, 3] := ex_valid (by decide) (by decide) (by decide)
theorem exFlip_fastermsc : fastermsc ℚ flipMat [5, 4, 3] 9 = .ok ⟨14 / 15, [0, 2, 2, 1, 1, 1], 2, 2, [0, 4, 1]⟩ := by
  decide +kernel

example := C61_msc flip_renumbering exMat_isMatrix flipMat_isMatrix exD_dissim exV exV543 exN (by decide) (by decide)
  (by decide) (.inl exRun_fastermsc) (.inl exFlip_fastermsc) (by decide)
example := C85_do_swap (L := ℤ) ⟨3, 2⟩ exMat [0, 1, 2] (initDataP exD 6 [0, 1, 2]) 0 4
  (r := (5, [4, 1, 2], [⟨⟨1, 0⟩, ⟨2, 1⟩⟩, ⟨⟨1, 0⟩, ⟨2, 1⟩⟩, ⟨⟨2, 0⟩, ⟨1, 1⟩⟩, ⟨⟨0, 1⟩, ⟨2, 4⟩⟩, ⟨⟨0, 0⟩, ⟨2, 5⟩⟩,
    ⟨⟨0, 4⟩, ⟨2, 9⟩⟩])) (by decide +kernel)
/-- The data of FasterMSC for the medoids 0, 1 and 2. -/
def exReco : List (Reco ℕ) := [⟨⟨0, 0⟩, ⟨1, 0⟩, ⟨2, 1⟩⟩, ⟨⟨1, 0⟩, ⟨0, 0⟩, ⟨2, 1⟩⟩, ⟨⟨2, 0⟩, ⟨0, 1⟩, ⟨1, 1⟩⟩,
  ⟨⟨2, 4⟩, ⟨0, 5⟩, ⟨1, 5⟩⟩, ⟨⟨2, 5⟩, ⟨0, 6⟩, ⟨1, 6⟩⟩, ⟨⟨2, 9⟩, ⟨0, 10⟩, ⟨1, 10⟩⟩]
example := C88_find_best_swap (L := ℚ) ⟨3, 2⟩ exMat [0, 1 / 2, 1 / 3] exReco 4 (r := (41 / 15, 2)) (by decide +kernel)
example := C88_find_best_swap_pammedsil (L := ℚ) ⟨3, 2⟩ exMat [0, 1, 2] exReco 4 (r := (331 / 180, 0)) (by decide +kernel)

/-! ## C86 and C87 -/

example := C86_pam_swap_descent exMat_isMatrix exD_dissim exV exN (by decide) 9 exRun_pamSwap
example := C86_fastpam1_descent exMat_isMatrix exD_dissim exV exN (by decide) 9 exRun_fastpam1
example := C86_pam_build_strict exMat_isMatrix exD_dissim exS3 exRun_build (l := 1) (by decide) (by decide)
theorem ordV (a b : Nat) (h : a < 5 := by decide) (h' : b < 5 := by decide) : ValidMeds 5 [a, b] :=
  ⟨⟨by simp, by simp, by decide, by simp only [List.length_cons, List.length_nil]; decide⟩, by simp [h, h']⟩
example := C86_pam_swap_order (L := ℤ) ordσ_renumbering ordMat_isMatrix ordMat'_isMatrix ordD_dissim (ordV 0 1) (ordV 1 4)
  (by decide) (by decide) (List.Perm.swap _ _ _) (ord_noTies (by decide) (by decide) (by decide)) (maxiter := 9)
  (r := ⟨10, [1, 1, 1, 1, 0], 3, 2, [4, 2]⟩) (by decide +kernel)
  (r' := ⟨10, [0, 0, 0, 1, 0], 3, 2, [2, 3]⟩) (by decide +kernel)
example := C86_fastpam1_order (L := ℤ) ordσ_renumbering ordMat_isMatrix ordMat'_isMatrix ordD_dissim (ordV 0 1) (ordV 1 4)
  (by decide) (by decide) (List.Perm.swap _ _ _) (ord_noTies (by decide) (by decide) (by decide)) (maxiter := 9)
  (r := ⟨10, [1, 1, 1, 1, 0], 3, 2, [4, 2]⟩) (by decide +kernel)
  (r' := ⟨10, [0, 0, 0, 1, 0], 3, 2, [2, 3]⟩) (by decide +kernel)
example := C86_medoid_order (L := ℤ) ordMat_isMatrix ordD_dissim (ordV 0 1) (by decide) (by decide) (med' := [1, 0])
  (List.Perm.swap _ _ _) (ord_noTies (by decide) (by decide) (by decide)) (maxiter := 9)
  (r := ⟨10, [1, 1, 1, 1, 0], 3, 2, [4, 2]⟩) (by decide +kernel)
  (r' := ⟨10, [0, 0, 0, 0, 1], 3, 2, [2, 4]⟩) (by decide +kernel)
example := C86_pam_build_order (L := ℤ) ordσ_renumbering ordMat_isMatrix ordMat'_isMatrix ordD_dissim
  (k := 2) ⟨by decide, by decide, by decide, by decide⟩ (r := ⟨10, [0, 0, 0, 0, 1], [2, 4]⟩) (by decide +kernel)
  (r' := ⟨10, [0, 0, 0, 1, 0], [2, 3]⟩) (by decide +kernel) ord_uniqueGreedy
example := C86_pam_order (L := ℤ) ordσ_renumbering ordMat_isMatrix ordMat'_isMatrix ordD_dissim
  (k := 2) ⟨by decide, by decide, by decide, by decide⟩ (b := ⟨10, [0, 0, 0, 0, 1], [2, 4]⟩) (by decide +kernel) (by decide)
  ord_uniqueGreedy (ord_noTies (by decide) (by decide) (by decide)) (maxiter := 9)
  (r := ⟨10, [0, 0, 0, 0, 1], 1, 0, [2, 4]⟩) (by decide +kernel)
  (r' := ⟨10, [0, 0, 0, 1, 0], 1, 0, [2, 3]⟩) (by decide +kernel)

example := C87_pammedsil_swap_ascent exMat_isMatrix exD_dissim exV exN (by decide) 9 exRun_pammedsilSwap
example := C87_fastmsc_ascent exMat_isMatrix exD_dissim exV exN (by decide) 9 exRun_fastmsc
example := C87_pammedsil_swap_order (L := ℚ) ordσ_renumbering ordMat_isMatrix ordMat'_isMatrix ordD_dissim (ordV 1 0)
  (ordV 4 1) (by decide) (by decide) (List.Perm.swap _ _ _) (ord_noTies_sil (by decide) (by decide) (by decide))
  (maxiter := 9) (r := ⟨23 / 30, [0, 0, 0, 1, 0], 2, 1, [1, 3]⟩) (by decide +kernel)
  (r' := ⟨23 / 30, [0, 1, 1, 1, 1], 2, 1, [0, 1]⟩) (by decide +kernel)
example := C87_fastmsc_order (L := ℚ) ordσ_renumbering ordMat_isMatrix ordMat'_isMatrix ordD_dissim (ordV 1 0)
  (ordV 4 1) (by decide) (by decide) (List.Perm.swap _ _ _) (ord_noTies_sil (by decide) (by decide) (by decide))
  (maxiter := 9) (r := ⟨23 / 30, [0, 0, 0, 1, 0], 2, 1, [1, 3]⟩) (by decide +kernel)
  (r' := ⟨23 / 30, [0, 1, 1, 1, 1], 2, 1, [0, 1]⟩) (by decide +kernel)
example := C87_medoid_order (L := ℚ) ordMat_isMatrix ordD_dissim (ordV 1 0) (by decide) (by decide) (med' := [0, 1])
  (List.Perm.swap _ _ _) (ord_noTies_sil (by decide) (by decide) (by decide))
  (maxiter := 9) (r := ⟨23 / 30, [0, 0, 0, 1, 0], 2, 1, [1, 3]⟩) (by decide +kernel)
  (r' := ⟨23 / 30, [1, 1, 1, 0, 1], 2, 1, [3, 1]⟩) (by decide +kernel)

/-! ## C89 -/

example := C89_rand_fasterpam exMat_isMatrix exD_dissim exV exN (by decide) 9 exSeq_lt (by decide) exRun_rand
example := C89_fasterpam exMat_isMatrix exD_dissim exV exN (by decide) 9 exRun_fasterpam
example := C89_par_fasterpam exSched (fun _ _ => exSched_ok) exMat_isMatrix exD_dissim exV exN (by decide) 9 exSeq_lt
  (by decide) exRun_par
theorem exFlip_fasterpam : fasterpam ℤ flipMat [5, 4, 3] 9 = .ok ⟨2, [0, 2, 2, 1, 1, 1], 2, 2, [0, 4, 1]⟩ := by
  decide +kernel
example := C89_shuffle flip_renumbering exMat_isMatrix flipMat_isMatrix exD_dissim exV543 (by decide) (by decide)
  (r := ⟨2, [1, 1, 1, 2, 2, 0], 2, 2, [5, 1, 4]⟩) (by decide +kernel) exFlip_fasterpam
example := C89_renumber (L := ℤ) flip_renumbering exMat_isMatrix flipMat_isMatrix exD_dissim exV543 (by decide) (by decide)
  (maxiter := 9) (seq := [0, 2, 4, 5, 3, 1]) (by decide) (r := ⟨2, [1, 1, 1, 2, 2, 0], 2, 2, [5, 1, 3]⟩) (by decide +kernel)
  (r' := ⟨2, [0, 2, 2, 1, 1, 1], 2, 2, [0, 4, 2]⟩) (by decide +kernel)
example := C89_resume exMat_isMatrix exD_dissim exV exN (by decide) 1 8 exSeq_lt (by decide) exRun_rand
  (r1 := ⟨2, [1, 1, 1, 2, 2, 0], 1, 2, [5, 1, 3]⟩) (by decide +kernel)
  (r2 := ⟨2, [1, 1, 1, 2, 2, 0], 1, 0, [5, 1, 3]⟩) (by decide +kernel)
example := C89_fastermsc exMat_isMatrix exD_dissim exV exN (by decide) 9 exRun_fastermsc
example := C89_fastermsc_resume exMat_isMatrix exD_dissim exV exN (by decide) 1 8 exRun_fastermsc
  (r1 := ⟨14 / 15, [1, 1, 1, 0, 0, 2], 1, 3, [4, 1, 5]⟩) (by decide +kernel)
  (r2 := ⟨14 / 15, [1, 1, 1, 0, 0, 2], 1, 0, [4, 1, 5]⟩) (by decide +kernel)

/-! ## C91 and C92 -/

example := C91_alternating (L := ℤ) exMat_isMatrix exD_dissim exV exN 9
example := C91_resume exMat_isMatrix exD_dissim exV exN 2 7 exRun_alternating
  (r1 := ⟨6, [0, 1, 0, 2, 2, 2], 2, [0, 1, 4]⟩) (by decide +kernel)
  (r2 := ⟨6, [0, 1, 0, 2, 2, 2], 1, [0, 1, 4]⟩) (by decide +kernel)
example := C91_order (L := ℤ) (σ := fun x => 5 - x) flip_renumbering alt_isMatrix alt_isMatrix' alt_dissim
  (ex_valid (med := [0, 1]) (by decide) (by decide) (by decide)) (ex_valid (med := [4, 5]) (by decide) (by decide) (by decide))
  (by decide) (by decide) (maxiter := 9) (by decide +kernel)
  (r := ⟨31, [0, 0, 1, 0, 1, 1], 4, [1, 2]⟩) (by decide +kernel)
  (r' := ⟨31, [0, 0, 1, 0, 1, 1], 4, [3, 4]⟩) (by decide +kernel)
example := C92_dynmsc exMat_isMatrix exD_dissim exV exN (by decide) (by decide) 1 9 exRun_dynmsc

end KMedoids
