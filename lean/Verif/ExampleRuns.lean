import Verif.Examples
import Verif.Model.FastPam1
import Verif.Model.Alternating
import Verif.Model.DynMsc
import Verif.Model.FastMsc
import Verif.Model.PamMedSil
import Verif.Model.PamSil
import Verif.Model.ParFasterPam
import Verif.Model.Silhouette
import Verif.Proofs.Par

/-!
# Runs on the concrete inputs

Every function on the six objects of `Verif.Examples`. In all of these runs something happens: medoids are exchanged, and
the run converges before the limit.
-/

namespace KMedoids

theorem exV : ValidMeds 6 [0, 1, 2] := ex_valid (by decide) (by decide) (by decide)
theorem exV2 : ValidMeds 6 [0, 1] := ex_valid (by decide) (by decide) (by decide)
theorem exN : [0, 1, 2].Nodup := by decide
theorem exN2 : [0, 1].Nodup := by decide
theorem exV5 : ValidMeds 6 [5] := ex_valid (by decide) (by decide) (by decide)
theorem exS3 : Sizes 6 3 := ex_sizes (by decide) (by decide)
theorem exSym1 {k : Nat} : k = 1 → Symm 6 exD := fun _ => exD_symm

/-- A visiting order. -/
def exSeq : List Nat := [5, 3, 1, 0, 2, 4]
theorem exSeq_perm : exSeq.Perm (List.range 6) := by decide
theorem exSeq_lt : ∀ j ∈ exSeq, j < 6 := by decide

/-- Three tasks that end in the order 2, 0, 1. -/
def exSched : Sched := ⟨3, [2, 0, 1], .node 2 (.node 1 .leaf .leaf) .leaf⟩
theorem exSched_ok : exSched.Ok := ⟨by decide, by decide⟩

theorem exRun_rand : randFasterpam ℤ exMat [0, 1, 2] 9 exSeq = .ok ⟨2, [1, 1, 1, 2, 2, 0], 2, 2, [5, 1, 3]⟩ := by
  decide +kernel
theorem exRun_par : parFasterpam ℤ exSched (fun _ _ => exSched) (fun _ _ => exSched) exMat [0, 1, 2] 9 exSeq =
    .ok ⟨2, [1, 1, 1, 2, 2, 0], 2, 2, [5, 1, 3]⟩ := by decide +kernel
theorem exRun_fasterpam : fasterpam ℤ exMat [0, 1, 2] 9 = .ok ⟨2, [1, 1, 1, 0, 0, 2], 2, 3, [4, 1, 5]⟩ := by
  decide +kernel
theorem exRun_pamSwap : pamSwap ℤ exMat [0, 1, 2] 9 = .ok ⟨2, [1, 1, 1, 0, 0, 2], 3, 2, [4, 1, 5]⟩ := by decide +kernel
theorem exRun_pamSwap1 : pamSwap ℤ exMat [0, 1, 2] 1 = .ok ⟨5, [1, 1, 2, 0, 0, 0], 1, 1, [4, 1, 2]⟩ := by
  decide +kernel
theorem exRun_fastpam1 : fastpam1 ℤ exMat [0, 1, 2] 9 = .ok ⟨2, [1, 1, 1, 0, 0, 2], 3, 2, [4, 1, 5]⟩ := by
  decide +kernel
theorem exRun_fastpam1_1 : fastpam1 ℤ exMat [0, 1, 2] 1 = .ok ⟨5, [1, 1, 2, 0, 0, 0], 1, 1, [4, 1, 2]⟩ := by
  decide +kernel
theorem exRun_build : pamBuild ℤ exMat 3 = .ok ⟨3, [0, 0, 0, 1, 1, 2], [2, 4, 5]⟩ := by decide +kernel
theorem exRun_pam : pam ℤ exMat 3 9 = .ok ⟨2, [0, 0, 0, 1, 1, 2], 2, 1, [0, 4, 5]⟩ := by decide +kernel
theorem exRun_alternating : alternating ℤ exMat [0, 1, 2] 9 = .ok ⟨6, [0, 1, 0, 2, 2, 2], 3, [0, 1, 4]⟩ := by
  decide +kernel
theorem exRun_single : fasterpam ℤ exMat [5] 9 = .ok ⟨20, [0, 0, 0, 0, 0, 0], 1, 1, [2]⟩ := by decide +kernel

/-! From the result of a run: nothing changes. -/

theorem exAgain_rand : randFasterpam ℤ exMat [5, 1, 3] 9 exSeq = .ok ⟨2, [1, 1, 1, 2, 2, 0], 1, 0, [5, 1, 3]⟩ := by
  decide +kernel
theorem exAgain_fasterpam : fasterpam ℤ exMat [4, 1, 5] 9 = .ok ⟨2, [1, 1, 1, 0, 0, 2], 1, 0, [4, 1, 5]⟩ := by
  decide +kernel
theorem exAgain_pamSwap : pamSwap ℤ exMat [4, 1, 5] 9 = .ok ⟨2, [1, 1, 1, 0, 0, 2], 1, 0, [4, 1, 5]⟩ := by
  decide +kernel
theorem exAgain_fastpam1 : fastpam1 ℤ exMat [4, 1, 5] 9 = .ok ⟨2, [1, 1, 1, 0, 0, 2], 1, 0, [4, 1, 5]⟩ := by
  decide +kernel

/-! Medoid silhouettes and silhouettes. -/

theorem exRun_fastermsc : fastermsc ℚ exMat [0, 1, 2] 9 = .ok ⟨14 / 15, [1, 1, 1, 0, 0, 2], 2, 3, [4, 1, 5]⟩ := by
  decide +kernel
theorem exRun_fastermsc2 : fastermsc ℚ exMat [0, 1] 9 = .ok ⟨13 / 15, [1, 1, 1, 0, 0, 0], 2, 3, [4, 1]⟩ := by
  decide +kernel
theorem exRun_fastmsc : fastmsc ℚ exMat [0, 1, 2] 9 = .ok ⟨14 / 15, [1, 1, 1, 0, 0, 2], 3, 2, [4, 1, 5]⟩ := by
  decide +kernel
theorem exRun_fastmsc2 : fastmsc ℚ exMat [0, 1] 9 = .ok ⟨13 / 15, [1, 1, 1, 0, 0, 0], 2, 1, [4, 1]⟩ := by
  decide +kernel
theorem exRun_pammedsilSwap :
    pammedsilSwap ℚ exMat [0, 1, 2] 9 = .ok ⟨14 / 15, [1, 1, 1, 0, 0, 2], 3, 2, [4, 1, 5]⟩ := by decide +kernel
theorem exRun_pammedsil : pammedsil ℚ exMat 3 9 = .ok ⟨14 / 15, [0, 0, 0, 1, 1, 2], 2, 1, [0, 4, 5]⟩ := by
  decide +kernel
theorem exRun_dynmsc : dynmsc ℚ exMat [0, 1, 2] 1 9 =
    .ok ⟨14 / 15, [1, 1, 1, 0, 0, 2], 4, 4, [4, 1, 5], [0, 13 / 15, 14 / 15]⟩ := by decide +kernel
theorem exRun_pamsilSwap : pamsilSwap ℚ exMat [0, 1, 2] 9 = .ok ⟨11453 / 16632, [2, 2, 2, 0, 0, 1], 3, 2, [3, 5, 2]⟩ := by
  decide +kernel
theorem exRun_pamsil : pamsil ℚ exMat 3 9 = .ok ⟨11453 / 16632, [0, 0, 0, 1, 1, 2], 2, 1, [0, 4, 5]⟩ := by
  decide +kernel
theorem exRun_silhouette : silhouette ℚ exMat [1, 1, 1, 0, 0, 2] false = .ok (11453 / 16632, []) := by decide +kernel
theorem exRun_medsil : medoidSilhouette ℚ exMat [4, 1, 5] false = .ok (14 / 15, []) := by decide +kernel

/-! The running example in a `LowerTriangle`. -/

/-- The same matrix in triangular storage. -/
def exTri : LowerTriangle ℕ := ⟨6, [0, 1, 1, 5, 5, 4, 6, 6, 5, 1, 10, 10, 9, 5, 4]⟩

theorem exTri_isMatrix : IsMatrix exTri.toMat 6 exD :=
  ⟨rfl, rfl, fun x y hx hy => by
    have : ∀ x < 6, ∀ y < 6, exTri.toMat.get x y = .ok (exD x y) := by decide +kernel
    exact this x hx y hy⟩

end KMedoids
