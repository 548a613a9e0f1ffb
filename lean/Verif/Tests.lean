import Verif.Instances
import Verif.Model.FastPam1
import Verif.Model.Alternating
import Verif.Model.DynMsc
import Verif.Model.FastMsc
import Verif.Model.PamMedSil
import Verif.Model.PamSil
import Verif.Model.ParFasterPam
import Verif.Model.Silhouette

/-!
# The unit tests of the crate, replayed on the model

These are tests, not proofs of properties: they guard the fidelity of the hand-written model against
the expected values recorded in the crate's own `#[cfg(test)]` modules.
-/

namespace KMedoids.Tests

/-- The matrix of all tests (e.g. src/fasterpam.rs, `mod tests`). -/
def tri : Mat ℕ := (⟨5, [1, 2, 3, 4, 5, 6, 7, 8, 9, 1]⟩ : LowerTriangle ℕ).toMat

-- src/fasterpam.rs, test fasterpam
example : fasterpam ℤ tri [0, 1] 10 = .ok ⟨4, [0, 0, 0, 1, 1], 2, 2, [0, 3]⟩ := by decide +kernel
-- src/fasterpam.rs, test k = 1
example : fasterpam ℤ tri [1] 10 = .ok ⟨14, [0, 0, 0, 0, 0], 1, 1, [0]⟩ := by decide +kernel
-- src/pam.rs
example : pamSwap ℤ tri [0, 1] 10 = .ok ⟨4, [0, 0, 0, 1, 1], 2, 1, [0, 3]⟩ := by decide +kernel
-- src/pam.rs
example : pamBuild ℤ tri 2 = .ok ⟨4, [0, 0, 0, 1, 1], [0, 3]⟩ := by decide +kernel
-- src/pam.rs
example : pam ℤ tri 2 10 = .ok ⟨4, [0, 0, 0, 1, 1], 1, 0, [0, 3]⟩ := by decide +kernel
-- src/fastpam1.rs
example : fastpam1 ℤ tri [0, 1] 10 = .ok ⟨4, [0, 0, 0, 1, 1], 2, 1, [0, 3]⟩ := by decide +kernel
-- src/alternating.rs
example : alternating ℤ tri [0, 1] 10 = .ok ⟨4, [1, 1, 1, 0, 0], 3, [3, 0]⟩ := by decide +kernel
-- expected 0.7522494172494172
example : silhouette ℚ tri [0, 0, 0, 1, 1] false = .ok (64543 / 85800, []) := by decide +kernel
-- expected 0.7522494172494172
example : parSilhouette ℚ tri [0, 0, 0, 1, 1] = .ok (64543 / 85800) := by decide +kernel
-- src/pamsil.rs
example : pamsil ℚ tri 2 10 = .ok ⟨64543 / 85800, [0, 0, 0, 1, 1], 2, 1, [1, 3]⟩ := by decide +kernel
-- src/pamsil.rs, expected 0.56222
example : pamsil ℚ tri 3 10 = .ok ⟨253 / 450, [0, 0, 2, 1, 1], 2, 1, [1, 3, 2]⟩ := by decide +kernel
-- src/pamsil.rs
example : pamsilSwap ℚ tri [0, 1, 2] 10 = .ok ⟨253 / 450, [1, 1, 2, 0, 0], 2, 1, [3, 1, 2]⟩ := by decide +kernel
-- src/pammedsil.rs, expected 0.9047619
example : pammedsil ℚ tri 3 10 = .ok ⟨19 / 21, [0, 0, 2, 1, 1], 1, 0, [0, 3, 2]⟩ := by decide +kernel
-- src/pammedsil.rs
example : pammedsilSwap ℚ tri [0, 1, 2] 10 = .ok ⟨19 / 21, [0, 0, 2, 1, 1], 2, 1, [0, 3, 2]⟩ := by decide +kernel
-- src/pammedsil.rs, expected 0.880555
example : pammedsilSwap ℚ tri [0, 1] 10 = .ok ⟨317 / 360, [0, 0, 0, 1, 1], 2, 1, [0, 4]⟩ := by decide +kernel
-- src/fastmsc.rs
example : fastmsc ℚ tri [0, 1, 2] 10 = .ok ⟨19 / 21, [0, 0, 2, 1, 1], 2, 1, [0, 3, 2]⟩ := by decide +kernel
-- src/fastmsc.rs
example : fastmsc ℚ tri [0, 1] 10 = .ok ⟨317 / 360, [0, 0, 0, 1, 1], 2, 1, [0, 4]⟩ := by decide +kernel
-- src/fastermsc.rs
example : fastermsc ℚ tri [0, 1, 2] 10 = .ok ⟨19 / 21, [0, 0, 2, 1, 1], 2, 1, [0, 3, 2]⟩ := by decide +kernel
-- src/fastermsc.rs
example : fastermsc ℚ tri [0, 1] 10 = .ok ⟨317 / 360, [0, 0, 0, 1, 1], 2, 3, [0, 4]⟩ := by decide +kernel

/-- The ndarray of the dynmsc test (src/dynmsc.rs). -/
def full : Mat ℚ := (⟨4, 4, fun x y =>
  (([[0, 1, 2, 3], [1, 0, 4, 5], [2, 4, 0, 6], [3, 5, 6, 0]].getD x []).getD y 0)⟩ : Array2 ℚ).toMat
-- src/dynmsc.rs, expected loss 0.9375 and 3 medoids
example : dynmsc ℚ full [0, 1, 2] 2 100 =
    .ok ⟨15 / 16, [0, 0, 2, 1], 4, 2, [0, 3, 2], [13 / 15, 15 / 16]⟩ := by decide +kernel

/-- The second ndarray of the dynmsc tests (not symmetric, diagonal not zero). -/
def full2 : Mat ℚ := (⟨5, 5, fun x y =>
  (([[0, 1, 2, 3, 1], [1, 0, 4, 5, 2], [2, 4, 0, 6, 3], [3, 5, 6, 0, 4], [2, 1, 5, 6, 5]].getD
    x []).getD y 0)⟩ : Array2 ℚ).toMat
-- src/dynmsc.rs, expected loss 0.87 and 3 medoids
example : dynmsc ℚ full2 [0, 1, 2] 1 100 =
    .ok ⟨87 / 100, [0, 0, 2, 1, 0], 4, 2, [0, 3, 2], [0, 62 / 75, 87 / 100]⟩ := by decide +kernel
example : dynmsc ℚ full2 [4, 1, 2] 1 100 =
    .ok ⟨87 / 100, [0, 0, 2, 1, 0], 4, 3, [0, 3, 2], [0, 62 / 75, 87 / 100]⟩ := by decide +kernel

/-- A schedule with two threads, the second of which takes the mutex first. -/
def sched : Sched := ⟨2, [1, 0], .node 2 .leaf (.node 1 .leaf .leaf)⟩
-- src/par_fasterpam.rs, expected loss 4
example : parFasterpam ℤ sched (fun _ _ => sched) (fun _ _ => sched) tri [0, 1] 10 [4, 2, 0, 3, 1] =
    .ok ⟨4, [0, 0, 0, 1, 1], 2, 1, [0, 4]⟩ := by decide +kernel

end KMedoids.Tests
