import Verif.ExampleRuns
import Verif.Props.C58
import Verif.Props.C59
import Verif.Props.C66
import Verif.Props.C68
import Verif.Props.C72
import Verif.Props.C79
import Verif.Props.C83
import Verif.Props.C105

/-!
# Theorems on floating point, applied

The six objects of `Verif.Examples` with distances in `u32` and losses in `f64`; see `Verif.Applied.C01_C23`.
-/

namespace KMedoids

open RFrom (conv)

/-- The distances of the running example as `u32`. -/
def exDU (x y : Nat) : UInt32 := UInt32.ofNat (exD x y)
def exMatU : Mat UInt32 := Array2.toMat ⟨6, 6, exDU⟩

theorem exMatU_isMatrix : IsMatrix exMatU 6 exDU := ⟨rfl, rfl, fun x y hx hy => by
  have : ∀ x < 6, ∀ y < 6, exMatU.get x y = .ok (exDU x y) := by decide +kernel
  exact this x hx y hy⟩
theorem exDU_dissim : Dissim 6 exDU := ⟨fun x hx => (by decide : ∀ x < 6, exDU x x = 0) x hx, fun x y hx hy =>
  (by decide : ∀ x < 6, ∀ y < 6, 0 ≤ exDU x y) x hx y hy⟩

local notation "f64" => Ieee binary64

theorem exU_rand : randFasterpam f64 exMatU [0, 1, 2] 9 exSeq = .ok ⟨.num 2, [1, 1, 1, 2, 2, 0], 2, 2, [5, 1, 3]⟩ := by
  decide +kernel
theorem exU_par : parFasterpam f64 exSched (fun _ _ => exSched) (fun _ _ => exSched) exMatU [0, 1, 2] 9 exSeq =
    .ok ⟨.num 2, [1, 1, 1, 2, 2, 0], 2, 2, [5, 1, 3]⟩ := by decide +kernel
theorem exU_fasterpam : fasterpam f64 exMatU [0, 1, 2] 9 = .ok ⟨.num 2, [1, 1, 1, 0, 0, 2], 2, 3, [4, 1, 5]⟩ := by
  decide +kernel
theorem exU_pamSwap : pamSwap f64 exMatU [0, 1, 2] 9 = .ok ⟨.num 2, [1, 1, 1, 0, 0, 2], 3, 2, [4, 1, 5]⟩ := by
  decide +kernel
theorem exU_fastpam1 : fastpam1 f64 exMatU [0, 1, 2] 9 = .ok ⟨.num 2, [1, 1, 1, 0, 0, 2], 3, 2, [4, 1, 5]⟩ := by
  decide +kernel
theorem exU_single : pamSwap f64 exMatU [5] 9 = .ok ⟨.num 20, [0, 0, 0, 0, 0, 0], 1, 1, [2]⟩ := by decide +kernel
theorem exU_alternating : alternating f64 exMatU [0, 1, 2] 9 = .ok ⟨.num 6, [0, 1, 0, 2, 2, 2], 3, [0, 1, 4]⟩ := by
  decide +kernel

/-! ## C58 -/

theorem exU_zero : (conv (0 : UInt32) : f64) = RLoss.zero := by decide +kernel

example := C06_par_fasterpam exSched (fun _ _ => exSched) (fun _ _ => exSched) exMatU_isMatrix exDU_dissim exV exN 9
  exSeq_lt exU_par
example := C07_par_fasterpam exSched (fun _ _ => exSched) (fun _ _ => exSched) exMatU_isMatrix exDU_dissim exV exN 9
  exSeq_lt exU_par
example := C58_rand_fasterpam exU_zero exMatU_isMatrix exDU_dissim exV exN 9 exSeq_lt exU_rand
example := C58_fasterpam_recompute exU_zero exMatU_isMatrix exDU_dissim exV exN (by decide) 9 exU_fasterpam
example := C58_alternating exMatU_isMatrix exDU_dissim exV exN 9 exU_alternating
example := C58_par_fasterpam exU_zero exSched (fun _ _ => exSched) (fun _ _ => exSched) exMatU_isMatrix exDU_dissim exV exN
  (by decide) 9 exSeq_lt exU_par
example := C58_fastpam1_partial exU_zero exMatU_isMatrix exDU_dissim exV exN (by decide) 9 exU_fastpam1
example := C58_pam_swap_single exMatU_isMatrix exV5 9 (.inl exU_single)

/-! ## C59 -/

theorem exU_sil (f : Mat UInt32 → List Nat → Nat → Res (SwapResult f64)) (k m : Nat)
    (h : ((f exMatU (List.range k) m).toOption.map fun r => (r.med, r.nIter)).isSome) :
    ∃ r, f exMatU (List.range k) m = .ok r := by
  cases e : f exMatU (List.range k) m with
  | ok r => exact ⟨r, rfl⟩
  | error x => rw [e] at h; cases h

example : ∃ r : SwapResult f64, fastermsc f64 exMatU [0, 1, 2] 9 = .ok r ∧ SilAnswer 6 3 exDU r :=
  have ⟨_, h⟩ := exU_sil (fastermsc f64) 3 9 (by decide +kernel)
  ⟨_, h, C59_fastermsc_nearest exMatU_isMatrix exDU_dissim exV exN (by decide) 9 h⟩
example : ∃ r : SwapResult f64, fastmsc f64 exMatU [0, 1, 2] 9 = .ok r ∧ SilAnswer 6 3 exDU r ∧
    SilLossUpToLast 6 exDU r ∧ GoodAnswer 6 exDU r.med r.assi ∧ r.med.Nodup :=
  have ⟨_, h⟩ := exU_sil (fastmsc f64) 3 9 (by decide +kernel)
  ⟨_, h, C59_fastmsc_nearest exMatU_isMatrix exDU_dissim exV exN (by decide) (by decide) 9 h,
    C59_fastmsc_partial exMatU_isMatrix exDU_dissim exV exN (by decide) (by decide) 9 h,
    C59_fastmsc_own exMatU_isMatrix exDU_dissim exV exN (by decide) 9 h,
    C59_fastmsc_distinct exMatU_isMatrix exDU_dissim exV exN (by decide) (by decide) (.inl (by decide)) 9 h⟩
example : ∃ r : SwapResult f64, pammedsilSwap f64 exMatU [0, 1, 2] 9 = .ok r ∧ GoodAnswer 6 exDU r.med r.assi ∧
    SilLossUpToLast 6 exDU r :=
  have ⟨_, h⟩ := exU_sil (pammedsilSwap f64) 3 9 (by decide +kernel)
  ⟨_, h, (C59_pammedsil_swap_nearest exMatU_isMatrix exDU_dissim exV exN (by decide) 9 h).1,
    C59_pammedsil_swap_partial exMatU_isMatrix exDU_dissim exV exN (by decide) 9 h⟩

/-! ## C68 -/

example := C68_u32_f64 exMatU (by decide) [0, 1, 2] 9

/-! ## C79 and C83 -/

theorem exU_counts : Counts binary64 6 := counts64 (by decide)

example : ∃ r : SwapResult f64, fastmsc f64 exMatU [0, 1, 2] 9 = .ok r ∧ r.loss.Within 0 1 :=
  have ⟨_, h⟩ := exU_sil (fastmsc f64) 3 9 (by decide +kernel)
  ⟨_, h, C79_fastmsc convMono_u32_f64 exMatU_isMatrix exDU_dissim exV exN (by decide) (by decide) exU_counts 9 h⟩
example : ∃ r : SwapResult f64, pammedsilSwap f64 exMatU [0, 1, 2] 9 = .ok r ∧ r.loss.Within 0 1 :=
  have ⟨_, h⟩ := exU_sil (pammedsilSwap f64) 3 9 (by decide +kernel)
  ⟨_, h, C79_pammedsil_swap convMono_u32_f64 exMatU_isMatrix exDU_dissim exV exN (by decide) exU_counts 9 h⟩
example : ∃ r : SwapResult f64, pamsilSwap f64 exMatU [0, 1, 2] 9 = .ok r ∧ r.loss.Within (-1) 1 :=
  have ⟨_, h⟩ := exU_sil (pamsilSwap f64) 3 9 (by decide +kernel)
  ⟨_, h, C79_pamsil_swap convMono_u32_f64.pos exMatU_isMatrix (by decide) exV (by decide) exU_counts h⟩
example : ∃ r : SwapResult f64, fastermsc f64 exMatU [0, 1, 2] 9 = .ok r ∧
    ∃ q : ℚ, r.loss = .num q ∧ 1 / 2 ^ 53 ≤ q ∧ q ≤ 1 :=
  have ⟨_, h⟩ := exU_sil (fastermsc f64) 3 9 (by decide +kernel)
  ⟨_, h, C83_fastermsc convNum_u32_f64 (by decide) exU_counts exMatU_isMatrix exDU_dissim exV exN (by decide) h⟩
example := C83_silhouette_pos convNum_u32_f64 (by decide) exU_counts exDU_dissim exN (by decide) exV.range

/-! ## C105: the order of every row -/

theorem exU_row (o : Nat) (ho : o < 6) : RowOrder 6 exDU o := rowOrder_of_dissim exDU_dissim ho

example := C105_rand_fasterpam exMatU_isMatrix (exU_row 3 (by decide)) (by decide) exV (by decide) 9 exSeq_lt exU_rand
example := C105_fasterpam exMatU_isMatrix (exU_row 3 (by decide)) (by decide) exV (by decide) 9 exU_fasterpam
example := C105_par_fasterpam exSched (fun _ _ => exSched) (fun _ _ => exSched) exMatU_isMatrix (exU_row 3 (by decide))
  (by decide) exV (by decide) 9 exSeq_lt exU_par
example := C105_pam_swap exMatU_isMatrix (exU_row 3 (by decide)) (by decide) exV (by decide) 9 exU_pamSwap
example := C105_fastpam1 exMatU_isMatrix (exU_row 3 (by decide)) (by decide) exV (by decide) 9 exU_fastpam1
example := C105_alternating exMatU_isMatrix (exU_row 3 (by decide)) (by decide) exV (by decide) 9 exU_alternating
example := C105_distinct (L := f64) exMatU_isMatrix exU_row exV exN 9 exSeq_lt exSched (fun _ _ => exSched) (fun _ _ => exSched)

end KMedoids
