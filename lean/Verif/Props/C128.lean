import Verif.Props.C98
import Verif.Props.C97
import Verif.Props.C64
import Verif.Props.C39_C43

/-!
# C128: for the PAM family the triangle inequality is no restriction

By C98 a constant added to all distances does not matter. For a large constant the distances satisfy the triangle inequality. Hence
everything that the PAM family and `alternating` do with some symmetric dissimilarity, they do with a metric as well: the number of
iterations, say, cannot be bounded in a better way for metrics. The medoid silhouette methods do not have the property of C98.
-/

set_option linter.unusedSectionVars false

namespace KMedoids

open RFrom (conv)

section
variable {N L : Type} [LinearOrder N] [Zero N] [RDist N] [LawfulDist N]
variable [AddCommGroup L] [LinearOrder L] [IsOrderedAddMonoid L] [RLoss L] [LawfulLoss L]
variable [RFrom N L] [LawfulFrom N L]
variable {n : Nat} {c : L} {d d' : Nat → Nat → N}

/-- **C128:** a constant as large as all distances gives a metric. -/
theorem C128_metric (h : Shifted n d d' c) (hd : Dissim n d) (hd' : Dissim n d') (hsym : Symm n d) (hc : ∀ x y, x < n → y < n → (conv (d x y) : L) ≤ c) :
    IsMetric (conv : N → L) n d' := by
  have hmono := (LawfulFrom.strictMono (N := N) (L := L)).monotone
  have h0 : ∀ x y, x < n → y < n → (0 : L) ≤ conv (d x y) := fun x y hx hy => by
    rw [← LawfulFrom.map_zero (N := N) (L := L)]; exact hmono (hd.nonneg x y hx hy)
  have h0' : ∀ x y, x < n → y < n → (0 : L) ≤ conv (d' x y) := fun x y hx hy => by
    rw [← LawfulFrom.map_zero (N := N) (L := L)]; exact hmono (hd'.nonneg x y hx hy)
  have hd0 : ∀ x, x < n → (conv (d' x x) : L) = 0 := fun x hx => by
    rw [hd'.diag x hx]; exact LawfulFrom.map_zero (N := N) (L := L)
  refine ⟨fun x y hx hy => ?_, fun x y z hx hy hz => ?_⟩
  · by_cases e : x = y
    · rw [e]
    · refine (LawfulFrom.strictMono (N := N) (L := L)).injective ?_
      rw [h x y hx hy e, h y x hy hx (Ne.symm e), hsym x y hx hy]
  · by_cases e : x = z
    · rw [e, hd0 z hz]; exact add_nonneg (h0' _ _ hz hy) (h0' _ _ hy hz)
    by_cases e1 : x = y
    · rw [e1, hd0 y hy, zero_add]
    by_cases e2 : y = z
    · rw [e2, hd0 z hz, add_zero]
    rw [h x z hx hz e, h x y hx hy e1, h y z hy hz e2]
    calc (conv (d x z) : L) + c ≤ c + c := add_le_add (hc x z hx hz) le_rfl
      _ ≤ _ := add_le_add (le_add_of_nonneg_left (h0 _ _ hx hy)) (le_add_of_nonneg_left (h0 _ _ hy hz))

end

/-! ## Naturals -/

/-- The distances, with a constant added between different objects. -/
def addD (c : Nat) (d : Nat → Nat → ℕ) (x y : Nat) : ℕ := if x = y then 0 else d x y + c

theorem addD_dissim (n c : Nat) (d : Nat → Nat → ℕ) : Dissim n (addD c d) :=
  ⟨fun x _ => by simp [addD], fun _ _ _ _ => Nat.zero_le _⟩

theorem addD_shifted (n c : Nat) (d : Nat → Nat → ℕ) : Shifted n d (addD c d) (c : ℤ) := fun x y _ _ e => by
    show ((addD c d x y : ℕ) : ℤ) = ((d x y : ℕ) : ℤ) + c
    rw [addD, if_neg e]
    push_cast
    rfl

/-- **C128, the triangle inequality does not matter:** every symmetric dissimilarity on naturals has a metric on which the PAM
family and `alternating` run in the same way, for all starts, limits, visiting orders and schedules. -/
theorem C128_triangle {n : Nat} {d : Nat → Nat → ℕ} (hd : Dissim n d) (hsym : Symm n d) :
    ∃ (c : Nat) (d' : Nat → Nat → ℕ), Dissim n d' ∧ IsMetric (conv : ℕ → ℤ) n d' ∧
      ∀ mat mat' : Mat ℕ, IsMatrix mat n d → IsMatrix mat' n d' → ∀ maxiter : Nat,
        (∀ med : List Nat, ValidMeds n med → med.Nodup →
          (∀ seq r r', (∀ j ∈ seq, j < n) → seq.Nodup → randFasterpam ℤ mat med maxiter seq = .ok r →
            randFasterpam ℤ mat' med maxiter seq = .ok r' → SameRun n med.length (c : ℤ) r r') ∧
          (∀ sc0 sc0' scF scS scF' scS' seq r r', (∀ i j, (scF i j).Ok) → (∀ i j, (scF' i j).Ok) → (∀ j ∈ seq, j < n) → seq.Nodup →
            parFasterpam ℤ sc0 scF scS mat med maxiter seq = .ok r → parFasterpam ℤ sc0' scF' scS' mat' med maxiter seq = .ok r' →
            SameRun n med.length (c : ℤ) r r') ∧
          (∀ r r', fasterpam ℤ mat med maxiter = .ok r → fasterpam ℤ mat' med maxiter = .ok r' → SameRun n med.length (c : ℤ) r r') ∧
          (∀ r r', pamSwap ℤ mat med maxiter = .ok r → pamSwap ℤ mat' med maxiter = .ok r' → SameRun n med.length (c : ℤ) r r') ∧
          (∀ r r', fastpam1 ℤ mat med maxiter = .ok r → fastpam1 ℤ mat' med maxiter = .ok r' → SameRun n med.length (c : ℤ) r r') ∧
          ∀ r r', alternating ℤ mat med maxiter = .ok r → alternating ℤ mat' med maxiter = .ok r' →
            r'.med = r.med ∧ r'.assi = r.assi ∧ r'.nIter = r.nIter) ∧
        ∀ k b r r', Sizes n k → pamBuild ℤ mat k = .ok b → b.med.length = k → pam ℤ mat k maxiter = .ok r →
          pam ℤ mat' k maxiter = .ok r' → SameRun n k (c : ℤ) r r' := by
  let c : Nat := ((List.range n).flatMap fun x => (List.range n).map (d x)).sum
  have h := addD_shifted n c d
  have hd' := addD_dissim n c d
  refine ⟨c, addD c d, hd', C128_metric h hd hd' hsym fun x y hx hy => ?_, fun mat mat' hm hm' maxiter =>
    ⟨fun med hv hnd => ⟨?_, ?_, ?_, ?_, ?_, ?_⟩, ?_⟩⟩
  · show ((d x y : ℕ) : ℤ) ≤ ((c : ℕ) : ℤ)
    refine Int.ofNat_le.mpr (List.le_sum_of_mem (List.mem_flatMap.mpr ⟨x, List.mem_range.mpr hx, ?_⟩))
    exact List.mem_map.mpr ⟨y, List.mem_range.mpr hy, rfl⟩
  · exact fun seq r r' hseq hsn hr hr' => C98_rand_fasterpam hm hm' hd hd' h hv hnd maxiter hseq hsn hr hr'
  · exact fun sc0 sc0' scF scS scF' scS' seq r r' hF hF' hseq hsn hr hr' =>
      C98_par_fasterpam sc0 sc0' hF hF' hm hm' hd hd' h hv hnd maxiter hseq hsn hr hr'
  · exact fun r r' hr hr' => C98_fasterpam hm hm' hd hd' h hv hnd maxiter hr hr'
  · exact fun r r' hr hr' => C98_pam_swap hm hm' hd hd' h hv hnd maxiter hr hr'
  · exact fun r r' hr hr' => C98_fastpam1 hm hm' hd hd' h hv hnd maxiter hr hr'
  · exact fun r r' hr hr' => by
      obtain ⟨a, b, e, -⟩ := C98_alternating hm hm' hd hd' h hv hnd maxiter hr hr'
      exact ⟨a, b, e⟩
  · exact fun k b r r' hs hb hl hr hr' => C98_pam hm hm' hd hd' h (Int.natCast_nonneg c) hs maxiter hb hl hr hr'

/-! ## Examples -/

/-- Not a metric: from 0 to 2 it is 9, over 3 only 3. -/
def shiftRows : List (List ℕ) := [[0, 1, 9, 2, 7], [1, 0, 3, 8, 2], [9, 3, 0, 1, 5], [2, 8, 1, 0, 1], [7, 2, 5, 1, 0]]

theorem shiftRows_dissim : Dissim 5 (rowsD shiftRows) :=
  ⟨by decide, fun _ _ _ _ => Nat.zero_le _⟩

theorem shiftRows_symm : Symm 5 (rowsD shiftRows) := fun x y hx hy => by
  have : ∀ x < 5, ∀ y < 5, rowsD shiftRows x y = rowsD shiftRows y x := by decide +kernel
  exact this x hx y hy

/-- A run with two swaps, without and with 10 added. The second is on a metric. -/
example : fasterpam ℤ (fnMat 5 (rowsD shiftRows)) [0, 1] 9 = .ok ⟨3, [1, 1, 0, 0, 0], 2, 2, [3, 1]⟩ ∧
    fasterpam ℤ (fnMat 5 (addD 10 (rowsD shiftRows))) [0, 1] 9 = .ok ⟨33, [1, 1, 0, 0, 0], 2, 2, [3, 1]⟩ ∧
    ¬ IsMetric (conv : ℕ → ℤ) 5 (rowsD shiftRows) ∧ IsMetric (conv : ℕ → ℤ) 5 (addD 10 (rowsD shiftRows)) := by
  refine ⟨by decide +kernel, by decide +kernel, fun h => ?_, C128_metric (addD_shifted 5 10 _)
    shiftRows_dissim (addD_dissim 5 10 _) shiftRows_symm fun x y hx hy => ?_⟩
  · have := h.triangle 0 3 2 (by decide) (by decide) (by decide)
    revert this
    decide
  · have : ∀ x < 5, ∀ y < 5, rowsD shiftRows x y ≤ 10 := by decide +kernel
    exact Int.ofNat_le.mpr (this x hx y hy)

def dupRows : List (List ℕ) := [[0, 0, 5], [0, 0, 5], [5, 5, 0]]

/-- **C128, an early stop of BUILD matters:** with duplicates it stops at two medoids, with 1 added it finds three. -/
theorem C128_build_stop_negation :
    ¬ ∀ (n c k : Nat) (d : Nat → Nat → ℕ) (r r' : BuildResult ℤ), Dissim n d → Symm n d → Sizes n k →
      pamBuild ℤ (fnMat n d) k = .ok r → pamBuild ℤ (fnMat n (addD c d)) k = .ok r' → r'.med = r.med := by
  intro h
  have := h 3 1 3 (rowsD dupRows) ⟨0, [0, 0, 1], [0, 2]⟩ ⟨0, [0, 2, 1], [0, 2, 1]⟩
    ⟨by decide, fun _ _ _ _ => Nat.zero_le _⟩ (fun x y hx hy => by
      have : ∀ x < 3, ∀ y < 3, rowsD dupRows x y = rowsD dupRows y x := by decide +kernel
      exact this x hx y hy) ⟨by decide, by decide, by decide, by decide⟩ (by decide +kernel) (by decide +kernel)
  revert this
  decide

def shiftSilRows : List (List ℕ) := [[0, 3, 2, 2], [3, 0, 1, 1], [2, 1, 0, 3], [2, 1, 3, 0]]

/-- **C128 fails for the medoid silhouette:** FasterMSC, FastMSC and PAMMEDSIL stay with the medoids 0 and 1, and leave
them if 10 is added to the distances. -/
theorem C128_msc_negation :
    (¬ ∀ (n c : Nat) (d : Nat → Nat → ℕ) (med : List Nat) (maxiter : Nat) (r r' : SwapResult ℚ), Dissim n d → Symm n d →
      ValidMeds n med → med.Nodup → fastermsc ℚ (fnMat n d) med maxiter = .ok r →
      fastermsc ℚ (fnMat n (addD c d)) med maxiter = .ok r' → r'.med = r.med) ∧
    (¬ ∀ (n c : Nat) (d : Nat → Nat → ℕ) (med : List Nat) (maxiter : Nat) (r r' : SwapResult ℚ), Dissim n d → Symm n d →
      ValidMeds n med → med.Nodup → fastmsc ℚ (fnMat n d) med maxiter = .ok r →
      fastmsc ℚ (fnMat n (addD c d)) med maxiter = .ok r' → r'.med = r.med) ∧
    ¬ ∀ (n c : Nat) (d : Nat → Nat → ℕ) (med : List Nat) (maxiter : Nat) (r r' : SwapResult ℚ), Dissim n d → Symm n d →
      ValidMeds n med → med.Nodup → pammedsilSwap ℚ (fnMat n d) med maxiter = .ok r →
      pammedsilSwap ℚ (fnMat n (addD c d)) med maxiter = .ok r' → r'.med = r.med := by
  have hd : Dissim 4 (rowsD shiftSilRows) := ⟨by decide, fun _ _ _ _ => Nat.zero_le _⟩
  have hsym : Symm 4 (rowsD shiftSilRows) := fun x y hx hy => by
    have : ∀ x < 4, ∀ y < 4, rowsD shiftSilRows x y = rowsD shiftSilRows y x := by decide +kernel
    exact this x hx y hy
  have hv : ValidMeds 4 [0, 1] := ⟨⟨by decide, by decide, by decide, by decide⟩, by decide⟩
  refine ⟨fun h => ?_, fun h => ?_, fun h => ?_⟩ <;>
    have := h 4 10 (rowsD shiftSilRows) [0, 1] 9 ⟨3 / 4, [0, 1, 1, 1], 1, 0, [0, 1]⟩ ⟨29 / 52, [0, 1, 0, 1], 2, 1, [2, 1]⟩ hd hsym hv
      (by decide) (by decide +kernel) (by decide +kernel)
  all_goals
    revert this
    decide

end KMedoids
