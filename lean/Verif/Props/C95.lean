import Verif.Props.C94
import Verif.Props.C39_C43

/-!
# C95: how good BUILD is

Every step of BUILD takes away at least the `m`-th part of what the total deviation is above that of any other `m` medoids
(Cornuéjols, Fisher and Nemhauser; no triangle inequality and no symmetry is needed). So with `k` medoids BUILD gets all
but the part `(1 - 1/k)^(k - 1)` of the possible improvement over the best single medoid.
-/

set_option linter.unusedSectionVars false
set_option linter.overlappingInstances false

namespace KMedoids

open RFrom (conv)

section
variable {N L : Type} [LinearOrder N] [Zero N] [RDist N] [LawfulDist N]
variable [AddCommGroup L] [LinearOrder L] [IsOrderedAddMonoid L] [RLoss L] [LawfulLoss L]
variable [RFrom N L] [LawfulFrom N L]

theorem totalDev_nonneg' {n : Nat} {d : Nat → Nat → N} (hd : Dissim n d) {med : List Nat} (hne : med ≠ [])
    (hr : ∀ c ∈ med, c < n) : 0 ≤ totalDev (conv : N → L) n d med := by
  rw [totalDev_eq_sum]
  refine Finset.sum_nonneg fun i hi => ?_
  obtain ⟨⟨c, hc, e⟩, -⟩ := minDist_spec d i med hne
  rw [e, ← LawfulFrom.map_zero (N := N) (L := L)]
  exact (LawfulFrom.strictMono (N := N) (L := L)).monotone (hd.nonneg _ _ (Finset.mem_range.mp hi) (hr c hc))

/-- A loss of zero is below every bound. -/
theorem zero_rate {a o : L} (ha : 0 ≤ a) (ho : 0 ≤ o) (m c : Nat) : m ^ c • (0 - o) ≤ (m - 1) ^ c • (a - o) := by
  have h1 : (m - 1) ^ c • o ≤ m ^ c • o := nsmul_le_nsmul_left ho (Nat.pow_le_pow_left (Nat.sub_le m 1) c)
  have h2 : 0 ≤ (m - 1) ^ c • a := nsmul_nonneg ha _
  rw [zero_sub, smul_neg, smul_sub]
  calc -(m ^ c • o) ≤ -((m - 1) ^ c • o) := neg_le_neg h1
    _ ≤ (m - 1) ^ c • a - (m - 1) ^ c • o := by rw [sub_eq_add_neg]; exact le_add_of_nonneg_left h2

/-- **C95, pam_build.** Compared with any other `m` medoids of total deviation `o`, and with any single medoid `x`:
`m^(k-1) (loss - o) ≤ (m - 1)^(k-1) (totalDev [x] - o)`. -/
theorem C95_pam_build {mat : Mat N} {n k : Nat} {d : Nat → Nat → N} (hm : IsMatrix mat n d) (hd : Dissim n d)
    (hs : Sizes n k) {r : BuildResult L} (hr : pamBuild L mat k = .ok r) {other : List Nat} (hne : other ≠ [])
    (hor : ∀ c ∈ other, c < n) {x : Nat} (hx : x < n) :
    other.length ^ (k - 1) • (r.loss - totalDev (conv : N → L) n d other) ≤
      (other.length - 1) ^ (k - 1) • (totalDev (conv : N → L) n d [x] - totalDev (conv : N → L) n d other) := by
  obtain ⟨a1, a2, a3, a4, -, a6⟩ := C19_pam_build hm hd hs hr
  obtain ⟨h20, -⟩ := C20_pam_build hm hd hs hr
  obtain ⟨⟨c, hc, hc'⟩, hg⟩ := C21_pam_build hm hd hs hr
  rw [a6]
  by_cases hkk : r.med.length < k
  · rw [h20 hkk]
    exact zero_rate (totalDev_nonneg' hd (by simp) (by simpa using hx)) (totalDev_nonneg' hd hne hor) _ _
  · have hk : r.med.length = k := by omega
    have h := greedy_take_rate (L := L) (n := n) (d := d) (meds := r.med) hne
      (fun l c _ hl x hx => hg l c hl x (hor x hx)) (l := k - 1) (by omega)
    have e1 : r.med.take (k - 1 + 1) = r.med := List.take_of_length_le (by omega)
    have e2 : r.med.take 1 = [c] := by
      cases hmed : r.med with
      | nil => rw [hmed] at hc; cases hc
      | cons y ys => rw [hmed] at hc; cases hc; rfl
    rw [e1, e2] at h
    exact h.trans (nsmul_le_nsmul_right (sub_le_sub_right (hc' x hx) _) _)

/-- **C95, pam:** the same for the final loss of `pam`, whatever the limit, on symmetric matrices or if BUILD returns more
than one medoid. -/
theorem C95_pam {mat : Mat N} {n k : Nat} {d : Nat → Nat → N} (hm : IsMatrix mat n d) (hd : Dissim n d)
    (hs : Sizes n k) {b : BuildResult L} (hb : pamBuild L mat k = .ok b) (hsym : b.med.length = 1 → Symm n d)
    {maxiter : Nat} {r : SwapResult L} (hr : pam L mat k maxiter = .ok r) {other : List Nat} (hne : other ≠ [])
    (hor : ∀ c ∈ other, c < n) {x : Nat} (hx : x < n) :
    other.length ^ (k - 1) • (r.loss - totalDev (conv : N → L) n d other) ≤
      (other.length - 1) ^ (k - 1) • (totalDev (conv : N → L) n d [x] - totalDev (conv : N → L) n d other) := by
  obtain ⟨-, r', e', hle⟩ := C22_pam hm hd hs maxiter hb
  rw [e'] at hr
  cases hr
  exact (nsmul_le_nsmul_right (sub_le_sub_right (hle hsym) _) _).trans (C95_pam_build hm hd hs hb hne hor hx)

/-- **C95, BUILD of pammedsil,** for the total deviation and as long as the other medoids do not include object 0, which
this BUILD does not try again: the first `l + 1` medoids. -/
theorem C95_pammedsil_build {N L : Type} [LinearOrder N] [Zero N] [RDist N] [LawfulDist N] [Field L] [LinearOrder L]
    [IsStrictOrderedRing L] [RLoss L] [LawfulField L] [RFrom N L] [LawfulFrom N L]
    {mat : Mat N} {n k : Nat} {d : Nat → Nat → N} (hm : IsMatrix mat n d) (hd : Dissim n d)
    (hs : Sizes n k) {meds : List Nat} {data : List (Reco N)} {loss : L}
    (hb : pammedsilBuildInitialize L mat k = .ok (meds, data, loss)) {other : List Nat} (hne : other ≠ [])
    (hor : ∀ c ∈ other, 1 ≤ c ∧ c < n) {x : Nat} (hx : x < n) {l : Nat} (hl : l < meds.length) :
    (other.length : L) ^ l * (totalDev (conv : N → L) n d (meds.take (l + 1)) - totalDev (conv : N → L) n d other) ≤
      ((other.length : L) - 1) ^ l *
        (totalDev (conv : N → L) n d [x] - totalDev (conv : N → L) n d other) := by
  obtain ⟨meds', data', loss', e, -, -, -, -, ⟨c, hc, hc'⟩, hg, -⟩ := C43_pammedsil_build_partial (L := L) hm hd hs
  rw [hb] at e
  injection e with e
  injection e with e1 e
  subst e1
  have h := greedy_take_rate (L := L) (n := n) (d := d) (meds := meds) hne
    (fun l c h1 hl x hx => (hg l c h1 hl).2 x (hor x hx).1 (hor x hx).2) hl
  have e2 : meds.take 1 = [c] := by
    cases hmed : meds with
    | nil => rw [hmed] at hc; cases hc
    | cons y ys => rw [hmed] at hc; cases hc; rfl
  rw [e2] at h
  have h := h.trans (nsmul_le_nsmul_right (sub_le_sub_right (hc' x hx) _) _)
  have hpos : 1 ≤ other.length := List.length_pos_of_ne_nil hne
  rw [nsmul_eq_mul, nsmul_eq_mul] at h
  push_cast [Nat.cast_sub hpos] at h
  exact h

end

section
variable {N : Type} [LinearOrder N] [Zero N] [RDist N] [LawfulDist N] [RLoss ℤ] [LawfulLoss ℤ] [RFrom N ℤ] [LawfulFrom N ℤ]

/-- **C95, more medoids:** for integers, BUILD with `m (log₂ s + 1) + 1` medoids, `s` being the total deviation of some
single medoid, is as good as any `m` medoids. -/
theorem C95_more_medoids {mat : Mat N} {n k : Nat} {d : Nat → Nat → N} (hm : IsMatrix mat n d) (hd : Dissim n d)
    (hs : Sizes n k) {r : BuildResult ℤ} (hr : pamBuild ℤ mat k = .ok r) {other : List Nat} (hne : other ≠ [])
    (hor : ∀ c ∈ other, c < n) {x : Nat} (hx : x < n)
    (hk : other.length * (Nat.log 2 (totalDev (conv : N → ℤ) n d [x]).toNat + 1) < k) :
    r.loss ≤ totalDev (conv : N → ℤ) n d other := by
  have h := C95_pam_build hm hd hs hr hne hor hx
  have ho := totalDev_nonneg_int hd hne hor
  have h1 := totalDev_nonneg_int hd (med := [x]) (by simp) (by simpa using hx)
  have := int_rate (a := (totalDev (conv : N → ℤ) n d [x]).toNat) (List.length_pos_of_ne_nil hne) (t := k - 1)
    (by omega) (y := totalDev (conv : N → ℤ) n d [x] - totalDev (conv : N → ℤ) n d other)
    (by rw [Int.toNat_of_nonneg h1]; omega) h
  omega

end

/-! ## Examples -/

/-- With two medoids BUILD is not optimal here, and the bound holds: `2 (64 - 62) ≤ 122 - 62`. -/
example : IsMatrix (lineMat [0, 1, 2, 20, 21, 22, 40, 41, 42]) 9 (lineD [0, 1, 2, 20, 21, 22, 40, 41, 42]) ∧
    Dissim 9 (lineD [0, 1, 2, 20, 21, 22, 40, 41, 42]) ∧ Sizes 9 2 ∧
    pamBuild ℤ (lineMat [0, 1, 2, 20, 21, 22, 40, 41, 42]) 2 = .ok ⟨64, [1, 1, 1, 0, 0, 0, 0, 0, 0], [4, 1]⟩ ∧
    totalDev (conv : ℕ → ℤ) 9 (lineD [0, 1, 2, 20, 21, 22, 40, 41, 42]) [1, 7] = 62 ∧
    totalDev (conv : ℕ → ℤ) 9 (lineD [0, 1, 2, 20, 21, 22, 40, 41, 42]) [4] = 122 :=
  ⟨lineMat_isMatrix _, lineD_dissim _ _, ⟨by decide, by decide, by decide, by decide⟩, by decide +kernel,
    by decide +kernel, by decide +kernel⟩

/-- The same with PAMMEDSIL; object 0 is not among the other medoids. -/
example : (pammedsilBuildInitialize ℚ (lineMat [0, 1, 2, 20, 21, 22, 40, 41, 42]) 2).map (·.1) = .ok [4, 1] ∧
    ∀ c ∈ [1, 7], 1 ≤ c ∧ c < 9 := by decide +kernel

/-- Four medoids of BUILD are as good as any one medoid: `1 (log₂ 4 + 1) = 3`. -/
example : Sizes 7 4 ∧ totalDev (conv : ℕ → ℤ) 7 (lineD [0, 0, 0, 0, 1, 1, 2]) [3] = 4 ∧
    1 * (Nat.log 2 4 + 1) < 4 ∧ totalDev (conv : ℕ → ℤ) 7 (lineD [0, 0, 0, 0, 1, 1, 2]) [4] = 5 ∧
    (pamBuild ℤ (lineMat [0, 0, 0, 0, 1, 1, 2]) 4).map (·.loss) = .ok 0 :=
  ⟨⟨by decide, by decide, by decide, by decide⟩, by decide +kernel, by decide +kernel, by decide +kernel,
    by decide +kernel⟩

end KMedoids
