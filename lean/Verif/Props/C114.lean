import Verif.Props.C113
import Verif.Props.C102
import Verif.Proofs.SeparatedFloat

/-!
# C114: well-separated groups are found under rounding

C113 in floating point arithmetic, in two forms: in terms of the values of the computed distances, for any arithmetic that obeys the
standard model of rounding errors, and for points in a metric space whose distances are computed with a relative error and summed in
`f64`. In the second form the conditions are simple: twice the separation of C113, and `k` times the errors at most 1/32 or so.
-/

set_option linter.unusedSectionVars false
set_option linter.overlappingInstances false
set_option exponentiation.threshold 2000

namespace KMedoids

open RFrom (conv)

section general
variable {N L K : Type} [LinearOrder N] [Zero N] [RDist N] [LawfulDist N] [RLoss L] [RFrom N L]
  [Field K] [LinearOrder K] [IsStrictOrderedRing K]
variable {fin : L → Prop} {val : L → K} {u B : K}

/-- A run of FasterPAM (any order of the objects, also with at most `p` threads) whose last pass made no exchange, or a run of PAM
or FastPAM1 whose last iteration made no exchange. -/
def QuietRun (p : Nat) (mat : Mat N) (n : Nat) (med : List Nat) (r : SwapResult L) : Prop :=
  (∃ maxiter seq r0, seq.Perm (List.range n) ∧ randFasterpam L mat med maxiter seq = .ok r0 ∧
    randFasterpam L mat med (maxiter + 1) seq = .ok r ∧ r.nIter = maxiter + 1 ∧ r.nSwap = r0.nSwap) ∨
  (∃ maxiter r0, fasterpam L mat med maxiter = .ok r0 ∧ fasterpam L mat med (maxiter + 1) = .ok r ∧
    r.nIter = maxiter + 1 ∧ r.nSwap = r0.nSwap) ∨
  (∃ maxiter, (pamSwap L mat med maxiter = .ok r ∨ fastpam1 L mat med maxiter = .ok r) ∧ r.nSwap < r.nIter) ∨
  ∃ maxiter seq r0 sc0 scF scS, AtMostThreads p scF ∧ seq.Perm (List.range n) ∧
    parFasterpam L sc0 scF scS mat med maxiter seq = .ok r0 ∧ parFasterpam L sc0 scF scS mat med (maxiter + 1) seq = .ok r ∧
    r.nIter = maxiter + 1 ∧ r.nSwap = r0.nSwap

theorem NearlyOptimal.mono (M : FloatLoss N fin val u B) {n : Nat} {d : Nat → Nat → N} (hd : Dissim n d) {e e' c c' : Nat} (he : e ≤ e')
    (hc : c ≤ c') {med : List Nat} (hk : 2 ≤ med.length) (hr : ∀ m ∈ med, m < n) (h : NearlyOptimal (N := N) val u e c n d med) :
    NearlyOptimal (N := N) val u e' c' n d med := fun b hb j hj => by
  refine (h b hb j hj).trans (add_le_add_right ?_ _)
  have h1 := M.std.one_le_pow e
  have h2 := M.std.pow_mono he
  have h3 := exactDev_erase_nonneg M hd hk hr hb
  refine mul_le_mul (by linarith) (mul_le_mul_of_nonneg_right (by exact_mod_cast hc) h3)
    (mul_nonneg (Nat.cast_nonneg _) h3) (by linarith)

/-- Such a run ends with nearly optimal medoids. -/
theorem QuietRun.nearlyOptimal (M : FloatLoss N fin val u B) {p : Nat} {mat : Mat N} {n : Nat} {d : Nat → Nat → N} (hm : IsMatrix mat n d)
    (hd : Dissim n d) {W : K} (hW : AtMost val W n d) (hB : (1 + u) ^ (2 * n + p + 1) * (2 * (n * W)) ≤ B) {med : List Nat}
    (hv : ValidMeds n med) (hnd : med.Nodup) (hk : 2 ≤ med.length) {r : SwapResult L} (hr : QuietRun p mat n med r) :
    NearlyOptimal (N := N) val u (2 * n + p + 1) 2 n d r.med ∧ r.med.length = med.length ∧ (∀ m ∈ r.med, m < n) ∧
    NearestAssignment n d r.med r.assi := by
  have := M.saneZero
  have hn : 1 ≤ n := hv.sizes.pos.trans hv.sizes.le
  have hW0 := (roundErr_nonneg (u := u) M hd hn hW 0 0).1
  have hfit : ∀ {e c : Nat}, e ≤ 2 * n + p + 1 → c ≤ 2 → (1 + u) ^ e * ((c : K) * (n * W)) ≤ B := fun {e c} he hc => by
    refine le_trans ?_ hB
    have h1 := M.std.one_le_pow e
    have h2 := M.std.pow_mono he
    have h3 : 0 ≤ (n : K) * W := mul_nonneg (Nat.cast_nonneg _) hW0
    refine mul_le_mul h2 (mul_le_mul_of_nonneg_right (by exact_mod_cast hc) h3) (mul_nonneg (Nat.cast_nonneg _) h3) (by linarith)
  have rand : ∀ {maxiter : Nat} {seq : List Nat} {r0 : SwapResult L}, seq.Perm (List.range n) →
      randFasterpam L mat med maxiter seq = .ok r0 → randFasterpam L mat med (maxiter + 1) seq = .ok r → r.nIter = maxiter + 1 →
      r.nSwap = r0.nSwap → NearlyOptimal (N := N) val u (2 * n + p + 1) 2 n d r.med ∧ r.med.length = med.length ∧
        (∀ m ∈ r.med, m < n) ∧ NearestAssignment n d r.med r.assi := fun {maxiter seq r0} hseq h0 hr hit hq => by
    have hs : ∀ j ∈ seq, j < n := fun j hj => List.mem_range.mp (hseq.mem_iff.mp hj)
    obtain ⟨r', hr', hw⟩ := C04_rand_fasterpam (L := L) hm hv (maxiter + 1) hs
    rw [hr] at hr'; cases hr'
    have hl : r.med.length = med.length := hw.medLen
    have hk' : 2 ≤ r.med.length := hk.trans hl.ge
    refine ⟨?_, hl, hw.medRange, C07_rand_fasterpam hm hd hv hnd _ hs hr⟩
    exact (C67_rand_fasterpam M hm hd hv hnd hk maxiter hseq h0 hr hit hq
      (changesFit_of M hW hk' hw.medRange (hfit (by omega) le_rfl))).mono M hd (by omega) le_rfl hk' hw.medRange
  rcases hr with ⟨maxiter, seq, r0, hseq, h0, hr, hit, hq⟩ | ⟨maxiter, r0, h0, hr, hit, hq⟩ | ⟨maxiter, hr | hr, hq⟩ |
    ⟨maxiter, seq, r0, sc0, scF, scS, hF, hseq, h0, hr, hit, hq⟩
  · exact rand hseq h0 hr hit hq
  · rw [fasterpam_eq_rand, hm.len] at h0 hr
    exact rand (List.Perm.refl _) h0 hr hit hq
  · obtain ⟨r', hr', hw⟩ := C04_pam_swap (L := L) hm hv maxiter
    rw [hr] at hr'; cases hr'
    have hl : r.med.length = med.length := hw.medLen
    have hk' : 2 ≤ r.med.length := hk.trans hl.ge
    refine ⟨?_, hl, hw.medRange, C07_pam_swap hm hd hv hnd _ hr⟩
    exact (C67_pam_swap M hm hd hv hnd hk maxiter hr hq (changesFit_of M hW hk' hw.medRange (hfit (by omega) (by omega)))).mono
      M hd (by omega) (by omega) hk' hw.medRange
  · obtain ⟨r', hr', hw⟩ := C04_fastpam1 (L := L) hm hv maxiter
    rw [hr] at hr'; cases hr'
    have hl : r.med.length = med.length := hw.medLen
    have hk' : 2 ≤ r.med.length := hk.trans hl.ge
    refine ⟨?_, hl, hw.medRange, C07_fastpam1 hm hd hv hnd _ hr⟩
    exact (C67_fastpam1 M hm hd hv hnd hk maxiter hr hq (changesFit_of M hW hk' hw.medRange (hfit (by omega) le_rfl))).mono
      M hd (by omega) le_rfl hk' hw.medRange
  · have hs : ∀ j ∈ seq, j < n := fun j hj => List.mem_range.mp (hseq.mem_iff.mp hj)
    obtain ⟨b1, b2, b3⟩ := parFasterpam_any (L := L) sc0 scF scS hm hv (maxiter + 1) hs
    have hsh := (b2 hk).shape
    have hr' := hr
    rw [b1, b3 hk] at hr'
    have hl : r.med.length = med.length := by cases hr'; exact hsh.medLen
    have hrg : ∀ c ∈ r.med, c < n := by cases hr'; exact hsh.medRange
    have hk' : 2 ≤ r.med.length := hk.trans hl.ge
    refine ⟨?_, hl, hrg, (C52_nearest sc0 scF scS hm hd hv hnd _ hs hr).2⟩
    exact (C73_nearlyOptimal M sc0 scS hF hm hd hv hnd hk maxiter hseq h0 hr hit hq
      (changesFit_of M hW hk' hrg (hfit (by omega) le_rfl))).mono M hd (by omega) le_rfl hk' hrg

/-- The separation of C113 with a relative error `ρ` of the triangle inequality and a relative error `γ` in the comparison of
exchanges; `ρ = γ = 0` gives the condition of C113. -/
def WellSeparated (n k s : Nat) (ρ γ δ S : K) : Prop :=
  (1 + γ + (ρ + γ * (1 + ρ))) * (((n - 1 : ℕ) : K) * δ) < (1 - ((k - 1 : ℕ) : K) * (ρ + γ * (1 + ρ))) * (s * S)

variable {n k s : Nat} {d : Nat → Nat → N} {g : Nat → Nat} {δ S ρ : K}

/-- **C114, local search.** A run of the PAM family under rounding that stops because a pass or an iteration found no exchange has one
medoid in each group and labels the objects by their groups. No set of at most `k` medoids has a smaller exact total deviation, up to
an error. -/
theorem C114_pam_family (M : FloatLoss N fin val u B) {p : Nat} {mat : Mat N} (hm : IsMatrix mat n d) (hd : Dissim n d) {W : K}
    (hW : AtMost val W n d) (hB : (1 + u) ^ (2 * n + p + 1) * (2 * (n * W)) ≤ B)
    (H : Separated (fun x : N => val (conv x : L)) n k s d g δ S) (hS : 0 ≤ S) (hρ : 0 ≤ ρ)
    (hop : Hop (fun x : N => val (conv x : L)) n d g ρ δ)
    (hsep : WellSeparated n k s ρ (((1 + u) ^ (2 * n + p + 1) - 1) * 2) δ S)
    {med : List Nat} (hv : ValidMeds n med) (hnd : med.Nodup) (hk : 2 ≤ med.length) (hl : med.length = k) {r : SwapResult L}
    (hr : QuietRun p mat n med r) :
    FindsGroups n k g r.med r.assi ∧
    ∀ other : List Nat, other ≠ [] → (∀ m ∈ other, m < n) → other.length ≤ k →
      exactDev N val n d r.med ≤ exactDev N val n d other + k * roundErr u W (2 * n + p + 1) 2 n := by
  obtain ⟨hopt, hrl, hrr, ha⟩ := hr.nearlyOptimal M hm hd hW hB hv hnd hk
  have hmono := M.conv_mono
  have h0 : val (conv (0 : N) : L) = 0 := by rw [M.conv_zero, M.std.zero]
  have hn : 0 < n := Nat.lt_of_lt_of_le hv.sizes.pos hv.sizes.le
  have hγ : 0 ≤ ((1 + u) ^ (2 * n + p + 1) - 1) * 2 := by
    have := M.std.one_le_pow (2 * n + p + 1)
    linarith
  have hne : r.med ≠ [] := List.ne_nil_of_length_pos (by rw [hrl]; exact hv.sizes.pos)
  have hrk : r.med.length = k := hrl.trans hl
  have hcov := H.near_covers hmono h0 hd hρ hop hS hγ hsep hrr hrk.ge hne fun b hb j hj => by
    have := hopt b hb j hj
    rwa [← mul_assoc] at this
  have hsep' := Separated.sep_of_cond hρ (H.nonneg h0 hd hn) hS hγ hsep
  refine ⟨H.finds hmono h0 hd hsep' hrr hrk.le hcov ha, fun other h1 h2 h3 => ?_⟩
  have hE := (roundErr_nonneg (u := u) M hd hn hW (2 * n + p + 1) 2).2
  rw [← nsmul_eq_mul]
  refine H.best_of_groups hmono h0 hd hn hsep' hrr hrk.le hcov hE (fun m hm' x hx hg => ?_) h1 h2 h3
  obtain ⟨b, hb, rfl⟩ := List.getElem_of_mem hm'
  exact H.best_of_swap hmono h0 hd hsep' hrr hrk.le hcov hb hx hg
    (hopt.le_roundErr M hW (hk.trans hrl.ge) hrr b hb x hx)

/-- **C114, pam_build.** BUILD finds the groups under rounding. -/
theorem C114_pam_build (M : FloatLoss N fin val u B) {mat : Mat N} (hm : IsMatrix mat n d) (hd : Dissim n d) {W : K}
    (hW : AtMost val W n d) (hB : (1 + u) ^ (n + 1) * (n * W) ≤ B) (hs : Sizes n k)
    (H : Separated (fun x : N => val (conv x : L)) n k s d g δ S) (hS : 0 ≤ S) (hρ : 0 ≤ ρ)
    (hop : Hop (fun x : N => val (conv x : L)) n d g ρ δ)
    (hsep : WellSeparated n k s ρ (((1 + u) ^ (n + 1) - 1) * 2) δ S)
    {r : BuildResult L} (hr : pamBuild L mat k = .ok r) : FindsGroups n k g r.med r.assi ∧ Covers k g r.med := by
  obtain ⟨v1, v2, v3, v4, v5⟩ := C71_pam_build_valid M.negZero hm hd hs hr
  obtain ⟨-, -, hgr, hstop⟩ := C71_pam_build M hm hd hs hW hB hr
  have hmono := M.conv_mono
  have h0 : val (conv (0 : N) : L) = 0 := by rw [M.conv_zero, M.std.zero]
  have hn : 0 < n := Nat.lt_of_lt_of_le hs.pos hs.le
  have hγ : 0 ≤ ((1 + u) ^ (n + 1) - 1) * 2 := by
    have := M.std.one_le_pow (n + 1)
    linarith
  have hne : r.med ≠ [] := List.ne_nil_of_length_pos v1
  have hsep' := Separated.sep_of_cond hρ (H.nonneg h0 hd hn) hS hγ hsep
  have hnodup := H.near_greedy_nodup hmono h0 hd hρ hop hS hγ hsep v4 v2 (fun l c hl hc x hx => by
    have := hgr l c hl hc x hx
    rwa [← mul_assoc] at this) r.med.length le_rfl
  rw [List.take_length] at hnodup
  have hlk : r.med.length = k := by
    by_contra h
    have hT := hstop (by omega)
    have hcov := H.covers_of_le hmono h0 hd hn hsep' hne v4 (hT.le.trans (nsmul_nonneg (H.nonneg h0 hd hn) _))
    exact h (hcov.inj v2).2
  have hcov := Covers.of_nodup (fun m hm => H.group m (v4 m hm)) hnodup hlk.ge
  exact ⟨H.finds hmono h0 hd hsep' v4 v2 hcov v5, hcov⟩

/-- **C114, pam**, for every limit `max_iter`. -/
theorem C114_pam (M : FloatLoss N fin val u B) {mat : Mat N} (hm : IsMatrix mat n d) (hd : Dissim n d) {W : K}
    (hW : AtMost val W n d) (hB : (1 + u) ^ (n + 1) * (n * W) ≤ B) (hs : Sizes n k) (hk : 2 ≤ k) {P : L → Prop} (hP : AddZero n d P)
    (H : Separated (fun x : N => val (conv x : L)) n k s d g δ S) (hS : 0 ≤ S) (hρ : 0 ≤ ρ)
    (hop : Hop (fun x : N => val (conv x : L)) n d g ρ δ)
    (hsep : WellSeparated n k s ρ (((1 + u) ^ (n + 1) - 1) * 2) δ S)
    (herr : ((n - 1 : ℕ) : K) * δ + 3 * roundErr u W (n + 1) 1 n < s * S) {maxiter : Nat} {r : SwapResult L}
    (hr : pam L mat k maxiter = .ok r) : FindsGroups n k g r.med r.assi := by
  have := M.saneZero
  obtain ⟨b, hb, -⟩ := C04_pam_build (L := L) hm hs
  obtain ⟨v1, v2, v3, v4, v5⟩ := C71_pam_build_valid M.negZero hm hd hs hb
  obtain ⟨hf, hcov⟩ := C114_pam_build M hm hd hW hB hs H hS hρ hop hsep hb
  have hmono := M.conv_mono
  have h0 : val (conv (0 : N) : L) = 0 := by rw [M.conv_zero, M.std.zero]
  have hn : 0 < n := Nat.lt_of_lt_of_le hs.pos hs.le
  have hγ : 0 ≤ ((1 + u) ^ (n + 1) - 1) * 2 := by
    have := M.std.one_le_pow (n + 1)
    linarith
  have hsep' := Separated.sep_of_cond hρ (H.nonneg h0 hd hn) hS hγ hsep
  have hle := (C71_pam M hP hm hd hs hW hB hb (hf.count ▸ hk) maxiter hr).1
  have hb' := H.covered_le hmono h0 hd hn v4 hcov
  rw [nsmul_eq_mul] at hb'
  have hv : ValidMeds n b.med := ⟨⟨v1, v2.trans hs.le, hs.n_le, lt_of_le_of_lt v2 hs.k_lt⟩, v4⟩
  have ha := (C71_pam_valid M.negZero hm hd hs maxiter hr).2
  have hr' := hr
  rw [(C71_pam_eq M.negZero M.conv_zero hP hm hd hs maxiter hb).1] at hr'
  obtain ⟨q, hq, hw⟩ := C04_pam_swap (L := L) hm hv maxiter
  rw [hr'] at hq; cases hq
  have hrk : r.med.length = k := hw.medLen.trans hf.count
  have hne : r.med ≠ [] := List.ne_nil_of_length_pos (by rw [hrk]; exact hs.pos)
  have hlt : totalDev (fun x : N => val (conv x : L)) n d r.med < s * S := lt_of_le_of_lt hle (by linarith)
  exact H.finds hmono h0 hd hsep' hw.medRange hrk.le (H.covers_of_lt hmono h0 hd hS hne hw.medRange hlt) ha

end general

/-! ## Points in a metric space, `f64` -/

section points
variable {X : Type} [PseudoMetricSpace X]
variable {N : Type} [LinearOrder N] [Zero N] [RDist N] [LawfulDist N] [RFrom N (Ieee binary64)]
variable {p : Nat → X} {n k s : Nat} {D : Nat → Nat → N} {u w : ℚ} {g : Nat → Nat} {δ S : ℝ}

/-- The points form `k` groups of at least `s` points, with distances at most `δ` within a group and at least `S` between groups. -/
structure PointGroups (p : Nat → X) (n k s : Nat) (g : Nat → Nat) (δ S : ℝ) : Prop where
  group : ∀ x, x < n → g x < k
  size : ∀ c, c < k → s ≤ (groupOf n g c).card
  within : ∀ x y, x < n → y < n → g x = g y → dist (p x) (p y) ≤ δ
  between : ∀ x y, x < n → y < n → g x ≠ g y → S ≤ dist (p x) (p y)

/-- The value of a computed distance, as a real number. -/
noncomputable def realVal (x : N) : ℝ := (Ieee.val (conv x : Ieee binary64) : ℝ)

theorem realVal_dev (n : Nat) (D : Nat → Nat → N) (l : List Nat) : totalDev (realVal (N := N)) n D l = (dev64 n D l : ℝ) := by
  rw [totalDev_sum, dev64, exactDev_eq_sum, Rat.cast_sum]
  rfl

/-- The computed distances are separated as well. -/
theorem PointGroups.computed (G : PointGroups p n k s g δ S) (h : Computed p n D u w) (hu : u ≤ 1 / 32) :
    Separated (realVal (N := N)) n k s D g ((1 + u) * δ) ((1 - u) * S) ∧ Hop (realVal (N := N)) n D g (3 * u) ((1 + u) * δ) := by
  obtain ⟨u0, u1⟩ := h.real
  have hu' : (u : ℝ) ≤ 1 / 32 := by
    have : ((u : ℚ) : ℝ) ≤ ((1 / 32 : ℚ) : ℝ) := Rat.cast_le.mpr hu
    simpa using this
  refine ⟨⟨G.group, G.size, fun x y hx hy e => ?_, fun x y hx hy e => ?_⟩, fun o y m ho hy hm e => ?_⟩
  · exact (h.pair hx hy).2.trans (mul_le_mul_of_nonneg_left (G.within x y hx hy e) (by linarith))
  · exact (mul_le_mul_of_nonneg_left (G.between x y hx hy e) (by linarith)).trans (h.pair hx hy).1
  · have h1 := (h.pair ho hm).2
    have h2 := (h.pair ho hy).1
    have h3 := mul_le_mul_of_nonneg_left (dist_triangle (p o) (p y) (p m)) (show (0 : ℝ) ≤ 1 + u by linarith)
    have h4 := mul_le_mul_of_nonneg_left (G.within y m hy hm e) (show (0 : ℝ) ≤ 1 + u by linarith)
    have h5 : (0 : ℝ) ≤ dist (p o) (p y) := dist_nonneg
    have h6 : (1 + u) * dist (p o) (p y) ≤ (1 + 3 * u) * ((1 - u) * dist (p o) (p y)) := by
      have : (1 + u : ℝ) ≤ (1 + 3 * u) * (1 - u) := by nlinarith
      nlinarith
    have h7 := mul_le_mul_of_nonneg_left h2 (show (0 : ℝ) ≤ 1 + 3 * u by linarith)
    show (Ieee.val (conv (D o m) : Ieee binary64) : ℝ) ≤ (1 + 3 * u) * (Ieee.val (conv (D o y) : Ieee binary64) : ℝ) + (1 + u) * δ
    linarith

/-- Simple conditions imply the separation with errors. -/
theorem wellSeparated_simple {u γ : ℝ} (hn : 0 < n) (hk : 2 ≤ k) (hδ : 0 ≤ δ) (hS : 0 ≤ S) (hu0 : 0 ≤ u) (hγ0 : 0 ≤ γ) (hu : k * u ≤ 1 / 32)
    (hγ : k * γ ≤ 1 / 16) (hsep : 2 * ((n - 1 : ℕ) * δ) < s * S) :
    WellSeparated n k s (3 * u) γ ((1 + u) * δ) ((1 - u) * S) := by
  have hk' : (2 : ℝ) ≤ k := by exact_mod_cast hk
  have e : ((k - 1 : ℕ) : ℝ) = k - 1 := by rw [Nat.cast_sub (by omega), Nat.cast_one]
  have hu1 : u ≤ 1 / 64 := by nlinarith
  have hγ1 : γ ≤ 1 / 32 := by nlinarith
  have hX : 0 ≤ ((n - 1 : ℕ) : ℝ) * δ := mul_nonneg (Nat.cast_nonneg _) hδ
  unfold WellSeparated
  generalize hXe : ((n - 1 : ℕ) : ℝ) * δ = X at *
  have hY : 0 ≤ (s : ℝ) * S := mul_nonneg (Nat.cast_nonneg _) hS
  generalize hYe : (s : ℝ) * S = Y at *
  have e1 : ((n - 1 : ℕ) : ℝ) * ((1 + u) * δ) = (1 + u) * X := by rw [← hXe]; ring
  have e2 : (s : ℝ) * ((1 - u) * S) = (1 - u) * Y := by rw [← hYe]; ring
  rw [e1, e2, e]
  have hθ0 : 0 ≤ 3 * u + γ * (1 + 3 * u) := by positivity
  have hθ : k * (3 * u + γ * (1 + 3 * u)) ≤ 1 / 4 := by
    have h1 : 1 + 3 * u ≤ 2 := by linarith
    have h2 : k * γ * (1 + 3 * u) ≤ 1 / 16 * 2 := mul_le_mul hγ h1 (by positivity) (by norm_num)
    nlinarith
  generalize 3 * u + γ * (1 + 3 * u) = θ at *
  have hθ1 : θ ≤ 1 / 8 := by nlinarith
  have h1 : (1 + γ + θ) * ((1 + u) * X) ≤ 6 / 5 * X := by
    have : (1 + γ + θ) * (1 + u) ≤ 6 / 5 := by nlinarith
    rw [← mul_assoc]
    exact mul_le_mul_of_nonneg_right this hX
  have h2 : 7 / 10 * Y ≤ (1 - (k - 1) * θ) * ((1 - u) * Y) := by
    have h3 : 3 / 4 ≤ 1 - (k - 1) * θ := by nlinarith
    have : 7 / 10 ≤ (1 - (k - 1) * θ) * (1 - u) := by nlinarith
    rw [← mul_assoc]
    exact mul_le_mul_of_nonneg_right this hY
  linarith

theorem realVal_mono (h : Computed p n D u w) : Monotone (realVal (N := N)) := fun _ _ hxy => by
  exact Rat.cast_le.mpr (h.model.conv_mono hxy)

theorem realVal_zero (h : Computed p n D u w) : realVal (0 : N) = 0 := by
  unfold realVal
  rw [h.model.conv_zero, h.model.std.zero, Rat.cast_zero]

/-- The rounding errors of `f64` as in the conditions below. -/
theorem gamma_f64 {e : Nat} (hk : 1 ≤ k) (he : k * e ≤ 2 ^ 47) :
    0 ≤ (((1 + 1 / 2 ^ 53 : ℚ) ^ e - 1 : ℚ) : ℝ) * 2 ∧ (k : ℝ) * ((((1 + 1 / 2 ^ 53 : ℚ) ^ e - 1 : ℚ) : ℝ) * 2) ≤ 1 / 16 ∧ e ≤ 2 ^ 53 := by
  have he1 : e ≤ 2 ^ 47 := le_trans (by nlinarith) he
  have he2 : e ≤ 2 ^ 53 := he1.trans (by norm_num)
  have h1 : (1 : ℚ) ≤ (1 + 1 / 2 ^ 53 : ℚ) ^ e := one_le_pow₀ (by norm_num)
  have h2 := pow_f64 he2
  have h3 : (k : ℚ) * (((1 + 1 / 2 ^ 53 : ℚ) ^ e - 1) * 2) ≤ 1 / 16 := by
    have h4 : (k : ℚ) * (((1 + 1 / 2 ^ 53 : ℚ) ^ e - 1) * 2) ≤ k * (e / 2 ^ 52 * 2) :=
      mul_le_mul_of_nonneg_left (mul_le_mul_of_nonneg_right h2 (by norm_num)) (Nat.cast_nonneg _)
    have h5 : (k : ℚ) * e ≤ 2 ^ 47 := by exact_mod_cast he
    refine h4.trans ?_
    rw [show (k : ℚ) * (e / 2 ^ 52 * 2) = k * e * (1 / 2 ^ 51) by ring]
    refine (mul_le_mul_of_nonneg_right h5 (by norm_num)).trans ?_
    norm_num
  refine ⟨?_, ?_, he2⟩
  · have : (0 : ℚ) ≤ ((1 + 1 / 2 ^ 53 : ℚ) ^ e - 1) * 2 := by linarith
    exact_mod_cast this
  · have h4 := (Rat.cast_le (K := ℝ)).2 h3
    push_cast at h4 ⊢
    exact h4

/-- **C114, points.** The distances of points in a metric space are computed with relative error `u` (rounding included), and losses
are `f64`. The points form `k` groups that are separated twice as well as in C113. Then a run of the PAM family that stops because it
finds no exchange finds the groups, and no set of at most `k` medoids is better, up to the errors, for the exact distances. -/
theorem C114_points (h : Computed p n D u w) {mat : Mat N} (hm : IsMatrix mat n D) (G : PointGroups p n k s g δ S) (hS : 0 ≤ S)
    (hsep : 2 * ((n - 1 : ℕ) * δ) < s * S) (hu : k * u ≤ 1 / 32) {t : Nat} (ht : k * (2 * n + t + 1) ≤ 2 ^ 47)
    {med : List Nat} (hv : ValidMeds n med) (hnd : med.Nodup) (hk : 2 ≤ med.length) (hl : med.length = k)
    {r : SwapResult (Ieee binary64)} (hr : QuietRun t mat n med r) :
    FindsGroups n k g r.med r.assi ∧
    ∀ other : List Nat, other ≠ [] → (∀ m ∈ other, m < n) → other.length ≤ k →
      (1 - u : ℝ) * metricDev p n r.med ≤ (1 + u) * metricDev p n other + k * err64 (2 * n + t + 1) n ((1 + u) * w) := by
  have hn : 0 < n := Nat.lt_of_lt_of_le hv.sizes.pos hv.sizes.le
  have hk2 : 2 ≤ k := hl ▸ hk
  obtain ⟨u0, u1⟩ := h.real
  have hkq : (2 : ℚ) ≤ k := by exact_mod_cast hk2
  have hu1 : u ≤ 1 / 32 := by have := h.u_nonneg; nlinarith
  have hur : (k : ℝ) * (u : ℝ) ≤ 1 / 32 := by
    have := (Rat.cast_le (K := ℝ)).2 hu
    push_cast at this
    exact this
  have hur1 : (u : ℝ) ≤ 1 / 32 := by
    have := (Rat.cast_le (K := ℝ)).2 hu1
    push_cast at this
    exact this
  obtain ⟨g0, g1, g2⟩ := gamma_f64 (by omega) ht
  obtain ⟨H, hop⟩ := G.computed h hu1
  have hδ : 0 ≤ δ := dist_nonneg.trans (G.within 0 0 hn hn rfl)
  have hw := h.wide hn
  have hW0 := hw.nonneg h.dissim hn
  have hd := h.dissim
  have hmono := realVal_mono (N := N) h
  have h0 := realVal_zero (N := N) h
  have hsepf := wellSeparated_simple hn hk2 hδ hS u0 g0 hur g1 hsep
  have hS' : (0 : ℝ) ≤ (1 - u) * S := mul_nonneg (by linarith) hS
  have hρ : (0 : ℝ) ≤ 3 * u := by linarith
  obtain ⟨hopt, hrl, hrr, ha⟩ := hr.nearlyOptimal hw.model hm hd hw.bound (hw.fits hd hv g2 (by norm_num) le_rfl) hv hnd hk
  have hne : r.med ≠ [] := List.ne_nil_of_length_pos (by rw [hrl]; exact hv.sizes.pos)
  have hrk : r.med.length = k := hrl.trans hl
  have hcov := H.near_covers hmono h0 hd hρ hop hS' g0 hsepf hrr hrk.ge hne fun b hb j hj => by
    have := (Rat.cast_le (K := ℝ)).2 (hopt b hb j hj)
    rw [realVal_dev, realVal_dev, realVal_dev]
    push_cast at this ⊢
    rwa [mul_assoc]
  have hsep' := Separated.sep_of_cond hρ (H.nonneg h0 hd hn) hS' g0 hsepf
  refine ⟨H.finds hmono h0 hd hsep' hrr hrk.le hcov ha, fun other h1 h2 h3 => ?_⟩
  have hE := (roundErr_nonneg (u := 1 / 2 ^ 53) hw.model hd hn hw.bound (2 * n + t + 1) 2).2
  have hE' : (0 : ℝ) ≤ ((roundErr (1 / 2 ^ 53) ((1 + u) * w) (2 * n + t + 1) 2 n : ℚ) : ℝ) := by exact_mod_cast hE
  have hbest := H.best_of_groups hmono h0 hd hn hsep' hrr hrk.le hcov hE' (fun m hm' x hx hg => by
    obtain ⟨b, hb, rfl⟩ := List.getElem_of_mem hm'
    refine H.best_of_swap hmono h0 hd hsep' hrr hrk.le hcov hb hx hg ?_
    have := (Rat.cast_le (K := ℝ)).2 (hopt.le_roundErr hw.model hw.bound (hk.trans hrl.ge) hrr b hb x hx)
    rw [realVal_dev, realVal_dev]
    rw [Rat.cast_add] at this
    exact this) h1 h2 h3
  rw [realVal_dev, realVal_dev, nsmul_eq_mul] at hbest
  have h4 := (h.dev hne hrr).1
  have h5 := (h.dev h1 h2).2
  have h6 : ((roundErr (1 / 2 ^ 53) ((1 + u) * w) (2 * n + t + 1) 2 n : ℚ) : ℝ) ≤
      ((err64 (2 * n + t + 1) n ((1 + u) * w) : ℚ) : ℝ) := by
    refine Rat.cast_le.2 ((roundErr_f64 (c := 2) g2 hW0).trans_eq ?_)
    unfold err64
    push_cast
    ring
  have h7 := mul_le_mul_of_nonneg_left h6 (Nat.cast_nonneg (α := ℝ) k)
  linarith

/-- **C114, points, pam_build.** -/
theorem C114_points_build (h : Computed p n D u w) {mat : Mat N} (hm : IsMatrix mat n D) (G : PointGroups p n k s g δ S) (hS : 0 ≤ S)
    (hsep : 2 * ((n - 1 : ℕ) * δ) < s * S) (hu : k * u ≤ 1 / 32) (ht : k * (n + 1) ≤ 2 ^ 47) (hs : Sizes n k) (hk : 2 ≤ k)
    {r : BuildResult (Ieee binary64)} (hr : pamBuild (Ieee binary64) mat k = .ok r) : FindsGroups n k g r.med r.assi := by
  have hn : 0 < n := Nat.lt_of_lt_of_le hs.pos hs.le
  obtain ⟨u0, u1⟩ := h.real
  have hkq : (2 : ℚ) ≤ k := by exact_mod_cast hk
  have hu1 : u ≤ 1 / 32 := by have := h.u_nonneg; nlinarith
  have hur : (k : ℝ) * (u : ℝ) ≤ 1 / 32 := by
    have := (Rat.cast_le (K := ℝ)).2 hu
    push_cast at this
    exact this
  obtain ⟨g0, g1, g2⟩ := gamma_f64 (by omega) ht
  obtain ⟨H, hop⟩ := G.computed h hu1
  have hδ : 0 ≤ δ := dist_nonneg.trans (G.within 0 0 hn hn rfl)
  have hw := h.wide hn
  have hd := h.dissim
  have hmono := realVal_mono (N := N) h
  have h0 := realVal_zero (N := N) h
  have hsepf := wellSeparated_simple hn hk hδ hS u0 g0 hur g1 hsep
  have hS' : (0 : ℝ) ≤ (1 - u) * S := mul_nonneg (by linarith) hS
  have hρ : (0 : ℝ) ≤ 3 * u := by linarith
  obtain ⟨v1, v2, v3, v4, v5⟩ := C71_pam_build_valid hw.model.negZero hm hd hs hr
  have hv : ValidMeds n r.med := ⟨⟨v1, v2.trans hs.le, hs.n_le, lt_of_le_of_lt v2 hs.k_lt⟩, v4⟩
  have hB := hw.fits hd hv g2 (c := 1) (by norm_num) (by norm_num)
  rw [one_mul] at hB
  obtain ⟨-, -, hgr, hstop⟩ := C71_pam_build hw.model hm hd hs hw.bound hB hr
  have hne : r.med ≠ [] := List.ne_nil_of_length_pos v1
  have hsep' := Separated.sep_of_cond hρ (H.nonneg h0 hd hn) hS' g0 hsepf
  have hnodup := H.near_greedy_nodup hmono h0 hd hρ hop hS' g0 hsepf v4 v2 (fun l c hl hc x hx => by
    have := (Rat.cast_le (K := ℝ)).2 (hgr l c hl hc x hx)
    rw [realVal_dev, realVal_dev, realVal_dev]
    push_cast at this ⊢
    rwa [mul_assoc]) r.med.length le_rfl
  rw [List.take_length] at hnodup
  have hlk : r.med.length = k := by
    by_contra hlt
    have hT := hstop (by omega)
    have hcov := H.covers_of_le hmono h0 hd hn hsep' hne v4 (by
      rw [realVal_dev, dev64, hT, Rat.cast_zero]
      exact nsmul_nonneg (H.nonneg h0 hd hn) _)
    exact hlt (hcov.inj v2).2
  exact H.finds hmono h0 hd hsep' v4 v2 (Covers.of_nodup (fun m hm => H.group m (v4 m hm)) hnodup hlk.ge) v5

end points

/-! ## Non-vacuity: tenths in `f64` -/

/-- The points of `threeGroups`, divided by ten. -/
noncomputable def trioPoint (x : Nat) : ℝ := ((threeGroups.getD x 0 : ℕ) : ℝ) / 10

/-- Their distances, rounded. -/
def trioLine (x y : Nat) : Finite binary64 := .ofRat binary64 ((lineD threeGroups x y : ℕ) / 10)

/-- The matrix of their distances, rounded. -/
def trioMat : Mat (Finite binary64) :=
  ofRows ((List.range 9).map fun x => (List.range 9).map fun y => trioLine x y)

theorem trioPoint_dist (x y : Nat) : dist (trioPoint x) (trioPoint y) = (((lineD threeGroups x y : ℕ) / 10 : ℚ) : ℝ) := by
  unfold trioPoint lineD
  generalize threeGroups.getD x 0 = a
  generalize threeGroups.getD y 0 = b
  rw [Real.dist_eq]
  rcases le_total a b with h | h
  · have h' : (a : ℝ) ≤ b := by exact_mod_cast h
    rw [abs_of_nonpos (by linarith)]
    have : a - b + (b - a) = b - a := by omega
    rw [this, Nat.cast_sub h]
    push_cast
    ring
  · have h' : (b : ℝ) ≤ a := by exact_mod_cast h
    rw [abs_of_nonneg (by linarith)]
    have : a - b + (b - a) = a - b := by omega
    rw [this, Nat.cast_sub h]
    push_cast
    ring

theorem trioMat_isMatrix : IsMatrix trioMat 9 trioLine := by
  have h : ∀ x < 9, ∀ y < 9, trioMat.get x y = .ok (trioLine x y) := by decide +kernel
  exact ⟨rfl, rfl, fun x y hx hy => h x hx y hy⟩

theorem trio_computed : Computed trioPoint 9 trioLine (1 / 2 ^ 53) 5 where
  model := ieee_floatLoss binary64
  dissim := by
    have h1 : ∀ x < 9, trioLine x x = 0 := by decide +kernel
    have h2 : ∀ x < 9, ∀ y < 9, 0 ≤ trioLine x y := by decide +kernel
    exact ⟨h1, fun x y hx hy => h2 x hx y hy⟩
  symm := by
    have h : ∀ x < 9, ∀ y < 9, trioLine x y = trioLine y x := by decide +kernel
    exact fun x y hx hy => h x hx y hy
  err := by
    have h : ∀ x < 9, ∀ y < 9, |Ieee.val (conv (trioLine x y) : Ieee binary64) - (lineD threeGroups x y : ℕ) / 10| ≤
        1 / 2 ^ 53 * ((lineD threeGroups x y : ℕ) / 10) := by decide +kernel
    intro x y hx hy
    rw [trioPoint_dist]
    exact_mod_cast h x hx y hy
  le := by
    have h : ∀ x < 9, ∀ y < 9, ((lineD threeGroups x y : ℕ) / 10 : ℚ) ≤ 5 := by decide +kernel
    intro x y hx hy
    rw [trioPoint_dist]
    exact Rat.cast_le.mpr (h x hx y hy)
  u_nonneg := by norm_num
  u_le := by norm_num
  s_le := by norm_num

theorem trio_groups : PointGroups trioPoint 9 3 3 (groupList [0, 0, 0, 1, 1, 1, 2, 2, 2]) ((1 / 5 : ℚ) : ℝ) ((9 / 5 : ℚ) : ℝ) := by
  have h : (∀ x < 9, groupList [0, 0, 0, 1, 1, 1, 2, 2, 2] x < 3) ∧
      (∀ c < 3, 3 ≤ (groupOf 9 (groupList [0, 0, 0, 1, 1, 1, 2, 2, 2]) c).card) ∧
      ∀ x < 9, ∀ y < 9,
        (groupList [0, 0, 0, 1, 1, 1, 2, 2, 2] x = groupList [0, 0, 0, 1, 1, 1, 2, 2, 2] y →
          ((lineD threeGroups x y : ℕ) / 10 : ℚ) ≤ 1 / 5) ∧
        (groupList [0, 0, 0, 1, 1, 1, 2, 2, 2] x ≠ groupList [0, 0, 0, 1, 1, 1, 2, 2, 2] y →
          (9 / 5 : ℚ) ≤ (lineD threeGroups x y : ℕ) / 10) := by decide +kernel
  refine ⟨h.1, h.2.1, fun x y hx hy e => ?_, fun x y hx hy e => ?_⟩
  · rw [trioPoint_dist]
    exact Rat.cast_le.mpr ((h.2.2 x hx y hy).1 e)
  · rw [trioPoint_dist]
    exact Rat.cast_le.mpr ((h.2.2 x hx y hy).2 e)

/-- The loss of the runs below, about 0.6. -/
def trioLoss : Ieee binary64 := .num (5404319552844595 / 9007199254740992)

/-- A run of FasterPAM on this matrix whose last pass made no exchange, and the theorem. -/
example : ∃ r : SwapResult (Ieee binary64), fasterpam (Ieee binary64) trioMat [0, 1, 2] 9 = .ok r ∧ 0 < r.nSwap ∧
    FindsGroups 9 3 (groupList [0, 0, 0, 1, 1, 1, 2, 2, 2]) r.med r.assi := by
  obtain ⟨r, h1, h2, h3, h4, r0, h5, h6⟩ : ∃ r : SwapResult (Ieee binary64), fasterpam (Ieee binary64) trioMat [0, 1, 2] 9 = .ok r ∧
      0 < r.nSwap ∧ r.nIter = 2 ∧ fasterpam (Ieee binary64) trioMat [0, 1, 2] 2 = .ok r ∧
      ∃ r0, fasterpam (Ieee binary64) trioMat [0, 1, 2] 1 = .ok r0 ∧ r.nSwap = r0.nSwap :=
    ⟨⟨trioLoss, [1, 1, 1, 2, 2, 2, 0, 0, 0], 2, 5, [7, 1, 4]⟩, by decide +kernel, by decide, by decide, by decide +kernel,
      ⟨trioLoss, [1, 1, 1, 2, 2, 2, 0, 0, 0], 1, 5, [7, 1, 4]⟩, by decide +kernel, by decide⟩
  refine ⟨r, h1, h2, ?_⟩
  refine (C114_points (t := 0) trio_computed trioMat_isMatrix trio_groups (by norm_num) (by norm_num) (by norm_num) (by norm_num)
    ⟨⟨by decide, by decide, by decide, by decide⟩, by decide⟩ (by decide) (by decide) rfl
    (.inr (.inl ⟨1, r0, h5, h4, h3, h6⟩))).1

/-- BUILD on this matrix, and the theorem. -/
example : ∃ r : BuildResult (Ieee binary64), pamBuild (Ieee binary64) trioMat 3 = .ok r ∧ r.med = [4, 1, 7] ∧
    FindsGroups 9 3 (groupList [0, 0, 0, 1, 1, 1, 2, 2, 2]) r.med r.assi := by
  have hr : pamBuild (Ieee binary64) trioMat 3 = .ok ⟨trioLoss, [1, 1, 1, 0, 0, 0, 2, 2, 2], [4, 1, 7]⟩ := by decide +kernel
  exact ⟨_, hr, rfl, C114_points_build trio_computed trioMat_isMatrix trio_groups (by norm_num) (by norm_num) (by norm_num)
    (by norm_num) ⟨by decide, by decide, by decide, by decide⟩ (by decide) hr⟩

/-- The general form on this matrix: the computed distances are separated, with a tiny error `ρ`. -/
theorem trio_separated :
    Separated (fun x : Finite binary64 => Ieee.val (conv x : Ieee binary64)) 9 3 3 trioLine (groupList [0, 0, 0, 1, 1, 1, 2, 2, 2])
      (1 / 4) (7 / 4) ∧
    Hop (fun x : Finite binary64 => Ieee.val (conv x : Ieee binary64)) 9 trioLine (groupList [0, 0, 0, 1, 1, 1, 2, 2, 2])
      (1 / 2 ^ 50) (1 / 4) ∧
    AtMost (Ieee.val (F := binary64)) 5 9 trioLine ∧
    WellSeparated 9 3 3 (1 / 2 ^ 50) (((1 + 1 / 2 ^ 53 : ℚ) ^ (2 * 9 + 0 + 1) - 1) * 2) (1 / 4) (7 / 4) ∧
    WellSeparated 9 3 3 (1 / 2 ^ 50) (((1 + 1 / 2 ^ 53 : ℚ) ^ (9 + 1) - 1) * 2) (1 / 4) (7 / 4) := by
  have h : (∀ x < 9, groupList [0, 0, 0, 1, 1, 1, 2, 2, 2] x < 3) ∧
      (∀ c < 3, 3 ≤ (groupOf 9 (groupList [0, 0, 0, 1, 1, 1, 2, 2, 2]) c).card) ∧
      (∀ x < 9, ∀ y < 9,
        (groupList [0, 0, 0, 1, 1, 1, 2, 2, 2] x = groupList [0, 0, 0, 1, 1, 1, 2, 2, 2] y →
          Ieee.val (conv (trioLine x y) : Ieee binary64) ≤ 1 / 4) ∧
        (groupList [0, 0, 0, 1, 1, 1, 2, 2, 2] x ≠ groupList [0, 0, 0, 1, 1, 1, 2, 2, 2] y →
          7 / 4 ≤ Ieee.val (conv (trioLine x y) : Ieee binary64)) ∧
        Ieee.val (conv (trioLine x y) : Ieee binary64) ≤ 5) ∧
      (∀ o < 9, ∀ y < 9, ∀ m < 9, groupList [0, 0, 0, 1, 1, 1, 2, 2, 2] y = groupList [0, 0, 0, 1, 1, 1, 2, 2, 2] m →
        Ieee.val (conv (trioLine o m) : Ieee binary64) ≤ (1 + 1 / 2 ^ 50) * Ieee.val (conv (trioLine o y) : Ieee binary64) + 1 / 4) := by
    decide +kernel
  refine ⟨⟨h.1, h.2.1, fun x y hx hy e => (h.2.2.1 x hx y hy).1 e, fun x y hx hy e => (h.2.2.1 x hx y hy).2.1 e⟩,
    fun o y m ho hy hm e => h.2.2.2 o ho y hy m hm e, fun x y hx hy => (h.2.2.1 x hx y hy).2.2, ?_, ?_⟩
  · unfold WellSeparated; decide +kernel
  · unfold WellSeparated; decide +kernel

theorem trio_addZero : AddZero 9 trioLine (Ieee.InFmt (F := binary64)) := by
  have h : ∀ x < 9, ∀ y < 9, |(trioLine x y).q| < 2 ^ 10 := by decide +kernel
  exact ieee_addZero binary64 fun x y hx hy => (h x hx y hy).trans_le (pow_le_pow_right₀ (by norm_num) (by decide))

/-- PAM from BUILD and FastPAM1 on this matrix. -/
example : (∃ r : SwapResult (Ieee binary64), pam (Ieee binary64) trioMat 3 5 = .ok r ∧
      FindsGroups 9 3 (groupList [0, 0, 0, 1, 1, 1, 2, 2, 2]) r.med r.assi) ∧
    ∃ r : SwapResult (Ieee binary64), fastpam1 (Ieee binary64) trioMat [0, 1, 2] 9 = .ok r ∧
      FindsGroups 9 3 (groupList [0, 0, 0, 1, 1, 1, 2, 2, 2]) r.med r.assi := by
  obtain ⟨h1, h2, h3, h4, h5⟩ := trio_separated
  refine ⟨?_, ?_⟩
  · obtain ⟨r, hr⟩ : ∃ r : SwapResult (Ieee binary64), pam (Ieee binary64) trioMat 3 5 = .ok r := ⟨⟨trioLoss, [1, 1, 1, 0, 0, 0, 2, 2, 2], 1, 0, [4, 1, 7]⟩, by decide +kernel⟩
    exact ⟨r, hr, C114_pam (ieee_floatLoss binary64) trioMat_isMatrix trio_computed.dissim h3 (by decide +kernel)
      ⟨by decide, by decide, by decide, by decide⟩ (by decide) trio_addZero h1 (by norm_num) (by norm_num) h2 h5
      (by unfold roundErr; decide +kernel) hr⟩
  · obtain ⟨r, hr, hq⟩ : ∃ r : SwapResult (Ieee binary64), fastpam1 (Ieee binary64) trioMat [0, 1, 2] 9 = .ok r ∧ r.nSwap < r.nIter :=
      ⟨⟨trioLoss, [1, 1, 1, 2, 2, 2, 0, 0, 0], 4, 3, [7, 1, 4]⟩, by decide +kernel, by decide⟩
    exact ⟨r, hr, (C114_pam_family (ieee_floatLoss binary64) (p := 0) trioMat_isMatrix trio_computed.dissim h3 (by decide +kernel)
      h1 (by norm_num) (by norm_num) h2 h4 ⟨⟨by decide, by decide, by decide, by decide⟩, by decide⟩ (by decide) (by decide) rfl
      (.inr (.inr (.inl ⟨9, .inr hr, hq⟩)))).1⟩

end KMedoids
