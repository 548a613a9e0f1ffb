import Verif.Props.C126
import Verif.Props.C91
import Verif.Props.C97
import Verif.Props.C64

/-!
# C133: alternating has no constant factor, for any number of clusters

The exchange methods end within a factor of five of the optimum for metrics (C64). For `alternating` no factor holds: for every `k ≥ 2` and every
`R ≥ 1` there is a metric on `k + 1` objects and a start from which it stops after one iteration with loss `R`, although `k` medoids with
loss 1 exist. From the same start, the exchange methods find loss 1.
-/

set_option linter.unusedSectionVars false

namespace KMedoids

open RFrom (conv)

/-- `k + 1` objects at distance `R`, but the last two at distance 1. -/
def lastPairD (k R x y : Nat) : ℕ := if x = y then 0 else if k ≤ x + 1 ∧ k ≤ y + 1 then 1 else R

/-- All but object 0. -/
def lastPairStart (k : Nat) : List Nat := List.range' 1 k

variable {k R : Nat}

theorem lastPairD_dissim : Dissim (k + 1) (lastPairD k R) := ⟨fun x _ => by simp [lastPairD], fun _ _ _ _ => Nat.zero_le _⟩

theorem lastPairD_symm (x y : Nat) : lastPairD k R x y = lastPairD k R y x := by
  unfold lastPairD
  by_cases h : x = y
  · rw [if_pos h, if_pos h.symm]
  · rw [if_neg h, if_neg (Ne.symm h)]
    by_cases g : k ≤ x + 1 ∧ k ≤ y + 1
    · rw [if_pos g, if_pos g.symm]
    · rw [if_neg g, if_neg fun e => g e.symm]

/-- **C133, metric.** -/
theorem C133_metric (hR : 1 ≤ R) : IsMetric (conv : ℕ → ℤ) (k + 1) (lastPairD k R) := by
  refine ⟨fun x y _ _ => lastPairD_symm x y, fun x y z _ _ _ => ?_⟩
  show ((lastPairD k R x z : ℕ) : ℤ) ≤ (lastPairD k R x y : ℕ) + (lastPairD k R y z : ℕ)
  have : lastPairD k R x z ≤ lastPairD k R x y + lastPairD k R y z := by
    unfold lastPairD
    split_ifs <;> omega
  exact_mod_cast this

theorem mem_lastPairStart {x : Nat} : x ∈ lastPairStart k ↔ 1 ≤ x ∧ x ≤ k := by
  unfold lastPairStart
  rw [List.mem_range'_1]
  omega

theorem lastPairStart_valid (hk : 2 ≤ k) (hn : k + 1 ≤ u32Max) : ValidMeds (k + 1) (lastPairStart k) := by
  refine ⟨⟨?_, ?_, hn, ?_⟩, fun m hm => ?_⟩
  · simp [lastPairStart]; omega
  · simp [lastPairStart]
  · simp [lastPairStart]; omega
  · rw [mem_lastPairStart] at hm; omega

theorem lastPairStart_nodup : (lastPairStart k).Nodup := List.nodup_range'

theorem lastPairStart_length : (lastPairStart k).length = k := List.length_range'

theorem lastPairStart_getD {m : Nat} (hm : m < k) : (lastPairStart k).getD m 0 = m + 1 := by
  unfold lastPairStart
  rw [List.getD_eq_getElem?_getD, List.getElem?_range' hm]
  simp; omega

theorem lastPair_far (hk : 2 ≤ k) {m : Nat} (_hm : m < k) : lastPairD k R 0 (m + 1) = R := by
  unfold lastPairD
  rw [if_neg (by omega)]
  by_cases h : k ≤ 0 + 1 ∧ k ≤ m + 1 + 1
  · omega
  · rw [if_neg h]

theorem firstMin_const {f : Nat → ℕ} {k c : Nat} (hk : 1 ≤ k) (h : ∀ m < k, f m = c) : firstMin f k = 0 := by
  obtain ⟨h1, -, h3⟩ := firstMin_spec f hk
  by_contra h0
  have := h3 0 (by omega)
  rw [h _ h1, h 0 (by omega)] at this
  exact lt_irrefl _ this

theorem lastPair_label_zero (hk : 2 ≤ k) : nearLabel (lastPairD k R) (lastPairStart k) 0 = 0 := by
  unfold nearLabel
  rw [if_neg (by rw [mem_lastPairStart]; omega), lastPairStart_length]
  exact firstMin_const (by omega) fun m hm => by rw [lastPairStart_getD hm]; exact lastPair_far hk hm

theorem lastPair_label {x : Nat} (h1 : 1 ≤ x) (h2 : x ≤ k) : nearLabel (lastPairD k R) (lastPairStart k) x = x - 1 := by
  unfold nearLabel
  have hx : x - 1 < (lastPairStart k).length := by rw [lastPairStart_length]; omega
  have e : (lastPairStart k)[x - 1] = x := by
    have := lastPairStart_getD (k := k) (m := x - 1) (by omega)
    rw [List.getD_eq_getElem?_getD, List.getElem?_eq_getElem hx, Option.getD_some] at this
    omega
  rw [if_pos (mem_lastPairStart.mpr ⟨h1, h2⟩)]
  conv_lhs => rw [← e]
  exact lastPairStart_nodup.idxOf_getElem _ _

theorem lastPair_members_zero (hk : 2 ≤ k) : membersOf (lastPairD k R) (k + 1) (lastPairStart k) 0 = [0, 1] := by
  unfold membersOf
  have e : List.range (k + 1) = [0, 1] ++ List.range' 2 (k - 1) := by
    rw [List.range_eq_range', show [0, 1] = List.range' 0 2 from rfl, List.range'_append_1]
    congr 1
    omega
  rw [e, List.filter_append, List.filter_eq_self.mpr fun o ho => ?_, List.filter_eq_nil_iff.mpr fun o ho => ?_]
  · simp
  · rw [List.mem_range'_1] at ho
    rw [lastPair_label (by omega) (by omega)]
    simp; omega
  · simp only [List.mem_cons, List.not_mem_nil, or_false] at ho
    rcases ho with rfl | rfl
    · simp [lastPair_label_zero hk]
    · rw [lastPair_label (by omega) (by omega)]; simp

theorem lastPair_round (hk : 2 ≤ k) : altRound (conv : ℕ → ℤ) (lastPairD k R) (k + 1) (lastPairStart k) = lastPairStart k := by
  unfold altRound
  refine List.ext_getElem (by rw [List.length_map, List.length_range]) fun m h1 h2 => ?_
  rw [List.length_map, List.length_range, lastPairStart_length] at h1
  rw [List.getElem_map, List.getElem_range, bestMember_keep fun y hy => ?_, List.getD_eq_getElem?_getD, List.getElem?_eq_getElem h2, Option.getD_some]
  rw [lastPairStart_getD h1]
  have hy' := hy
  unfold membersOf at hy'
  rw [List.mem_filter, List.mem_range, decide_eq_true_eq] at hy'
  rcases Nat.eq_zero_or_pos y with rfl | hp
  · rw [lastPair_label_zero hk] at hy'
    obtain rfl : m = 0 := hy'.2.symm
    rw [lastPair_members_zero hk]
    unfold sumTo
    have e1 : lastPairD k R 1 0 = R := by rw [lastPairD_symm]; exact lastPair_far hk h1
    have e2 : lastPairD k R 0 1 = R := lastPair_far hk h1
    have e3 : ∀ x, lastPairD k R x x = 0 := fun x => by simp [lastPairD]
    simp [e1, e2, e3, add_comm]
  · rw [lastPair_label hp (by omega)] at hy'
    rw [show y = m + 1 by omega]

theorem totalDev_one_missing {n z : Nat} {d : Nat → Nat → ℕ} (hd : Dissim n d) {med : List Nat} (hz : z < n)
    (h : ∀ x < n, x ≠ z → x ∈ med) (hr : ∀ m ∈ med, m < n) :
    totalDev (conv : ℕ → ℤ) n d med = conv (minDist d z med) := by
  rw [totalDev_eq_sum]
  refine (Finset.sum_eq_single z (fun o ho hne => ?_) fun h => absurd (Finset.mem_range.mpr hz) h)
  have ho := Finset.mem_range.mp ho
  rw [minDist_eq (h o ho hne) fun c' hc' => by rw [hd.diag _ ho]; exact hd.nonneg _ _ ho (hr c' hc'), hd.diag _ ho]
  rfl

/-- **C133, alternating** stops at once with loss `R`. -/
theorem C133_alternating (hk : 2 ≤ k) (hn : k + 1 ≤ u32Max) (maxiter : Nat) :
    ∃ assi, alternating ℤ (fnMat (k + 1) (lastPairD k R)) (lastPairStart k) maxiter = .ok ⟨R, assi, min maxiter 1, lastPairStart k⟩ := by
  rw [C91_alternating (fnMat_isMatrix _ _) lastPairD_dissim (lastPairStart_valid hk hn) lastPairStart_nodup maxiter, altRun_same (lastPair_round hk) maxiter]
  refine ⟨(List.range (k + 1)).map (nearLabel (lastPairD k R) (lastPairStart k)), ?_⟩
  dsimp only
  congr 2
  rw [totalDev_one_missing lastPairD_dissim (z := 0) (by omega) (fun x hx h0 => mem_lastPairStart.mpr ⟨by omega, by omega⟩)
    (lastPairStart_valid hk hn).range, minDist_eq (c := 1) (mem_lastPairStart.mpr ⟨le_refl _, by omega⟩) fun c' hc' => ?_]
  · rw [lastPair_far hk (m := 0) (by omega)]; rfl
  · rw [mem_lastPairStart] at hc'
    rw [lastPair_far hk (m := 0) (by omega), show c' = (c' - 1) + 1 by omega, lastPair_far hk (by omega)]

/-- **C133, optimum:** all objects but the last are medoids with loss 1. -/
theorem C133_optimum (hk : 2 ≤ k) (hR : 1 ≤ R) :
    totalDev (conv : ℕ → ℤ) (k + 1) (lastPairD k R) (List.range k) = 1 ∧
      ∀ med : List Nat, med ≠ [] → (∀ m ∈ med, m < k + 1) → med.length ≤ k → 1 ≤ totalDev (conv : ℕ → ℤ) (k + 1) (lastPairD k R) med := by
  have hpos : ∀ x y, x ≠ y → 1 ≤ lastPairD k R x y := fun x y h => by
    unfold lastPairD; rw [if_neg h]; split <;> omega
  constructor
  · rw [totalDev_one_missing lastPairD_dissim (z := k) (by omega) (fun x hx h0 => List.mem_range.mpr (by omega))
      (fun m hm => by rw [List.mem_range] at hm; omega), minDist_eq (c := k - 1) (List.mem_range.mpr (by omega)) fun c' hc' => ?_]
    · have : lastPairD k R k (k - 1) = 1 := by unfold lastPairD; rw [if_neg (by omega), if_pos (by omega)]
      rw [this]; rfl
    · have : lastPairD k R k (k - 1) = 1 := by unfold lastPairD; rw [if_neg (by omega), if_pos (by omega)]
      rw [List.mem_range] at hc'
      rw [this]; exact hpos _ _ (by omega)
  · intro med hne hr hl
    obtain ⟨z, hz, hzm⟩ : ∃ z < k + 1, z ∉ med := by
      by_contra hcon
      have : ∀ z < k + 1, z ∈ med := fun z hz => by
        by_contra g; exact hcon ⟨z, hz, g⟩
      have := List.subperm_of_subset (List.nodup_range (n := k + 1)) (l₂ := med) fun z hz => this z (List.mem_range.mp hz)
      have := this.length_le
      rw [List.length_range] at this
      omega
    rw [totalDev_eq_sum]
    have hnn : ∀ o ∈ Finset.range (k + 1), (0 : ℤ) ≤ (conv (minDist (lastPairD k R) o med) : ℤ) := fun o _ => Int.natCast_nonneg _
    refine le_trans ?_ (Finset.single_le_sum hnn (Finset.mem_range.mpr hz))
    obtain ⟨⟨a, ha, e⟩, -⟩ := minDist_spec (lastPairD k R) z med hne
    rw [e]
    show (1 : ℤ) ≤ ((lastPairD k R z a : ℕ) : ℤ)
    exact_mod_cast hpos z a fun g => hzm (g ▸ ha)

/-- **C133, PAM family:** from the same start loss 1, after one swap if `R > 1`. -/
theorem C133_pam_family (hk : 2 ≤ k) (hR : 1 ≤ R) (hn : k + 1 ≤ u32Max) {maxiter : Nat} (hi : 1 ≤ maxiter) {r : SwapResult ℤ}
    (hr : IsPamRun (fnMat (k + 1) (lastPairD k R)) (k + 1) (lastPairStart k) maxiter r) : r.loss ≤ 1 ∧ r.nSwap ≤ 1 := by
  obtain ⟨h1, h2, -⟩ := C126_pam_family (fnMat_isMatrix _ _) lastPairD_dissim (lastPairStart_valid hk hn) lastPairStart_nodup
    (by rw [lastPairStart_length]; exact hk) (by rw [lastPairStart_length]) hi hr
  have := h1 (List.range k) (fun e => by have := congrArg List.length e; simp at this; omega)
    (fun m hm => by rw [List.mem_range] at hm; omega) (by simp)
  rw [(C133_optimum hk hR).1] at this
  exact ⟨this, h2⟩

/-- **C133, par_fasterpam:** the same for every order and all schedules. -/
theorem C133_par_fasterpam (hk : 2 ≤ k) (hR : 1 ≤ R) (hn : k + 1 ≤ u32Max) (sc0 : Sched) {scF scS : Nat → Nat → Sched}
    (hF : ∀ i j, (scF i j).Ok) {maxiter : Nat} (hi : 1 ≤ maxiter) {seq : List Nat} (hseq : seq.Perm (List.range (k + 1)))
    {r : SwapResult ℤ} (hr : parFasterpam ℤ sc0 scF scS (fnMat (k + 1) (lastPairD k R)) (lastPairStart k) maxiter seq = .ok r) :
    r.loss ≤ 1 ∧ r.nSwap ≤ 1 := by
  rw [(C17_par_fasterpam sc0 (scS := scS) hF (fnMat_isMatrix _ _) lastPairD_dissim (lastPairStart_valid hk hn) lastPairStart_nodup maxiter
    fun j hj => List.mem_range.mp (hseq.mem_iff.mp hj)).1] at hr
  exact C133_pam_family hk hR hn hi (Or.inr (Or.inl ⟨seq, hseq, hr⟩))

/-- **C133, no factor:** for every number of clusters and every factor `c` there is a metric and a start such that `alternating` ends by
itself with a loss above `c` times the total deviation of other `k` medoids, which is not zero. -/
theorem C133_no_factor (hk : 2 ≤ k) (hn : k + 1 ≤ u32Max) (c : Nat) :
    ∃ (d : Nat → Nat → ℕ) (med other : List Nat) (r : AltResult ℤ), Dissim (k + 1) d ∧ IsMetric (conv : ℕ → ℤ) (k + 1) d ∧
      ValidMeds (k + 1) med ∧ med.Nodup ∧ med.length = k ∧ other.length = k ∧ (∀ m ∈ other, m < k + 1) ∧ other.Nodup ∧
      (∀ maxiter, 1 ≤ maxiter → alternating ℤ (fnMat (k + 1) d) med maxiter = .ok r) ∧ r.nIter = 1 ∧
      0 < totalDev (conv : ℕ → ℤ) (k + 1) d other ∧ c * totalDev (conv : ℕ → ℤ) (k + 1) d other < r.loss := by
  obtain ⟨assi, ha⟩ := C133_alternating (R := c + 1) hk hn 1
  refine ⟨lastPairD k (c + 1), lastPairStart k, List.range k, ⟨(c + 1 : ℕ), assi, 1, lastPairStart k⟩, lastPairD_dissim, C133_metric (by omega),
    lastPairStart_valid hk hn, lastPairStart_nodup, lastPairStart_length, List.length_range, fun m hm => by rw [List.mem_range] at hm; omega,
    List.nodup_range, fun maxiter hi => ?_, rfl, ?_, ?_⟩
  · rw [C91_alternating (fnMat_isMatrix _ _) lastPairD_dissim (lastPairStart_valid hk hn) lastPairStart_nodup, altRun_same (lastPair_round hk)] at ha ⊢
    rw [show min maxiter 1 = min 1 1 by omega]
    exact ha
  · rw [(C133_optimum hk (by omega)).1]; exact Int.one_pos
  · rw [(C133_optimum hk (by omega)).1, mul_one]
    show (c : ℤ) < ((c + 1 : ℕ) : ℤ)
    push_cast
    omega

/-! ## Example -/

example : alternating ℤ (fnMat 4 (lastPairD 3 1000)) (lastPairStart 3) 100 = .ok ⟨1000, [0, 0, 1, 2], 1, [1, 2, 3]⟩ ∧
    fasterpam ℤ (fnMat 4 (lastPairD 3 1000)) (lastPairStart 3) 100 = .ok ⟨1, [1, 0, 2, 2], 2, 1, [1, 0, 3]⟩ := by
  constructor <;> decide +kernel

end KMedoids
