import Verif.Proofs.DivErr
import Verif.Proofs.FloatLoss
import Verif.Proofs.BitMsc

/-!
# Rounding errors of medoid silhouettes

The quotients of smallest and second smallest distance, and their sums.
-/

set_option linter.unusedSectionVars false

namespace KMedoids

open RFrom (conv)

/-- Floating point losses with division: positive distances stay positive when converted. -/
structure QuotLoss (N : Type) {L K : Type} [LinearOrder N] [Zero N] [RLoss L] [RFrom N L] [Field K] [LinearOrder K]
    [IsStrictOrderedRing K] (fin : L → Prop) (val : L → K) (u B eta : K) (C : Nat) : Prop where
  loss : FloatLoss N fin val u B
  div : DivModel fin val u B eta C
  pos : ∀ x : N, 0 < x → 0 < val (conv x : L)

variable {N L K : Type} [LinearOrder N] [Zero N] [RDist N] [LawfulDist N] [RLoss L] [RFrom N L]
  [Field K] [LinearOrder K] [IsStrictOrderedRing K]
variable {fin : L → Prop} {val : L → K} {u B eta : K} {C : Nat}

namespace QuotLoss

theorem val_zero (Q : QuotLoss N fin val u B eta C) : val (conv (0 : N) : L) = 0 := by
  rw [Q.loss.conv_zero, Q.loss.std.zero]

/-- Exact quotients of distances `0 ≤ a ≤ b` are in the unit interval. -/
theorem quot_range (Q : QuotLoss N fin val u B eta C) {a b : N} (ha : 0 ≤ a) (hab : a ≤ b) :
    0 ≤ val (conv a : L) / val (conv b : L) ∧ val (conv a : L) / val (conv b : L) ≤ 1 := by
  have h1 : 0 ≤ val (conv a : L) := Q.loss.val_nonneg ha
  have h2 : val (conv a : L) ≤ val (conv b : L) := Q.loss.conv_mono hab
  exact ⟨div_nonneg h1 (h1.trans h2), div_le_one_of_le₀ h2 (h1.trans h2)⟩

/-- The computed quotient. -/
theorem quot (Q : QuotLoss N fin val u B eta C) (hB : 1 ≤ B) {a b : N} (ha : 0 ≤ a) (hab : a ≤ b) :
    Appr fin val u 1 (val (conv a : L) / val (conv b : L)) 1 (mscLoss L a b) := by
  obtain ⟨q0, q1⟩ := Q.quot_range ha hab
  have habs : |val (conv a : L) / val (conv b : L)| ≤ 1 := by rwa [abs_of_nonneg q0]
  unfold mscLoss
  simp only [LawfulDist.isZero_eq, Bool.or_eq_true, decide_eq_true_eq]
  have hu := Q.loss.std.u_nonneg
  by_cases h : a = 0 ∨ b = 0
  · rw [if_pos h]
    have h0 : a = 0 := h.elim id fun hb => le_antisymm (hb ▸ hab) ha
    refine ⟨Q.loss.std.zero_fin, habs, ?_⟩
    rw [h0, Q.val_zero, zero_div, Q.loss.std.zero]
    simpa using hu
  · rw [if_neg h]
    rw [not_or] at h
    obtain ⟨h1, h2⟩ := Q.div.div_abs (Q.loss.conv_fin a) (Q.loss.conv_fin b)
      (Q.pos b (lt_of_le_of_ne (ha.trans hab) (Ne.symm h.2))).ne' habs le_rfl hB
    exact ⟨h1, habs, by simpa using h2⟩

/-- The exact ratio of an object from its two smallest distances. -/
theorem ratio_of (Q : QuotLoss N fin val u B eta C) {d : Nat → Nat → N} {med : List Nat} {o : Nat} {a b : N}
    (h : TwoMin (med.map (d o)) a b) :
    1 - medSil1 (fun x : N => val (conv x : L)) d med o = val (conv a : L) / val (conv b : L) := by
  obtain ⟨r, hr⟩ := h.sorted
  rw [medSil1, sortedDist, hr]
  dsimp only
  split
  · rename_i h0; rw [h0, Q.val_zero]; simp
  · ring

theorem twoMin_range {n : Nat} {d : Nat → Nat → N} (hd : Dissim n d) {med : List Nat} (hr : ∀ m ∈ med, m < n)
    {o : Nat} (ho : o < n) {a b : N} (h : TwoMin (med.map (d o)) a b) : 0 ≤ a ∧ a ≤ b := by
  obtain ⟨ha, -, hab⟩ := h.mem
  obtain ⟨m, hm, e⟩ := List.mem_map.mp ha
  exact ⟨e ▸ hd.nonneg _ _ ho (hr m hm), hab⟩

theorem medSil1_unit (Q : QuotLoss N fin val u B eta C) {n : Nat} {d : Nat → Nat → N} (hd : Dissim n d) {med : List Nat}
    (hk : 2 ≤ med.length) (hr : ∀ m ∈ med, m < n) {o : Nat} (ho : o < n) :
    0 ≤ medSil1 (fun x : N => val (conv x : L)) d med o ∧ medSil1 (fun x : N => val (conv x : L)) d med o ≤ 1 := by
  have ht := twoNearestP_twoMin d hk o
  obtain ⟨h1, h2⟩ := twoMin_range hd hr ho ht
  have h3 := Q.quot_range h1 h2
  rw [← Q.ratio_of ht] at h3
  constructor <;> linarith [h3.1, h3.2]

/-- The computed contribution of an object. -/
theorem term (Q : QuotLoss N fin val u B eta C) (hB : 1 ≤ B) {n : Nat} {d : Nat → Nat → N} (hd : Dissim n d)
    {med : List Nat} (hk : 2 ≤ med.length) (hr : ∀ m ∈ med, m < n) {o : Nat} (ho : o < n) :
    Appr fin val u 1 (1 - medSil1 (fun x : N => val (conv x : L)) d med o) 1 (silTerm L d med o) := by
  have ht := twoNearestP_twoMin d hk o
  obtain ⟨h1, h2⟩ := twoMin_range hd hr ho ht
  rw [← mscLoss_term ht h1, Q.ratio_of ht]
  exact Q.quot hB h1 h2

end QuotLoss

/-- The exact sum of the ratios. -/
def exactRatios (N : Type) {L K : Type} [LinearOrder N] [Zero N] [RFrom N L] [Field K] (val : L → K) (n : Nat)
    (d : Nat → Nat → N) (med : List Nat) : K :=
  ((List.range n).map fun o => 1 - medSil1 (fun x : N => val (conv x : L)) d med o).sum

/-- The exact average medoid silhouette of the converted distances. -/
def exactMedSil (N : Type) {L K : Type} [LinearOrder N] [Zero N] [RFrom N L] [Field K] (val : L → K) (n : Nat)
    (d : Nat → Nat → N) (med : List Nat) : K :=
  medSil (fun x : N => val (conv x : L)) n d med

theorem exactMedSil_eq {n : Nat} (hn : 0 < n) (d : Nat → Nat → N) (med : List Nat) :
    exactMedSil N val n d med = 1 - exactRatios N val n d med / n := by
  have h0 : (n : K) ≠ 0 := by exact_mod_cast (by omega : n ≠ 0)
  have hs : ∀ f : Nat → K, ((List.range n).map fun o => 1 - f o).sum = n - ((List.range n).map f).sum := by
    intro f
    induction n with
    | zero => simp
    | succ n ih =>
      by_cases hz : n = 0
      · subst hz; simp
      · rw [List.range_succ, List.map_append, List.map_append, List.sum_append, List.sum_append,
          ih (by omega) (by exact_mod_cast hz)]
        simp
        ring
  rw [exactMedSil, medSil, exactRatios, hs, mean, List.length_map, List.length_range, sub_div (n : K), div_self h0]
  ring

theorem exactRatios_range (Q : QuotLoss N fin val u B eta C) {n : Nat} {d : Nat → Nat → N} (hd : Dissim n d)
    {med : List Nat} (hk : 2 ≤ med.length) (hr : ∀ m ∈ med, m < n) :
    0 ≤ exactRatios N val n d med ∧ exactRatios N val n d med ≤ n := by
  constructor
  · refine List.sum_nonneg fun x hx => ?_
    obtain ⟨o, ho, rfl⟩ := List.mem_map.mp hx
    linarith [(Q.medSil1_unit hd hk hr (List.mem_range.mp ho)).2]
  · have : exactRatios N val n d med ≤ ((List.range n).map fun _ => (1 : K)).sum :=
      List.sum_le_sum fun o ho => by linarith [(Q.medSil1_unit hd hk hr (List.mem_range.mp ho)).1]
    simpa using this

/-- A sum of `n` approximate terms in the unit interval. -/
theorem leftSum_appr (M : StdModel fin val u B) {n : Nat} (hn : 0 < n) {f : Nat → K} {t : Nat → L}
    (h : ∀ o < n, Appr fin val u 1 (f o) 1 (t o)) (hB : (1 + u) ^ n * n ≤ B) :
    Appr fin val u n ((List.range n).map f).sum n (leftSum ((List.range n).map t)) := by
  have hp : ∀ {m : Nat}, 1 ≤ m → m ≤ n → Appr fin val u m ((List.range m).map f).sum m (leftSum ((List.range m).map t)) := by
    intro m hm1
    induction m, hm1 using Nat.le_induction with
    | base => intro _; simpa [leftSum] using h 0 hn
    | succ m hm1 ih =>
      intro hm
      have e : leftSum ((List.range (m + 1)).map t) = RLoss.add (leftSum ((List.range m).map t)) (t m) := by
        rw [List.range_succ, List.map_append]
        obtain ⟨x, xs, hx⟩ := List.exists_cons_of_ne_nil (l := (List.range m).map t) (by simp; omega)
        rw [hx]
        simp [leftSum]
      rw [e, List.range_succ, List.map_append, List.sum_append]
      have hm' : (m : K) + 1 ≤ n := by exact_mod_cast hm
      have := (ih (by omega)).add M ((h m (by omega)).mono M hm1 le_rfl) (by
        refine le_trans ?_ hB
        have h1 := M.pow_mono (m := m) (m' := n) (by omega)
        have h2 := M.one_le_pow m
        have h3 : (0 : K) ≤ m := Nat.cast_nonneg m
        exact mul_le_mul h1 hm' (by linarith) (by linarith))
      simpa using this
  exact hp hn le_rfl

/-- One minus the average. -/
theorem toSil_appr (D : DivModel fin val u B eta C) {n : Nat} (hn : 0 < n) (hC : n ≤ C) {S : K} (h0 : 0 ≤ S) (h1 : S ≤ n)
    {e : Nat} {x : L} (hx : Appr fin val u e S n x) (hB : (1 + u) ^ (e + 1) ≤ B) :
    fin (RLoss.sub RLoss.one (RLoss.div x (RLoss.ofU32 n))) ∧
      |val (RLoss.sub RLoss.one (RLoss.div x (RLoss.ofU32 n))) - (1 - S / n)| ≤ (1 + u) ^ (e + 2) - 1 := by
  obtain ⟨c1, c2⟩ := D.ofU32 n hC
  have hnK : (0 : K) < n := by exact_mod_cast hn
  have hu := D.std.u_nonneg
  have hp := D.std.one_le_pow e
  have hp1 := D.std.one_le_pow (e + 1)
  have hpm := D.std.pow_mono (m := e) (m' := e + 1) (by omega)
  have hq : |val x / (n : K) - S / n| ≤ (1 + u) ^ e - 1 := by
    rw [← sub_div, abs_div, abs_of_pos hnK, div_le_iff₀ hnK]
    exact hx.err
  have hS1 : S / (n : K) ≤ 1 := (div_le_one hnK).mpr h1
  have hS0 : 0 ≤ S / (n : K) := div_nonneg h0 hnK.le
  have hqa : |val x / (n : K)| ≤ (1 + u) ^ e := by
    have := abs_le.mp hq
    rw [abs_le]
    constructor <;> linarith [this.1, this.2]
  obtain ⟨d1, d2⟩ := D.div_abs hx.fin c1 (by rw [c2]; exact hnK.ne') (by rw [c2]; exact hqa) hp (by linarith)
  rw [c2] at d2
  have hd : |val (RLoss.div x (RLoss.ofU32 n)) - S / n| ≤ (1 + u) ^ (e + 1) - 1 := by
    have := abs_add_le (val (RLoss.div x (RLoss.ofU32 n)) - val x / n) (val x / n - S / n)
    rw [sub_add_sub_cancel] at this
    rw [pow_succ]
    linarith
  generalize RLoss.div x (RLoss.ofU32 n) = q at d1 hd ⊢
  have hdd := abs_le.mp hd
  have hs : |val (RLoss.one : L) - val q| ≤ (1 + u) ^ (e + 1) := by
    rw [D.one, abs_le]
    constructor <;> linarith [hdd.1, hdd.2]
  obtain ⟨s1, s2⟩ := D.std.sub _ _ D.one_fin d1 (hs.trans hB)
  rw [D.one] at s2 hs
  refine ⟨s1, ?_⟩
  have := abs_add_le (val (RLoss.sub RLoss.one q) - (1 - val q)) ((1 - val q) - (1 - S / n))
  rw [sub_add_sub_cancel] at this
  have e2 : |(1 - val q) - (1 - S / n)| = |val q - S / n| := by
    rw [show (1 - val q) - (1 - S / n) = -(val q - S / n) by ring, abs_neg]
  rw [e2] at this
  have h3 : u * |1 - val q| ≤ u * (1 + u) ^ (e + 1) := by
    exact mul_le_mul_of_nonneg_left hs hu
  rw [show e + 2 = (e + 1) + 1 by omega, pow_succ (1 + u) (e + 1)]
  linarith

end KMedoids
