import Verif.Props.C36_C38
import Verif.Props.C54
import Verif.Props.C61
import Verif.Props.C64
import Verif.Props.C97
import Verif.Props.C132
import Mathlib.Algebra.BigOperators.Field
import Mathlib.Data.List.Perm.Basic
import Mathlib.Tactic.FieldSimp

/-!
# C134: the medoid silhouette methods have no constant factor, even on metrics

The loss of the PAM family ends within a factor of five of the optimum for metrics (C64). For the medoid silhouette, the analogous quantity
is the mean of `d₁/d₂`, which is `1 -` the medoid silhouette. There is no factor for it: for every number `k ≥ 2` of clusters, there are metrics with
local optima at which FasterMSC, FastMSC and PAMMEDSIL stop, and whose value is as many times that of other `k` medoids as one likes.

There are two groups `A`, `B` of `s` objects, with distance 1 within and `2 s` between the groups. Object 0 is in the middle, at distance `s` from all of them.
Object 1 is at distance `4 s` from all objects. With the medoids 0 and 1, every object of the groups has `d₁/d₂ = 1/4`, together `s/2`. With one medoid in a
group, the objects of the other group alone have `d₁/d₂ = 1/2`, together `s/2`, for both possible exchanges. With a medoid in each group, only objects
0 and 1 count, the others have `d₁/d₂ = 1 / (2 s)`. For more clusters, there are isolated objects that are medoids in both solutions.
-/

set_option linter.unusedSectionVars false

namespace KMedoids

open RFrom (conv)

/-- 0: the object in the middle; 1: the remote object; 2: group A; 3: group B. -/
def midTy (s o : Nat) : Nat := if o = 0 then 0 else if o = 1 then 1 else if o < 2 + s then 2 else 3

/-- Distance of different objects, by their types. -/
def midT (s t u : Nat) : ℕ := if t = u then 1 else if t = 1 ∨ u = 1 then 4 * s else if t = 0 ∨ u = 0 then s else 2 * s

def midD (s x y : Nat) : ℕ := if x = y then 0 else midT s (midTy s x) (midTy s y)

/-- Number of objects. -/
def midN (s : Nat) : Nat := 1 + 1 + s + s

variable {s : Nat}

theorem midT_symm (t u : Nat) : midT s t u = midT s u t := by
  unfold midT
  split_ifs <;> first | rfl | omega

theorem midD_symm (x y : Nat) : midD s x y = midD s y x := by
  unfold midD
  by_cases h : x = y
  · rw [if_pos h, if_pos h.symm]
  · rw [if_neg h, if_neg (Ne.symm h), midT_symm]

theorem midD_dissim : Dissim (midN s) (midD s) := ⟨fun x _ => by simp [midD], fun _ _ _ _ => Nat.zero_le _⟩

theorem midT_pos (hs : 1 ≤ s) (t u : Nat) : 1 ≤ midT s t u := by
  unfold midT
  split_ifs <;> omega

theorem midD_le (hs : 1 ≤ s) (x y : Nat) : midD s x y ≤ 4 * s := by
  unfold midD midT
  split_ifs <;> omega

/-- **C134, metric.** -/
theorem C134_metric (hs : 1 ≤ s) : IsMetric (conv : ℕ → ℚ) (midN s) (midD s) := by
  refine ⟨fun x y _ _ => midD_symm x y, fun x y z _ _ _ => ?_⟩
  show ((midD s x z : ℕ) : ℚ) ≤ (midD s x y : ℕ) + (midD s y z : ℕ)
  have : midD s x z ≤ midD s x y + midD s y z := by
    unfold midD
    generalize hx : midTy s x = t
    generalize hy : midTy s y = u
    generalize hz : midTy s z = v
    by_cases h1 : x = z
    · rw [if_pos h1]; exact Nat.zero_le _
    · rw [if_neg h1]
      by_cases h2 : x = y
      · subst h2
        rw [if_pos rfl, if_neg h1, ← hx, ← hy, Nat.zero_add]
      · by_cases h3 : y = z
        · subst h3
          rw [if_neg h2, if_pos rfl, ← hy, ← hz, Nat.add_zero]
        · rw [if_neg h2, if_neg h3]
          unfold midT
          split_ifs <;> omega
  exact_mod_cast this

/-! ## The value of two medoids -/

/-- Smaller over larger of two numbers. -/
def quot2 (x y : ℕ) : ℚ := if x ≤ y then (x : ℚ) / y else (y : ℚ) / x

theorem quot2_eq {d : Nat → Nat → ℕ} {a b o : Nat} : 1 - medSil1 (conv : ℕ → ℚ) d [a, b] o = quot2 (d o a) (d o b) := by
  unfold quot2
  split_ifs with h
  · exact ratio_of_twoMin (L := ℚ) ⟨[], List.Perm.refl _, h, by simp⟩
  · exact ratio_of_twoMin (L := ℚ) ⟨[], List.Perm.swap _ _ _, by omega, by simp⟩

/-- Sum of `d₁/d₂` over all objects. -/
def d1d2Sum (n : Nat) (d : Nat → Nat → ℕ) (med : List Nat) : ℚ := ∑ o ∈ Finset.range n, (1 - medSil1 (conv : ℕ → ℚ) d med o)

theorem medSil_d1d2 {n : Nat} (hn : 0 < n) (d : Nat → Nat → ℕ) (med : List Nat) :
    1 - medSil (conv : ℕ → ℚ) n d med = d1d2Sum n d med / n := by
  have hn' : (n : ℚ) ≠ 0 := by exact_mod_cast hn.ne'
  unfold medSil mean d1d2Sum
  rw [List.length_map, List.length_range, sum_range_map, Finset.sum_sub_distrib, Finset.sum_const, Finset.card_range, nsmul_eq_mul, mul_one,
    sub_div, div_self hn']

/-- The ratio of an object of type `t` that is not a medoid. -/
def midRatio (s t1 t2 t : Nat) : ℚ := quot2 (midT s t t1) (midT s t t2)

theorem sum_midTy (f : Nat → ℚ) : ∑ o ∈ Finset.range (midN s), f (midTy s o) = f 0 + f 1 + s * f 2 + s * f 3 := by
  unfold midN
  rw [Finset.sum_range_add, Finset.sum_range_add, Finset.sum_range_add]
  have h2 : ∀ x ∈ Finset.range s, f (midTy s (1 + 1 + x)) = f 2 := fun x hx => by
    rw [Finset.mem_range] at hx
    rw [midTy, if_neg (by omega), if_neg (by omega), if_pos (by omega)]
  have h3 : ∀ x ∈ Finset.range s, f (midTy s (1 + 1 + s + x)) = f 3 := fun x hx => by
    rw [midTy, if_neg (by omega), if_neg (by omega), if_neg (by omega)]
  rw [Finset.sum_range_one, Finset.sum_range_one, Finset.sum_congr rfl h2, Finset.sum_congr rfl h3]
  simp only [Finset.sum_const, Finset.card_range, nsmul_eq_mul]
  rfl

theorem d1d2Sum_two {a b : Nat} (ha : a < midN s) (hb : b < midN s) (hab : a ≠ b) (hs : 1 ≤ s) {f : Nat → ℚ}
    (hf : f = midRatio s (midTy s a) (midTy s b)) :
    d1d2Sum (midN s) (midD s) [a, b] = f 0 + f 1 + s * f 2 + s * f 3 - f (midTy s a) - f (midTy s b) := by
  have h : ∀ o ∈ Finset.range (midN s), 1 - medSil1 (conv : ℕ → ℚ) (midD s) [a, b] o =
      f (midTy s o) - (if o = a then f (midTy s a) else 0) - (if o = b then f (midTy s b) else 0) := by
    intro o _
    rw [quot2_eq]
    have p := midT_pos hs
    by_cases h1 : o = a
    · subst h1
      rw [if_pos rfl, if_neg hab, show midD s o o = 0 from if_pos rfl]
      simp [quot2]
    · by_cases h2 : o = b
      · subst h2
        have q1 := p (midTy s o) (midTy s a)
        rw [if_neg h1, if_pos rfl, show midD s o o = 0 from if_pos rfl,
          show midD s o a = midT s (midTy s o) (midTy s a) from if_neg h1]
        unfold quot2
        rw [if_neg (by omega)]
        simp
      · rw [if_neg h1, if_neg h2, sub_zero, sub_zero]
        unfold midD
        rw [if_neg h1, if_neg h2, hf]
        rfl
  unfold d1d2Sum
  rw [Finset.sum_congr rfl h, Finset.sum_sub_distrib, Finset.sum_sub_distrib, sum_midTy,
    Finset.sum_ite_eq', Finset.sum_ite_eq', if_pos (Finset.mem_range.mpr ha), if_pos (Finset.mem_range.mpr hb)]

/-! ## The ratios -/

section values

variable (hs : 2 ≤ s)
include hs

theorem midRatio_01 : midRatio s 0 1 2 = 1 / 4 ∧ midRatio s 0 1 3 = 1 / 4 := by
  have h0 : (s : ℚ) ≠ 0 := by exact_mod_cast (by omega : s ≠ 0)
  simp only [midRatio, midT, quot2]
  refine ⟨?_, ?_⟩ <;> norm_num <;> (try split_ifs) <;> first | omega | (field_simp; try norm_num)

theorem midRatio_21 : midRatio s 2 1 0 = 1 / 4 ∧ midRatio s 2 1 2 = 1 / (4 * s) ∧ midRatio s 2 1 3 = 1 / 2 := by
  have h0 : (s : ℚ) ≠ 0 := by exact_mod_cast (by omega : s ≠ 0)
  simp only [midRatio, midT, quot2]
  refine ⟨?_, ?_, ?_⟩ <;> norm_num <;> (try split_ifs) <;> first | omega | (field_simp; try norm_num)

theorem midRatio_31 : midRatio s 3 1 0 = 1 / 4 ∧ midRatio s 3 1 2 = 1 / 2 ∧ midRatio s 3 1 3 = 1 / (4 * s) := by
  have h0 : (s : ℚ) ≠ 0 := by exact_mod_cast (by omega : s ≠ 0)
  simp only [midRatio, midT, quot2]
  refine ⟨?_, ?_, ?_⟩ <;> norm_num <;> (try split_ifs) <;> first | omega | (field_simp; try norm_num)

theorem midRatio_02 : midRatio s 0 2 1 = 1 ∧ midRatio s 0 2 2 = 1 / s ∧ midRatio s 0 2 3 = 1 / 2 := by
  have h0 : (s : ℚ) ≠ 0 := by exact_mod_cast (by omega : s ≠ 0)
  simp only [midRatio, midT, quot2]
  refine ⟨?_, ?_, ?_⟩ <;> norm_num <;> (try split_ifs) <;> first | omega | (field_simp; try norm_num)

theorem midRatio_03 : midRatio s 0 3 1 = 1 ∧ midRatio s 0 3 2 = 1 / 2 ∧ midRatio s 0 3 3 = 1 / s := by
  have h0 : (s : ℚ) ≠ 0 := by exact_mod_cast (by omega : s ≠ 0)
  simp only [midRatio, midT, quot2]
  refine ⟨?_, ?_, ?_⟩ <;> norm_num <;> (try split_ifs) <;> first | omega | (field_simp; try norm_num)

theorem midRatio_23 : midRatio s 2 3 0 = 1 ∧ midRatio s 2 3 1 = 1 ∧ midRatio s 2 3 2 = 1 / (2 * s) ∧ midRatio s 2 3 3 = 1 / (2 * s) := by
  have h0 : (s : ℚ) ≠ 0 := by exact_mod_cast (by omega : s ≠ 0)
  simp only [midRatio, midT, quot2]
  refine ⟨?_, ?_, ?_, ?_⟩ <;> norm_num <;> omega

end values

/-! ## The local optimum -/

theorem midTy_cases {o : Nat} (h0 : o ≠ 0) (h1 : o ≠ 1) : midTy s o = 2 ∨ midTy s o = 3 := by
  unfold midTy; split_ifs <;> omega

theorem mid_local (hs : 2 ≤ s) : d1d2Sum (midN s) (midD s) [0, 1] = s / 2 := by
  obtain ⟨e2, e3⟩ := midRatio_01 hs
  rw [d1d2Sum_two (by unfold midN; omega) (by unfold midN; omega) (by omega) (by omega) rfl, show midTy s 0 = 0 from rfl, show midTy s 1 = 1 from rfl, e2, e3]
  ring

theorem mid_swap (hs : 2 ≤ s) {i j : Nat} (hi : i < 2) (hj : j < midN s) (hjm : j ∉ [0, 1]) :
    (s / 2 : ℚ) ≤ d1d2Sum (midN s) (midD s) ([0, 1].set i j) := by
  simp only [List.mem_cons, List.not_mem_nil, or_false, not_or] at hjm
  obtain ⟨j0, j1⟩ := hjm
  have h2 : (2 : ℚ) ≤ s := by exact_mod_cast hs
  have p1 : (1 : ℚ) / s ≤ s * (1 / s) := le_mul_of_one_le_left (by positivity) (by linarith)
  have p4 : (1 : ℚ) / (4 * s) ≤ s * (1 / (4 * s)) := le_mul_of_one_le_left (by positivity) (by linarith)
  have n0 : 0 < midN s := by unfold midN; omega
  have n1 : 1 < midN s := by unfold midN; omega
  rcases (by omega : i = 0 ∨ i = 1) with rfl | rfl
  · show _ ≤ d1d2Sum _ _ [j, 1]
    rw [d1d2Sum_two hj n1 j1 (by omega) rfl, show midTy s 1 = 1 from rfl]
    rcases midTy_cases (s := s) j0 j1 with t | t <;> rw [t]
    · obtain ⟨e0, e2, e3⟩ := midRatio_21 hs
      rw [e0, e2, e3]; linarith
    · obtain ⟨e0, e2, e3⟩ := midRatio_31 hs
      rw [e0, e2, e3]; linarith
  · show _ ≤ d1d2Sum _ _ [0, j]
    rw [d1d2Sum_two n0 hj (Ne.symm j0) (by omega) rfl, show midTy s 0 = 0 from rfl]
    rcases midTy_cases (s := s) j0 j1 with t | t <;> rw [t]
    · obtain ⟨e1, e2, e3⟩ := midRatio_02 hs
      rw [e1, e2, e3]; linarith
    · obtain ⟨e1, e2, e3⟩ := midRatio_03 hs
      rw [e1, e2, e3]; linarith

theorem mid_best (hs : 2 ≤ s) : 1 ≤ d1d2Sum (midN s) (midD s) [2, 2 + s] ∧ d1d2Sum (midN s) (midD s) [2, 2 + s] ≤ 3 := by
  obtain ⟨e0, e1, e2, e3⟩ := midRatio_23 hs
  have t2 : midTy s 2 = 2 := by unfold midTy; split_ifs <;> omega
  have t3 : midTy s (2 + s) = 3 := by unfold midTy; split_ifs <;> omega
  have h2 : (2 : ℚ) ≤ s := by exact_mod_cast hs
  have q : (s : ℚ) * (1 / (2 * s)) = 1 / 2 := by field_simp
  have q0 : (0 : ℚ) ≤ 1 / (2 * s) := by positivity
  have q1 : (1 : ℚ) / (2 * s) ≤ s * (1 / (2 * s)) := le_mul_of_one_le_left q0 (by linarith)
  rw [d1d2Sum_two (by unfold midN; omega) (by unfold midN; omega) (by omega) (by omega) rfl, t2, t3, e0, e1, e2, e3]
  constructor <;> linarith

theorem midN_pos : 0 < midN s := by unfold midN; omega

/-- **C134, local optimum:** no exchange increases the medoid silhouette. -/
theorem C134_local_optimum (hs : 2 ≤ s) : SilSwapOptimal ℚ (midN s) (midD s) [0, 1] := by
  intro i j hi hj hjm
  have h := mid_swap hs hi hj hjm
  rw [← mid_local hs] at h
  have hn : (0 : ℚ) < midN s := by exact_mod_cast midN_pos
  have := div_le_div_of_nonneg_right h hn.le
  rw [← medSil_d1d2 midN_pos, ← medSil_d1d2 midN_pos] at this
  linarith

/-! ## Isolated objects -/

/-- The objects from `N` on are at distance `X` from all others. -/
def isoD (N X : Nat) (d : Nat → Nat → ℕ) (x y : Nat) : ℕ := if x = y then 0 else if x < N ∧ y < N then d x y else X

variable {N X e : Nat} {d : Nat → Nat → ℕ} {A : List Nat}

theorem isoD_base (hd : Dissim N d) {x y : Nat} (hx : x < N) (hy : y < N) : isoD N X d x y = d x y := by
  unfold isoD
  by_cases h : x = y
  · rw [if_pos h, h, hd.diag y hy]
  · rw [if_neg h, if_pos ⟨hx, hy⟩]

theorem isoD_far {x y : Nat} (h : x ≠ y) (hxy : N ≤ x ∨ N ≤ y) : isoD N X d x y = X := by
  unfold isoD
  rw [if_neg h, if_neg (by omega)]

theorem isoD_dissim {n : Nat} : Dissim n (isoD N X d) := ⟨fun _ _ => if_pos rfl, fun _ _ _ _ => Nat.zero_le _⟩

theorem isoD_metric {n : Nat} (hm : IsMetric (conv : ℕ → ℚ) N d) (hd : Dissim N d) (hX : ∀ x y, x < N → y < N → d x y ≤ X) :
    IsMetric (conv : ℕ → ℚ) n (isoD N X d) := by
  have hs : ∀ x y, isoD N X d x y = isoD N X d y x := fun x y => by
    by_cases h : x = y
    · rw [h]
    · by_cases g : x < N ∧ y < N
      · rw [isoD_base hd g.1 g.2, isoD_base hd g.2 g.1, hm.symm x y g.1 g.2]
      · rw [isoD_far h (by omega), isoD_far (Ne.symm h) (by omega)]
  refine ⟨fun x y _ _ => hs x y, fun x y z _ _ _ => ?_⟩
  show ((isoD N X d x z : ℕ) : ℚ) ≤ (isoD N X d x y : ℕ) + (isoD N X d y z : ℕ)
  by_cases g : x < N ∧ y < N ∧ z < N
  · rw [isoD_base hd g.1 g.2.2, isoD_base hd g.1 g.2.1, isoD_base hd g.2.1 g.2.2]
    exact hm.triangle x y z g.1 g.2.1 g.2.2
  · have hle : ∀ u v, isoD N X d u v ≤ X := fun u v => by
      by_cases h : u = v
      · rw [isoD, if_pos h]; exact Nat.zero_le _
      · by_cases q : u < N ∧ v < N
        · rw [isoD_base hd q.1 q.2]; exact hX u v q.1 q.2
        · rw [isoD_far h (by omega)]
    have : isoD N X d x z ≤ isoD N X d x y + isoD N X d y z := by
      by_cases h1 : x = y
      · subst h1; omega
      · by_cases h2 : y = z
        · subst h2; omega
        · have := hle x z
          by_cases q : N ≤ x ∨ N ≤ y
          · rw [isoD_far h1 q]; omega
          · rw [isoD_far h2 (by omega)]; omega
    exact_mod_cast this

theorem d1d2Sum_perm {n : Nat} {d : Nat → Nat → ℕ} {med med' : List Nat} (h : med.Perm med') (hk : 2 ≤ med'.length) :
    d1d2Sum n d med = d1d2Sum n d med' := by
  unfold d1d2Sum
  refine Finset.sum_congr rfl fun o _ => ?_
  have := medSil1_renumber (L := ℚ) d id (med' := med) (med := med') (by rw [List.map_id]; exact h) hk o
  exact congrArg (1 - ·) this

/-- The sum with isolated medoids: each isolated object that is not a medoid counts 1. -/
theorem d1d2Sum_iso (hd : Dissim N d) (hX : ∀ x y, x < N → y < N → d x y ≤ X) (hX0 : 0 < X) (hk : 2 ≤ A.length) (hA : ∀ a ∈ A, a < N)
    {I : List Nat} (hI : ∀ z ∈ I, N ≤ z) :
    d1d2Sum (N + e) (isoD N X d) (A ++ I) = d1d2Sum N d A + ∑ x ∈ Finset.range e, if N + x ∈ I then (0 : ℚ) else 1 := by
  unfold d1d2Sum
  rw [Finset.sum_range_add]
  congr 1
  · refine Finset.sum_congr rfl fun o ho => ?_
    have ho := Finset.mem_range.mp ho
    have h := twoNearestP_twoMin d hk o
    generalize (twoNearestP d A o).1 = a at h
    generalize (twoNearestP d A o).2 = b at h
    rw [ratio_of_twoMin (L := ℚ) h]
    refine ratio_of_twoMin (L := ℚ) ?_
    obtain ⟨-, hb, -⟩ := h.mem
    obtain ⟨rest, hp, hab, hr⟩ := h
    have e1 : A.map (isoD N X d o) = A.map (d o) := List.map_congr_left fun a ha => isoD_base hd ho (hA a ha)
    refine ⟨rest ++ I.map (isoD N X d o), ?_, hab, fun x hx => ?_⟩
    · rw [List.map_append, e1]
      exact hp.append_right _
    · rcases List.mem_append.mp hx with hx | hx
      · exact hr x hx
      · obtain ⟨z, hz, rfl⟩ := List.mem_map.mp hx
        obtain ⟨y, hy, rfl⟩ := List.mem_map.mp hb
        have := hI z hz
        rw [isoD_far (by omega) (by omega)]
        exact hX _ _ ho (hA y hy)
  · refine Finset.sum_congr rfl fun x _ => ?_
    have hk' : 2 ≤ (A ++ I).length := by rw [List.length_append]; omega
    have h := twoNearestP_twoMin (isoD N X d) hk' (N + x)
    generalize (twoNearestP (isoD N X d) (A ++ I) (N + x)).1 = a at h
    generalize (twoNearestP (isoD N X d) (A ++ I) (N + x)).2 = b at h
    rw [ratio_of_twoMin (L := ℚ) h]
    obtain ⟨ha, hb, hab⟩ := h.mem
    obtain ⟨rest, hp, -, hr⟩ := h
    by_cases g : N + x ∈ I
    · rw [if_pos g]
      have h0 : (0 : ℕ) ∈ (A ++ I).map (isoD N X d (N + x)) := List.mem_map.mpr ⟨N + x, List.mem_append.mpr (.inr g), if_pos rfl⟩
      have : a ≤ 0 := by
        rcases List.mem_cons.mp (hp.mem_iff.mp h0) with h | h
        · exact h.ge
        · rcases List.mem_cons.mp h with h | h
          · rw [h]; exact hab
          · exact le_trans hab (hr 0 h)
      obtain rfl : a = 0 := by omega
      show ((0 : ℕ) : ℚ) / _ = 0
      simp
    · rw [if_neg g]
      have key : ∀ w ∈ (A ++ I).map (isoD N X d (N + x)), w = X := fun w hw => by
        obtain ⟨z, hz, rfl⟩ := List.mem_map.mp hw
        refine isoD_far (fun q => ?_) (by omega)
        rcases List.mem_append.mp hz with h | h
        · have := hA z h; omega
        · exact g (q ▸ h)
      rw [key a ha, key b hb]
      show ((X : ℕ) : ℚ) / (X : ℕ) = 1
      exact div_self (by exact_mod_cast hX0.ne')

theorem d1d2Sum_iso_all (hd : Dissim N d) (hX : ∀ x y, x < N → y < N → d x y ≤ X) (hX0 : 0 < X) (hk : 2 ≤ A.length) (hA : ∀ a ∈ A, a < N) :
    d1d2Sum (N + e) (isoD N X d) (A ++ List.range' N e) = d1d2Sum N d A := by
  rw [d1d2Sum_iso hd hX hX0 hk hA fun z hz => (List.mem_range'_1.mp hz).1, Finset.sum_eq_zero fun x hx => ?_, add_zero]
  rw [Finset.mem_range] at hx
  rw [if_pos (List.mem_range'_1.mpr (by omega))]

theorem d1d2Sum_iso_but_one (hd : Dissim N d) (hX : ∀ x y, x < N → y < N → d x y ≤ X) (hX0 : 0 < X) (hk : 2 ≤ A.length)
    (hA : ∀ a ∈ A, a < N) {i j : Nat} (hi : i < e) (hj : j < N) :
    d1d2Sum (N + e) (isoD N X d) (A ++ (List.range' N e).set i j) = d1d2Sum N d (A ++ [j]) + 1 := by
  have hl : i < (List.range' N e).length := by rw [List.length_range']; exact hi
  have hp : (A ++ (List.range' N e).set i j).Perm ((A ++ [j]) ++ (List.range' N e).eraseIdx i) := by
    rw [List.append_assoc]
    exact (List.set_perm_cons_eraseIdx hl j).append_left A
  have hnd : (List.range' N e).Nodup := List.nodup_range'
  have hg : (List.range' N e)[i] = N + i := by simp
  have hmem : ∀ z, z ∈ (List.range' N e).eraseIdx i ↔ z ≠ N + i ∧ z ∈ List.range' N e := fun z => by
    rw [← hnd.erase_getElem i hl, hg]
    exact hnd.mem_erase_iff
  rw [d1d2Sum_perm hp (by rw [List.length_append, List.length_append]; omega),
    d1d2Sum_iso hd hX hX0 (by rw [List.length_append]; omega) (fun a ha => ?_) fun z hz => (List.mem_range'_1.mp ((hmem z).mp hz).2).1]
  · congr 1
    rw [Finset.sum_eq_single i (fun x hx hne => ?_) fun h => absurd (Finset.mem_range.mpr hi) h, if_neg]
    · rw [hmem]; exact fun h => h.1 rfl
    · rw [Finset.mem_range] at hx
      rw [if_pos ((hmem _).mpr ⟨by omega, List.mem_range'_1.mpr (by omega)⟩)]
  · rcases List.mem_append.mp ha with h | h
    · exact hA a h
    · rw [List.mem_singleton.mp h]; exact hj

/-- A local optimum stays one with isolated objects as further medoids, if a further medoid improves it by at most 1. -/
theorem SilSwapOptimal.iso (h : SilSwapOptimal ℚ N d A) (hd : Dissim N d) (hX : ∀ x y, x < N → y < N → d x y ≤ X) (hX0 : 0 < X)
    (hk : 2 ≤ A.length) (hA : ∀ a ∈ A, a < N) (h4 : ∀ j, j < N → j ∉ A → d1d2Sum N d A ≤ d1d2Sum N d (A ++ [j]) + 1) :
    SilSwapOptimal ℚ (N + e) (isoD N X d) (A ++ List.range' N e) := by
  intro i j hi hj hjm
  have hN : 0 < N := by
    match A, hk, hA with
    | a :: _, _, hA => exact lt_of_le_of_lt (Nat.zero_le _) (hA a (by simp))
  have hn : (0 : ℚ) < (N + e : ℕ) := by exact_mod_cast (by omega : 0 < N + e)
  have hj' : j < N ∧ j ∉ A := by
    rw [List.mem_append, List.mem_range'_1] at hjm
    exact ⟨by_contra fun q => hjm (.inr (by omega)), fun q => hjm (.inl q)⟩
  rw [List.length_append, List.length_range'] at hi
  have key : d1d2Sum (N + e) (isoD N X d) (A ++ List.range' N e) ≤ d1d2Sum (N + e) (isoD N X d) ((A ++ List.range' N e).set i j) := by
    rw [d1d2Sum_iso_all hd hX hX0 hk hA]
    by_cases hi' : i < A.length
    · rw [List.set_append_left _ _ hi', d1d2Sum_iso_all hd hX hX0 (by rw [List.length_set]; exact hk) fun a ha => ?_]
      · have := h i j hi' hj'.1 hj'.2
        have h1 := medSil_d1d2 hN d A
        have h2 := medSil_d1d2 hN d (A.set i j)
        have hN' : (0 : ℚ) < N := by exact_mod_cast hN
        have : d1d2Sum N d A / N ≤ d1d2Sum N d (A.set i j) / N := by rw [← h1, ← h2]; linarith
        exact (div_le_div_iff_of_pos_right hN').mp this
      · rcases List.mem_or_eq_of_mem_set ha with h | h
        · exact hA a h
        · rw [h]; exact hj'.1
    · rw [List.set_append_right _ _ (by omega), d1d2Sum_iso_but_one hd hX hX0 hk hA (by omega) hj'.1]
      exact h4 j hj'.1 hj'.2
  have := div_le_div_of_nonneg_right key hn.le
  rw [← medSil_d1d2 (by omega), ← medSil_d1d2 (by omega)] at this
  linarith

/-! ## The local optimum with more clusters -/

theorem mid_nonneg {j o : Nat} : (0 : ℚ) ≤ 1 - medSil1 (conv : ℕ → ℚ) (midD s) [0, 1, j] o := by
  have := (medSil1_range (L := ℚ) (d := midD s) (meds := [0, 1, j]) (by simp) (o := o) fun _ _ => Nat.zero_le _).2
  linarith

/-- A third medoid does not improve the local optimum. -/
theorem mid_three (hs : 2 ≤ s) {j : Nat} (hjm : j ∉ [0, 1]) : (s / 2 : ℚ) ≤ d1d2Sum (midN s) (midD s) [0, 1, j] := by
  simp only [List.mem_cons, List.not_mem_nil, or_false, not_or] at hjm
  obtain ⟨j0, j1⟩ := hjm
  have tj := midTy_cases (s := s) j0 j1
  have h : ∀ o ∈ Finset.range (midN s), (fun t => if t = 5 - midTy s j then (1 / 2 : ℚ) else 0) (midTy s o) ≤
      1 - medSil1 (conv : ℕ → ℚ) (midD s) [0, 1, j] o := by
    intro o _
    dsimp only
    split_ifs with ho
    · have o0 : o ≠ 0 := fun q => by rw [q, show midTy s 0 = 0 from rfl] at ho; omega
      have o1 : o ≠ 1 := fun q => by rw [q, show midTy s 1 = 1 from rfl] at ho; omega
      have oj : o ≠ j := fun q => by rw [q] at ho; omega
      have e0 : midD s o 0 = s := by
        rw [midD, if_neg o0, show midTy s 0 = 0 from rfl, midT, if_neg (by omega), if_neg (by omega), if_pos (.inr rfl)]
      have e1 : midD s o 1 = 4 * s := by
        rw [midD, if_neg o1, show midTy s 1 = 1 from rfl, midT, if_neg (by omega), if_pos (.inr rfl)]
      have ej : midD s o j = 2 * s := by
        rw [midD, if_neg oj, midT, if_neg (by omega), if_neg (by omega), if_neg (by omega)]
      have hr := ratio_of_twoMin (L := ℚ) (d := midD s) (med := [0, 1, j]) (o := o) (a := s) (b := 2 * s)
        ⟨[4 * s], by
          show [midD s o 0, midD s o 1, midD s o j].Perm _
          rw [e0, e1, ej]
          exact (List.Perm.swap _ _ _).cons _, by omega, fun x hx => by rw [List.mem_singleton.mp hx]; omega⟩
      rw [hr]
      show (1 / 2 : ℚ) ≤ ((s : ℕ) : ℚ) / ((2 * s : ℕ) : ℚ)
      have h0 : (s : ℚ) ≠ 0 := by exact_mod_cast (by omega : s ≠ 0)
      push_cast
      rw [show (s : ℚ) / (2 * s) = 1 / 2 by field_simp]
    · exact mid_nonneg
  unfold d1d2Sum
  refine le_trans (le_of_eq ?_) (Finset.sum_le_sum h)
  rw [sum_midTy fun t => if t = 5 - midTy s j then (1 / 2 : ℚ) else 0]
  rcases tj with t | t <;> rw [t] <;> norm_num <;> ring

theorem iso_nodup (hA : ∀ a ∈ A, a < N) (hnd : A.Nodup) : (A ++ List.range' N e).Nodup := by
  rw [List.nodup_append]
  refine ⟨hnd, List.nodup_range', fun a ha b hb => ?_⟩
  have := hA a ha
  rw [List.mem_range'_1] at hb
  omega

theorem iso_range (hA : ∀ a ∈ A, a < N) : ∀ x ∈ A ++ List.range' N e, x < N + e := fun x hx => by
  rcases List.mem_append.mp hx with h | h
  · have := hA x h; omega
  · rw [List.mem_range'_1] at h; omega

theorem mid_range (hs : 2 ≤ s) : ∀ a ∈ [0, 1], a < midN s := fun a ha => by
  simp only [List.mem_cons, List.not_mem_nil, or_false] at ha
  unfold midN
  omega

/-- **C134, local optimum** for `2 + e` clusters. -/
theorem C134_local_optimum_k (hs : 2 ≤ s) (e : Nat) :
    SilSwapOptimal ℚ (midN s + e) (isoD (midN s) (4 * s) (midD s)) ([0, 1] ++ List.range' (midN s) e) := by
  refine (C134_local_optimum hs).iso midD_dissim (fun x y _ _ => midD_le (by omega) x y) (by omega) (by simp) (mid_range hs) fun j hj hjm => ?_
  rw [mid_local hs]
  have := mid_three hs hjm
  show _ ≤ d1d2Sum (midN s) (midD s) [0, 1, j] + 1
  linarith

/-- **C134, no factor:** for every number `k ≥ 2` of clusters and every factor `c` (as far as the objects can be numbered) there is a metric and a start
at which FasterMSC, FastMSC and PAMMEDSIL end, with `1 -` medoid silhouette more than `c` times that of other medoids, which is not zero.
So does DynMSC if it may not reduce the number of clusters. -/
theorem C134_no_factor (c : Nat) {k : Nat} (hk : 2 ≤ k) (hc : 12 * c + 4 + k ≤ u32Max) :
    ∃ (n : Nat) (d : Nat → Nat → ℕ) (med other : List Nat), n = 12 * c + 4 + k ∧ Dissim n d ∧ IsMetric (conv : ℕ → ℚ) n d ∧ ValidMeds n med ∧
      med.Nodup ∧ med.length = k ∧ other.length = k ∧ (∀ x ∈ other, x < n) ∧ other.Nodup ∧ 0 < 1 - medSil (conv : ℕ → ℚ) n d other ∧
      (∀ maxiter, ∀ run ∈ [fastermsc ℚ (fnMat n d) med maxiter, fastmsc ℚ (fnMat n d) med maxiter, pammedsilSwap ℚ (fnMat n d) med maxiter],
        ∃ r, run = .ok r ∧ r.nSwap = 0 ∧ r.med = med ∧ c * (1 - medSil (conv : ℕ → ℚ) n d other) < 1 - r.loss) ∧
      ∀ maxiter mink, k ≤ mink → ∃ r, dynmsc ℚ (fnMat n d) med mink maxiter = .ok r ∧ r.nSwap = 0 ∧ r.med = med ∧
        c * (1 - medSil (conv : ℕ → ℚ) n d other) < 1 - r.loss := by
  obtain ⟨e, rfl⟩ := Nat.exists_eq_add_of_le hk
  have hs : 2 ≤ 6 * c + 2 := by omega
  have eN : midN (6 * c + 2) = 12 * c + 6 := by unfold midN; omega
  have hloc := C134_local_optimum_k hs e
  have hl := mid_local hs
  have hb := mid_best hs
  have hdis : Dissim (midN (6 * c + 2)) (midD (6 * c + 2)) := midD_dissim
  have hle := midD_le (s := 6 * c + 2) (by omega)
  have hmet : IsMetric (conv : ℕ → ℚ) (midN (6 * c + 2)) (midD (6 * c + 2)) := C134_metric (by omega)
  have hX0 : 0 < 4 * (6 * c + 2) := by omega
  have ho : ∀ x ∈ [2, 2 + (6 * c + 2)], x < midN (6 * c + 2) := fun x hx => by
    simp only [List.mem_cons, List.not_mem_nil, or_false] at hx
    omega
  have hond : [2, 2 + (6 * c + 2)].Nodup := by
    simp only [List.nodup_cons, List.mem_cons, List.not_mem_nil, or_false, not_false_eq_true, List.nodup_nil, and_true]
    omega
  have hol : [2, 2 + (6 * c + 2)].length = 2 := rfl
  have h3 := mid_range hs
  generalize [2, 2 + (6 * c + 2)] = other at *
  generalize 4 * (6 * c + 2) = X at *
  generalize midD (6 * c + 2) = d at *
  generalize midN (6 * c + 2) = N at *
  have hle' : ∀ x y, x < N → y < N → d x y ≤ X := fun x y _ _ => hle x y
  have hnp : 0 < N + e := by omega
  have hp : (0 : ℚ) < (N + e : ℕ) := by exact_mod_cast hnp
  have hlen : ([0, 1] ++ List.range' N e).length = 2 + e := by rw [List.length_append, List.length_range']; rfl
  have hv : ValidMeds (N + e) ([0, 1] ++ List.range' N e) := ⟨⟨by simp, by omega, by omega, by omega⟩, iso_range h3⟩
  have hnd : ([0, 1] ++ List.range' N e).Nodup := iso_nodup h3 (by decide)
  refine ⟨N + e, isoD N X d, [0, 1] ++ List.range' N e, other ++ List.range' N e, by omega, isoD_dissim, isoD_metric hmet hdis hle', hv, hnd, hlen,
    by rw [List.length_append, List.length_range', hol], iso_range ho, iso_nodup ho hond, ?_, ?_⟩
  · rw [medSil_d1d2 hnp, d1d2Sum_iso_all hdis hle' hX0 (by omega) ho]
    exact div_pos (by linarith [hb.1]) hp
  · have key : ∀ (maxiter : Nat) (r : SwapResult ℚ), IsMscRun (fnMat (N + e) (isoD N X d)) ([0, 1] ++ List.range' N e) maxiter r →
        r.nSwap = 0 ∧ r.med = [0, 1] ++ List.range' N e ∧
          c * (1 - medSil (conv : ℕ → ℚ) (N + e) (isoD N X d) (other ++ List.range' N e)) < 1 - r.loss := fun maxiter r hr => by
      obtain ⟨h1, h2, h4⟩ := C54_msc_from_optimum (fnMat_isMatrix (N + e) (isoD N X d)) isoD_dissim hv hnd (by omega) hr hloc
      refine ⟨h1, h2, ?_⟩
      rw [h4, medSil_d1d2 hnp, medSil_d1d2 hnp, d1d2Sum_iso_all hdis hle' hX0 (by omega) ho,
        d1d2Sum_iso_all hdis hle' hX0 (by simp) h3, hl, ← mul_div_assoc]
      refine div_lt_div_of_pos_right ?_ hp
      have : (c : ℚ) * d1d2Sum N d other ≤ c * 3 := mul_le_mul_of_nonneg_left hb.2 (Nat.cast_nonneg _)
      push_cast
      linarith
    have hne : ¬ (([0, 1] ++ List.range' N e).length = 2 ∧ N + e = 2) := by omega
    refine ⟨fun maxiter run hrun => ?_, fun maxiter mink hmink => ?_⟩
    · simp only [List.mem_cons, List.not_mem_nil, or_false] at hrun
      rcases hrun with rfl | rfl | rfl
      · obtain ⟨r, h, -⟩ := C29_fastermsc (L := ℚ) (fnMat_isMatrix (N + e) (isoD N X d)) hv (by omega) maxiter
        exact ⟨r, h, key _ r (.inl h)⟩
      · obtain ⟨r, h, -⟩ := C29_fastmsc_partial (L := ℚ) (fnMat_isMatrix (N + e) (isoD N X d)) hv (by omega) hne maxiter
        exact ⟨r, h, key _ r (.inr (.inl h))⟩
      · obtain ⟨r, h, -⟩ := C29_pammedsil_swap (L := ℚ) (fnMat_isMatrix (N + e) (isoD N X d)) hv (by omega) maxiter
        exact ⟨r, h, key _ r (.inr (.inr h))⟩
    · obtain ⟨r, h, -⟩ := C29_fastermsc (L := ℚ) (fnMat_isMatrix (N + e) (isoD N X d)) hv (by omega) maxiter
      exact ⟨_, C48_dynmsc_eq (fnMat_isMatrix (N + e) (isoD N X d)) isoD_dissim hv hnd (by omega) h, key _ r (.inl h)⟩

/-! ## Example -/

/-- With `s = 8`, the local optimum has `4/18`, the best solution less than `3/18`. -/
example : (fastermsc ℚ (fnMat 18 (midD 8)) [0, 1] 100).map (fun r => (r.loss, r.nSwap, r.med)) = .ok (7 / 9, 0, [0, 1]) ∧
    (fastermsc ℚ (fnMat 18 (midD 8)) [2, 10] 100).map (fun r => (r.loss, r.nSwap, r.med)) = .ok (121 / 144, 0, [2, 10]) ∧
    (fastermsc ℚ (fnMat 7 (isoD 6 8 (midD 2))) [0, 1, 6] 100).map (fun r => (r.loss, r.nSwap, r.med)) = .ok (6 / 7, 0, [0, 1, 6]) ∧
    midN 8 = 18 ∧ midN 2 = 6 ∧ 12 * 1000 + 4 + 50 ≤ u32Max := by
  decide +kernel

end KMedoids
