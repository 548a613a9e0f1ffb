import Verif.Props.C64
import Mathlib.Algebra.BigOperators.Ring.Finset
import Mathlib.Tactic.LinearCombination
import Mathlib.Tactic.Linarith

/-!
# C97: BUILD alone has no constant factor, and the factor of the search is at least three

C64 bounds converged runs by five times the optimum, for distances that satisfy the triangle inequality. Two families of
inputs show what cannot be improved: the result of BUILD without the search can be `(n - 1) / 2` times the optimum, and
there are local optima of three times the optimum, up to a term that vanishes for large inputs.
-/

set_option linter.unusedSectionVars false
set_option linter.overlappingInstances false

namespace KMedoids

open RFrom (conv)

/-- The matrix with entries `d x y`. -/
def fnMat (n : Nat) (d : Nat → Nat → ℕ) : Mat ℕ := (⟨n, n, d⟩ : Array2 ℕ).toMat

theorem fnMat_isMatrix (n : Nat) (d : Nat → Nat → ℕ) : IsMatrix (fnMat n d) n d := by
  refine ⟨by simp [fnMat, Array2.toMat], by simp [fnMat, Array2.toMat], fun x y hx hy => ?_⟩
  simp [fnMat, Array2.toMat, hx, hy]

/-! ## BUILD -/

/-- Object 0 in the middle, the odd objects on the left, the other even ones on the right. -/
def seesawPos (i : Nat) : ℕ := if i = 0 then 1 else if i % 2 = 1 then 0 else 2

def seesawD (x y : Nat) : ℕ := (seesawPos x - seesawPos y) + (seesawPos y - seesawPos x)

theorem seesaw_sum (F : ℕ → ℤ) (p : Nat) :
    ∑ i ∈ Finset.range (2 * p + 1), F (seesawPos i) = F 1 + p * (F 0 + F 2) := by
  induction p with
  | zero => simp [seesawPos]
  | succ p ih =>
    rw [show 2 * (p + 1) + 1 = 2 * p + 1 + 1 + 1 by ring, Finset.sum_range_succ, Finset.sum_range_succ, ih]
    have h1 : seesawPos (2 * p + 1) = 0 := by unfold seesawPos; rw [if_neg (by omega), if_pos (by omega)]
    have h2 : seesawPos (2 * p + 1 + 1) = 2 := by unfold seesawPos; rw [if_neg (by omega), if_neg (by omega)]
    rw [h1, h2]
    push_cast
    ring

theorem seesaw_dissim (n : Nat) : Dissim n seesawD :=
  ⟨fun x _ => by simp [seesawD], fun _ _ _ _ => Nat.zero_le _⟩

theorem seesaw_metric (n : Nat) : IsMetric (conv : ℕ → ℤ) n seesawD := by
  refine ⟨fun x y _ _ => Nat.add_comm _ _, fun x y z _ _ _ => ?_⟩
  show (seesawD x z : ℤ) ≤ (seesawD x y : ℤ) + (seesawD y z : ℤ)
  unfold seesawD
  omega

theorem seesaw_single (p c : Nat) :
    totalDev (conv : ℕ → ℤ) (2 * p + 1) seesawD [c] = if c = 0 then 2 * (p : ℤ) else 2 * p + 1 := by
  rw [totalDev_eq_sum]
  have := seesaw_sum (fun x => (conv ((x - seesawPos c) + (seesawPos c - x)) : ℤ)) p
  refine Eq.trans (Finset.sum_congr rfl fun i _ => ?_) (this.trans ?_)
  · rfl
  · unfold seesawPos
    split_ifs
    · show ((0 : ℕ) : ℤ) + p * (((1 : ℕ) : ℤ) + ((1 : ℕ) : ℤ)) = _
      push_cast; ring
    · show ((1 : ℕ) : ℤ) + p * (((0 : ℕ) : ℤ) + ((2 : ℕ) : ℤ)) = _
      push_cast; ring
    · show ((1 : ℕ) : ℤ) + p * (((2 : ℕ) : ℤ) + ((0 : ℕ) : ℤ)) = _
      push_cast; ring

theorem seesaw_pair (p a b : Nat) :
    totalDev (conv : ℕ → ℤ) (2 * p + 1) seesawD [a, b] =
      (conv (min ((1 - seesawPos a) + (seesawPos a - 1)) ((1 - seesawPos b) + (seesawPos b - 1))) : ℤ) +
      p * ((conv (min ((0 - seesawPos a) + (seesawPos a - 0)) ((0 - seesawPos b) + (seesawPos b - 0))) : ℤ) +
        conv (min ((2 - seesawPos a) + (seesawPos a - 2)) ((2 - seesawPos b) + (seesawPos b - 2)))) := by
  rw [totalDev_eq_sum]
  exact seesaw_sum (fun x => (conv (min ((x - seesawPos a) + (seesawPos a - x))
    ((x - seesawPos b) + (seesawPos b - x))) : ℤ)) p

/-- **C97, BUILD.** One object in the middle and `p` objects at distance one on either side: BUILD for two clusters takes
the one in the middle first, and returns the loss `p`. Two other medoids have total deviation 1. So for every number of
objects the result of BUILD can be `(n - 1) / 2` times the optimum; the matrix satisfies the triangle inequality. -/
theorem C97_build (p : Nat) (hp : 1 ≤ p) (hn : 2 * p + 1 ≤ u32Max) :
    IsMatrix (fnMat (2 * p + 1) seesawD) (2 * p + 1) seesawD ∧ Dissim (2 * p + 1) seesawD ∧
    IsMetric (conv : ℕ → ℤ) (2 * p + 1) seesawD ∧ Sizes (2 * p + 1) 2 ∧
    (∃ r : BuildResult ℤ, pamBuild ℤ (fnMat (2 * p + 1) seesawD) 2 = .ok r ∧ r.loss = p) ∧
    totalDev (conv : ℕ → ℤ) (2 * p + 1) seesawD [1, 2] = 1 := by
  have hm := fnMat_isMatrix (2 * p + 1) seesawD
  have hd := seesaw_dissim (2 * p + 1)
  have hs : Sizes (2 * p + 1) 2 := ⟨by decide, by omega, hn, by decide⟩
  refine ⟨hm, hd, seesaw_metric _, hs, ⟨_, pamBuild_eq (L := ℤ) hm hs, ?_⟩, ?_⟩
  · have hb := pamBuild_eq (L := ℤ) hm hs
    obtain ⟨a1, a2, a3, a4, -, a6⟩ := C19_pam_build hm hd hs hb
    obtain ⟨h20, -⟩ := C20_pam_build hm hd hs hb
    obtain ⟨⟨c, hc, hmin⟩, -⟩ := C21_pam_build hm hd hs hb
    rw [a6]
    clear a6
    generalize (pamBuildP ℤ seesawD (2 * p + 1) 2).med = med at *
    have hc0 : c = 0 := by
      by_contra h
      have := hmin 0 (by omega)
      rw [seesaw_single, seesaw_single, if_neg h, if_pos rfl] at this
      omega
    subst hc0
    match med, hc, a2, h20, a3 with
    | [x], hx, _, h20, _ =>
      cases hx
      have := h20 (by decide)
      rw [seesaw_single, if_pos rfl] at this
      omega
    | [x, y], hx, _, _, hnd =>
      cases hx
      have hy : y ≠ 0 := by
        rintro rfl
        simp at hnd
      rw [seesaw_pair]
      have : seesawPos y = 0 ∨ seesawPos y = 2 := by
        unfold seesawPos
        rw [if_neg hy]
        split_ifs <;> simp
      rcases this with e | e <;> rw [e]
      · show ((0 : ℕ) : ℤ) + p * (((0 : ℕ) : ℤ) + ((1 : ℕ) : ℤ)) = p
        push_cast; ring
      · show ((0 : ℕ) : ℤ) + p * (((1 : ℕ) : ℤ) + ((0 : ℕ) : ℤ)) = p
        push_cast; ring
    | _ :: _ :: _ :: _, _, h, _, _ => simp at h
  · rw [seesaw_pair]
    show ((1 : ℕ) : ℤ) + p * (((0 : ℕ) : ℤ) + ((0 : ℕ) : ℤ)) = 1
    push_cast; ring

/-! ## Local optima -/

/-- Vertices of the complete bipartite graph with `t` vertices `s` and `t` vertices `o`, and a vertex `c i j` on the edge
between `o i` and `s j`. -/
inductive TNode
  | s (j : Nat)
  | o (i : Nat)
  | c (i j : Nat)

namespace TNode

/-- The lengths of the shortest paths, if the two parts of every edge have length `a` (at `o`) and `b` (at `s`). -/
def dist (a b : ℕ) : TNode → TNode → ℕ
  | s j, s j' => if j = j' then 0 else 2 * (a + b)
  | o i, o i' => if i = i' then 0 else 2 * (a + b)
  | s _, o _ => a + b
  | o _, s _ => a + b
  | c _ j, s j' => if j = j' then b else 2 * a + b
  | s j', c _ j => if j = j' then b else 2 * a + b
  | c i _, o i' => if i = i' then a else a + 2 * b
  | o i', c i _ => if i = i' then a else a + 2 * b
  | c i j, c i' j' => if i = i' then (if j = j' then 0 else 2 * a) else if j = j' then 2 * b else 2 * a + 2 * b

theorem dist_self (a b : ℕ) (x : TNode) : dist a b x x = 0 := by
  cases x <;> simp [dist]

theorem dist_symm (a b : ℕ) (x y : TNode) : dist a b x y = dist a b y x := by
  cases x <;> cases y <;> simp only [dist] <;> split_ifs <;> omega

theorem dist_triangle (a b : ℕ) (x y z : TNode) : dist a b x z ≤ dist a b x y + dist a b y z := by
  cases x <;> cases y <;> cases z <;> simp only [dist] <;> split_ifs <;> omega

end TNode

/-- Objects below `t` are the vertices `s`, the next `t` objects the vertices `o`, then come the vertices `c`. -/
def tnode (t x : Nat) : TNode :=
  if x < t then .s x else if x < t + t then .o (x - t) else .c ((x - (t + t)) / t) ((x - (t + t)) % t)

/-- The distances, with `a = t` and `b = 3 t - 2`. -/
def bipD (t x y : Nat) : ℕ := (tnode t x).dist t (3 * t - 2) (tnode t y)

theorem sum_grid (G : Nat → Nat → ℤ) (t m : Nat) :
    ∑ y ∈ Finset.range (m * t), G (y / t) (y % t) = ∑ i ∈ Finset.range m, ∑ j ∈ Finset.range t, G i j := by
  induction m with
  | zero => simp
  | succ m ih =>
    rw [Nat.succ_mul, Finset.sum_range_add, ih, Finset.sum_range_succ]
    congr 1
    refine Finset.sum_congr rfl fun j hj => ?_
    have hj := Finset.mem_range.mp hj
    have ht : 0 < t := by omega
    rw [Nat.add_comm (m * t) j, Nat.add_mul_div_right _ _ ht, Nat.div_eq_of_lt hj, Nat.add_mul_mod_self_right,
      Nat.mod_eq_of_lt hj, Nat.zero_add]

theorem tnode_sum (F : TNode → ℤ) (t : Nat) :
    ∑ x ∈ Finset.range (t + t + t * t), F (tnode t x) =
      ∑ j ∈ Finset.range t, F (.s j) + ∑ i ∈ Finset.range t, F (.o i) +
        ∑ i ∈ Finset.range t, ∑ j ∈ Finset.range t, F (.c i j) := by
  rw [Finset.sum_range_add, Finset.sum_range_add]
  congr 1
  · congr 1
    · refine Finset.sum_congr rfl fun x hx => ?_
      rw [tnode, if_pos (Finset.mem_range.mp hx)]
    · refine Finset.sum_congr rfl fun x hx => ?_
      have := Finset.mem_range.mp hx
      rw [tnode, if_neg (by omega), if_pos (by omega), Nat.add_sub_cancel_left]
  · rw [← sum_grid (fun i j => F (.c i j))]
    refine Finset.sum_congr rfl fun x hx => ?_
    rw [tnode, if_neg (by omega), if_neg (by omega), Nat.add_sub_cancel_left]

/-- Every object is one of the vertices. -/
theorem tnode_cases {t x : Nat} (hx : x < t + t + t * t) :
    (x < t ∧ tnode t x = .s x) ∨ (∃ i, i < t ∧ x = t + i ∧ tnode t x = .o i) ∨
      (t + t ≤ x ∧ ∃ i j, i < t ∧ j < t ∧ tnode t x = .c i j) := by
  unfold tnode
  by_cases h1 : x < t
  · exact .inl ⟨h1, by rw [if_pos h1]⟩
  · by_cases h2 : x < t + t
    · exact .inr (.inl ⟨x - t, by omega, by omega, by rw [if_neg h1, if_pos h2]⟩)
    · have ht : 0 < t := by
        rcases Nat.eq_zero_or_pos t with rfl | h
        · simp at hx
        · exact h
      refine .inr (.inr ⟨by omega, (x - (t + t)) / t, (x - (t + t)) % t, Nat.div_lt_of_lt_mul (by omega),
        Nat.mod_lt _ ht, by rw [if_neg h1, if_neg h2]⟩)

theorem tnode_s {t x : Nat} (h : x < t) : tnode t x = .s x := by rw [tnode, if_pos h]

theorem tnode_o {t i : Nat} (h : i < t) : tnode t (t + i) = .o i := by
  rw [tnode, if_neg (by omega), if_pos (by omega), Nat.add_sub_cancel_left]

theorem bipD_dissim (t n : Nat) : Dissim n (bipD t) :=
  ⟨fun _ _ => TNode.dist_self _ _ _, fun _ _ _ _ => Nat.zero_le _⟩

theorem bipD_metric (t n : Nat) : IsMetric (conv : ℕ → ℤ) n (bipD t) := by
  refine ⟨fun x y _ _ => TNode.dist_symm _ _ _ _, fun x y z _ _ _ => ?_⟩
  show (bipD t x z : ℤ) ≤ (bipD t x y : ℤ) + (bipD t y z : ℤ)
  exact_mod_cast TNode.dist_triangle _ _ _ _ _

/-- 1 for `x = y`, 0 otherwise. -/
def ind (x y : Nat) : ℤ := if y = x then 1 else 0

theorem sum_ind {t q : Nat} (hq : q < t) : ∑ j ∈ Finset.range t, ind q j = 1 := by
  unfold ind
  rw [Finset.sum_ite_eq' (Finset.range t) q]
  simp [hq]

theorem sum_ind₂ {t p q q' : Nat} (hp : p < t) (hq : q < t) (hq' : q' < t) (α β γ δ ε : ℤ) :
    ∑ i ∈ Finset.range t, ∑ j ∈ Finset.range t,
      (α + β * ind q j + γ * ind p i + δ * (ind p i * ind q j) + ε * (ind p i * ind q' j)) =
      t * t * α + t * β + t * γ + δ + ε := by
  have h : ∀ i, ∑ j ∈ Finset.range t,
      (α + β * ind q j + γ * ind p i + δ * (ind p i * ind q j) + ε * (ind p i * ind q' j)) =
      t * α + β + (t * γ + δ + ε) * ind p i := by
    intro i
    simp only [Finset.sum_add_distrib, ← Finset.mul_sum, sum_ind hq, sum_ind hq', Finset.sum_const, Finset.card_range,
      nsmul_eq_mul]
    ring
  simp only [h, Finset.sum_add_distrib, ← Finset.mul_sum, sum_ind hp, Finset.sum_const, Finset.card_range, nsmul_eq_mul]
  ring

theorem bip_totalDev {t : Nat} {med : List Nat} (F : TNode → ℤ)
    (h : ∀ x, x < t + t + t * t → (conv (minDist (bipD t) x med) : ℤ) = F (tnode t x)) :
    totalDev (conv : ℕ → ℤ) (t + t + t * t) (bipD t) med =
      ∑ j ∈ Finset.range t, F (.s j) + ∑ i ∈ Finset.range t, F (.o i) +
        ∑ i ∈ Finset.range t, ∑ j ∈ Finset.range t, F (.c i j) := by
  rw [totalDev_eq_sum, ← tnode_sum]
  exact Finset.sum_congr rfl fun x hx => h x (Finset.mem_range.mp hx)

theorem bip_totalDev_ge {t : Nat} {med : List Nat} (hne : med ≠ []) (F : TNode → ℤ)
    (h : ∀ x, x < t + t + t * t → ∀ y ∈ med, F (tnode t x) ≤ ((tnode t x).dist t (3 * t - 2) (tnode t y) : ℤ)) :
    ∑ j ∈ Finset.range t, F (.s j) + ∑ i ∈ Finset.range t, F (.o i) +
        ∑ i ∈ Finset.range t, ∑ j ∈ Finset.range t, F (.c i j) ≤
      totalDev (conv : ℕ → ℤ) (t + t + t * t) (bipD t) med := by
  rw [totalDev_eq_sum, ← tnode_sum]
  refine Finset.sum_le_sum fun x hx => ?_
  obtain ⟨⟨c, hc, e⟩, -⟩ := minDist_spec (bipD t) x med hne
  rw [e]
  exact h x (Finset.mem_range.mp hx) c hc

/-- The total deviation of the vertices `s`. -/
theorem bip_left {t : Nat} (ht : 1 ≤ t) :
    totalDev (conv : ℕ → ℤ) (t + t + t * t) (bipD t) (List.range t) = t * (3 * t * t + 2 * t - 2) := by
  rw [bip_totalDev (fun | .s _ => 0 | .o _ => 4 * t - 2 | .c _ _ => 3 * t - 2)]
  · simp only [Finset.sum_const, Finset.card_range, nsmul_eq_mul]
    ring
  · intro x hx
    rcases tnode_cases hx with ⟨h, e⟩ | ⟨i, h, -, e⟩ | ⟨-, i, j, -, h, e⟩
    · rw [minDist_eq (List.mem_range.mpr h), bipD, TNode.dist_self, e]
      · rfl
      · intro c _
        rw [bipD, TNode.dist_self]
        exact Nat.zero_le _
    · rw [minDist_eq (List.mem_range.mpr (show 0 < t by omega)), bipD, e, tnode_s (by omega)]
      · show ((t + (3 * t - 2) : ℕ) : ℤ) = 4 * t - 2
        omega
      · intro c hc
        rw [bipD, bipD, e, tnode_s (by omega), tnode_s (List.mem_range.mp hc)]
        exact le_refl _
    · rw [minDist_eq (List.mem_range.mpr h), bipD, e, tnode_s h]
      · simp only [TNode.dist, if_true]
        show ((3 * t - 2 : ℕ) : ℤ) = 3 * t - 2
        omega
      · intro c hc
        rw [bipD, bipD, e, tnode_s h, tnode_s (List.mem_range.mp hc)]
        simp only [TNode.dist, if_true]
        split_ifs <;> omega

/-- The total deviation of the vertices `o`. -/
theorem bip_right {t : Nat} (ht : 1 ≤ t) :
    totalDev (conv : ℕ → ℤ) (t + t + t * t) (bipD t) ((List.range t).map (t + ·)) = t * (t * t + 4 * t - 2) := by
  have hmem : ∀ {c}, c ∈ (List.range t).map (t + ·) → ∃ i, i < t ∧ c = t + i := by
    intro c hc
    obtain ⟨i, hi, rfl⟩ := List.mem_map.mp hc
    exact ⟨i, List.mem_range.mp hi, rfl⟩
  have hmem' : ∀ {i}, i < t → t + i ∈ (List.range t).map (t + ·) := fun {i} hi =>
    List.mem_map.mpr ⟨i, List.mem_range.mpr hi, rfl⟩
  rw [bip_totalDev (fun | .s _ => 4 * t - 2 | .o _ => 0 | .c _ _ => t)]
  · simp only [Finset.sum_const, Finset.card_range, nsmul_eq_mul]
    ring
  · intro x hx
    rcases tnode_cases hx with ⟨h, e⟩ | ⟨i, h, hxi, e⟩ | ⟨-, i, j, h, -, e⟩
    · rw [minDist_eq (hmem' (show 0 < t by omega)), bipD, e, tnode_o (by omega)]
      · show ((t + (3 * t - 2) : ℕ) : ℤ) = 4 * t - 2
        omega
      · intro c hc
        obtain ⟨i, hi, rfl⟩ := hmem hc
        rw [bipD, bipD, e, tnode_o (by omega), tnode_o hi]
        exact le_refl _
    · subst hxi
      rw [minDist_eq (hmem' h), bipD, TNode.dist_self, e]
      · rfl
      · intro c _
        rw [bipD, TNode.dist_self]
        exact Nat.zero_le _
    · rw [minDist_eq (hmem' h), bipD, e, tnode_o h]
      · simp only [TNode.dist, if_true]
        rfl
      · intro c hc
        obtain ⟨i', hi', rfl⟩ := hmem hc
        rw [bipD, bipD, e, tnode_o h, tnode_o hi']
        simp only [TNode.dist, if_true]
        split_ifs <;> omega

theorem mem_range_set {t q x y : Nat} (h : y ∈ (List.range t).set q x) : y = x ∨ (y < t ∧ y ≠ q) := by
  obtain ⟨i, hi⟩ := List.mem_iff_getElem?.mp h
  rw [List.getElem?_set] at hi
  split_ifs at hi with h1 h2
  · exact .inl (by simpa using hi.symm)
  · have := List.getElem?_eq_some_iff.mp hi
    obtain ⟨hl, he⟩ := this
    simp only [List.getElem_range] at he
    subst he
    exact .inr ⟨by simpa using hl, fun e => h1 e.symm⟩

/-- The vertices `s` are a local optimum. -/
theorem bip_optimal {t : Nat} (ht : 2 ≤ t) :
    SwapOptimal (conv : ℕ → ℤ) (t + t + t * t) (bipD t) (List.range t) := by
  intro q x hq hx hxm
  rw [List.length_range] at hq
  rw [bip_left (by omega)]
  have hne : (List.range t).set q x ≠ [] := List.ne_nil_of_length_pos (by simp; omega)
  have hb : ((3 * t - 2 : ℕ) : ℤ) = 3 * t - 2 := by omega
  rcases tnode_cases hx with ⟨h, -⟩ | ⟨p, hp, -, e⟩ | ⟨-, p, q', hp, hq', e⟩
  · exact absurd (List.mem_range.mpr h) hxm
  · -- a vertex `o p` becomes a medoid
    refine le_trans (le_of_eq ?_) (bip_totalDev_ge hne
      (fun
        | .s j => (4 * t - 2) * ind q j
        | .o i => (4 * t - 2) - (4 * t - 2) * ind p i
        | .c i j => (3 * t - 2) + 2 * t * ind q j + (- (2 * t - 2)) * ind p i + (- (2 * t)) * (ind p i * ind q j) +
            0 * (ind p i * ind q j)) fun y hy m hm => ?_)
    · simp only [sum_ind₂ hp hq hq, Finset.sum_sub_distrib, ← Finset.mul_sum, sum_ind hq, sum_ind hp, Finset.sum_const,
        Finset.card_range, nsmul_eq_mul]
      ring
    · rcases mem_range_set hm with rfl | ⟨h1, h2⟩
      · rw [e]
        rcases tnode_cases hy with ⟨-, e'⟩ | ⟨i, -, -, e'⟩ | ⟨-, i, j, -, -, e'⟩ <;> rw [e'] <;>
          simp only [TNode.dist, ind] <;> split_ifs <;> push_cast <;> omega
      · rw [tnode_s h1]
        rcases tnode_cases hy with ⟨-, e'⟩ | ⟨i, -, -, e'⟩ | ⟨-, i, j, -, -, e'⟩ <;> rw [e'] <;>
          simp only [TNode.dist, ind] <;> split_ifs <;> push_cast <;> omega
  · -- a vertex `c p q'` becomes a medoid
    refine le_trans ?_ (bip_totalDev_ge hne
      (fun
        | .s j => (3 * t - 2) * ind q j
        | .o i => (4 * t - 2) - (3 * t - 2) * ind p i
        | .c i j => (3 * t - 2) + 2 * t * ind q j + (- (t - 2)) * ind p i + (- (2 * t)) * (ind p i * ind q j) +
            (- (2 * t)) * (ind p i * ind q' j)) fun y hy m hm => ?_)
    · simp only [sum_ind₂ hp hq hq', Finset.sum_sub_distrib, ← Finset.mul_sum, sum_ind hq, sum_ind hp, Finset.sum_const,
        Finset.card_range, nsmul_eq_mul]
      nlinarith
    · rcases mem_range_set hm with rfl | ⟨h1, h2⟩
      · rw [e]
        rcases tnode_cases hy with ⟨-, e'⟩ | ⟨i, -, -, e'⟩ | ⟨-, i, j, -, -, e'⟩ <;> rw [e'] <;>
          simp only [TNode.dist, ind] <;> split_ifs <;> push_cast <;> omega
      · rw [tnode_s h1]
        rcases tnode_cases hy with ⟨-, e'⟩ | ⟨i, -, -, e'⟩ | ⟨-, i, j, -, -, e'⟩ <;> rw [e'] <;>
          simp only [TNode.dist, ind] <;> split_ifs <;> push_cast <;> omega

/-- **C97, runs.** For every `t ≥ 2` with `t² + 2 t` objects: FasterPAM in any order, PAM and FastPAM1 started with the
vertices `s` make no swap, and return the loss `t (3 t² + 2 t - 2)`. The vertices `o` are as many medoids with total deviation
`t (t² + 4 t - 2)`. -/
theorem C97_runs {t : Nat} (ht : 2 ≤ t) (hn : t + t + t * t ≤ u32Max) {maxiter : Nat} {r : SwapResult ℤ}
    (hr : IsPamRun (fnMat (t + t + t * t) (bipD t)) (t + t + t * t) (List.range t) maxiter r) :
    r.med = List.range t ∧ r.nSwap = 0 ∧ r.loss = t * (3 * t * t + 2 * t - 2) ∧
    totalDev (conv : ℕ → ℤ) (t + t + t * t) (bipD t) ((List.range t).map (t + ·)) = t * (t * t + 4 * t - 2) := by
  have hv : ValidMeds (t + t + t * t) (List.range t) := by
    refine ⟨?_, fun m hm => by have := List.mem_range.mp hm; omega⟩
    rw [List.length_range]
    exact ⟨by omega, by omega, hn, by omega⟩
  have ho := hr.outcome (fnMat_isMatrix _ _) (bipD_dissim t _) hv List.nodup_range fun _ => (bipD_metric t _).symm
  have h0 := (bip_optimal ht).chain_zero ho.chain
  have h1 : r.med = List.range t := (h0 ▸ ho.chain).eq_of_zero
  exact ⟨h1, h0, by rw [ho.loss, h1, bip_left (by omega)], bip_right (by omega)⟩

/-- **C97, the factor is at least three.** For every `q ≥ 1` there are a metric and a local optimum of more than
`3 - 1 / q` times the total deviation of as many other medoids. So the five of C64 cannot be replaced by less than three. -/
theorem C97_factor (q : Nat) (hq : 1 ≤ q) :
    ∃ (n : Nat) (d : Nat → Nat → ℕ) (med other : List Nat), Dissim n d ∧ IsMetric (conv : ℕ → ℤ) n d ∧
      med.Nodup ∧ (∀ c ∈ med, c < n) ∧ other.Nodup ∧ (∀ c ∈ other, c < n) ∧ other.length = med.length ∧
      SwapOptimal (conv : ℕ → ℤ) n d med ∧ 0 < totalDev (conv : ℕ → ℤ) n d other ∧
      (3 * q - 1) * totalDev (conv : ℕ → ℤ) n d other < q * totalDev (conv : ℕ → ℤ) n d med := by
  obtain ⟨t, rfl⟩ : ∃ t, t = 10 * q := ⟨_, rfl⟩
  refine ⟨_, bipD (10 * q), List.range (10 * q), (List.range (10 * q)).map (10 * q + ·), bipD_dissim _ _, bipD_metric _ _,
    List.nodup_range, fun c hc => ?_, (List.nodup_map_iff (fun a b h => by simpa using h)).mpr List.nodup_range,
    fun c hc => ?_, by simp, bip_optimal (by omega), ?_, ?_⟩
  · have := List.mem_range.mp hc
    omega
  · obtain ⟨i, hi, rfl⟩ := List.mem_map.mp hc
    have := List.mem_range.mp hi
    omega
  · rw [bip_right (by omega)]
    have : (1 : ℤ) ≤ q := by exact_mod_cast hq
    push_cast
    nlinarith
  · rw [bip_right (by omega), bip_left (by omega)]
    have : (1 : ℤ) ≤ q := by exact_mod_cast hq
    push_cast
    have h : (0 : ℤ) < 10 * q * (44 * q - 2) := by nlinarith
    nlinarith [h]

/-- The smallest case, with eight objects: the two medoids `s` have total deviation 28, the two medoids `o` 20. The
matrix satisfies the triangle inequality, and the runs stay with the worse medoids. -/
example : fasterpam ℤ (fnMat 8 (bipD 2)) [0, 1] 9 = .ok ⟨28, [0, 1, 0, 0, 0, 1, 0, 1], 1, 0, [0, 1]⟩ ∧
    totalDev (conv : ℕ → ℤ) 8 (bipD 2) [2, 3] = 20 := by
  refine ⟨by decide +kernel, by decide +kernel⟩

/-- BUILD on seven objects: loss 3, the optimum is 1. -/
example : (pamBuild ℤ (fnMat 7 seesawD) 2).map (fun r => (r.loss, r.med)) = .ok (3, [0, 1]) ∧
    totalDev (conv : ℕ → ℤ) 7 seesawD [1, 2] = 1 := by
  refine ⟨by decide +kernel, by decide +kernel⟩

end KMedoids
