import Verif.Props.C97
import Verif.Model.Initialization
import Mathlib.Tactic.Ring

/-!
# C103: the factor five of the search is the best possible

C64 bounds the result of a converged search by five times the optimum, for distances with the triangle inequality. A family
of metrics with distances 0, 1, 2, 3 and 4 has local optima that approach this factor.
-/

set_option linter.unusedSectionVars false
set_option linter.overlappingInstances false

namespace KMedoids

open RFrom (conv)

/-- A wheel: the hub `g`, the spokes `c i j`, and one vertex `a i` for each bundle `i` of spokes. Besides, some triples: in the
middle `z i`, and on either side the vertices `b (2 i) j` and `b (2 i + 1) j`. -/
inductive WNode
  | a (i : Nat)
  | z (i : Nat)
  | g
  | c (i j : Nat)
  | b (i j : Nat)

namespace WNode

/-- Lengths of shortest paths in the wheel, where `c i j` is adjacent to `g` and `a i`; positions -1, 0, 1 in each triple; 4 between
different parts. -/
def dist : WNode → WNode → ℕ
  | a i, a i' => if i = i' then 0 else 4
  | a _, g => 2
  | g, a _ => 2
  | a i, c i' _ => if i = i' then 1 else 3
  | c i' _, a i => if i = i' then 1 else 3
  | g, g => 0
  | g, c _ _ => 1
  | c _ _, g => 1
  | c i j, c i' j' => if i = i' ∧ j = j' then 0 else 2
  | z i, z i' => if i = i' then 0 else 4
  | z i, b i' _ => if i = i' / 2 then 1 else 4
  | b i' _, z i => if i = i' / 2 then 1 else 4
  | b i _, b i' _ => if i = i' then 0 else if i / 2 = i' / 2 then 2 else 4
  | _, _ => 4

theorem dist_self (x : WNode) : dist x x = 0 := by
  cases x <;> simp [dist]

theorem dist_symm (x y : WNode) : dist x y = dist y x := by
  cases x <;> cases y <;> simp only [dist] <;> (try split_ifs) <;> omega

theorem dist_triangle (x y z : WNode) : dist x z ≤ dist x y + dist y z := by
  cases x <;> cases y <;> cases z <;> simp only [dist] <;> (try split_ifs) <;> omega

end WNode

/-- The number of objects: `b + 1` vertices `a`, `b` vertices `z`, the hub, `(b + 1)²` spokes, and `2 b` groups of `2 (b + 1)`
vertices. -/
def wheelN (b : Nat) : Nat := b + 1 + b + 1 + (b + 1) * (b + 1) + b * 2 * (2 * (b + 1))

/-- The vertex of an object. -/
def wnode (b x : Nat) : WNode :=
  if x < b + 1 then .a x
  else if x < b + 1 + b then .z (x - (b + 1))
  else if x < b + 1 + b + 1 then .g
  else if x < b + 1 + b + 1 + (b + 1) * (b + 1) then
    .c ((x - (b + 1 + b + 1)) / (b + 1)) ((x - (b + 1 + b + 1)) % (b + 1))
  else .b ((x - (b + 1 + b + 1 + (b + 1) * (b + 1))) / (2 * (b + 1))) ((x - (b + 1 + b + 1 + (b + 1) * (b + 1))) % (2 * (b + 1)))

def wheelD (b x y : Nat) : ℕ := (wnode b x).dist (wnode b y)

theorem wnode_sum (F : WNode → ℤ) (b : Nat) :
    ∑ x ∈ Finset.range (wheelN b), F (wnode b x) =
      ∑ i ∈ Finset.range (b + 1), F (.a i) + ∑ i ∈ Finset.range b, F (.z i) + F .g +
        ∑ i ∈ Finset.range (b + 1), ∑ j ∈ Finset.range (b + 1), F (.c i j) +
        ∑ i ∈ Finset.range (b * 2), ∑ j ∈ Finset.range (2 * (b + 1)), F (.b i j) := by
  rw [wheelN, Finset.sum_range_add, Finset.sum_range_add, Finset.sum_range_succ, Finset.sum_range_add]
  congr 1
  · congr 1
    · congr 1
      · congr 1
        · refine Finset.sum_congr rfl fun x hx => ?_
          rw [wnode, if_pos (Finset.mem_range.mp hx)]
        · refine Finset.sum_congr rfl fun x hx => ?_
          have := Finset.mem_range.mp hx
          rw [wnode, if_neg (by omega), if_pos (by omega), Nat.add_sub_cancel_left]
      · rw [wnode, if_neg (by omega), if_neg (by omega), if_pos (by omega)]
    · rw [← sum_grid (fun i j => F (.c i j))]
      refine Finset.sum_congr rfl fun x hx => ?_
      have := Finset.mem_range.mp hx
      rw [wnode, if_neg (by omega), if_neg (by omega), if_neg (by omega), if_pos (by omega), Nat.add_sub_cancel_left]
  · rw [← sum_grid (fun i j => F (.b i j))]
    refine Finset.sum_congr rfl fun x hx => ?_
    rw [wnode, if_neg (by omega), if_neg (by omega), if_neg (by omega), if_neg (by omega), Nat.add_sub_cancel_left]

theorem wnode_a {b x : Nat} (h : x < b + 1) : wnode b x = .a x := by rw [wnode, if_pos h]

theorem wnode_z {b i : Nat} (h : i < b) : wnode b (b + 1 + i) = .z i := by
  rw [wnode, if_neg (by omega), if_pos (by omega), Nat.add_sub_cancel_left]

theorem wnode_g (b : Nat) : wnode b (b + 1 + b) = .g := by
  rw [wnode, if_neg (by omega), if_neg (by omega), if_pos (by omega)]

theorem wnode_b (b i : Nat) : wnode b (b + 1 + b + 1 + (b + 1) * (b + 1) + i * (2 * (b + 1))) = .b i 0 := by
  rw [wnode, if_neg (by omega), if_neg (by omega), if_neg (by omega), if_neg (by omega), Nat.add_sub_cancel_left,
    Nat.mul_div_cancel _ (by omega), Nat.mul_mod_left]

/-- Every object is one of the vertices. -/
theorem wnode_cases {b x : Nat} (hx : x < wheelN b) :
    (x < b + 1 ∧ wnode b x = .a x) ∨ (∃ i, i < b ∧ x = b + 1 + i ∧ wnode b x = .z i) ∨
      (x = b + 1 + b ∧ wnode b x = .g) ∨ (∃ i j, i < b + 1 ∧ j < b + 1 ∧ wnode b x = .c i j) ∨
      (∃ i j, i < b * 2 ∧ j < 2 * (b + 1) ∧ wnode b x = .b i j) := by
  unfold wnode
  unfold wheelN at hx
  by_cases h1 : x < b + 1
  · exact .inl ⟨h1, by rw [if_pos h1]⟩
  · by_cases h2 : x < b + 1 + b
    · exact .inr (.inl ⟨x - (b + 1), by omega, by omega, by rw [if_neg h1, if_pos h2]⟩)
    · by_cases h3 : x < b + 1 + b + 1
      · exact .inr (.inr (.inl ⟨by omega, by rw [if_neg h1, if_neg h2, if_pos h3]⟩))
      · by_cases h4 : x < b + 1 + b + 1 + (b + 1) * (b + 1)
        · exact .inr (.inr (.inr (.inl ⟨(x - (b + 1 + b + 1)) / (b + 1), (x - (b + 1 + b + 1)) % (b + 1),
            Nat.div_lt_of_lt_mul (by omega), Nat.mod_lt _ (by omega), by rw [if_neg h1, if_neg h2, if_neg h3, if_pos h4]⟩)))
        · exact .inr (.inr (.inr (.inr ⟨(x - (b + 1 + b + 1 + (b + 1) * (b + 1))) / (2 * (b + 1)),
            (x - (b + 1 + b + 1 + (b + 1) * (b + 1))) % (2 * (b + 1)),
            Nat.div_lt_of_lt_mul (by rw [Nat.mul_comm (2 * (b + 1))]; omega), Nat.mod_lt _ (by omega), by rw [if_neg h1, if_neg h2, if_neg h3, if_neg h4]⟩)))

theorem wheelD_dissim (b n : Nat) : Dissim n (wheelD b) :=
  ⟨fun _ _ => WNode.dist_self _, fun _ _ _ _ => Nat.zero_le _⟩

theorem wheelD_metric (b n : Nat) : IsMetric (conv : ℕ → ℤ) n (wheelD b) := by
  refine ⟨fun x y _ _ => WNode.dist_symm _ _, fun x y z _ _ _ => ?_⟩
  show (wheelD b x z : ℤ) ≤ (wheelD b x y : ℤ) + (wheelD b y z : ℤ)
  exact_mod_cast WNode.dist_triangle _ _ _

theorem wheel_totalDev {b : Nat} {med : List Nat} (F : WNode → ℤ)
    (h : ∀ x, x < wheelN b → (conv (minDist (wheelD b) x med) : ℤ) = F (wnode b x)) :
    totalDev (conv : ℕ → ℤ) (wheelN b) (wheelD b) med =
      ∑ i ∈ Finset.range (b + 1), F (.a i) + ∑ i ∈ Finset.range b, F (.z i) + F .g +
        ∑ i ∈ Finset.range (b + 1), ∑ j ∈ Finset.range (b + 1), F (.c i j) +
        ∑ i ∈ Finset.range (b * 2), ∑ j ∈ Finset.range (2 * (b + 1)), F (.b i j) := by
  rw [totalDev_eq_sum, ← wnode_sum]
  exact Finset.sum_congr rfl fun x hx => h x (Finset.mem_range.mp hx)

theorem wheel_totalDev_ge {b : Nat} {med : List Nat} (hne : med ≠ []) (F : WNode → ℤ)
    (h : ∀ x, x < wheelN b → ∀ y ∈ med, F (wnode b x) ≤ ((wnode b x).dist (wnode b y) : ℤ)) :
    ∑ i ∈ Finset.range (b + 1), F (.a i) + ∑ i ∈ Finset.range b, F (.z i) + F .g +
        ∑ i ∈ Finset.range (b + 1), ∑ j ∈ Finset.range (b + 1), F (.c i j) +
        ∑ i ∈ Finset.range (b * 2), ∑ j ∈ Finset.range (2 * (b + 1)), F (.b i j) ≤
      totalDev (conv : ℕ → ℤ) (wheelN b) (wheelD b) med := by
  rw [totalDev_eq_sum, ← wnode_sum]
  refine Finset.sum_le_sum fun x hx => ?_
  obtain ⟨⟨c, hc, e⟩, -⟩ := minDist_spec (wheelD b) x med hne
  rw [e]
  exact h x (Finset.mem_range.mp hx) c hc

/-- The total deviation of the vertices `a` and `z`. -/
theorem wheel_start (b : Nat) :
    totalDev (conv : ℕ → ℤ) (wheelN b) (wheelD b) (List.range (b + 1 + b)) = (b + 1) * (b + 1) + 4 * b * (b + 1) + 2 := by
  rw [wheel_totalDev (fun | .a _ => 0 | .z _ => 0 | .g => 2 | .c _ _ => 1 | .b _ _ => 1)]
  · simp only [Finset.sum_const, Finset.card_range, nsmul_eq_mul]
    push_cast
    ring
  · intro x hx
    have hm : ∀ c ∈ List.range (b + 1 + b), (c < b + 1 ∧ wnode b c = .a c) ∨ ∃ i, i < b ∧ wnode b c = .z i := by
      intro c hc
      have := List.mem_range.mp hc
      by_cases h : c < b + 1
      · exact .inl ⟨h, wnode_a h⟩
      · refine .inr ⟨c - (b + 1), by omega, ?_⟩
        have := wnode_z (b := b) (i := c - (b + 1)) (by omega)
        rwa [show b + 1 + (c - (b + 1)) = c by omega] at this
    rcases wnode_cases hx with ⟨h, e⟩ | ⟨i, h, hxi, e⟩ | ⟨-, e⟩ | ⟨i, j, h, -, e⟩ | ⟨i, j, h, -, e⟩
    · rw [minDist_eq (List.mem_range.mpr (show x < b + 1 + b by omega)), wheelD, WNode.dist_self, e]
      · rfl
      · intro c _
        rw [wheelD, WNode.dist_self]
        exact Nat.zero_le _
    · rw [minDist_eq (List.mem_range.mpr (show x < b + 1 + b by omega)), wheelD, WNode.dist_self, e]
      · rfl
      · intro c _
        rw [wheelD, WNode.dist_self]
        exact Nat.zero_le _
    · rw [minDist_eq (List.mem_range.mpr (show 0 < b + 1 + b by omega)), wheelD, e, wnode_a (by omega)]
      · rfl
      · intro c hc
        rw [wheelD, wheelD, e, wnode_a (by omega)]
        rcases hm c hc with ⟨-, e'⟩ | ⟨i, -, e'⟩ <;> rw [e'] <;> simp [WNode.dist]
    · rw [minDist_eq (List.mem_range.mpr (show i < b + 1 + b by omega)), wheelD, e, wnode_a h]
      · simp only [WNode.dist, if_true]
        rfl
      · intro c hc
        rw [wheelD, wheelD, e, wnode_a h]
        rcases hm c hc with ⟨-, e'⟩ | ⟨i, -, e'⟩ <;> rw [e'] <;> simp only [WNode.dist] <;> (try split_ifs) <;> omega
    · rw [minDist_eq (List.mem_range.mpr (show b + 1 + i / 2 < b + 1 + b by omega)), wheelD, e, wnode_z (by omega)]
      · simp only [WNode.dist, if_true]
        rfl
      · intro c hc
        rw [wheelD, wheelD, e, wnode_z (by omega)]
        rcases hm c hc with ⟨-, e'⟩ | ⟨i, -, e'⟩ <;> rw [e'] <;> simp only [WNode.dist] <;> (try split_ifs) <;> omega

/-- The hub and one vertex of each group. -/
def wheelOther (b : Nat) : List Nat :=
  (b + 1 + b) :: (List.range (b * 2)).map fun i => b + 1 + b + 1 + (b + 1) * (b + 1) + i * (2 * (b + 1))

/-- Their total deviation. -/
theorem wheel_other (b : Nat) :
    totalDev (conv : ℕ → ℤ) (wheelN b) (wheelD b) (wheelOther b) = (b + 1) * (b + 1) + 3 * b + 2 := by
  have hg : b + 1 + b ∈ wheelOther b := List.mem_cons_self
  have hb : ∀ {i}, i < b * 2 → b + 1 + b + 1 + (b + 1) * (b + 1) + i * (2 * (b + 1)) ∈ wheelOther b := fun {i} hi =>
    List.mem_cons_of_mem _ (List.mem_map.mpr ⟨i, List.mem_range.mpr hi, rfl⟩)
  have hm : ∀ c ∈ wheelOther b, wnode b c = .g ∨ ∃ i, i < b * 2 ∧ wnode b c = .b i 0 := by
    intro c hc
    rcases List.mem_cons.mp hc with rfl | hc
    · exact .inl (wnode_g b)
    · obtain ⟨i, hi, rfl⟩ := List.mem_map.mp hc
      exact .inr ⟨i, List.mem_range.mp hi, wnode_b b i⟩
  rw [wheel_totalDev (fun | .a _ => 2 | .z _ => 1 | .g => 0 | .c _ _ => 1 | .b _ _ => 0)]
  · simp only [Finset.sum_const, Finset.card_range, nsmul_eq_mul]
    push_cast
    ring
  · intro x hx
    rcases wnode_cases hx with ⟨h, e⟩ | ⟨i, h, hxi, e⟩ | ⟨-, e⟩ | ⟨i, j, h, -, e⟩ | ⟨i, j, h, -, e⟩
    · rw [minDist_eq hg, wheelD, e, wnode_g]
      · rfl
      · intro c hc
        rw [wheelD, wheelD, e, wnode_g]
        rcases hm c hc with e' | ⟨i, -, e'⟩ <;> rw [e'] <;> simp [WNode.dist]
    · rw [minDist_eq (hb (show i * 2 < b * 2 by omega)), wheelD, e, wnode_b]
      · simp only [WNode.dist]
        rw [if_pos (by omega)]
        rfl
      · intro c hc
        rw [wheelD, wheelD, e, wnode_b]
        rcases hm c hc with e' | ⟨i, -, e'⟩ <;> rw [e'] <;> simp only [WNode.dist] <;> (try split_ifs) <;> omega
    · rw [minDist_eq hg, wheelD, e, wnode_g]
      · rfl
      · intro c hc
        rw [wheelD, e, wnode_g]
        exact Nat.zero_le _
    · rw [minDist_eq hg, wheelD, e, wnode_g]
      · rfl
      · intro c hc
        rw [wheelD, wheelD, e, wnode_g]
        rcases hm c hc with e' | ⟨i, -, e'⟩ <;> rw [e'] <;> simp [WNode.dist]
    · rw [minDist_eq (hb h), wheelD, e, wnode_b]
      · simp only [WNode.dist, if_true]
        rfl
      · intro c hc
        rw [wheelD, wheelD, e, wnode_b]
        simp only [WNode.dist, if_true]
        exact Nat.zero_le _

theorem sum_ind_half {b q : Nat} (hq : q < b) : ∑ i ∈ Finset.range (b * 2), ind q (i / 2) = 2 := by
  rw [sum_grid (fun i _ => ind q i) 2 b]
  simp only [Finset.sum_const, Finset.card_range, nsmul_eq_mul, ← Finset.mul_sum, sum_ind hq]
  rfl

/-- The vertices `a` and `z` are a local optimum. -/
theorem wheel_optimal {b : Nat} (hb : 1 ≤ b) :
    SwapOptimal (conv : ℕ → ℤ) (wheelN b) (wheelD b) (List.range (b + 1 + b)) := by
  intro q x hq hx hxm
  rw [List.length_range] at hq
  rw [wheel_start]
  have hne : (List.range (b + 1 + b)).set q x ≠ [] := List.ne_nil_of_length_pos (by simp)
  have hmem : ∀ {m}, m ∈ (List.range (b + 1 + b)).set q x →
      m = x ∨ (m < b + 1 ∧ m ≠ q ∧ wnode b m = .a m) ∨ ∃ i, i < b ∧ b + 1 + i ≠ q ∧ wnode b m = .z i := by
    intro m hm
    rcases mem_range_set hm with h | ⟨h1, h2⟩
    · exact .inl h
    · by_cases h : m < b + 1
      · exact .inr (.inl ⟨h, h2, wnode_a h⟩)
      · refine .inr (.inr ⟨m - (b + 1), by omega, by omega, ?_⟩)
        have := wnode_z (b := b) (i := m - (b + 1)) (by omega)
        rwa [show b + 1 + (m - (b + 1)) = m by omega] at this
  have key : ∀ F : WNode → ℤ,
      ((b + 1) * (b + 1) + 4 * b * (b + 1) + 2 : ℤ) ≤
        ∑ i ∈ Finset.range (b + 1), F (.a i) + ∑ i ∈ Finset.range b, F (.z i) + F .g +
        ∑ i ∈ Finset.range (b + 1), ∑ j ∈ Finset.range (b + 1), F (.c i j) +
        ∑ i ∈ Finset.range (b * 2), ∑ j ∈ Finset.range (2 * (b + 1)), F (.b i j) →
      (∀ y, y < wheelN b → F (wnode b y) ≤ ((wnode b y).dist (wnode b x) : ℤ)) →
      (∀ y, y < wheelN b → ∀ m, m < b + 1 → m ≠ q → F (wnode b y) ≤ ((wnode b y).dist (.a m) : ℤ)) →
      (∀ y, y < wheelN b → ∀ i, i < b → b + 1 + i ≠ q → F (wnode b y) ≤ ((wnode b y).dist (.z i) : ℤ)) →
      ((b + 1) * (b + 1) + 4 * b * (b + 1) + 2 : ℤ) ≤
        totalDev (conv : ℕ → ℤ) (wheelN b) (wheelD b) ((List.range (b + 1 + b)).set q x) := by
    intro F h0 h1 h2 h3
    refine le_trans h0 (wheel_totalDev_ge hne F fun y hy m hm => ?_)
    rcases hmem hm with rfl | ⟨g1, g2, e⟩ | ⟨i, g1, g2, e⟩
    · exact h1 y hy
    · rw [e]; exact h2 y hy m g1 g2
    · rw [e]; exact h3 y hy i g1 g2
  have hb' : (1 : ℤ) ≤ b := by exact_mod_cast hb
  by_cases hqa : q < b + 1
  · -- a vertex `a q` is replaced
    rcases wnode_cases hx with ⟨h, -⟩ | ⟨i, h, hxi, -⟩ | ⟨-, e⟩ | ⟨p, r, hp, hr, e⟩ | ⟨p, r, hp, hr, e⟩
    · exact absurd (List.mem_range.mpr (by omega)) hxm
    · exact absurd (List.mem_range.mpr (by omega)) hxm
    · refine key (fun | .a j => 2 * ind q j | .z _ => 0 | .g => 0 | .c _ _ => 1 | .b _ _ => 1) ?_ ?_ ?_ ?_
      · simp only [← Finset.mul_sum, sum_ind hqa, Finset.sum_const, Finset.card_range, nsmul_eq_mul]
        push_cast
        nlinarith
      all_goals
        intro y hy
        try rw [e]
        rcases wnode_cases hy with ⟨-, e'⟩ | ⟨i, -, -, e'⟩ | ⟨-, e'⟩ | ⟨i, j, -, -, e'⟩ | ⟨i, j, -, -, e'⟩ <;> rw [e'] <;>
          simp only [WNode.dist, ind] <;> intros <;> (try split_ifs) <;> push_cast <;> omega
    · refine key (fun
        | .a j => ind q j
        | .z _ => 0
        | .g => 1
        | .c i j => 1 + ind q i + (-2) * (ind p i * ind r j)
        | .b _ _ => 1) ?_ ?_ ?_ ?_
      · simp only [← Finset.mul_sum, Finset.sum_add_distrib, sum_ind hqa, sum_ind hp, sum_ind hr, mul_one,
          Finset.sum_const, Finset.card_range, nsmul_eq_mul]
        push_cast
        nlinarith
      all_goals
        intro y hy
        try rw [e]
        rcases wnode_cases hy with ⟨-, e'⟩ | ⟨i, -, -, e'⟩ | ⟨-, e'⟩ | ⟨i, j, -, -, e'⟩ | ⟨i, j, -, -, e'⟩ <;> rw [e'] <;>
          simp only [WNode.dist, ind] <;> intros <;> (try split_ifs) <;> push_cast <;> omega
    · refine key (fun
        | .a j => 4 * ind q j
        | .z _ => 0
        | .g => 2
        | .c i _ => 1 + 2 * ind q i
        | .b i _ => 1 + (-1) * ind p i) ?_ ?_ ?_ ?_
      · simp only [← Finset.mul_sum, Finset.sum_add_distrib, sum_ind hqa, sum_ind hp, Finset.sum_const, Finset.card_range,
          nsmul_eq_mul]
        push_cast
        nlinarith
      all_goals
        intro y hy
        try rw [e]
        rcases wnode_cases hy with ⟨-, e'⟩ | ⟨i, -, -, e'⟩ | ⟨-, e'⟩ | ⟨i, j, -, -, e'⟩ | ⟨i, j, -, -, e'⟩ <;> rw [e'] <;>
          simp only [WNode.dist, ind] <;> intros <;> (try split_ifs) <;> push_cast <;> omega
  · -- a vertex `z q` is replaced
    obtain ⟨q, rfl⟩ : ∃ q', q = b + 1 + q' := ⟨q - (b + 1), by omega⟩
    have hqz : q < b := by omega
    rcases wnode_cases hx with ⟨h, -⟩ | ⟨i, h, hxi, -⟩ | ⟨-, e⟩ | ⟨p, r, hp, hr, e⟩ | ⟨p, r, hp, hr, e⟩
    · exact absurd (List.mem_range.mpr (by omega)) hxm
    · exact absurd (List.mem_range.mpr (by omega)) hxm
    · refine key (fun | .a j => 0 | .z j => ind q j | .g => 0 | .c _ _ => 1 | .b i _ => 1 + ind q (i / 2)) ?_ ?_ ?_ ?_
      · simp only [← Finset.mul_sum, Finset.sum_add_distrib, sum_ind hqz, sum_ind_half hqz, Finset.sum_const, Finset.card_range,
          nsmul_eq_mul]
        push_cast
        nlinarith
      all_goals
        intro y hy
        try rw [e]
        rcases wnode_cases hy with ⟨-, e'⟩ | ⟨i, -, -, e'⟩ | ⟨-, e'⟩ | ⟨i, j, -, -, e'⟩ | ⟨i, j, -, -, e'⟩ <;> rw [e'] <;>
          simp only [WNode.dist, ind] <;> intros <;> (try split_ifs) <;> push_cast <;> omega
    · refine key (fun
        | .a j => 0
        | .z j => ind q j
        | .g => 1
        | .c i j => 1 + (-1) * (ind p i * ind r j)
        | .b i _ => 1 + ind q (i / 2)) ?_ ?_ ?_ ?_
      · simp only [← Finset.mul_sum, Finset.sum_add_distrib, sum_ind hqz, sum_ind_half hqz, sum_ind hp, sum_ind hr, mul_one,
          Finset.sum_const, Finset.card_range, nsmul_eq_mul]
        push_cast
        nlinarith
      all_goals
        intro y hy
        try rw [e]
        rcases wnode_cases hy with ⟨-, e'⟩ | ⟨i, -, -, e'⟩ | ⟨-, e'⟩ | ⟨i, j, -, -, e'⟩ | ⟨i, j, -, -, e'⟩ <;> rw [e'] <;>
          simp only [WNode.dist, ind] <;> intros <;> (try split_ifs) <;> push_cast <;> omega
    · refine key (fun
        | .a j => 0
        | .z j => ind q j
        | .g => 2
        | .c i j => 1
        | .b i _ => 1 + ind q (i / 2) + (-2) * ind p i) ?_ ?_ ?_ ?_
      · simp only [← Finset.mul_sum, Finset.sum_add_distrib, sum_ind hqz, sum_ind_half hqz, sum_ind hp,
          Finset.sum_const, Finset.card_range, nsmul_eq_mul]
        push_cast
        nlinarith
      all_goals
        intro y hy
        try rw [e]
        rcases wnode_cases hy with ⟨-, e'⟩ | ⟨i, -, -, e'⟩ | ⟨-, e'⟩ | ⟨i, j, -, -, e'⟩ | ⟨i, j, -, -, e'⟩ <;> rw [e'] <;>
          simp only [WNode.dist, ind] <;> intros <;> (try split_ifs) <;> push_cast <;> omega

/-- **C103, runs.** FasterPAM in any order, PAM and FastPAM1, started with the first `2 b + 1` objects (as `first_k` gives
them), make no swap; the loss is `5 b² + 6 b + 3`, for `2 b + 1` other medoids it is `b² + 5 b + 3`. -/
theorem C103_runs {b : Nat} (hb : 1 ≤ b) (hn : wheelN b ≤ u32Max) {maxiter : Nat} {r : SwapResult ℤ}
    (hr : IsPamRun (fnMat (wheelN b) (wheelD b)) (wheelN b) (firstK (b + 1 + b)) maxiter r) :
    r.med = firstK (b + 1 + b) ∧ r.nSwap = 0 ∧ r.loss = 5 * b * b + 6 * b + 3 ∧
    (wheelOther b).length = b + 1 + b ∧
    totalDev (conv : ℕ → ℤ) (wheelN b) (wheelD b) (wheelOther b) = b * b + 5 * b + 3 := by
  rw [show firstK (b + 1 + b) = List.range (b + 1 + b) from rfl] at hr ⊢
  have hv : ValidMeds (wheelN b) (List.range (b + 1 + b)) := by
    refine ⟨?_, fun m hm => by have := List.mem_range.mp hm; unfold wheelN; omega⟩
    rw [List.length_range]
    have hle : b + 1 + b ≤ wheelN b := by unfold wheelN; omega
    have hlt : b + 1 + b < u32Max := by unfold wheelN at hn; omega
    exact ⟨by omega, hle, hn, hlt⟩
  have ho := hr.outcome (fnMat_isMatrix _ _) (wheelD_dissim b _) hv List.nodup_range fun _ => (wheelD_metric b _).symm
  have h0 := (wheel_optimal hb).chain_zero ho.chain
  have h1 : r.med = List.range (b + 1 + b) := (h0 ▸ ho.chain).eq_of_zero
  refine ⟨h1, h0, by rw [ho.loss, h1, wheel_start]; ring, ?_, by rw [wheel_other]; ring⟩
  simp only [wheelOther, List.length_cons, List.length_map, List.length_range]
  omega

/-- **C103, the factor five is the best possible.** For every `q ≥ 1` there are a metric and a local optimum of more than
`5 - 1 / q` times the total deviation of as many other medoids. By C64 no local optimum is worse than five times. -/
theorem C103_factor (q : Nat) (hq : 1 ≤ q) :
    ∃ (n : Nat) (d : Nat → Nat → ℕ) (med other : List Nat), Dissim n d ∧ IsMetric (conv : ℕ → ℤ) n d ∧
      med.Nodup ∧ (∀ c ∈ med, c < n) ∧ other.Nodup ∧ (∀ c ∈ other, c < n) ∧ other.length = med.length ∧
      SwapOptimal (conv : ℕ → ℤ) n d med ∧ 0 < totalDev (conv : ℕ → ℤ) n d other ∧
      (5 * q - 1) * totalDev (conv : ℕ → ℤ) n d other < q * totalDev (conv : ℕ → ℤ) n d med := by
  obtain ⟨b, rfl⟩ : ∃ b, b = 24 * q := ⟨_, rfl⟩
  have hq' : (1 : ℤ) ≤ q := by exact_mod_cast hq
  refine ⟨wheelN (24 * q), wheelD (24 * q), List.range (24 * q + 1 + 24 * q), wheelOther (24 * q), wheelD_dissim _ _,
    wheelD_metric _ _, List.nodup_range, fun c hc => ?_, ?_, fun c hc => ?_, ?_, wheel_optimal (by omega), ?_, ?_⟩
  · have := List.mem_range.mp hc
    unfold wheelN
    omega
  · refine List.nodup_cons.mpr ⟨fun h => ?_, (List.nodup_map_iff fun i i' h => ?_).mpr List.nodup_range⟩
    · obtain ⟨i, -, e⟩ := List.mem_map.mp h
      omega
    · have h : i * (2 * (24 * q + 1)) = i' * (2 * (24 * q + 1)) := by simpa using h
      exact Nat.eq_of_mul_eq_mul_right (by omega) h
  · rcases List.mem_cons.mp hc with rfl | hc
    · unfold wheelN
      omega
    · obtain ⟨i, hi, rfl⟩ := List.mem_map.mp hc
      have hi := List.mem_range.mp hi
      have := Nat.mul_lt_mul_of_pos_right hi (show 0 < 2 * (24 * q + 1) by omega)
      unfold wheelN
      omega
  · simp only [wheelOther, List.length_cons, List.length_map, List.length_range]
    omega
  · rw [wheel_other]
    push_cast
    nlinarith
  · rw [wheel_other, wheel_start]
    push_cast
    nlinarith

/-- The smallest case, with 16 objects and three medoids: total deviation 14 against 9. -/
example : fasterpam ℤ (fnMat (wheelN 1) (wheelD 1)) [0, 1, 2] 9 =
      .ok ⟨14, [0, 1, 2, 0, 0, 0, 1, 1, 2, 2, 2, 2, 2, 2, 2, 2], 1, 0, [0, 1, 2]⟩ ∧
    totalDev (conv : ℕ → ℤ) (wheelN 1) (wheelD 1) (wheelOther 1) = 9 := by
  refine ⟨by decide +kernel, by decide +kernel⟩

/-- With `b = 19` the matrix has 1960 objects and the factor is already above 4. -/
example : wheelN 19 ≤ u32Max ∧ 4 * (19 * 19 + 5 * 19 + 3) < 5 * 19 * 19 + 6 * 19 + 3 := by
  decide

end KMedoids
