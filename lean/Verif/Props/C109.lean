import Verif.Props.C75
import Verif.Proofs.MedSil
import Mathlib.Algebra.Order.BigOperators.Group.List

/-!
# C109 Silhouettes with an integer type

The type bounds of `silhouette`, `par_silhouette` and `medoid_silhouette` (`Signed`, `Div`, `From<N>`,
`From<u32>`) admit `i64`. All divisions then truncate. What is returned is determined here for every
clustering: one of the three values -1, 0 and 1 for the silhouette, and always 1 for the medoid silhouette.
-/

set_option linter.unusedSectionVars false

namespace KMedoids

open RFrom (conv)

/-- Integer arithmetic with values `val`, exact for results below `B`, and truncating division. The result of a
division by zero (a panic in Rust) is left open: no result depends on one. -/
structure TruncLoss (L : Type) [RLoss L] (val : L → ℤ) (B : ℤ) : Prop where
  pcmp_eq : ∀ a b : L, pcmp a b = some (compare (val a) (val b))
  zero_eq : val RLoss.zero = 0
  one_eq : val RLoss.one = 1
  add_eq : ∀ a b : L, |val a + val b| < B → val (RLoss.add a b) = val a + val b
  sub_eq : ∀ a b : L, |val a - val b| < B → val (RLoss.sub a b) = val a - val b
  div_eq : ∀ a b : L, |val a| < B → val b ≠ 0 → val (RLoss.div a b) = (val a).tdiv (val b)
  ofU32_eq : ∀ m : Nat, m ≤ u32Max → val (RLoss.ofU32 m) = m

theorem bmod_i64 {x : ℤ} (h : |x| < 2 ^ 63) : x.bmod (2 ^ 64) = x := by
  have := abs_lt.mp h
  rw [Int.bmod_eq_of_le] <;> omega

/-- Rust's `i64`. -/
theorem i64_trunc : TruncLoss Int64 Int64.toInt (2 ^ 63) where
  pcmp_eq _ _ := rfl
  zero_eq := rfl
  one_eq := rfl
  add_eq a b h := by show (a + b).toInt = _; rw [Int64.toInt_add, bmod_i64 h]
  sub_eq a b h := by show (a - b).toInt = _; rw [Int64.toInt_sub, bmod_i64 h]
  div_eq a b h _ := by
    show (a / b).toInt = _
    refine Int64.toInt_div_of_ne_left a b fun e => ?_
    subst e; revert h; decide
  ofU32_eq m h := by
    show (Int64.ofInt m).toInt = _
    have : (u32Max : ℤ) < 2 ^ 32 := by decide
    exact Int64.toInt_ofInt_of_le (by omega) (by omega)

section trunc
variable {L : Type} [RLoss L] {val : L → ℤ} {B : ℤ} (T : TruncLoss L val B)
include T

theorem TruncLoss.lt (a b : L) : rlt a b = decide (val a < val b) := by
  rw [Bool.eq_iff_iff]
  simp [rlt, T.pcmp_eq, compare_lt_iff_lt]

theorem TruncLoss.gt (a b : L) : rgt a b = decide (val b < val a) := by
  rw [Bool.eq_iff_iff]
  simp [rgt, T.pcmp_eq, compare_gt_iff_gt]

/-- One truncated quotient of natural numbers. -/
theorem TruncLoss.mean (a : L) {s c : Nat} (ha : val a = s) (hs : (s : ℤ) < B) (hc : c ≤ u32Max) :
    val (checkedDiv a (RLoss.ofU32 c)) = (s / c : Nat) := by
  have hof := T.ofU32_eq c hc
  unfold checkedDiv
  rw [T.gt, T.zero_eq, hof]
  by_cases h : c = 0
  · subst h; simp [T.zero_eq]
  · rw [if_pos (by simpa using Nat.pos_of_ne_zero h), T.div_eq _ _ (by rw [ha, abs_of_nonneg (by omega)]; exact hs)
      (by rw [hof]; exact_mod_cast h), ha, hof]
    exact Int.ofNat_tdiv s c

/-- The truncated quotient of `b - a` and the larger one. -/
theorem TruncLoss.frac {x y : L} {a b : Nat} (ha : val x = a) (hb : val y = b) (hB : (a : ℤ) < B ∧ (b : ℤ) < B) :
    val (checkedDiv (RLoss.sub y x) (if rgt x y then x else y)) =
      if a = 0 ∧ b ≠ 0 then 1 else if b = 0 ∧ a ≠ 0 then -1 else 0 := by
  have hsub : val (RLoss.sub y x) = (b : ℤ) - a := by
    rw [T.sub_eq _ _ (by rw [ha, hb, abs_lt]; omega), ha, hb]
  have hmax : val (if rgt x y then x else y) = max (a : ℤ) b := by
    rw [T.gt, ha, hb]
    by_cases h : (b : ℤ) < a
    · simp [h, ha, le_of_lt (Int.ofNat_lt.mp h)]
    · simp [h, hb, not_lt.mp (mt Int.ofNat_lt.mpr h)]
  unfold checkedDiv
  rw [T.gt, T.zero_eq, hmax]
  by_cases h0 : (0 : ℤ) < max (a : ℤ) b
  · rw [if_pos (by simpa using h0), T.div_eq _ _ (by rw [hsub, abs_lt]; omega) (by rw [hmax]; omega), hsub, hmax]
    by_cases hab : a = 0
    · subst hab
      have hb0 : b ≠ 0 := by intro h; subst h; simp at h0
      rw [if_pos ⟨rfl, hb0⟩]
      simp only [Nat.cast_zero, sub_zero]
      rw [max_eq_right (by omega)]
      exact Int.tdiv_self (by exact_mod_cast hb0)
    · by_cases hbb : b = 0
      · subst hbb
        rw [if_neg (fun h => hab h.1), if_pos ⟨rfl, hab⟩]
        simp only [Nat.cast_zero, zero_sub]
        rw [max_eq_left (by omega), Int.neg_tdiv, Int.tdiv_self (by exact_mod_cast hab)]
      · rw [if_neg (fun h => hab h.1), if_neg (fun h => hbb h.1)]
        rcases le_total a b with h | h
        · rw [max_eq_right (by omega)]
          exact Int.tdiv_eq_zero_of_lt (by omega) (by omega)
        · rw [max_eq_left (by omega), show (b : ℤ) - a = -((a : ℤ) - b) by ring, Int.neg_tdiv,
            Int.tdiv_eq_zero_of_lt (by omega) (by omega)]
          rfl
  · rw [if_neg (by simpa using h0), T.zero_eq, if_neg (by omega), if_neg (by omega)]

/-- The smallest of a list of values. -/
theorem TruncLoss.foldl_min (xs : List L) (x : L) :
    ∃ y ∈ x :: xs, xs.foldl (fun x y => if rlt y x then y else x) x = y ∧ ∀ z ∈ x :: xs, val y ≤ val z := by
  induction xs generalizing x with
  | nil => exact ⟨x, by simp, rfl, by simp⟩
  | cons z zs ih =>
    obtain ⟨y, h1, h2, h3⟩ := ih (if rlt z x then z else x)
    have hle : val (if rlt z x then z else x) ≤ val z ∧ val (if rlt z x then z else x) ≤ val x := by
      rw [T.lt]
      by_cases h : val z < val x
      · simp [h, le_of_lt h]
      · simp [h, not_lt.mp h]
    refine ⟨y, ?_, by rw [List.foldl_cons]; exact h2, fun w hw => ?_⟩
    · rcases List.mem_cons.mp h1 with h | h
      · rw [h]; split <;> simp
      · simp [h]
    · have h0 := h3 _ (List.mem_cons_self ..)
      rcases List.mem_cons.mp hw with rfl | hw
      · exact le_trans h0 hle.2
      · rcases List.mem_cons.mp hw with rfl | hw
        · exact le_trans h0 hle.1
        · exact h3 w (List.mem_cons_of_mem _ hw)

/-- Sums of values between -1 and 1. -/
theorem TruncLoss.sum (xs : List L) (h : ∀ x ∈ xs, val x = -1 ∨ val x = 0 ∨ val x = 1) (a : L)
    (ha : |val a| + xs.length < B) :
    val (xs.foldl RLoss.add a) = val a + (xs.map val).sum := by
  induction xs generalizing a with
  | nil => simp
  | cons x xs ih =>
    have hx := h x (by simp)
    have hx1 : |val x| ≤ 1 := by rcases hx with e | e | e <;> simp [e]
    have h3 := abs_add_le (val a) (val x)
    simp only [List.length_cons, Nat.cast_add, Nat.cast_one] at ha
    have hadd : val (RLoss.add a x) = val a + val x := T.add_eq _ _ (by omega)
    rw [List.foldl_cons, ih (fun y hy => h y (by simp [hy])) _ (by rw [hadd]; omega), hadd]
    simp [add_assoc]

end trunc

/-- The mean distance of object `i` to the other members of cluster `c` is below one. -/
def BelowOne (e : Nat → Nat → Nat) (assi : List Nat) (i c : Nat) : Prop :=
  ((members assi i c).map (e i)).sum < (members assi i c).length

instance (e : Nat → Nat → Nat) (assi : List Nat) (i c : Nat) : Decidable (BelowOne e assi i c) := by
  unfold BelowOne; infer_instance

/-- What becomes of the silhouette of an object with truncating divisions: 1 if its mean distance to its own
cluster (not a singleton) is below one and the mean distances to all other clusters are not; -1 if the own one is
not below one but another one is; otherwise 0. -/
def truncSil (e : Nat → Nat → Nat) (assi : List Nat) (i ai : Nat) : ℤ :=
  if members assi i ai = [] then 0
  else if BelowOne e assi i ai ∧ ∀ c ∈ assi, c ≠ ai → ¬ BelowOne e assi i c then 1
  else if ¬ BelowOne e assi i ai ∧ ∃ c ∈ assi, c ≠ ai ∧ BelowOne e assi i c then -1
  else 0

section sil
variable {N L : Type} [RDist N] [RLoss L] [RFrom N L] {val : L → ℤ} {B : ℤ} (T : TruncLoss L val B)
variable {mat : Mat N} {n : Nat} {d : Nat → Nat → N} {e : Nat → Nat → Nat} {assi : List Nat}

include T in
theorem foldl_silAdd_trunc {i : Nat} (js : List Nat) (he : ∀ j ∈ js, val (conv (d i j) : L) = e i j) (s : Nat × L)
    (hs : 0 ≤ val s.2) (hB : val s.2 + ((js.map (e i)).sum : Nat) < B) :
    (js.foldl (silAdd d i) s).1 = s.1 + js.length ∧
      val (js.foldl (silAdd d i) s).2 = val s.2 + ((js.map (e i)).sum : Nat) := by
  induction js generalizing s with
  | nil => simp
  | cons j js ih =>
    simp only [List.map_cons, List.sum_cons, Nat.cast_add] at hB
    have hj := he j (by simp)
    have hadd : val (silAdd d i s j : Nat × L).2 = val s.2 + e i j := by
      show val (RLoss.add s.2 (conv (d i j))) = _
      rw [T.add_eq _ _ (by rw [hj, abs_lt]; omega), hj]
    obtain ⟨h1, h2⟩ := ih (fun j hj => he j (by simp [hj])) (silAdd d i s j) (by rw [hadd]; omega) (by rw [hadd]; omega)
    rw [List.foldl_cons, h1, h2, hadd]
    refine ⟨?_, ?_⟩
    · simp [silAdd]; omega
    · simp [add_assoc]

theorem members_sum_le (hl : assi.length ≤ n) (i c : Nat) :
    ((members assi i c).map (e i)).sum ≤ ((List.range n).map (e i)).sum := by
  have h1 : (members assi i c).Sublist (List.range n) :=
    List.filter_sublist.trans (List.range_sublist.mpr hl)
  exact (h1.map (e i)).sum_le_sum fun _ _ => Nat.zero_le _

include T in
/-- The bucket of a cluster, and its truncated mean. -/
theorem bucket_trunc (hl : assi.length ≤ n) (hu : n ≤ u32Max) {i : Nat}
    (he : ∀ j, j < n → val (conv (d i j) : L) = e i j)
    (hB : (((List.range n).map (e i)).sum : Nat) < B) (c : Nat) :
    ((silBufP L d assi i).getD c (0, RLoss.zero)).1 = (members assi i c).length ∧
    val (checkedDiv ((silBufP L d assi i).getD c (0, RLoss.zero)).2
      (RLoss.ofU32 ((silBufP L d assi i).getD c (0, RLoss.zero)).1)) =
      (((members assi i c).map (e i)).sum / (members assi i c).length : Nat) := by
  have hz : val (RLoss.zero : L) = 0 := T.zero_eq
  have hlen := members_length_le assi i c
  have hsum := members_sum_le (e := e) hl i c
  have hmem : ∀ j ∈ members assi i c, j < n := fun j hj => by
    have := (List.getElem?_eq_some_iff.mp (mem_members.mp hj).1).1
    omega
  obtain ⟨h1, h2⟩ := foldl_silAdd_trunc T (d := d) (e := e) (i := i)
    (members assi i c) (fun j hj => he j (hmem j hj)) (0, RLoss.zero) (by rw [hz]) (by rw [hz]; omega)
  rw [silBufP_getD, members_eq]
  refine ⟨by rw [h1]; simp, ?_⟩
  rw [h1]
  simp only [zero_add]
  refine T.mean _ (by rw [h2, hz]; simp) (by omega) (by omega)

theorem div_eq_zero_iff_below {i c : Nat} (h : members assi i c ≠ []) :
    ((members assi i c).map (e i)).sum / (members assi i c).length = 0 ↔ BelowOne e assi i c := by
  rw [Nat.div_eq_zero_iff]
  have := List.length_pos_iff.mpr h
  unfold BelowOne; omega

include T in
theorem silValueP_trunc (hl : assi.length ≤ n) (hu : n ≤ u32Max) (hg : NoGap assi) {i ai : Nat}
    (he : ∀ j, j < n → val (conv (d i j) : L) = e i j) (hB : (((List.range n).map (e i)).sum : Nat) < B)
    (hi : assi[i]? = some ai) (hb : bufLen assi ≠ 1) :
    val (silValueP (silBufP L d assi i) ai) = truncSil e assi i ai := by
  have hbuck := fun c => bucket_trunc T (d := d) (e := e) hl hu he hB c
  have hbound : ∀ c, (((members assi i c).map (e i)).sum / (members assi i c).length : Nat) < B := fun c => by
    have h1 := members_sum_le (e := e) hl i c
    have h2 := Nat.div_le_self ((members assi i c).map (e i)).sum (members assi i c).length
    omega
  unfold silValueP truncSil
  simp only [(hbuck ai).1]
  by_cases hm : members assi i ai = []
  · rw [if_pos hm, if_neg (by simp [hm]), T.zero_eq]
  · rw [if_neg hm, if_pos (List.length_pos_iff.mpr hm)]
    have hai : ai < bufLen assi := lt_bufLen (List.mem_of_getElem? hi)
    -- the list of the other truncated means
    have hoth : ∀ z, z ∈ ((silBufP L d assi i).zipIdx.filter (fun p => p.2 ≠ ai)).map
        (fun p => checkedDiv p.1.2 (RLoss.ofU32 p.1.1)) ↔ ∃ c ∈ assi, c ≠ ai ∧
        z = checkedDiv ((silBufP L d assi i).getD c (0, RLoss.zero)).2
          (RLoss.ofU32 ((silBufP L d assi i).getD c (0, RLoss.zero)).1) := by
      intro z
      constructor
      · intro hz
        obtain ⟨p, hp, rfl⟩ := List.mem_map.mp hz
        have hp1 := List.mem_filter.mp hp
        have hget := mem_zipIdx_get hp1.1
        have hlt : p.2 < bufLen assi := by
          have := (List.getElem?_eq_some_iff.mp hget).1; rwa [silBufP_length] at this
        have hmem := (others_mem hg ai p.2).mp
          (List.mem_filter.mpr ⟨List.mem_range.mpr hlt, by simpa using hp1.2⟩)
        refine ⟨p.2, List.mem_of_mem_filter hmem, by simpa using hp1.2, ?_⟩
        rw [List.getD_eq_getElem?_getD, hget, Option.getD_some]
      · rintro ⟨c, hc, hca, rfl⟩
        have hlt : c < (silBufP L d assi i).length := by rw [silBufP_length]; exact lt_bufLen hc
        refine List.mem_map.mpr ⟨((silBufP L d assi i)[c], c), List.mem_filter.mpr ⟨?_, by simpa using hca⟩, ?_⟩
        · rw [List.mem_iff_getElem?]
          exact ⟨c, by rw [List.getElem?_zipIdx, List.getElem?_eq_getElem hlt]; simp⟩
        · rw [List.getD_eq_getElem?_getD, List.getElem?_eq_getElem hlt, Option.getD_some]
    generalize hT : ((silBufP L d assi i).zipIdx.filter (fun p => p.2 ≠ ai)).map
        (fun p => checkedDiv p.1.2 (RLoss.ofU32 p.1.1)) = tmp at hoth
    have hne : tmp ≠ [] := by
      obtain ⟨c, hc, hca⟩ : ∃ c, c < bufLen assi ∧ c ≠ ai :=
        if h0 : ai = 0 then ⟨1, by omega, by omega⟩ else ⟨0, by omega, by omega⟩
      have := (others_mem hg ai c).mp (List.mem_filter.mpr ⟨List.mem_range.mpr hc, by simpa using hca⟩)
      exact List.ne_nil_of_mem ((hoth _).mpr ⟨c, List.mem_of_mem_filter this, hca, rfl⟩)
    obtain ⟨x, xs, rfl⟩ := List.exists_cons_of_ne_nil hne
    simp only [List.tail_cons, List.head?_cons, Option.getD_some]
    obtain ⟨y, hy, hfold, hmin⟩ := T.foldl_min xs x
    obtain ⟨c, hc, hca, rfl⟩ := (hoth y).mp hy
    have hyv := (congrArg val hfold).trans (hbuck c).2
    have hmne : ∀ c ∈ assi, c ≠ ai → members assi i c ≠ [] := fun c hc hca => by
      obtain ⟨j, hj, hjc⟩ := List.mem_iff_getElem.mp hc
      have : assi[j]? = some c := by rw [List.getElem?_eq_getElem hj, hjc]
      refine List.ne_nil_of_mem (mem_members.mpr ⟨this, fun e => hca ?_⟩)
      subst e; rw [hi] at this; exact (Option.some.inj this).symm
    have hown := (hbuck ai).2
    rw [(hbuck ai).1] at hown
    refine (T.frac hown hyv ⟨hbound ai, hbound c⟩).trans ?_
    have hA := div_eq_zero_iff_below (e := e) hm
    have hC := div_eq_zero_iff_below (e := e) (hmne c hc hca)
    have hle : ∀ c' ∈ assi, c' ≠ ai → ((members assi i c).map (e i)).sum / (members assi i c).length ≤
        ((members assi i c').map (e i)).sum / (members assi i c').length := fun c' h1 h2 => by
      have := hmin _ ((hoth _).mpr ⟨c', h1, h2, rfl⟩)
      rw [(hbuck c).2, (hbuck c').2] at this
      exact_mod_cast this
    have hex : (∃ c' ∈ assi, c' ≠ ai ∧ BelowOne e assi i c') ↔ BelowOne e assi i c := by
      refine ⟨fun ⟨c', h1, h2, h3⟩ => ?_, fun h => ⟨c, hc, hca, h⟩⟩
      have := hle c' h1 h2
      rw [(div_eq_zero_iff_below (hmne c' h1 h2)).mpr h3] at this
      exact hC.mp (Nat.le_zero.mp this)
    have hall : (∀ c' ∈ assi, c' ≠ ai → ¬ BelowOne e assi i c') ↔ ¬ BelowOne e assi i c := by
      rw [← hex]
      constructor
      · rintro h ⟨c', h1, h2, h3⟩; exact h c' h1 h2 h3
      · intro h c' h1 h2 h3; exact h ⟨c', h1, h2, h3⟩
    simp only [hA, hC, hall, hex, ne_eq, and_comm (a := BelowOne e assi i c)]

theorem truncSil_values (e : Nat → Nat → Nat) (assi : List Nat) (i ai : Nat) :
    truncSil e assi i ai = -1 ∨ truncSil e assi i ai = 0 ∨ truncSil e assi i ai = 1 := by
  unfold truncSil; split_ifs <;> simp

theorem sum_units (xs : List ℤ) (h : ∀ x ∈ xs, x = -1 ∨ x = 0 ∨ x = 1) :
    |xs.sum| ≤ xs.length ∧ (xs.sum = xs.length ↔ ∀ x ∈ xs, x = 1) ∧ (xs.sum = -xs.length ↔ ∀ x ∈ xs, x = -1) := by
  induction xs with
  | nil => simp
  | cons x xs ih =>
    obtain ⟨h1, h2, h3⟩ := ih fun y hy => h y (by simp [hy])
    have hx := h x (by simp)
    rw [abs_le] at h1 ⊢
    simp only [List.sum_cons, List.length_cons, Nat.cast_add, Nat.cast_one, List.forall_mem_cons]
    rw [← h2, ← h3]
    rcases hx with rfl | rfl | rfl <;> refine ⟨?_, ?_, ?_⟩ <;> omega

theorem tdiv_units {s : ℤ} {m : Nat} (hm : 0 < m) (hs : |s| ≤ m) :
    s.tdiv m = if s = m then 1 else if s = -m then -1 else 0 := by
  rw [abs_le] at hs
  by_cases h1 : s = m
  · subst h1; rw [if_pos rfl]; exact Int.tdiv_self (by omega)
  · rw [if_neg h1]
    by_cases h2 : s = -m
    · subst h2; rw [if_pos rfl, Int.neg_tdiv, Int.tdiv_self (by omega)]
    · rw [if_neg h2]
      rcases le_total 0 s with h | h
      · exact Int.tdiv_eq_zero_of_lt h (by omega)
      · rw [show s = -(-s) by ring, Int.neg_tdiv, Int.tdiv_eq_zero_of_lt (by omega) (by omega)]; rfl

include T in
/-- **C109, silhouette**: with an integer type every sample is -1, 0 or 1 as told by `truncSil`, and the average
is 1 if all samples are 1, -1 if all are -1, and 0 for every other clustering. -/
theorem C109_silhouette (hm : IsMatrix mat n d) (hl : assi.length ≤ n) (hu : n ≤ u32Max) (hg : NoGap assi)
    (h2 : ∃ a ∈ assi, a ≠ 0) (he : ∀ i j, i < n → j < n → val (conv (d i j) : L) = e i j)
    (hB : ∀ i, i < n → (((List.range n).map (e i)).sum : Nat) < B) (hnB : (n : ℤ) < B) {samples : Bool} {r : L × List L}
    (hr : silhouette L mat assi samples = .ok r) :
    val r.1 = (if ∀ p ∈ assi.zipIdx, truncSil e assi p.2 p.1 = 1 then 1
      else if ∀ p ∈ assi.zipIdx, truncSil e assi p.2 p.1 = -1 then -1 else 0) ∧
    (samples = true → r.2.map val = assi.zipIdx.map fun p => truncSil e assi p.2 p.1) := by
  have hb : bufLen assi ≠ 1 := by
    obtain ⟨a, ha, h0⟩ := h2
    have := lt_bufLen ha; omega
  have hpos : 0 < assi.length := by
    obtain ⟨a, ha, -⟩ := h2
    exact List.length_pos_of_mem ha
  rw [silhouette_eq hm hl] at hr; cases hr
  have hvals : (silValsP L d assi).map val = assi.zipIdx.map fun p => truncSil e assi p.2 p.1 := by
    unfold silValsP
    rw [List.map_map]
    refine List.map_congr_left fun p hp => ?_
    have hlt : p.2 < n := by have := mem_zipIdx_lt hp; omega
    exact silValueP_trunc T hl hu hg (fun j hj => he _ j hlt hj) (hB _ hlt)
      (mem_zipIdx_get hp) hb
  have hunit : ∀ x ∈ silValsP L d assi, val x = -1 ∨ val x = 0 ∨ val x = 1 := fun x hx => by
    have : val x ∈ (silValsP L d assi).map val := List.mem_map_of_mem hx
    rw [hvals] at this
    obtain ⟨p, -, hp⟩ := List.mem_map.mp this
    rw [← hp]; exact truncSil_values _ _ _ _
  have hlen : (silValsP L d assi).length = assi.length := by simp [silValsP]
  unfold silhouetteP
  rw [if_neg hb]
  refine ⟨?_, fun hs => by subst hs; exact hvals⟩
  show val (silAvgP L d assi) = _
  have hsum := T.sum (silValsP L d assi) hunit RLoss.zero
    (by rw [T.zero_eq, hlen]; simp; omega)
  rw [T.zero_eq, zero_add, hvals] at hsum
  obtain ⟨u1, u2, u3⟩ := sum_units (assi.zipIdx.map fun p => truncSil e assi p.2 p.1) (by
    intro x hx
    obtain ⟨p, -, rfl⟩ := List.mem_map.mp hx
    exact truncSil_values _ _ _ _)
  simp only [List.length_map, List.length_zipIdx, List.forall_mem_map] at u1 u2 u3
  unfold silAvgP
  have hof : val (RLoss.ofU32 (asU32 assi.length) : L) = assi.length := by
    rw [asU32_le (by omega), T.ofU32_eq _ (by omega)]
  rw [T.div_eq _ _ (by rw [hsum]; omega) (by rw [hof]; omega), hof, hsum, tdiv_units hpos u1]
  simp only [u2, u3]

include T in
/-- **C109, par_silhouette**: the same average. -/
theorem C109_par_silhouette (hm : IsMatrix mat n d) (hl : assi.length ≤ n) (hu : n ≤ u32Max) (hg : NoGap assi)
    (h2 : ∃ a ∈ assi, a ≠ 0) (he : ∀ i j, i < n → j < n → val (conv (d i j) : L) = e i j)
    (hB : ∀ i, i < n → (((List.range n).map (e i)).sum : Nat) < B) (hnB : (n : ℤ) < B) {r : L}
    (hr : parSilhouette L mat assi = .ok r) :
    val r = (if ∀ p ∈ assi.zipIdx, truncSil e assi p.2 p.1 = 1 then 1
      else if ∀ p ∈ assi.zipIdx, truncSil e assi p.2 p.1 = -1 then -1 else 0) := by
  have hb : bufLen assi ≠ 1 := by
    obtain ⟨a, ha, h0⟩ := h2
    have := lt_bufLen ha; omega
  have h := (C109_silhouette T hm hl hu hg h2 he hB hnB (silhouette_eq (L := L) hm hl (samples := false))).1
  rw [parSilhouette_eq hm hl] at hr; cases hr
  unfold silhouetteP at h
  rw [if_neg hb] at h
  exact h

end sil

/-! ## The medoid silhouette -/

/-- What becomes of the medoid silhouette of an object: 0 if its two nearest medoids are equally far and not at
distance zero, otherwise 1. -/
def truncMedSil {N : Type} [LinearOrder N] [Zero N] (d : Nat → Nat → N) (med : List Nat) (o : Nat) : ℤ :=
  match sortedDist d o med with
  | d1 :: d2 :: _ => if d1 = d2 ∧ d1 ≠ 0 then 0 else 1
  | _ => 1

section msil
variable {N L : Type} [LinearOrder N] [Zero N] [RDist N] [LawfulDist N] [RLoss L] [RFrom N L]
variable {val : L → ℤ} {B : ℤ} (T : TruncLoss L val B)
variable {mat : Mat N} {n : Nat} {d : Nat → Nat → N} {med : List Nat}

include T in
/-- **C109, medoid_silhouette**: with an integer type the average medoid silhouette of any medoids is 1, if one
of them has distance zero to itself. -/
theorem C109_medoid_silhouette (hm : IsMatrix mat n d) (hv : ValidMeds n med) (hnn : ∀ x y, x < n → y < n → 0 ≤ d x y)
    (hz : ∃ m ∈ med, d m m = 0) (h0 : val (conv (0 : N) : L) = 0) (hc : StrictMono fun x : N => val (conv x : L))
    (hB : ∀ x y, x < n → y < n → val (conv (d x y) : L) < B) (hnB : (n : ℤ) < B) {samples : Bool} {r : L × List L}
    (hr : medoidSilhouette L mat med samples = .ok r) :
    val r.1 = 1 ∧ (samples = true → r.2.map val = (List.range n).map (truncMedSil d med)) := by
  have h1B : (1 : ℤ) < B := by
    have h1 := hv.sizes.pos; have h2 := hv.sizes.le
    omega
  rw [medoidSilhouette_eq hm hv] at hr; cases hr
  unfold medoidSilhouetteP
  by_cases hk1 : med.length = 1
  · rw [if_pos hk1]
    refine ⟨T.one_eq, fun hs => ?_⟩
    subst hs
    obtain ⟨c, rfl⟩ := List.length_eq_one_iff.mp hk1
    simp only [if_true, List.map_replicate, T.one_eq]
    symm
    refine List.eq_replicate_iff.mpr ⟨by simp, fun x hx => ?_⟩
    obtain ⟨o, -, rfl⟩ := List.mem_map.mp hx
    simp [truncMedSil, sortedDist]
  · have hk : 2 ≤ med.length := by have := hv.sizes.pos; omega
    rw [if_neg hk1]
    -- the quotient of one object
    have hrat : ∀ o, o < n → val (medSampleP L (twoNearestP d med o)) = truncMedSil d med o ∧
        ((medRatioP L (twoNearestP d med o) = none ∧ truncMedSil d med o = 1) ∨
          ∃ s, medRatioP L (twoNearestP d med o) = some s ∧ val s = 1 - truncMedSil d med o) := by
      intro o ho
      have htwo := twoNearestP_twoMin d hk o
      obtain ⟨rest, hsort⟩ := htwo.sorted
      obtain ⟨rest', hp, hab, -⟩ := htwo
      have htr : truncMedSil d med o = if (twoNearestP d med o).1 = (twoNearestP d med o).2 ∧
          (twoNearestP d med o).1 ≠ 0 then 0 else 1 := by
        unfold truncMedSil sortedDist; rw [hsort]
      have hmem : ∀ x ∈ [(twoNearestP d med o).1, (twoNearestP d med o).2], 0 ≤ x ∧ val (conv x : L) < B := by
        intro x hx
        have : x ∈ med.map (d o) := hp.mem_iff.mpr (by
          rcases List.mem_cons.mp hx with h | h
          · simp [h]
          · simp [List.mem_singleton.mp h])
        obtain ⟨m, hm', rfl⟩ := List.mem_map.mp this
        exact ⟨hnn _ _ ho (hv.range m hm'), hB _ _ ho (hv.range m hm')⟩
      obtain ⟨a0, aB⟩ := hmem _ (List.mem_cons_self ..)
      obtain ⟨b0, bB⟩ := hmem (twoNearestP d med o).2 (by simp)
      generalize twoNearestP d med o = q at *
      unfold medSampleP medRatioP
      rw [LawfulDist.isZero_eq, htr]
      by_cases hq : q.1 = 0
      · simp [hq, T.one_eq]
      · have hq' : (!decide (q.1 = 0)) = true := by simp [hq]
        rw [if_pos hq']
        have hpos : 0 < val (conv q.1 : L) := by
          rw [← h0]; exact hc (lt_of_le_of_ne a0 (Ne.symm hq))
        have hle : val (conv q.1 : L) ≤ val (conv q.2 : L) := hc.monotone hab
        have hdiv : val (RLoss.div (conv q.1) (conv q.2) : L) = if q.1 = q.2 then 1 else 0 := by
          rw [T.div_eq _ _ (by rw [abs_of_pos hpos]; exact aB) (by omega)]
          by_cases he : q.1 = q.2
          · rw [if_pos he, ← he]; exact Int.tdiv_self (by omega)
          · rw [if_neg he]
            exact Int.tdiv_eq_zero_of_lt (by omega) (hc (lt_of_le_of_ne hab he))
        have hsub : val (RLoss.sub RLoss.one (RLoss.div (conv q.1) (conv q.2)) : L) = if q.1 = q.2 then 0 else 1 := by
          rw [T.sub_eq _ _ (by rw [hdiv, T.one_eq]; split <;> simp <;> omega), hdiv, T.one_eq]; split <;> rfl
        refine ⟨?_, Or.inr ⟨_, rfl, ?_⟩⟩
        · show val (RLoss.sub RLoss.one (RLoss.div (conv q.1) (conv q.2)) : L) = _
          rw [hsub]
          by_cases he : q.1 = q.2
          · rw [if_pos he, if_pos ⟨he, hq⟩]
          · rw [if_neg he, if_neg (fun h => he h.1)]
        · rw [hdiv]
          by_cases he : q.1 = q.2
          · rw [if_pos he, if_pos ⟨he, hq⟩]; rfl
          · rw [if_neg he, if_neg (fun h => he h.1)]; rfl
    have hself : ∀ o, o < n → o ∈ med → d o o = 0 → truncMedSil d med o = 1 := by
      intro o ho hom hoz
      have htwo := twoNearestP_twoMin d hk o
      obtain ⟨rest, hsort⟩ := htwo.sorted
      obtain ⟨rest', hp, hab, hrest⟩ := htwo
      have hle : (twoNearestP d med o).1 ≤ 0 := by
        have : d o o ∈ (twoNearestP d med o).1 :: (twoNearestP d med o).2 :: rest' :=
          hp.mem_iff.mp (List.mem_map_of_mem hom)
        rw [hoz] at this
        rcases List.mem_cons.mp this with h | h
        · exact le_of_eq h.symm
        · rcases List.mem_cons.mp h with h | h
          · rw [h]; exact hab
          · exact le_trans hab (hrest _ h)
      have hge : 0 ≤ (twoNearestP d med o).1 := by
        have : (twoNearestP d med o).1 ∈ med.map (d o) := hp.mem_iff.mpr (by simp)
        obtain ⟨m, hm', hmd⟩ := List.mem_map.mp this
        rw [← hmd]; exact hnn _ _ ho (hv.range m hm')
      unfold truncMedSil sortedDist
      rw [hsort]
      exact if_neg fun h => h.2 (le_antisymm hle hge)
    refine ⟨?_, fun hs => ?_⟩
    · have hsum : ∀ j, j ≤ n → 0 ≤ val (medSumP L d j med) ∧ val (medSumP L d j med) ≤ j ∧
          ((∃ m ∈ med, m < j ∧ d m m = 0) → val (medSumP L d j med) < j) := by
        intro j
        induction j with
        | zero =>
          intro _
          refine ⟨le_of_eq T.zero_eq.symm, by rw [show medSumP L d 0 med = RLoss.zero from rfl, T.zero_eq]; simp, ?_⟩
          rintro ⟨m, -, h, -⟩; omega
        | succ j ih =>
          intro hj
          obtain ⟨i1, i2, i3⟩ := ih (by omega)
          have hstep : medSumP L d (j + 1) med = (match medRatioP L (twoNearestP d med j) with
              | some s => RLoss.add (medSumP L d j med) s
              | none => medSumP L d j med) := by
            unfold medSumP
            rw [List.range_succ, List.foldl_append]; rfl
          have ht : truncMedSil d med j = 0 ∨ truncMedSil d med j = 1 := by
            unfold truncMedSil; split
            · split <;> simp
            · simp
          have hval : val (medSumP L d (j + 1) med) = val (medSumP L d j med) + (1 - truncMedSil d med j) := by
            rw [hstep]
            rcases (hrat j (by omega)).2 with ⟨h1, h2⟩ | ⟨s, h1, h2⟩
            · rw [h1, h2]; simp
            · rw [h1]
              show val (RLoss.add (medSumP L d j med) s) = _
              rw [T.add_eq _ _ (by rw [h2, abs_lt]; omega), h2]
          refine ⟨by rw [hval]; omega, by rw [hval]; push_cast; omega, ?_⟩
          rintro ⟨m, hm', hmj, hmz⟩
          rw [hval]
          push_cast
          by_cases hmj' : m = j
          · subst hmj'
            have := hself m (by omega) hm' hmz
            omega
          · have := i3 ⟨m, hm', by omega, hmz⟩
            omega
      obtain ⟨m, hm', hmz⟩ := hz
      obtain ⟨i1, i2, i3⟩ := hsum n le_rfl
      have hlt := i3 ⟨m, hm', hv.range m hm', hmz⟩
      have hof : val (RLoss.ofU32 (asU32 n) : L) = n := by
        rw [asU32_le hv.sizes.n_le, T.ofU32_eq _ hv.sizes.n_le]
      have hdiv : val (RLoss.div (medSumP L d n med) (RLoss.ofU32 (asU32 n))) = 0 := by
        rw [T.div_eq _ _ (by rw [abs_of_nonneg i1]; omega) (by rw [hof]; omega), hof]
        exact Int.tdiv_eq_zero_of_lt i1 hlt
      show val (RLoss.sub RLoss.one (RLoss.div (medSumP L d n med) (RLoss.ofU32 (asU32 n)))) = 1
      rw [T.sub_eq _ _ (by rw [hdiv, T.one_eq]; simpa using h1B), hdiv, T.one_eq]; rfl
    · subst hs
      simp only [if_true, List.map_map]
      exact List.map_congr_left fun o ho => (hrat o (List.mem_range.mp ho)).1

end msil

/-! ## `u32` distances, `i64` results -/

theorem conv_u32_i64 (x : UInt32) : (conv x : Int64).toInt = x.toNat := by
  show (Int64.ofInt x.toNat).toInt = _
  have := x.toNat_lt
  exact Int64.toInt_ofInt_of_le (by omega) (by omega)

theorem sum_u32_lt {n : Nat} (hu : n ≤ 2 ^ 31) (f : Nat → UInt32) :
    ((((List.range n).map fun j => (f j).toNat).sum : Nat) : ℤ) < 2 ^ 63 := by
  have h : ∀ m, ((List.range m).map fun j => (f j).toNat).sum ≤ m * (2 ^ 32 - 1) := by
    intro m
    induction m with
    | zero => simp
    | succ m ih =>
      rw [List.range_succ, List.map_append, List.sum_append]
      have := (f m).toNat_lt
      simp only [List.map_cons, List.map_nil, List.sum_cons, List.sum_nil]
      omega
  have := h n
  have h2 : n * (2 ^ 32 - 1) ≤ 2 ^ 31 * (2 ^ 32 - 1) := Nat.mul_le_mul_right _ hu
  have : (2 : Nat) ^ 31 * (2 ^ 32 - 1) < 2 ^ 63 := by norm_num
  omega

/-- **C109, u32 and i64**: if no two different objects have distance zero, every clustering has silhouette 0 and all
medoids have the medoid silhouette 1, computed in `i64`. -/
theorem C109_i64_constant {mat : Mat UInt32} {n : Nat} {d : Nat → Nat → UInt32} (hm : IsMatrix mat n d)
    (hu : n ≤ 2 ^ 31) (hz : ∀ i, i < n → d i i = 0) (hpos : ∀ i j, i < n → j < n → i ≠ j → d i j ≠ 0) :
    (∀ assi : List Nat, assi.length ≤ n → NoGap assi → (∃ a ∈ assi, a ≠ 0) →
      silhouette Int64 mat assi false = .ok (0, []) ∧ parSilhouette Int64 mat assi = .ok 0) ∧
    ∀ med, ValidMeds n med → medoidSilhouette Int64 mat med false = .ok (1, []) := by
  have hu' : n ≤ u32Max := le_trans hu (by decide)
  have hnB : (n : ℤ) < 2 ^ 63 := by omega
  refine ⟨fun assi hl hg h2 => ?_, fun med hv => ?_⟩
  · have hb : bufLen assi ≠ 1 := by
      obtain ⟨a, ha, h0⟩ := h2
      have := lt_bufLen ha; omega
    have hnot : ∀ i c, i < assi.length → ¬ BelowOne (fun i j => (d i j).toNat) assi i c := by
      intro i c hi h
      unfold BelowOne at h
      have hle : ∀ js : List Nat, (∀ j ∈ js, 1 ≤ (d i j).toNat) → js.length ≤ (js.map fun j => (d i j).toNat).sum := by
        intro js
        induction js with
        | nil => simp
        | cons j js ih =>
          intro h
          have h1 := h j (by simp)
          have h2 := ih fun j hj => h j (by simp [hj])
          simp only [List.length_cons, List.map_cons, List.sum_cons]; omega
      have := hle (members assi i c) fun j hj => by
        obtain ⟨h1, h2⟩ := mem_members.mp hj
        have hj' := (List.getElem?_eq_some_iff.mp h1).1
        have := hpos i j (by omega) (by omega) (Ne.symm h2)
        exact Nat.one_le_iff_ne_zero.mpr fun e => this (UInt32.toNat_inj.mp e)
      exact absurd h (not_lt.mpr this)
    have hts : ∀ p ∈ assi.zipIdx, truncSil (fun i j => (d i j).toNat) assi p.2 p.1 = 0 := by
      intro p hp
      have hlt := mem_zipIdx_lt hp
      unfold truncSil
      split
      · rfl
      · rw [if_neg (fun h => hnot _ _ hlt h.1), if_neg]
        rintro ⟨-, c, -, -, h⟩
        exact hnot _ _ hlt h
    have hone : ¬ ∀ p ∈ assi.zipIdx, truncSil (fun i j => (d i j).toNat) assi p.2 p.1 = 1 := by
      obtain ⟨a, ha, -⟩ := h2
      obtain ⟨i, hi, -⟩ := List.mem_iff_getElem.mp ha
      intro h
      have hmem : (assi[i], i) ∈ assi.zipIdx := by
        rw [List.mem_iff_getElem?]
        exact ⟨i, by rw [List.getElem?_zipIdx, List.getElem?_eq_getElem hi]; simp⟩
      have := h _ hmem
      rw [hts _ hmem] at this; exact absurd this (by decide)
    have hneg : ¬ ∀ p ∈ assi.zipIdx, truncSil (fun i j => (d i j).toNat) assi p.2 p.1 = -1 := by
      obtain ⟨a, ha, -⟩ := h2
      obtain ⟨i, hi, -⟩ := List.mem_iff_getElem.mp ha
      intro h
      have hmem : (assi[i], i) ∈ assi.zipIdx := by
        rw [List.mem_iff_getElem?]
        exact ⟨i, by rw [List.getElem?_zipIdx, List.getElem?_eq_getElem hi]; simp⟩
      have := h _ hmem
      rw [hts _ hmem] at this; exact absurd this (by decide)
    have hs := (C109_silhouette i64_trunc (e := fun i j => (d i j).toNat) hm hl hu' hg h2
      (fun i j _ _ => conv_u32_i64 _) (fun i _ => sum_u32_lt hu (d i)) hnB
      (silhouette_eq (L := Int64) hm hl (samples := false))).1
    have hp := C109_par_silhouette i64_trunc (e := fun i j => (d i j).toNat) hm hl hu' hg h2
      (fun i j _ _ => conv_u32_i64 _) (fun i _ => sum_u32_lt hu (d i)) hnB
      (parSilhouette_eq (L := Int64) hm hl)
    rw [if_neg hone, if_neg hneg] at hs hp
    rw [silhouette_eq hm hl, parSilhouette_eq hm hl]
    unfold silhouetteP at hs ⊢
    rw [if_neg hb] at hs ⊢
    exact ⟨congrArg Except.ok (Prod.ext (Int64.toInt_inj.mp hs) rfl), congrArg Except.ok (Int64.toInt_inj.mp hp)⟩
  · have hs := (C109_medoid_silhouette i64_trunc hm hv (fun x y _ _ => UInt32.le_iff_toNat_le.mpr (Nat.zero_le _))
      (by
        obtain ⟨c, hc⟩ := List.exists_mem_of_ne_nil med (by intro h; have := hv.sizes.pos; simp [h] at this)
        exact ⟨c, hc, hz c (hv.range c hc)⟩)
      (conv_u32_i64 0) (fun x y h => by
        show (conv x : Int64).toInt < (conv y : Int64).toInt
        rw [conv_u32_i64, conv_u32_i64]; exact_mod_cast UInt32.lt_iff_toNat_lt.mp h)
      (fun x y _ _ => by rw [conv_u32_i64]; have := (d x y).toNat_lt; omega) hnB
      (medoidSilhouette_eq (L := Int64) hm hv false)).1
    rw [medoidSilhouette_eq hm hv]
    refine congrArg Except.ok (Prod.ext (Int64.toInt_inj.mp hs) ?_)
    unfold medoidSilhouetteP
    split <;> rfl

/-! ## Examples -/

/-- Two clear clusters: distances 1 and 10. -/
def truncD (i j : Nat) : UInt32 := if i = j then 0 else if i / 2 = j / 2 then 1 else 10
/-- Its matrix. -/
def truncMat : Mat UInt32 := ⟨4, .ok true, fun x y => .ok (truncD x y)⟩
theorem truncMat_isMatrix : IsMatrix truncMat 4 truncD := ⟨rfl, rfl, fun _ _ _ _ => rfl⟩

theorem truncD_ne : ∀ i < 4, ∀ j < 4, i ≠ j → truncD i j ≠ 0 := by decide +kernel

example := C109_i64_constant truncMat_isMatrix (by decide) (by decide +kernel)
  (fun i j hi hj => truncD_ne i hi j hj)

-- in `f64` the two clusterings differ, and so do the two choices of medoids
example : silhouette (Ieee binary64) truncMat [0, 0, 1, 1] false = .ok (.num (8106479329266893 / 9007199254740992), []) ∧
    silhouette Int64 truncMat [0, 0, 1, 1] false = .ok (0, []) ∧
    silhouette Int64 truncMat [0, 1, 0, 1] false = .ok (0, []) ∧
    medoidSilhouette Int64 truncMat [0, 2] false = .ok (1, []) ∧
    medoidSilhouette Int64 truncMat [0, 1] false = .ok (1, []) := by decide +kernel

theorem noGap0011 : NoGap [0, 0, 1, 1] := by
  intro c c' h hc'
  have : c' ≤ 1 := by simp at hc'; omega
  have : c = 0 ∨ c = 1 := by omega
  rcases this with rfl | rfl <;> decide

/-- With distance zero within the clusters. -/
def truncD0 (i j : Nat) : UInt32 := if i / 2 = j / 2 then 0 else 10
/-- Its matrix. -/
def truncMat0 : Mat UInt32 := ⟨4, .ok true, fun x y => .ok (truncD0 x y)⟩
theorem truncMat0_isMatrix : IsMatrix truncMat0 4 truncD0 := ⟨rfl, rfl, fun _ _ _ _ => rfl⟩

theorem truncMat0_bound : ∀ i, i < 4 → (((List.range 4).map fun j => (truncD0 i j).toNat).sum : Nat) < (2 ^ 63 : ℤ) :=
  fun i _ => sum_u32_lt (by decide) (truncD0 i)

example := fun r h => (C109_silhouette i64_trunc (e := fun i j => (truncD0 i j).toNat) truncMat0_isMatrix
  (assi := [0, 0, 1, 1]) (by decide) (by decide) noGap0011 ⟨1, by decide, by decide⟩
  (fun _ _ _ _ => conv_u32_i64 _) truncMat0_bound (by decide) (samples := true) (r := r) h)
example := fun r h => (C109_par_silhouette i64_trunc (e := fun i j => (truncD0 i j).toNat) truncMat0_isMatrix
  (assi := [0, 0, 1, 1]) (by decide) (by decide) noGap0011 ⟨1, by decide, by decide⟩
  (fun _ _ _ _ => conv_u32_i64 _) truncMat0_bound (by decide) (r := r) h)
example : silhouette Int64 truncMat0 [0, 0, 1, 1] true = .ok (1, [1, 1, 1, 1]) ∧
    silhouette Int64 truncMat0 [0, 1, 1, 0] true = .ok (0, [0, 0, 0, 0]) ∧
    silhouette Int64 truncMat0 [0, 1, 1, 2] true = .ok (0, [0, -1, -1, 0]) := by decide +kernel

example := fun r h => C109_medoid_silhouette i64_trunc truncMat_isMatrix (med := [0, 2])
  ⟨⟨by decide, by decide, by decide, by decide⟩, by decide⟩
  (fun x y _ _ => UInt32.le_iff_toNat_le.mpr (Nat.zero_le _)) ⟨0, by decide, rfl⟩ (conv_u32_i64 0)
  (fun x y h => by
    show (conv x : Int64).toInt < (conv y : Int64).toInt
    rw [conv_u32_i64, conv_u32_i64]; exact_mod_cast UInt32.lt_iff_toNat_lt.mp h)
  (fun x y _ _ => by rw [conv_u32_i64]; have := (truncD x y).toNat_lt; omega) (by decide) (samples := true) (r := r) h

end KMedoids
