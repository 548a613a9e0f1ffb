import Verif.Proofs.MscErr
import Verif.Proofs.FloatSwap
import Verif.Proofs.MscLoss
import Mathlib.Tactic.Positivity

/-!
# Rounding errors of the gains of FasterMSC, FastMSC and PAMMEDSIL

The gain of an exchange is the sum of old minus new ratios. The code computes it from quotients of distances; one quotient
contains a *sum* of distances, rounded in the type of the distances (`SumErr`).
-/

set_option linter.unusedSectionVars false

namespace KMedoids

open RFrom (conv)

/-! ## More about `Appr` -/

section appr
variable {L K : Type} [RLoss L] [Field K] [LinearOrder K] [IsStrictOrderedRing K]
variable {fin : L → Prop} {val : L → K} {u B : K}

/-- A difference of approximations. -/
theorem Appr.sub_of (M : StdModel fin val u B) {m : Nat} {S A S' A' : K} {x y : L} (h : Appr fin val u m S A x)
    (h' : Appr fin val u m S' A' y) (hB : (1 + u) ^ m * (A + A') ≤ B) :
    Appr fin val u (m + 1) (S - S') (A + A') (RLoss.sub x y) := by
  have hx := h.abs_val
  have hy := h'.abs_val
  have hxy : |val x - val y| ≤ (1 + u) ^ m * (A + A') := by
    calc |val x - val y| ≤ |val x| + |val y| := abs_sub _ _
      _ ≤ _ := by rw [mul_add]; exact add_le_add hx hy
  obtain ⟨h1, h2⟩ := M.sub x y h.fin h'.fin (hxy.trans hB)
  refine ⟨h1, (abs_sub _ _).trans (add_le_add h.abs_le h'.abs_le), ?_⟩
  have h3 := mul_le_mul_of_nonneg_left hxy M.u_nonneg
  have h4 : |val (RLoss.sub x y) - (S - S')| ≤
      |val (RLoss.sub x y) - (val x - val y)| + (|val x - S| + |val y - S'|) := by
    have e : val (RLoss.sub x y) - (S - S') =
        (val (RLoss.sub x y) - (val x - val y)) + ((val x - S) - (val y - S')) := by ring
    rw [e]
    exact (abs_add_le _ _).trans (add_le_add_right (abs_sub _ _) _)
  have h5 := h.err
  have h6 := h'.err
  calc _ ≤ _ := h4
    _ ≤ u * ((1 + u) ^ m * (A + A')) + (((1 + u) ^ m - 1) * A + ((1 + u) ^ m - 1) * A') :=
      add_le_add (h2.trans h3) (add_le_add h5 h6)
    _ = _ := by rw [pow_succ]; ring

/-- As `Appr.foldl`, for terms of any level. -/
theorem Appr.foldl_at (M : StdModel fin val u B) {α : Type} {step : L → α → L} {S A : α → K} {ps : List α} {m0 : Nat}
    (hstep : ∀ p ∈ ps, 0 ≤ A p ∧ ((S p = 0 ∧ ∀ acc, step acc p = acc) ∨
      ∃ t, Appr fin val u m0 (S p) (A p) t ∧ ∀ acc, step acc p = RLoss.add acc t))
    {m : Nat} (hm : m0 ≤ m) {s a : K} {x : L} (h : Appr fin val u m s a x)
    (hB : (1 + u) ^ (m + ps.length) * (a + (ps.map A).sum) ≤ B) :
    Appr fin val u (m + ps.length) (s + (ps.map S).sum) (a + (ps.map A).sum) (ps.foldl step x) := by
  induction ps generalizing m s a x with
  | nil => simpa using h
  | cons p ps ih =>
    obtain ⟨hA, hp⟩ := hstep p (by simp)
    have hrest : 0 ≤ (ps.map A).sum := List.sum_nonneg fun y hy => by
      obtain ⟨q, hq, rfl⟩ := List.mem_map.mp hy
      exact (hstep q (by simp [hq])).1
    have ha := h.nonneg
    rw [List.foldl_cons, List.map_cons, List.map_cons, List.sum_cons, List.sum_cons, ← add_assoc, ← add_assoc,
      List.length_cons, show m + (ps.length + 1) = (m + 1) + ps.length by omega]
    rw [List.map_cons, List.sum_cons, ← add_assoc, List.length_cons,
      show m + (ps.length + 1) = (m + 1) + ps.length by omega] at hB
    refine ih (fun q hq => hstep q (by simp [hq])) (by omega) ?_ hB
    rcases hp with ⟨h0, hs⟩ | ⟨t, ht, hs⟩
    · rw [hs, h0, add_zero]
      exact h.mono M (by omega) (by linarith)
    · rw [hs]
      refine h.add M (ht.mono M hm le_rfl) (le_trans ?_ hB)
      have h1 : (1 + u) ^ m ≤ (1 + u) ^ (m + 1 + ps.length) := M.pow_mono (by omega)
      have h2 := M.one_le_pow m
      exact mul_le_mul h1 (by linarith) (by linarith) (by linarith)

/-- The search for the largest value. -/
theorem findMaxP_float (M : StdModel fin val u B) {l : List L} (h : l ≠ []) (hf : ∀ x ∈ l, fin x) :
    (findMaxP l).2 = l.getD (findMaxP l).1 RLoss.zero ∧ (findMaxP l).1 < l.length ∧
      ∀ x ∈ l, val x ≤ val (findMaxP l).2 := by
  refine ⟨?_, findMaxP_lt h, ?_⟩
  · have hg : ∀ (post pre : List L) (b : Nat × L), b.1 < pre.length → b.2 = pre.getD b.1 RLoss.zero →
        (findMaxGo post pre.length b).2 = (pre ++ post).getD (findMaxGo post pre.length b).1 RLoss.zero := by
      intro post
      induction post with
      | nil => intro pre b _ h2; simpa [findMaxGo] using h2
      | cons x post ih =>
        intro pre b h1 h2
        have key := ih (pre ++ [x]) (if rgt x b.2 then (pre.length, x) else b)
        simp only [List.length_append, List.length_singleton, List.append_assoc, List.singleton_append] at key
        simp only [findMaxGo]
        apply key
        · split
          · simp
          · omega
        · split
          · simp
          · rw [h2]; simp [List.getElem?_append_left h1]
    cases l with
    | nil => exact absurd rfl h
    | cons x xs => exact hg xs [x] (0, x) (by simp) (by simp)
  · have hg : ∀ (xs : List L) (i : Nat) (b : Nat × L), fin b.2 → (∀ x ∈ xs, fin x) →
        val b.2 ≤ val (findMaxGo xs i b).2 ∧ ∀ x ∈ xs, val x ≤ val (findMaxGo xs i b).2 := by
      intro xs
      induction xs with
      | nil => intro i b _ _; exact ⟨le_rfl, by simp⟩
      | cons y xs ih =>
        intro i b hb hx
        have hy := hx y (by simp)
        simp only [findMaxGo]
        by_cases hc : rgt y b.2 = true
        · simp only [hc, if_true]
          obtain ⟨i1, i2⟩ := ih (i + 1) (i, y) hy fun x h => hx x (by simp [h])
          have hlt := (DivModel.rgt_iff M hy hb).mp hc
          refine ⟨hlt.le.trans i1, fun x h => ?_⟩
          rcases List.mem_cons.mp h with rfl | h
          · exact i1
          · exact i2 x h
        · simp only [hc, if_false, Bool.false_eq_true]
          obtain ⟨i1, i2⟩ := ih (i + 1) b hb fun x h => hx x (by simp [h])
          have hle := not_lt.mp fun h => hc ((DivModel.rgt_iff M hy hb).mpr h)
          refine ⟨i1, fun x h => ?_⟩
          rcases List.mem_cons.mp h with rfl | h
          · exact hle.trans i1
          · exact i2 x h
    cases l with
    | nil => exact absurd rfl h
    | cons x xs =>
      obtain ⟨g1, g2⟩ := hg xs 1 (0, x) (hf x (by simp)) fun y hy => hf y (by simp [hy])
      intro y hy
      rcases List.mem_cons.mp hy with rfl | hy
      · exact g1
      · exact g2 y hy

/-- A rounded sum is positive exactly if the sum is. -/
theorem StdModel.add_pos_iff (M : StdModel fin val u B) {a b : L} (ha : fin a) (hb : fin b) (hB : |val a + val b| ≤ B) :
    0 < val (RLoss.add a b) ↔ 0 < val a + val b := by
  obtain ⟨-, h⟩ := M.add a b ha hb hB
  have h1 := M.u_lt_one
  have h0 := M.u_nonneg
  have h' := abs_le.mp h
  constructor
  · intro hp
    by_contra hn
    rw [not_lt] at hn
    rw [abs_of_nonpos hn] at h'
    nlinarith [h'.2]
  · intro hp
    rw [abs_of_pos hp] at h'
    nlinarith [h'.1]

end appr

/-! ## Exact gains -/

section exact
variable {N K : Type} [LinearOrder N] [Zero N] [RDist N] [LawfulDist N] [Field K]
variable (cv : N → K)

/-- The ratio of an object from its record. -/
def ratioV (r : Reco N) : K := cv r.near.d / cv r.seco.d

/-- The ratio after medoid number `b` is replaced by an object at distance `x`. -/
def newRatioV (r : Reco N) (b : Nat) (x : N) : K := ratioV cv (mscSwapRecG (fun _ _ => ⟨b, x⟩) b x r)

/-- Contribution to the removal loss of medoid `m`. -/
def remV (m : Nat) (r : Reco N) : K :=
  (if r.near.i = m then cv r.near.d / cv r.seco.d - cv r.seco.d / cv r.third.d else 0) +
  (if r.seco.i = m then cv r.near.d / cv r.seco.d - cv r.near.d / cv r.third.d else 0)

/-- Contribution to the slot of the nearest medoid; `sx` is the sum of the distances `x` and to the nearest medoid. -/
def nearV (sx : K) (x : N) (r : Reco N) : K :=
  if x < r.near.d then cv x / cv r.near.d + cv r.seco.d / cv r.third.d - sx / cv r.seco.d
  else if x < r.seco.d then cv r.near.d / cv x + cv r.seco.d / cv r.third.d - sx / cv r.seco.d
  else if x < r.third.d then cv r.seco.d / cv r.third.d - cv r.seco.d / cv x
  else 0

/-- Contribution to the slot of the second nearest medoid. -/
def secoV (x : N) (r : Reco N) : K :=
  if x < r.near.d then cv r.near.d / cv r.third.d - cv r.near.d / cv r.seco.d
  else if x < r.seco.d then cv r.near.d / cv r.third.d - cv r.near.d / cv r.seco.d
  else if x < r.third.d then cv r.near.d / cv r.third.d - cv r.near.d / cv x
  else 0

/-- Contribution to the slot of medoid `m`. -/
def slotV (sx : K) (x : N) (m : Nat) (r : Reco N) : K :=
  (if r.near.i = m then nearV cv sx x r else 0) + (if r.seco.i = m then secoV cv x r else 0)

/-- Contribution to the shared accumulator. -/
def accV (x : N) (r : Reco N) : K :=
  if x < r.near.d then cv r.near.d / cv r.seco.d - cv x / cv r.near.d
  else if x < r.seco.d then cv r.near.d / cv r.seco.d - cv r.near.d / cv x
  else 0

theorem newRatioV_utn (utn : Nat → Nat → DistancePair N) (r : Reco N) (b : Nat) (x : N) :
    ratioV cv (mscSwapRecG utn b x r) = newRatioV cv r b x := by
  unfold newRatioV mscSwapRecG
  split
  · split
    · rfl
    · split <;> rfl
  · split
    · split
      · rfl
      · split <;> rfl
    · split
      · rfl
      · split
        · rfl
        · split
          · rfl
          · split <;> rfl

/-- **The contributions add up to the change of the ratio.** -/
theorem gainV {k : Nat} (hk : 3 ≤ k) (hku : k < u32Max) {f : Nat → N} {r : Reco N} (h : Top3 k f r) (m : Nat) (x : N) :
    remV cv m r + slotV cv (cv r.near.d + cv x) x m r + accV cv x r = ratioV cv r - newRatioV cv r m x := by
  obtain ⟨t1, t2, t3, t4, t5, t6⟩ := h.third_of hk
  have htu : r.third.i ≠ u32Max := by omega
  have hne := h.ne
  have hle := h.le
  unfold newRatioV mscSwapRecG ratioV remV slotV nearV secoV accV
  simp only [rltN, decide_eq_true_eq, Bool.or_eq_true, beq_iff_eq, htu, false_or]
  by_cases h1 : x < r.near.d
  · have h2 : x < r.seco.d := lt_of_lt_of_le h1 hle
    simp only [h1, if_true]
    by_cases h3 : r.near.i = m
    · have h4 : r.seco.i ≠ m := by omega
      simp only [h3, h4, h2, if_true, if_false]; ring
    · by_cases h4 : r.seco.i = m
      · simp only [h3, h4, if_true, if_false]; ring
      · simp only [h3, h4, if_false]; ring
  · simp only [h1, if_false]
    by_cases h2 : x < r.seco.d
    · have h2' : x < r.third.d := lt_of_lt_of_le h2 t5
      simp only [h2, if_true]
      by_cases h3 : r.near.i = m
      · have h4 : r.seco.i ≠ m := by omega
        simp only [h3, h4, if_true, if_false]; ring
      · by_cases h4 : r.seco.i = m
        · simp only [h3, h4, h2', if_true, if_false]; ring
        · simp only [h3, h4, if_false]; ring
    · simp only [h2, if_false]
      by_cases h5 : x < r.third.d
      · simp only [h5, if_true]
        by_cases h3 : r.near.i = m
        · have h4 : r.seco.i ≠ m := by omega
          simp only [h3, h4, if_true, if_false]; ring
        · by_cases h4 : r.seco.i = m
          · simp only [h3, h4, if_true, if_false]; ring
          · simp only [h3, h4, if_false]; ring
      · simp only [h5, if_false]
        by_cases h3 : r.near.i = m
        · have h4 : r.seco.i ≠ m := by omega
          simp only [h3, h4, if_true, if_false]; ring
        · by_cases h4 : r.seco.i = m
          · simp only [h3, h4, if_true, if_false]; ring
          · by_cases h6 : r.third.i = m
            · simp only [h3, h4, h6, if_true, if_false]; ring
            · simp only [h3, h4, h6, if_false]; ring

end exact

/-! ## The computed slots -/

section slots
variable {N L : Type} [RDist N] [RLoss L] [RFrom N L]

/-- `mscRemP`, one slot. -/
def mscRemSlotP (L : Type) [RLoss L] [RFrom N L] (m : Nat) (acc : L) (r : Reco N) : L :=
  if r.near.i = m then RLoss.add acc (RLoss.sub (mscLoss L r.near.d r.seco.d) (mscLoss L r.seco.d r.third.d))
  else if r.seco.i = m then RLoss.add acc (RLoss.sub (mscLoss L r.near.d r.seco.d) (mscLoss L r.near.d r.third.d))
  else acc

theorem mscRemP_slot {data : List (Reco N)} {k : Nat} (hidx : ∀ r ∈ data, RecoIdx k r)
    (hne : ∀ r ∈ data, r.near.i ≠ r.seco.i) (m : Nat) :
    (mscRemP L data k).getD m RLoss.zero = data.foldl (mscRemSlotP L m) RLoss.zero := by
  have h : ∀ xs : List (Reco N), (∀ r ∈ xs, RecoIdx k r) → (∀ r ∈ xs, r.near.i ≠ r.seco.i) → ∀ a : List L, a.length = k →
      (xs.foldl (fun (loss : List L) (r : Reco N) =>
        addAtP (addAtP loss r.near.i (RLoss.sub (mscLoss L r.near.d r.seco.d) (mscLoss L r.seco.d r.third.d)))
          r.seco.i (RLoss.sub (mscLoss L r.near.d r.seco.d) (mscLoss L r.near.d r.third.d))) a).getD m RLoss.zero =
      xs.foldl (mscRemSlotP L m) (a.getD m RLoss.zero) := by
    intro xs
    induction xs with
    | nil => intro _ _ a _; rfl
    | cons r xs ih =>
      intro hx hne a ha
      have h1 : r.near.i < a.length := ha ▸ (hx r (by simp)).near
      have h2 : ∀ v, r.seco.i < (addAtP a r.near.i v).length := by
        intro v; rw [addAtP_length, ha]; exact (hx r (by simp)).seco
      have hn := hne r (by simp)
      rw [List.foldl_cons, List.foldl_cons, ih (fun r hr => hx r (by simp [hr])) (fun r hr => hne r (by simp [hr])) _
        (by simpa using ha), addAtP_slot (h2 _), addAtP_slot h1]
      congr 1
      unfold mscRemSlotP
      by_cases e1 : r.near.i = m
      · have e2 : r.seco.i ≠ m := fun e => hn (e1.trans e.symm)
        simp only [e1, e2, if_true, if_false]
      · simp only [e1, if_false]
  unfold mscRemP
  rw [h data hidx hne _ (by simp)]
  congr 1
  simp only [List.getD_eq_getElem?_getD, List.getElem?_replicate]
  split <;> simp

/-- `mscFindStepP`, one slot. -/
def mscSlotP (d : Nat → Nat → N) (j m : Nat) (acc : L) (p : Reco N × Nat) : L :=
  let doj := d p.2 j
  let n := p.1.near
  let s := p.1.seco
  let t := p.1.third
  if rlt doj n.d then
    if n.i = m then RLoss.add acc (RLoss.sub (RLoss.add (mscLoss L doj n.d) (mscLoss L s.d t.d))
        (mscLoss L (RDist.add n.d doj) s.d))
    else if s.i = m then RLoss.add acc (RLoss.sub (mscLoss L n.d t.d) (mscLoss L n.d s.d))
    else acc
  else if rlt doj s.d then
    if n.i = m then RLoss.add acc (RLoss.sub (RLoss.add (mscLoss L n.d doj) (mscLoss L s.d t.d))
        (mscLoss L (RDist.add n.d doj) s.d))
    else if s.i = m then RLoss.add acc (RLoss.sub (mscLoss L n.d t.d) (mscLoss L n.d s.d))
    else acc
  else if rlt doj t.d then
    if n.i = m then RLoss.add acc (RLoss.sub (mscLoss L s.d t.d) (mscLoss L s.d doj))
    else if s.i = m then RLoss.add acc (RLoss.sub (mscLoss L n.d t.d) (mscLoss L n.d doj))
    else acc
  else acc

/-- `mscFindStepP`, the shared accumulator. -/
def mscAccP (d : Nat → Nat → N) (j : Nat) (acc : L) (p : Reco N × Nat) : L :=
  let doj := d p.2 j
  let n := p.1.near
  let s := p.1.seco
  if rlt doj n.d then RLoss.add acc (RLoss.sub (mscLoss L n.d s.d) (mscLoss L doj n.d))
  else if rlt doj s.d then RLoss.add acc (RLoss.sub (mscLoss L n.d s.d) (mscLoss L n.d doj))
  else acc

theorem msc_slot (d : Nat → Nat → N) (j m : Nat) {k : Nat} {xs : List (Reco N × Nat)} (hidx : ∀ p ∈ xs, RecoIdx k p.1)
    (hne : ∀ p ∈ xs, p.1.near.i ≠ p.1.seco.i) {a : List L} (ha : a.length = k) (acc : L) :
    (xs.foldl (mscFindStepP d j) (a, acc)).1.getD m RLoss.zero = xs.foldl (mscSlotP d j m) (a.getD m RLoss.zero) ∧
      (xs.foldl (mscFindStepP d j) (a, acc)).2 = xs.foldl (mscAccP d j) acc := by
  induction xs generalizing a acc with
  | nil => exact ⟨rfl, rfl⟩
  | cons p xs ih =>
    have hi : p.1.near.i < a.length := ha ▸ (hidx p (by simp)).near
    have hs : ∀ v, p.1.seco.i < (addAtP a p.1.near.i v).length := by
      intro v; rw [addAtP_length, ha]; exact (hidx p (by simp)).seco
    have hn := hne p (by simp)
    have hl := mscFindStepP_length d j (a, acc) p
    have key := ih (fun q hq => hidx q (by simp [hq])) (fun q hq => hne q (by simp [hq]))
      (a := (mscFindStepP d j (a, acc) p).1) (hl.trans ha) (mscFindStepP d j (a, acc) p).2
    rw [List.foldl_cons, List.foldl_cons, List.foldl_cons]
    refine ⟨key.1.trans (congrArg (fun x => xs.foldl (mscSlotP d j m) x) ?_),
      key.2.trans (congrArg (fun x => xs.foldl (mscAccP d j) x) ?_)⟩
    · unfold mscFindStepP mscSlotP
      have hcase : ∀ v w : L, (addAtP (addAtP a p.1.near.i v) p.1.seco.i w).getD m RLoss.zero =
          if p.1.near.i = m then RLoss.add (a.getD m RLoss.zero) v
          else if p.1.seco.i = m then RLoss.add (a.getD m RLoss.zero) w else a.getD m RLoss.zero := by
        intro v w
        rw [addAtP_slot (hs v), addAtP_slot hi]
        by_cases e1 : p.1.near.i = m
        · have e2 : p.1.seco.i ≠ m := fun e => hn (e1.trans e.symm)
          simp only [e1, e2, if_true, if_false]
        · simp only [e1, if_false]
      dsimp only
      split
      · exact hcase _ _
      · split
        · exact hcase _ _
        · split
          · exact hcase _ _
          · rfl
    · unfold mscFindStepP mscAccP
      dsimp only
      split
      · rfl
      · split
        · rfl
        · split <;> rfl

end slots

/-! ## Rounding errors -/

variable {N L K : Type} [LinearOrder N] [Zero N] [RDist N] [LawfulDist N] [RLoss L] [RFrom N L]
  [Field K] [LinearOrder K] [IsStrictOrderedRing K]
variable {fin : L → Prop} {val : L → K} {u B eta : K} {C : Nat}

/-- Sums of two distances of an object are right up to the relative error `v`. -/
def SumErr (val : L → K) (v : K) (n : Nat) (d : Nat → Nat → N) : Prop :=
  ∀ o x y, o < n → x < n → y < n →
    |val (conv (RDist.add (d o x) (d o y)) : L) - (val (conv (d o x) : L) + val (conv (d o y) : L))| ≤
      v * (val (conv (d o x) : L) + val (conv (d o y) : L))

/-- Any computed quotient. -/
theorem QuotLoss.quot_at (Q : QuotLoss N fin val u B eta C) {a b : N} (hb : 0 ≤ b) {A : K}
    (hA : |val (conv a : L) / val (conv b : L)| ≤ A) (h1 : 1 ≤ A) (hB : A ≤ B) :
    Appr fin val u 1 (val (conv a : L) / val (conv b : L)) A (mscLoss L a b) := by
  unfold mscLoss
  simp only [LawfulDist.isZero_eq, Bool.or_eq_true, decide_eq_true_eq]
  have hu := Q.loss.std.u_nonneg
  by_cases h : a = 0 ∨ b = 0
  · rw [if_pos h]
    have h0 : val (conv a : L) / val (conv b : L) = 0 := by
      rcases h with h | h
      · rw [h, Q.val_zero, zero_div]
      · rw [h, Q.val_zero, div_zero]
    refine ⟨Q.loss.std.zero_fin, hA, ?_⟩
    rw [h0, Q.loss.std.zero, sub_zero, abs_zero]
    exact mul_nonneg (by simpa using hu) (by linarith)
  · rw [if_neg h]
    rw [not_or] at h
    obtain ⟨h2, h3⟩ := Q.div.div_abs (Q.loss.conv_fin a) (Q.loss.conv_fin b)
      (Q.pos b (lt_of_le_of_ne hb (Ne.symm h.2))).ne' hA h1 hB
    exact ⟨h2, hA, by simpa using h3⟩

section gain
variable {n : Nat} {d : Nat → Nat → N} {med : List Nat} {data : List (Reco N)}

theorem sum_range_zip {α : Type} (data : List α) (f : Nat → K) :
    ((List.range data.length).map f).sum = (data.zipIdx.map fun p => f p.2).sum := by
  congr 1
  rw [List.range_eq_range', ← List.zipIdx_map_snd 0 data, List.map_map]
  rfl

variable (Q : QuotLoss N fin val u B eta C) (hd : Dissim n d) (h : MCache n d med data)
include Q h

theorem exactRatios_cache : exactRatios N val n d med = (data.zipIdx.map fun p => ratioV (fun x => val (conv x : L)) p.1).sum := by
  rw [exactRatios, ← h.len, sum_range_zip]
  congr 1
  exact List.map_congr_left fun p hp => Q.ratio_of (h.recs p hp).twoMin

theorem exactRatios_set (hku : med.length < u32Max) {b : Nat} (hb : b < med.length) (j : Nat) :
    exactRatios N val n d (med.set b j) =
      (data.zipIdx.map fun p => newRatioV (fun x => val (conv x : L)) p.1 b (d p.2 j)).sum := by
  rw [exactRatios, ← h.len, sum_range_zip]
  congr 1
  refine List.map_congr_left fun p hp => ?_
  have hsb : (med.set b j)[b]? = some j := by rw [getElem?_set_lt hb]; simp
  have hu := utnP_ok d (o := p.2) hsb
  obtain ⟨hs1, hs2⟩ := medDist_set (d := d) (j := j) (o := p.2) hb
  have hlen : (med.set b j).length = med.length := by simp
  rw [hlen] at hu
  have := mscSwapRecG_top3 hku hb hs1 hs2 hu (h.recs p hp)
  rw [← hlen] at this
  rw [← newRatioV_utn]
  exact Q.ratio_of this.twoMin

omit Q in
/-- Bounds on the distances of a record. -/
theorem rec_range (hd : Dissim n d) (hr : ∀ m ∈ med, m < n) {p : Reco N × Nat} (hp : p ∈ data.zipIdx) :
    p.2 < n ∧ 0 ≤ p.1.near.d ∧ p.1.near.d ≤ p.1.seco.d ∧ ∃ c, c < n ∧ d p.2 c = p.1.near.d := by
  have ht := h.recs p hp
  have ho : p.2 < n := h.len ▸ mem_zipIdx_lt hp
  have hc : med[p.1.near.i]? = some (med[p.1.near.i]'ht.near_lt) := List.getElem?_eq_getElem _
  refine ⟨ho, h.near_nonneg hd hr hp, ht.le, _, hr _ (List.getElem_mem ht.near_lt), ?_⟩
  rw [← ht.near_d, medDist_get hc]

/-- One object and one slot of the removal loss. -/
theorem rem_term (hd : Dissim n d) (hr : ∀ m ∈ med, m < n) (hk : 3 ≤ med.length) (hB : (1 + u) * 2 ≤ B) (m : Nat)
    {p : Reco N × Nat} (hp : p ∈ data.zipIdx) :
    (0 : K) ≤ 2 ∧ ((remV (fun x => val (conv x : L)) m p.1 = 0 ∧ ∀ acc : L, mscRemSlotP L m acc p.1 = acc) ∨
      ∃ t : L, Appr fin val u 2 (remV (fun x => val (conv x : L)) m p.1) 2 t ∧
        ∀ acc, mscRemSlotP L m acc p.1 = RLoss.add acc t) := by
  refine ⟨by norm_num, ?_⟩
  have ht := h.recs p hp
  obtain ⟨-, -, -, -, t5, -⟩ := ht.third_of hk
  obtain ⟨-, r0, r1, -⟩ := rec_range h hd hr hp
  have hu := Q.loss.std.u_nonneg
  have hB1 : 1 ≤ B := by nlinarith
  have hB2 : (1 + u) ^ 1 * (1 + 1) ≤ B := by rw [pow_one, one_add_one_eq_two]; exact hB
  have hne := ht.ne
  have q1 := Q.quot hB1 r0 r1
  have q2 := Q.quot hB1 (r0.trans r1) t5
  have q3 := Q.quot hB1 r0 (r1.trans t5)
  unfold mscRemSlotP remV
  by_cases e1 : p.1.near.i = m
  · have e2 : p.1.seco.i ≠ m := fun e => hne (e1.trans e.symm)
    right
    refine ⟨_, ?_, fun acc => by rw [if_pos e1]⟩
    rw [if_pos e1, if_neg e2, add_zero]
    exact (q1.sub_of Q.loss.std q2 hB2).mono Q.loss.std le_rfl (by norm_num)
  · by_cases e2 : p.1.seco.i = m
    · right
      refine ⟨_, ?_, fun acc => by rw [if_neg e1, if_pos e2]⟩
      rw [if_neg e1, if_pos e2, zero_add]
      exact (q1.sub_of Q.loss.std q3 hB2).mono Q.loss.std le_rfl (by norm_num)
    · left
      exact ⟨by simp [e1, e2], fun acc => by rw [if_neg e1, if_neg e2]⟩

/-- The rounded sum of distances used for object `p`. -/
def sumX (val : L → K) (d : Nat → Nat → N) (j : Nat) (p : Reco N × Nat) : K :=
  val (conv (RDist.add p.1.near.d (d p.2 j)) : L)

/-- One object and one slot of the search. -/
theorem find_term (hd : Dissim n d) (hr : ∀ m ∈ med, m < n) (hk : 3 ≤ med.length) {v : K} (hv : v ≤ 1 / 2)
    (hS : SumErr val v n d) (hB : (1 + u) ^ 2 * 5 ≤ B) (m : Nat) {j : Nat} (hj : j < n)
    {p : Reco N × Nat} (hp : p ∈ data.zipIdx) :
    (0 : K) ≤ 5 ∧ ((slotV (fun x => val (conv x : L)) (sumX val d j p) (d p.2 j) m p.1 = 0 ∧
        ∀ acc : L, mscSlotP d j m acc p = acc) ∨
      ∃ t : L, Appr fin val u 3 (slotV (fun x => val (conv x : L)) (sumX val d j p) (d p.2 j) m p.1) 5 t ∧
        ∀ acc, mscSlotP d j m acc p = RLoss.add acc t) := by
  refine ⟨by norm_num, ?_⟩
  have M := Q.loss.std
  have ht := h.recs p hp
  obtain ⟨-, -, -, -, t5, -⟩ := ht.third_of hk
  obtain ⟨ho, r0, r1, c, hc, hcd⟩ := rec_range h hd hr hp
  have hx0 : 0 ≤ d p.2 j := hd.nonneg _ _ ho hj
  have hu := M.u_nonneg
  have hp1 : (1 : K) + u ≤ (1 + u) ^ 2 := by nlinarith
  have hB5 : (5 : K) ≤ B := by nlinarith
  have hB1 : 1 ≤ B := by linarith
  have hB2 : (1 + u) ^ 1 * (1 + 1) ≤ B := by rw [pow_one]; nlinarith
  have hB3 : (1 + u) ^ 2 * ((1 + 1) + 3) ≤ B := by norm_num; exact hB
  have hne := ht.ne
  -- the quotient with the sum
  have hsum : d p.2 j < p.1.seco.d →
      Appr fin val u 1 (sumX val d j p / val (conv p.1.seco.d : L)) 3 (mscLoss L (RDist.add p.1.near.d (d p.2 j)) p.1.seco.d) := by
    intro hlt
    refine Q.quot_at (r0.trans r1) ?_ (by norm_num) (by linarith)
    have hs0 : 0 < val (conv p.1.seco.d : L) := Q.pos _ (lt_of_le_of_lt hx0 hlt)
    have e := hS p.2 c j ho hc hj
    rw [hcd] at e
    have g1 : val (conv p.1.near.d : L) ≤ val (conv p.1.seco.d : L) := Q.loss.conv_mono r1
    have g2 : val (conv (d p.2 j) : L) ≤ val (conv p.1.seco.d : L) := Q.loss.conv_mono hlt.le
    have g3 : 0 ≤ val (conv p.1.near.d : L) := Q.loss.val_nonneg r0
    have g4 : 0 ≤ val (conv (d p.2 j) : L) := Q.loss.val_nonneg hx0
    have e' := abs_le.mp e
    rw [abs_div, abs_of_pos hs0, div_le_iff₀ hs0, abs_le]
    constructor <;> nlinarith [e'.1, e'.2]
  have two : ∀ {a b a' b' : N}, 0 ≤ a → a ≤ b → 0 ≤ a' → a' ≤ b' → Appr fin val u 3
      (val (conv a : L) / val (conv b : L) - val (conv a' : L) / val (conv b' : L)) 5
      (RLoss.sub (mscLoss L a b) (mscLoss L a' b')) := fun ha hab ha' hab' =>
    ((Q.quot hB1 ha hab).sub_of M (Q.quot hB1 ha' hab') hB2).mono M (by norm_num) (by norm_num)
  have three : ∀ {a b a' b' : N}, 0 ≤ a → a ≤ b → 0 ≤ a' → a' ≤ b' → d p.2 j < p.1.seco.d → Appr fin val u 3
      (val (conv a : L) / val (conv b : L) + val (conv a' : L) / val (conv b' : L) -
        sumX val d j p / val (conv p.1.seco.d : L)) 5
      (RLoss.sub (RLoss.add (mscLoss L a b) (mscLoss L a' b')) (mscLoss L (RDist.add p.1.near.d (d p.2 j)) p.1.seco.d)) :=
    fun ha hab ha' hab' hlt => by
      have h1 := (Q.quot hB1 ha hab).add M (Q.quot hB1 ha' hab') hB2
      have h2 := h1.sub_of M ((hsum hlt).mono M (show 1 ≤ 2 by norm_num) le_rfl) hB3
      exact h2.mono M le_rfl (by norm_num)
  unfold mscSlotP slotV nearV secoV
  simp only [rltN, decide_eq_true_eq]
  by_cases h1 : d p.2 j < p.1.near.d
  · have h2 : d p.2 j < p.1.seco.d := lt_of_lt_of_le h1 r1
    simp only [h1, if_true]
    by_cases e1 : p.1.near.i = m
    · have e2 : p.1.seco.i ≠ m := fun e => hne (e1.trans e.symm)
      simp only [e1, e2, if_true, if_false, add_zero]
      exact .inr ⟨_, three hx0 h1.le (r0.trans r1) t5 h2, fun _ => rfl⟩
    · by_cases e2 : p.1.seco.i = m
      · simp only [e1, e2, if_true, if_false, zero_add]
        exact .inr ⟨_, two r0 (r1.trans t5) r0 r1, fun _ => rfl⟩
      · simp only [e1, e2, if_false, add_zero]
        exact .inl ⟨trivial, fun _ => trivial⟩
  · simp only [h1, if_false]
    have h1' := not_lt.mp h1
    by_cases h2 : d p.2 j < p.1.seco.d
    · simp only [h2, if_true]
      by_cases e1 : p.1.near.i = m
      · have e2 : p.1.seco.i ≠ m := fun e => hne (e1.trans e.symm)
        simp only [e1, e2, if_true, if_false, add_zero]
        exact .inr ⟨_, three r0 h1' (r0.trans r1) t5 h2, fun _ => rfl⟩
      · by_cases e2 : p.1.seco.i = m
        · simp only [e1, e2, if_true, if_false, zero_add]
          exact .inr ⟨_, two r0 (r1.trans t5) r0 r1, fun _ => rfl⟩
        · simp only [e1, e2, if_false, add_zero]
          exact .inl ⟨trivial, fun _ => trivial⟩
    · simp only [h2, if_false]
      have h2' := not_lt.mp h2
      by_cases h3 : d p.2 j < p.1.third.d
      · simp only [h3, if_true]
        by_cases e1 : p.1.near.i = m
        · have e2 : p.1.seco.i ≠ m := fun e => hne (e1.trans e.symm)
          simp only [e1, e2, if_true, if_false, add_zero]
          exact .inr ⟨_, two (r0.trans r1) t5 (r0.trans r1) h2', fun _ => rfl⟩
        · by_cases e2 : p.1.seco.i = m
          · simp only [e1, e2, if_true, if_false, zero_add]
            exact .inr ⟨_, two r0 (r1.trans t5) r0 h1', fun _ => rfl⟩
          · simp only [e1, e2, if_false, add_zero]
            exact .inl ⟨trivial, fun _ => trivial⟩
      · simp only [h3, if_false, ite_self, add_zero]
        exact .inl ⟨trivial, fun _ => trivial⟩

/-- One object and the shared accumulator. -/
theorem acc_term (hd : Dissim n d) (hr : ∀ m ∈ med, m < n) (hB : (1 + u) * 2 ≤ B) {j : Nat} (hj : j < n)
    {p : Reco N × Nat} (hp : p ∈ data.zipIdx) :
    (0 : K) ≤ 2 ∧ ((accV (fun x => val (conv x : L)) (d p.2 j) p.1 = 0 ∧ ∀ acc : L, mscAccP d j acc p = acc) ∨
      ∃ t : L, Appr fin val u 2 (accV (fun x => val (conv x : L)) (d p.2 j) p.1) 2 t ∧
        ∀ acc, mscAccP d j acc p = RLoss.add acc t) := by
  refine ⟨by norm_num, ?_⟩
  obtain ⟨ho, r0, r1, -⟩ := rec_range h hd hr hp
  have hx0 : 0 ≤ d p.2 j := hd.nonneg _ _ ho hj
  have hu := Q.loss.std.u_nonneg
  have hB1 : 1 ≤ B := by nlinarith
  have hB2 : (1 + u) ^ 1 * (1 + 1) ≤ B := by rw [pow_one, one_add_one_eq_two]; exact hB
  have two : ∀ {a b a' b' : N}, 0 ≤ a → a ≤ b → 0 ≤ a' → a' ≤ b' → Appr fin val u 2
      (val (conv a : L) / val (conv b : L) - val (conv a' : L) / val (conv b' : L)) 2
      (RLoss.sub (mscLoss L a b) (mscLoss L a' b')) := fun ha hab ha' hab' =>
    ((Q.quot hB1 ha hab).sub_of Q.loss.std (Q.quot hB1 ha' hab') hB2).mono Q.loss.std (by norm_num) (by norm_num)
  unfold mscAccP accV
  simp only [rltN, decide_eq_true_eq]
  by_cases h1 : d p.2 j < p.1.near.d
  · simp only [h1, if_true]
    exact .inr ⟨_, two r0 r1 hx0 h1.le, fun _ => rfl⟩
  · simp only [h1, if_false]
    by_cases h2 : d p.2 j < p.1.seco.d
    · simp only [h2, if_true]
      exact .inr ⟨_, two r0 r1 r0 (not_lt.mp h1), fun _ => rfl⟩
    · simp only [h2, if_false]
      exact .inl ⟨trivial, fun _ => trivial⟩

omit Q in
/-- Using the rounded sum changes the contribution of an object by at most `2 v`. -/
theorem slot_diff (Q : QuotLoss N fin val u B eta C) (hd : Dissim n d) (hr : ∀ m ∈ med, m < n) {v : K} (hv0 : 0 ≤ v)
    (hS : SumErr val v n d) (m : Nat) {j : Nat} (hj : j < n) {p : Reco N × Nat} (hp : p ∈ data.zipIdx) :
    |slotV (fun x => val (conv x : L)) (sumX val d j p) (d p.2 j) m p.1 -
      slotV (fun x => val (conv x : L)) (val (conv p.1.near.d : L) + val (conv (d p.2 j) : L)) (d p.2 j) m p.1| ≤ 2 * v := by
  obtain ⟨ho, r0, r1, c, hc, hcd⟩ := rec_range h hd hr hp
  have hx0 : 0 ≤ d p.2 j := hd.nonneg _ _ ho hj
  have key : d p.2 j < p.1.seco.d → |(val (conv p.1.near.d : L) + val (conv (d p.2 j) : L)) / val (conv p.1.seco.d : L) -
      sumX val d j p / val (conv p.1.seco.d : L)| ≤ 2 * v := by
    intro hlt
    have hs0 : 0 < val (conv p.1.seco.d : L) := Q.pos _ (lt_of_le_of_lt hx0 hlt)
    have e := hS p.2 c j ho hc hj
    rw [hcd] at e
    have g1 : val (conv p.1.near.d : L) ≤ val (conv p.1.seco.d : L) := Q.loss.conv_mono r1
    have g2 : val (conv (d p.2 j) : L) ≤ val (conv p.1.seco.d : L) := Q.loss.conv_mono hlt.le
    rw [← sub_div, abs_div, abs_of_pos hs0, div_le_iff₀ hs0, abs_sub_comm]
    refine e.trans ?_
    nlinarith
  have h2v : 0 ≤ 2 * v := by linarith
  unfold slotV
  by_cases e1 : p.1.near.i = m
  · simp only [e1, if_true, add_sub_add_right_eq_sub]
    unfold nearV
    by_cases h1 : d p.2 j < p.1.near.d
    · simp only [h1, if_true]
      rw [sub_sub_sub_cancel_left]
      exact key (lt_of_lt_of_le h1 r1)
    · by_cases h2 : d p.2 j < p.1.seco.d
      · simp only [h1, h2, if_true, if_false]
        rw [sub_sub_sub_cancel_left]
        exact key h2
      · simp only [h1, h2, if_false, sub_self, abs_zero]
        exact h2v
  · simp only [e1, if_false, sub_self, abs_zero]
    exact h2v

end gain

end KMedoids
