import Verif.Proofs.FloatLoss
import Verif.Proofs.LossLoops

/-!
# The change computed by `find_best_swap` in floating point

Removal losses and the shared accumulator are sums of at most `n` rounded differences each; the computed change of an
exchange is compared with the exact change of the total deviation.
-/

set_option linter.unusedSectionVars false
set_option linter.overlappingInstances false

namespace KMedoids

variable {N L K : Type} [LinearOrder N] [Zero N] [RDist N] [LawfulDist N] [RLoss L] [RFrom N L]
  [Field K] [LinearOrder K] [IsStrictOrderedRing K]
open RFrom (conv)

variable {fin : L → Prop} {val : L → K} {u B : K}

/-! ## Removing a medoid -/

theorem RecOk.minDist_erase {d : Nat → Nat → N} {med : List Nat} {o : Nat} {r : Rec N} (h : RecOk d med o r) (b : Nat) :
    minDist d o (med.eraseIdx b) = if r.near.i = b then r.seco.d else r.near.d := by
  obtain ⟨c1, hc1, hd1⟩ := h.near
  obtain ⟨c2, hc2, hd2⟩ := h.seco
  split
  · rename_i hb
    rw [← hd2]
    refine KMedoids.minDist_eq (List.mem_eraseIdx_iff_getElem?.mpr ⟨_, fun e => h.ne (hb.trans e.symm), hc2⟩) fun c hc => ?_
    obtain ⟨i, hi, hc⟩ := List.mem_eraseIdx_iff_getElem?.mp hc
    rw [hd2]
    exact h.rest i c hc fun e => hi (e.trans hb)
  · rename_i hb
    rw [← hd1]
    refine KMedoids.minDist_eq (List.mem_eraseIdx_iff_getElem?.mpr ⟨_, hb, hc1⟩) fun c hc => ?_
    obtain ⟨i, -, hc⟩ := List.mem_eraseIdx_iff_getElem?.mp hc
    rw [hd1]
    by_cases hi : i = r.near.i
    · subst hi; rw [hc1] at hc; cases hc; exact hd1.ge
    · exact h.le.trans (h.rest i c hc hi)

/-! ## Slots -/

theorem addAtP_slot {a : List L} {i : Nat} (hi : i < a.length) (v : L) (m : Nat) :
    (addAtP a i v).getD m RLoss.zero = if i = m then RLoss.add (a.getD m RLoss.zero) v else a.getD m RLoss.zero := by
  simp only [addAtP, List.getD_eq_getElem?_getD, List.getElem?_modify]
  by_cases h : i = m
  · subst h; simp [hi]
  · simp [h]

/-- `remP`, one slot. -/
def remSlotP (L : Type) [RLoss L] [RFrom N L] (m : Nat) (acc : L) (r : Rec N) : L :=
  if r.near.i = m then RLoss.add acc (RLoss.sub (conv r.seco.d) (conv r.near.d)) else acc

theorem remP_slot {data : List (Rec N)} {k : Nat} (hidx : ∀ r ∈ data, RecIdx k r) (m : Nat) :
    (remP L data k).getD m RLoss.zero = data.foldl (remSlotP L m) RLoss.zero := by
  have h : ∀ xs : List (Rec N), (∀ r ∈ xs, RecIdx k r) → ∀ a : List L, a.length = k →
      (xs.foldl (fun (loss : List L) (r : Rec N) =>
        addAtP loss r.near.i (RLoss.sub (conv r.seco.d) (conv r.near.d))) a).getD m RLoss.zero =
      xs.foldl (remSlotP L m) (a.getD m RLoss.zero) := by
    intro xs
    induction xs with
    | nil => intro _ a _; rfl
    | cons r xs ih =>
      intro hx a ha
      rw [List.foldl_cons, List.foldl_cons, ih (fun r hr => hx r (by simp [hr])) _ (by simpa using ha),
        addAtP_slot (ha ▸ (hx r (by simp)).1)]
      rfl
  rw [remP, h data hidx _ (by simp)]
  congr 1
  simp only [List.getD_eq_getElem?_getD, List.getElem?_replicate]
  split <;> rfl

/-- `fbsStepP`, one slot. -/
def fbsSlotP (d : Nat → Nat → N) (j m : Nat) (acc : L) (p : Rec N × Nat) : L :=
  if p.1.near.i = m then
    if rlt (d p.2 j) p.1.near.d then RLoss.add acc (RLoss.sub (conv p.1.near.d) (conv p.1.seco.d))
    else if rlt (d p.2 j) p.1.seco.d then RLoss.add acc (RLoss.sub (conv (d p.2 j)) (conv p.1.seco.d))
    else acc
  else acc

/-- `fbsStepP`, the accumulator shared by all medoids. -/
def fbsAccP (d : Nat → Nat → N) (j : Nat) (acc : L) (p : Rec N × Nat) : L :=
  if rlt (d p.2 j) p.1.near.d then RLoss.add acc (RLoss.sub (conv (d p.2 j)) (conv p.1.near.d)) else acc

theorem fbs_slot (d : Nat → Nat → N) (j m : Nat) {k : Nat} {xs : List (Rec N × Nat)} (hidx : ∀ p ∈ xs, RecIdx k p.1)
    {a : List L} (ha : a.length = k) (acc : L) :
    (xs.foldl (fbsStepP d j) (a, acc)).1.getD m RLoss.zero = xs.foldl (fbsSlotP d j m) (a.getD m RLoss.zero) ∧
      (xs.foldl (fbsStepP d j) (a, acc)).2 = xs.foldl (fbsAccP d j) acc := by
  induction xs generalizing a acc with
  | nil => exact ⟨rfl, rfl⟩
  | cons p xs ih =>
    have hi : p.1.near.i < a.length := ha ▸ (hidx p (by simp)).1
    have ih' := fun {a : List L} (ha : a.length = k) acc => ih (fun q hq => hidx q (by simp [hq])) ha acc
    simp only [List.foldl_cons, fbsStepP, fbsSlotP, fbsAccP]
    by_cases h1 : rlt (d p.2 j) p.1.near.d = true
    · simp only [h1, if_true]
      obtain ⟨i1, i2⟩ := ih' (a := addAtP a p.1.near.i (RLoss.sub (conv p.1.near.d) (conv p.1.seco.d))) (by simpa using ha)
        (RLoss.add acc (RLoss.sub (conv (d p.2 j)) (conv p.1.near.d)))
      exact ⟨by rw [i1, addAtP_slot hi], i2⟩
    · by_cases h2 : rlt (d p.2 j) p.1.seco.d = true
      · simp only [h1, h2, if_true, if_false, Bool.false_eq_true]
        obtain ⟨i1, i2⟩ := ih' (a := addAtP a p.1.near.i (RLoss.sub (conv (d p.2 j)) (conv p.1.seco.d)))
          (by simpa using ha) acc
        exact ⟨by rw [i1, addAtP_slot hi], i2⟩
      · simp only [h1, h2, if_false, Bool.false_eq_true, ite_self]
        exact ih' ha acc

/-! ## Minimum -/

theorem findMinP_float (M : StdModel fin val u B) {l : List L} (h : l ≠ []) (hf : ∀ x ∈ l, fin x) :
    (findMinP l).2 = l.getD (findMinP l).1 RLoss.zero ∧ (findMinP l).1 < l.length ∧
      ∀ x ∈ l, val (findMinP l).2 ≤ val x := by
  refine ⟨?_, findMinP_lt h, ?_⟩
  · have hg : ∀ (post pre : List L) (b : Nat × L), b.1 < pre.length → b.2 = pre.getD b.1 RLoss.zero →
        (findMinGo post pre.length b).2 = (pre ++ post).getD (findMinGo post pre.length b).1 RLoss.zero := by
      intro post
      induction post with
      | nil => intro pre b _ h2; simpa [findMinGo] using h2
      | cons x post ih =>
        intro pre b h1 h2
        have key := ih (pre ++ [x]) (if rlt x b.2 then (pre.length, x) else b)
        simp only [List.length_append, List.length_singleton, List.append_assoc, List.singleton_append] at key
        simp only [findMinGo]
        apply key
        · split
          · simp
          · omega
        · split
          · simp
          · rw [h2]; simp [List.getElem?_append_left h1]
    cases l with
    | nil => exact absurd rfl h
    | cons x xs => exact hg xs [x] (0, x) (by simp) (by simp)
  · have hg : ∀ (xs : List L) (i : Nat) (b : Nat × L), fin b.2 → (∀ x ∈ xs, fin x) →
        val (findMinGo xs i b).2 ≤ val b.2 ∧ ∀ x ∈ xs, val (findMinGo xs i b).2 ≤ val x := by
      intro xs
      induction xs with
      | nil => intro i b _ _; exact ⟨le_rfl, by simp⟩
      | cons y xs ih =>
        intro i b hb hx
        have hy := hx y (by simp)
        simp only [findMinGo]
        by_cases hc : rlt y b.2 = true
        · simp only [hc, if_true]
          obtain ⟨i1, i2⟩ := ih (i + 1) (i, y) hy fun x h => hx x (by simp [h])
          have hlt := (M.rlt_iff hy hb).mp hc
          refine ⟨i1.trans hlt.le, fun x h => ?_⟩
          rcases List.mem_cons.mp h with rfl | h
          · exact i1
          · exact i2 x h
        · simp only [hc, if_false, Bool.false_eq_true]
          obtain ⟨i1, i2⟩ := ih (i + 1) b hb fun x h => hx x (by simp [h])
          have hle := not_lt.mp fun h => hc ((M.rlt_iff hy hb).mpr h)
          refine ⟨i1, fun x h => ?_⟩
          rcases List.mem_cons.mp h with rfl | h
          · exact i1.trans hle
          · exact i2 x h
    cases l with
    | nil => exact absurd rfl h
    | cons x xs =>
      obtain ⟨g1, g2⟩ := hg xs 1 (0, x) (hf x (by simp)) fun y hy => hf y (by simp [hy])
      intro y hy
      rcases List.mem_cons.mp hy with rfl | hy
      · exact g1
      · exact g2 y hy

/-- The sign of a rounded sum is right. -/
theorem StdModel.add_sign (M : StdModel fin val u B) {a b : L} (ha : fin a) (hb : fin b) (hB : |val a + val b| ≤ B) :
    0 ≤ val (RLoss.add a b) ↔ 0 ≤ val a + val b := by
  obtain ⟨-, h⟩ := M.add a b ha hb hB
  have h1 := M.u_lt_one
  have h0 := M.u_nonneg
  rw [abs_le] at h
  constructor
  · intro hs
    by_contra hn
    rw [not_le] at hn
    rw [abs_of_neg hn] at h
    nlinarith [h.2]
  · intro hs
    rw [abs_of_nonneg hs] at h
    nlinarith [h.1]

/-! ## Change -/

/-- Exact loss of removing medoid number `m`, for one object. -/
def gapP (L : Type) [RFrom N L] (val : L → K) (m : Nat) (r : Rec N) : K :=
  if r.near.i = m then val (conv r.seco.d) - val (conv r.near.d) else 0

section cache
variable {n : Nat} {d : Nat → Nat → N} {med : List Nat} {data : List (Rec N)}

theorem exactDev_cache (h : CacheOk n d med data) :
    exactDev N val n d med = (data.zipIdx.map fun p => val (conv p.1.near.d : L)).sum := by
  rw [exactDev, totalDev, ← h.len]
  have : (data.zipIdx.map fun p => val (conv p.1.near.d : L)) =
      (List.range data.length).map fun o => val (conv (minDist d o med) : L) := by
    rw [List.range_eq_range', ← List.zipIdx_map_snd 0 data, List.map_map]
    exact List.map_congr_left fun p hp => by simp [(h.recs p hp).minDist_eq]
  rw [this]

theorem exactDev_erase (h : CacheOk n d med data) (m : Nat) :
    exactDev N val n d (med.eraseIdx m) =
      exactDev N val n d med + (data.zipIdx.map fun p => gapP L val m p.1).sum := by
  rw [exactDev_cache h, ← List.sum_map_add, exactDev, totalDev, ← h.len]
  congr 1
  rw [List.range_eq_range', ← List.zipIdx_map_snd 0 data, List.map_map]
  refine List.map_congr_left fun p hp => ?_
  simp only [Function.comp, (h.recs p hp).minDist_erase, gapP]
  split <;> ring

theorem exactDev_set (h : CacheOk n d med data) {m : Nat} (hm : m < med.length) (j : Nat) :
    exactDev N val n d (med.set m j) =
      (data.zipIdx.map fun p => val (conv (min (d p.2 j) (if p.1.near.i = m then p.1.seco.d else p.1.near.d)) : L)).sum := by
  rw [exactDev, totalDev, ← h.len]
  congr 1
  rw [List.range_eq_range', ← List.zipIdx_map_snd 0 data, List.map_map]
  exact List.map_congr_left fun p hp => by simp only [Function.comp, (h.recs p hp).minDist_set hm]

variable (M : FloatLoss N fin val u B) (hd : Dissim n d) (h : CacheOk n d med data)
include M h

theorem gapP_nonneg {p : Rec N × Nat} (hp : p ∈ data.zipIdx) (m : Nat) : 0 ≤ gapP L val m p.1 := by
  have : val (conv p.1.near.d : L) ≤ val (conv p.1.seco.d) := M.conv_mono (h.recs p hp).le
  unfold gapP
  split
  · linarith
  · exact le_rfl

theorem gapP_le_sum {p : Rec N × Nat} (hp : p ∈ data.zipIdx) (m : Nat) :
    gapP L val m p.1 ≤ (data.zipIdx.map fun p => gapP L val m p.1).sum :=
  List.single_le_sum (fun x hx => by obtain ⟨q, hq, rfl⟩ := List.mem_map.mp hx; exact gapP_nonneg M h hq m) _
    (List.mem_map.mpr ⟨p, hp, rfl⟩)

omit M in
theorem near_nonneg (hd : Dissim n d) {p : Rec N × Nat} (hp : p ∈ data.zipIdx) : 0 ≤ p.1.near.d := by
  obtain ⟨c, hc, hcd⟩ := (h.recs p hp).near
  exact hcd ▸ hd.nonneg _ _ (h.len ▸ mem_zipIdx_lt hp) (h.range c (List.mem_of_getElem? hc))

/-- One removal loss. -/
theorem appr_rem (m : Nat) (hB : (1 + u) ^ (n + 1) * (data.zipIdx.map fun p => gapP L val m p.1).sum ≤ B) :
    Appr fin val u (n + 1) (data.zipIdx.map fun p => gapP L val m p.1).sum
      (data.zipIdx.map fun p => gapP L val m p.1).sum ((remP L data med.length).getD m RLoss.zero) := by
  rw [remP_slot h.shape.recIdx]
  have hfold : data.foldl (remSlotP L m) RLoss.zero = data.zipIdx.foldl (fun acc p => remSlotP L m acc p.1) RLoss.zero := by
    have : data = data.zipIdx.map Prod.fst := by simp
    conv_lhs => rw [this, List.foldl_map]
  have hlen : data.zipIdx.length = n := by rw [List.length_zipIdx, h.len]
  have hsum : 0 ≤ (data.zipIdx.map fun p => gapP L val m p.1).sum := List.sum_nonneg fun x hx => by
    obtain ⟨q, hq, rfl⟩ := List.mem_map.mp hx; exact gapP_nonneg M h hq m
  rw [hfold]
  have key := Appr.foldl M.std (step := fun acc (p : Rec N × Nat) => remSlotP L m acc p.1) (ps := data.zipIdx)
    (S := fun p => gapP L val m p.1) (A := fun p => gapP L val m p.1) (fun p hp => ?_) (le_refl 1)
    ((Appr.zero M.std).mono M.std (Nat.zero_le 1) le_rfl) (by rw [hlen, zero_add, Nat.add_comm]; exact hB)
  · rwa [hlen, zero_add, Nat.add_comm] at key
  · have h0 := gapP_nonneg M h hp m
    refine ⟨h0, ?_⟩
    by_cases hi : p.1.near.i = m
    · right
      refine ⟨RLoss.sub (conv p.1.seco.d) (conv p.1.near.d), ?_, fun acc => by simp only [remSlotP, hi, if_true]⟩
      have e : gapP L val m p.1 = val (conv p.1.seco.d) - val (conv p.1.near.d) := by simp [gapP, hi]
      have := Appr.sub M.std (M.conv_fin p.1.seco.d) (M.conv_fin p.1.near.d) (by
        rw [← e, abs_of_nonneg h0]
        have h1 := gapP_le_sum M h hp m
        have h2 := M.std.one_le_pow (n + 1)
        nlinarith)
      rwa [← e, abs_of_nonneg h0] at this
    · left
      exact ⟨by simp [gapP, hi], fun acc => by simp only [remSlotP, hi, if_false]⟩

/-- Exact contribution of one object to a slot. -/
def slotS (L : Type) [RFrom N L] (val : L → K) (d : Nat → Nat → N) (j m : Nat) (p : Rec N × Nat) : K :=
  if p.1.near.i = m then
    if d p.2 j < p.1.near.d then val (conv p.1.near.d) - val (conv p.1.seco.d)
    else if d p.2 j < p.1.seco.d then val (conv (d p.2 j)) - val (conv p.1.seco.d)
    else 0
  else 0

/-- Exact contribution of one object to the shared accumulator. -/
def accS (L : Type) [RFrom N L] (val : L → K) (d : Nat → Nat → N) (j : Nat) (p : Rec N × Nat) : K :=
  if d p.2 j < p.1.near.d then val (conv (d p.2 j)) - val (conv p.1.near.d) else 0

omit h in
/-- A rounded difference, with bounds on its size. -/
theorem appr_diff (x y : N) {A : K} (hA : |val (conv x : L) - val (conv y : L)| ≤ A) (hB : A ≤ B) :
    Appr fin val u 1 (val (conv x : L) - val (conv y)) A (RLoss.sub (conv x) (conv y)) :=
  (Appr.sub M.std (M.conv_fin x) (M.conv_fin y) (hA.trans hB)).mono M.std le_rfl hA

/-- One object and one slot. -/
theorem slot_step (m j : Nat) {p : Rec N × Nat} (hp : p ∈ data.zipIdx) (hle : gapP L val m p.1 ≤ B) :
    0 ≤ gapP L val m p.1 ∧ ((slotS L val d j m p = 0 ∧ ∀ acc : L, fbsSlotP d j m acc p = acc) ∨
      ∃ t : L, Appr fin val u 1 (slotS L val d j m p) (gapP L val m p.1) t ∧
        ∀ acc, fbsSlotP d j m acc p = RLoss.add acc t) := by
  have h0 := gapP_nonneg M h hp m
  refine ⟨h0, ?_⟩
  by_cases hi : p.1.near.i = m
  · have e : gapP L val m p.1 = val (conv p.1.seco.d) - val (conv p.1.near.d) := by simp [gapP, hi]
    by_cases h1 : d p.2 j < p.1.near.d
    · right
      refine ⟨RLoss.sub (conv p.1.near.d) (conv p.1.seco.d), ?_, fun acc => by
        simp only [fbsSlotP, hi, if_true, rltN, h1, decide_true]⟩
      simp only [slotS, hi, h1, if_true]
      refine appr_diff M _ _ ?_ hle
      rw [abs_sub_comm, ← e, abs_of_nonneg h0]
    · by_cases h2 : d p.2 j < p.1.seco.d
      · right
        refine ⟨RLoss.sub (conv (d p.2 j)) (conv p.1.seco.d), ?_, fun acc => by
          simp only [fbsSlotP, hi, if_true, rltN, h1, h2, decide_true, decide_false, Bool.false_eq_true, if_false]⟩
        simp only [slotS, hi, h1, h2, if_true, if_false]
        refine appr_diff M _ _ ?_ hle
        have g1 : val (conv p.1.near.d : L) ≤ val (conv (d p.2 j)) := M.conv_mono (not_lt.mp h1)
        have g2 : val (conv (d p.2 j) : L) ≤ val (conv p.1.seco.d) := M.conv_mono h2.le
        rw [abs_sub_comm, e, abs_of_nonneg (by linarith)]
        linarith
      · left
        exact ⟨by simp only [slotS, h1, h2, if_false, ite_self], fun acc => by
          simp only [fbsSlotP, rltN, h1, h2, decide_false, Bool.false_eq_true, if_false, ite_self]⟩
  · left
    exact ⟨by simp only [slotS, hi, if_false], fun acc => by simp only [fbsSlotP, hi, if_false]⟩

/-- One slot. -/
theorem appr_slot (m j : Nat) {x : L} {R : K} (hR : R = (data.zipIdx.map fun p => gapP L val m p.1).sum)
    (hx : Appr fin val u (n + 1) R R x) (hB : (1 + u) ^ (2 * n + 1) * (2 * R) ≤ B) :
    Appr fin val u (2 * n + 1) (R + (data.zipIdx.map (slotS L val d j m)).sum) (2 * R)
      (data.zipIdx.foldl (fbsSlotP d j m) x) := by
  have hlen : data.zipIdx.length = n := by rw [List.length_zipIdx, h.len]
  have hR0 : 0 ≤ R := hx.nonneg
  have hRB : R ≤ B := by
    have := M.std.one_le_pow (2 * n + 1)
    nlinarith
  have key := Appr.foldl M.std (step := fbsSlotP (L := L) d j m) (ps := data.zipIdx)
    (S := slotS L val d j m) (A := fun p => gapP L val m p.1)
    (fun p hp => slot_step M h m j hp (((gapP_le_sum M h hp m).trans hR.ge).trans hRB)) (by omega) hx
    (by rw [hlen, ← hR, ← two_mul, show n + 1 + n = 2 * n + 1 by omega]; exact hB)
  rwa [hlen, ← hR, ← two_mul, show n + 1 + n = 2 * n + 1 by omega] at key

/-- One object and the shared accumulator. -/
theorem acc_step (hd : Dissim n d) {j : Nat} (hj : j < n) {p : Rec N × Nat} (hp : p ∈ data.zipIdx)
    (hle : val (conv p.1.near.d : L) ≤ B) :
    0 ≤ val (conv p.1.near.d : L) ∧ ((accS L val d j p = 0 ∧ ∀ acc : L, fbsAccP d j acc p = acc) ∨
      ∃ t : L, Appr fin val u 1 (accS L val d j p) (val (conv p.1.near.d : L)) t ∧
        ∀ acc, fbsAccP d j acc p = RLoss.add acc t) := by
  refine ⟨M.val_nonneg (near_nonneg h hd hp), ?_⟩
  by_cases h1 : d p.2 j < p.1.near.d
  · right
    refine ⟨RLoss.sub (conv (d p.2 j)) (conv p.1.near.d), ?_, fun acc => by
      simp only [fbsAccP, rltN, h1, decide_true, if_true]⟩
    simp only [accS, h1, if_true]
    refine appr_diff M _ _ ?_ hle
    have g1 : 0 ≤ val (conv (d p.2 j) : L) := M.val_nonneg (hd.nonneg _ _ (h.len ▸ mem_zipIdx_lt hp) hj)
    have g2 : val (conv (d p.2 j) : L) ≤ val (conv p.1.near.d) := M.conv_mono h1.le
    rw [abs_sub_comm, abs_of_nonneg (by linarith)]
    linarith
  · left
    exact ⟨by simp only [accS, h1, if_false], fun acc => by
      simp only [fbsAccP, rltN, h1, decide_false, Bool.false_eq_true, if_false]⟩

theorem near_le_dev (hd : Dissim n d) {p : Rec N × Nat} (hp : p ∈ data.zipIdx) :
    val (conv p.1.near.d : L) ≤ exactDev N val n d med := by
  rw [exactDev_cache (val := val) h]
  exact List.single_le_sum (fun x hx => by
    obtain ⟨q, hq, rfl⟩ := List.mem_map.mp hx; exact M.val_nonneg (near_nonneg h hd hq)) _
    (List.mem_map.mpr ⟨p, hp, rfl⟩)

/-- The shared accumulator. -/
theorem appr_acc (hd : Dissim n d) {j : Nat} (hj : j < n) (hB : (1 + u) ^ (n + 1) * exactDev N val n d med ≤ B) :
    Appr fin val u (n + 1) (data.zipIdx.map (accS L val d j)).sum (exactDev N val n d med)
      (data.zipIdx.foldl (fbsAccP d j) RLoss.zero) := by
  have hlen : data.zipIdx.length = n := by rw [List.length_zipIdx, h.len]
  have hT := exactDev_cache (val := val) h
  have hT0 : 0 ≤ exactDev N val n d med := by
    rw [hT]
    exact List.sum_nonneg fun x hx => by
      obtain ⟨q, hq, rfl⟩ := List.mem_map.mp hx; exact M.val_nonneg (near_nonneg h hd hq)
  have hTB : exactDev N val n d med ≤ B := by
    have := M.std.one_le_pow (n + 1)
    nlinarith
  have key := Appr.foldl M.std (step := fbsAccP (L := L) d j) (ps := data.zipIdx)
    (S := accS L val d j) (A := fun p => val (conv p.1.near.d : L))
    (fun p hp => acc_step M h hd hj hp ((near_le_dev M h hd hp).trans hTB)) (le_refl 1)
    ((Appr.zero M.std).mono M.std (Nat.zero_le 1) le_rfl)
    (by rw [hlen, zero_add, ← hT, Nat.add_comm]; exact hB)
  rwa [hlen, zero_add, zero_add, ← hT, Nat.add_comm] at key

omit M in
/-- The exact contributions add up to the change of the total deviation. -/
theorem exact_change {m : Nat} (hm : m < med.length) (j : Nat) :
    (data.zipIdx.map fun p => gapP L val m p.1).sum + (data.zipIdx.map (slotS L val d j m)).sum +
      (data.zipIdx.map (accS L val d j)).sum = exactDev N val n d (med.set m j) - exactDev N val n d med := by
  rw [exactDev_set h hm, exactDev_cache h, eq_sub_iff_add_eq, ← List.sum_map_add, ← List.sum_map_add, ← List.sum_map_add]
  congr 1
  refine List.map_congr_left fun p hp => ?_
  have hle := (h.recs p hp).le
  simp only [gapP, slotS, accS]
  by_cases h1 : d p.2 j < p.1.near.d
  · have h2 : d p.2 j < p.1.seco.d := lt_of_lt_of_le h1 hle
    by_cases h3 : p.1.near.i = m
    · simp only [h1, h3, if_true, min_eq_left h2.le]; ring
    · simp only [h1, h3, if_true, if_false, min_eq_left h1.le]; ring
  · by_cases h2 : d p.2 j < p.1.seco.d
    · by_cases h3 : p.1.near.i = m
      · simp only [h1, h2, h3, if_true, if_false, min_eq_left h2.le]; ring
      · simp only [h1, h3, if_false, min_eq_right (not_lt.mp h1)]; ring
    · by_cases h3 : p.1.near.i = m
      · simp only [h1, h2, h3, if_true, if_false, min_eq_right (not_lt.mp h2)]; ring
      · simp only [h1, h3, if_false, min_eq_right (not_lt.mp h1)]; ring

/-- The choice among slots and accumulator that are accurate: the computed change is finite; if it is not negative, then
no exchange with `j` improves the exact total deviation by more than the rounding error; if it is negative, then the
exchange found does not make the exact total deviation worse by more than the rounding error. -/
theorem change_float (hk : 1 ≤ med.length) (j : Nat) {e : Nat}
    (hB : ∀ m < med.length, (1 + u) ^ e * (2 * exactDev N val n d (med.eraseIdx m)) ≤ B) {st : List L × L}
    (hlen : st.1.length = med.length)
    (hslot : ∀ m < med.length, Appr fin val u e
      ((data.zipIdx.map fun p => gapP L val m p.1).sum + (data.zipIdx.map (slotS L val d j m)).sum)
      (2 * (data.zipIdx.map fun p => gapP L val m p.1).sum) (st.1.getD m RLoss.zero))
    (hacc : Appr fin val u e (data.zipIdx.map (accS L val d j)).sum (exactDev N val n d med) st.2) :
    fin (RLoss.add (findMinP st.1).2 st.2) ∧
    (0 ≤ val (RLoss.add (findMinP st.1).2 st.2) → ∀ m < med.length,
      exactDev N val n d med ≤ exactDev N val n d (med.set m j) +
        ((1 + u) ^ e - 1) * (2 * exactDev N val n d (med.eraseIdx m))) ∧
    (¬ 0 ≤ val (RLoss.add (findMinP st.1).2 st.2) →
      exactDev N val n d (med.set (findMinP st.1).1 j) ≤ exactDev N val n d med +
        ((1 + u) ^ e - 1) * (2 * exactDev N val n d (med.eraseIdx (findMinP st.1).1))) := by
  have hT0 : 0 ≤ exactDev N val n d med := hacc.nonneg
  have hR0 : ∀ m, 0 ≤ (data.zipIdx.map fun p => gapP L val m p.1).sum := fun m => List.sum_nonneg fun x hx => by
    obtain ⟨q, hq, rfl⟩ := List.mem_map.mp hx; exact gapP_nonneg M h hq m
  have hp1 := M.std.one_le_pow e
  have hB' : ∀ m < med.length, (1 + u) ^ e *
      (2 * (data.zipIdx.map fun p => gapP L val m p.1).sum + exactDev N val n d med) ≤ B := fun m hm => by
    refine le_trans (mul_le_mul_of_nonneg_left ?_ (by linarith)) (hB m hm)
    rw [exactDev_erase h]; linarith
  have hne : st.1 ≠ [] := List.ne_nil_of_length_pos (by omega)
  have hfin : ∀ x ∈ st.1, fin x := fun x hx => by
    obtain ⟨m, hm, rfl⟩ := List.mem_iff_getElem.mp hx
    have := (hslot m (by omega)).fin
    rwa [List.getD_eq_getElem?_getD, List.getElem?_eq_getElem hm, Option.getD_some] at this
  obtain ⟨g1, g2, g3⟩ := findMinP_float M.std hne hfin
  have g3' : ∀ m < med.length, val (findMinP st.1).2 ≤ val (st.1.getD m RLoss.zero) := fun m hm => by
    have hm' : m < st.1.length := by omega
    rw [List.getD_eq_getElem?_getD, List.getElem?_eq_getElem hm', Option.getD_some]
    exact g3 _ (List.getElem_mem hm')
  have hb : (findMinP st.1).1 < med.length := by omega
  have hmin := hslot _ hb
  rw [← g1] at hmin
  have hsum : |val (findMinP st.1).2 + val st.2| ≤ B := by
    refine le_trans (abs_add_le _ _) (le_trans (add_le_add hmin.abs_val hacc.abs_val) ?_)
    rw [← mul_add]; exact hB' _ hb
  have hsign := M.std.add_sign hmin.fin hacc.fin hsum
  refine ⟨(M.std.add _ _ hmin.fin hacc.fin hsum).1, fun hx m hm => ?_, fun hx => ?_⟩
  · rw [hsign] at hx
    have e1 := abs_le.mp (hslot m hm).err
    have e2 := abs_le.mp hacc.err
    have e3 := g3' m hm
    have e4 := exact_change (val := val) h hm j
    rw [exactDev_erase h m]
    have e5 : 0 ≤ ((1 + u) ^ e - 1) * exactDev N val n d med := mul_nonneg (by linarith) hT0
    rw [mul_add, mul_add]
    linarith [e1.1, e2.1]
  · rw [hsign, not_le] at hx
    have e1 := abs_le.mp hmin.err
    have e2 := abs_le.mp hacc.err
    have e4 := exact_change (val := val) h hb j
    rw [exactDev_erase h]
    have e5 : 0 ≤ ((1 + u) ^ e - 1) * exactDev N val n d med := mul_nonneg (by linarith) hT0
    rw [mul_add, mul_add]
    linarith [e1.2, e2.2]

/-- **`find_best_swap` in floating point**: the computed change is finite; if it is not negative, then no exchange with `j`
improves the exact total deviation by more than the rounding error; if it is negative, then the exchange found does not
make the exact total deviation worse by more than the rounding error. -/
theorem fbsP_float (hd : Dissim n d) (hk : 1 ≤ med.length) {j : Nat} (hj : j < n)
    (hB : ∀ m < med.length, (1 + u) ^ (2 * n + 1) * (2 * exactDev N val n d (med.eraseIdx m)) ≤ B) :
    fin (fbsP d (remP L data med.length) data j).1 ∧
    (0 ≤ val (fbsP d (remP L data med.length) data j).1 → ∀ m < med.length,
      exactDev N val n d med ≤ exactDev N val n d (med.set m j) +
        ((1 + u) ^ (2 * n + 1) - 1) * (2 * exactDev N val n d (med.eraseIdx m))) ∧
    (¬ 0 ≤ val (fbsP d (remP L data med.length) data j).1 →
      exactDev N val n d (med.set (fbsP d (remP L data med.length) data j).2 j) ≤ exactDev N val n d med +
        ((1 + u) ^ (2 * n + 1) - 1) *
          (2 * exactDev N val n d (med.eraseIdx (fbsP d (remP L data med.length) data j).2))) := by
  have hrl : (remP L data med.length).length = med.length := remP_length h.shape.recIdx
  have hT := exactDev_cache (val := val) h
  have hT0 : 0 ≤ exactDev N val n d med := by
    rw [hT]
    exact List.sum_nonneg fun x hx => by
      obtain ⟨q, hq, rfl⟩ := List.mem_map.mp hx; exact M.val_nonneg (near_nonneg h hd hq)
  have hR0 : ∀ m, 0 ≤ (data.zipIdx.map fun p => gapP L val m p.1).sum := fun m => List.sum_nonneg fun x hx => by
    obtain ⟨q, hq, rfl⟩ := List.mem_map.mp hx; exact gapP_nonneg M h hq m
  have hp1 := M.std.one_le_pow (2 * n + 1)
  have hp2 : (1 + u) ^ (n + 1) ≤ (1 + u) ^ (2 * n + 1) := M.std.pow_mono (by omega)
  have hp3 := M.std.one_le_pow (n + 1)
  -- bounds
  have hB' : ∀ m < med.length, (1 + u) ^ (2 * n + 1) *
      (2 * (data.zipIdx.map fun p => gapP L val m p.1).sum + exactDev N val n d med) ≤ B := fun m hm => by
    refine le_trans (mul_le_mul_of_nonneg_left ?_ (by linarith)) (hB m hm)
    rw [exactDev_erase h]; linarith
  -- accumulator
  have hacc := appr_acc M h hd hj (by
    refine le_trans ?_ (hB' 0 hk)
    have := hR0 0
    exact mul_le_mul hp2 (by linarith) hT0 (by linarith))
  -- slots
  obtain ⟨-, f2⟩ := fbs_slot (L := L) d j 0 (k := med.length) (xs := data.zipIdx)
    (fun p hp => h.shape.recIdx _ (mem_zipIdx_mem hp)) hrl RLoss.zero
  have f1 := fun m => (fbs_slot (L := L) d j m (k := med.length) (xs := data.zipIdx)
    (fun p hp => h.shape.recIdx _ (mem_zipIdx_mem hp)) hrl RLoss.zero).1
  have hslot : ∀ m < med.length, Appr fin val u (2 * n + 1)
      ((data.zipIdx.map fun p => gapP L val m p.1).sum + (data.zipIdx.map (slotS L val d j m)).sum)
      (2 * (data.zipIdx.map fun p => gapP L val m p.1).sum)
      ((data.zipIdx.foldl (fbsStepP d j) (remP L data med.length, RLoss.zero)).1.getD m RLoss.zero) := fun m hm => by
    have hb := hB' m hm
    have h0 := hR0 m
    rw [f1 m]
    refine appr_slot M h m j rfl (appr_rem M h m (le_trans ?_ hb)) (le_trans ?_ hb)
    · exact mul_le_mul hp2 (by linarith) h0 (by linarith)
    · exact mul_le_mul_of_nonneg_left (by linarith) (by linarith)
  have hlen2 := fbs_fold_length d (remP L data med.length) data j RLoss.zero
  rw [hrl] at hlen2
  rw [← f2] at hacc
  exact change_float M h hk j hB hlen2 hslot (hacc.mono M.std (by omega) le_rfl)

/-! ## PAM -/

omit M h in
/-- Exact contribution of one object in PAM. -/
def pamS (L : Type) [RFrom N L] (val : L → K) (d : Nat → Nat → N) (j m : Nat) (p : Rec N × Nat) : K :=
  if p.2 = j then 0
  else val (conv (min (d p.2 j) (if p.1.near.i = m then p.1.seco.d else p.1.near.d))) - val (conv p.1.near.d)

/-- The change computed by PAM. -/
theorem pamChangeP_float (hd : Dissim n d) {m : Nat} (hm : m < med.length) {j : Nat} (hj : j < n)
    (hB : (1 + u) ^ (n + 1) * exactDev N val n d (med.eraseIdx m) ≤ B) :
    Appr fin val u (n + 1) (exactDev N val n d (med.set m j) - exactDev N val n d med)
      (exactDev N val n d (med.eraseIdx m)) (pamChangeP L d data j m) := by
  have hlen : data.zipIdx.length = n := by rw [List.length_zipIdx, h.len]
  have hjl : j < data.length := h.len ▸ hj
  have hg : data[j]? = some data[j] := List.getElem?_eq_getElem hjl
  have hpj : (data[j], j) ∈ data.zipIdx := List.mem_zipIdx_iff_getElem?.mpr (by simp [hg])
  have hnn : ∀ p ∈ data.zipIdx, 0 ≤ val (conv p.1.near.d : L) := fun p hp => M.val_nonneg (near_nonneg h hd hp)
  -- bounds per object
  let A : Rec N × Nat → K := fun p => if p.2 = j then 0 else val (conv p.1.near.d : L) + gapP L val m p.1
  have hA0 : ∀ p ∈ data.zipIdx, 0 ≤ A p := fun p hp => by
    have h1 := hnn p hp
    have h2 := gapP_nonneg M h hp m
    show 0 ≤ if p.2 = j then (0 : K) else _
    split
    · exact le_rfl
    · linarith
  have hsingle : ∀ v : Rec N × Nat → K, (data.zipIdx.map fun p => if p.2 = j then v p else 0).sum = v (data[j], j) :=
    fun v => by
      have hs : ∀ (l : List (Rec N)) (s : Nat), (((l.zipIdx s).map fun p => if p.2 = j then v p else 0).sum : K) =
          if s ≤ j then (l[j - s]?).elim 0 (fun r => v (r, j)) else 0 := by
        intro l
        induction l with
        | nil => intro s; simp
        | cons r l ih =>
          intro s
          rw [List.zipIdx_cons, List.map_cons, List.sum_cons, ih]
          by_cases hsj : s = j
          · subst hsj; simp
          · simp only [hsj, if_false, zero_add]
            by_cases hle : s + 1 ≤ j
            · have : j - s = (j - (s + 1)) + 1 := by omega
              rw [if_pos hle, if_pos (by omega), this, List.getElem?_cons_succ]
            · rw [if_neg hle, if_neg (by omega)]
      rw [hs data 0, if_pos (Nat.zero_le j)]
      simp [hg]
  have hsplit : ∀ f : Rec N × Nat → K, (data.zipIdx.map f).sum =
      f (data[j], j) + (data.zipIdx.map fun p => if p.2 = j then 0 else f p).sum := fun f => by
    rw [← hsingle f, ← List.sum_map_add]
    congr 1
    refine List.map_congr_left fun p _ => ?_
    split <;> simp
  have hsumA : val (conv data[j].near.d : L) + (data.zipIdx.map A).sum ≤ exactDev N val n d (med.eraseIdx m) := by
    rw [exactDev_erase h, exactDev_cache h, ← List.sum_map_add,
      hsplit fun p => val (conv p.1.near.d : L) + gapP L val m p.1]
    have := gapP_nonneg M h hpj m
    show _ + (data.zipIdx.map fun p => if p.2 = j then (0 : K) else _).sum ≤ _
    linarith
  have hle : ∀ p ∈ data.zipIdx, A p ≤ exactDev N val n d (med.eraseIdx m) := fun p hp => by
    have h1 : A p ≤ (data.zipIdx.map A).sum :=
      List.single_le_sum (fun x hx => by obtain ⟨q, hq, rfl⟩ := List.mem_map.mp hx; exact hA0 q hq) _
        (List.mem_map.mpr ⟨p, hp, rfl⟩)
    have h2 := hnn _ hpj
    linarith
  have hE0 : 0 ≤ exactDev N val n d (med.eraseIdx m) := (hA0 _ hpj).trans (hle _ hpj)
  have hEB : exactDev N val n d (med.eraseIdx m) ≤ B := by
    have := M.std.one_le_pow (n + 1)
    nlinarith
  -- start value
  have hstart : Appr fin val u 1 (-val (conv data[j].near.d : L)) (val (conv data[j].near.d : L))
      (RLoss.neg (conv (nearDP data j))) := by
    have e : nearDP data j = data[j].near.d := by simp [nearDP, hg]
    obtain ⟨n1, n2⟩ := M.std.neg _ (M.conv_fin data[j].near.d)
    rw [e]
    refine ⟨n1, by rw [abs_neg, abs_of_nonneg (hnn _ hpj)], ?_⟩
    rw [n2, sub_self, abs_zero]
    exact mul_nonneg (by simpa using M.std.u_nonneg) (hnn _ hpj)
  have key := Appr.foldl M.std (step := pamStepP (L := L) d m j) (ps := data.zipIdx) (S := pamS L val d j m) (A := A)
    (fun p hp => ?_) (le_refl 1) hstart (by
      rw [hlen, Nat.add_comm]
      exact le_trans (mul_le_mul_of_nonneg_left hsumA (by have := M.std.one_le_pow (n + 1); linarith)) hB)
  · rw [hlen, Nat.add_comm 1 n] at key
    have hchg : -val (conv data[j].near.d : L) + (data.zipIdx.map (pamS L val d j m)).sum =
        exactDev N val n d (med.set m j) - exactDev N val n d med := by
      have hmin : min (d j j) (if data[j].near.i = m then data[j].seco.d else data[j].near.d) = 0 := by
        have h1 := near_nonneg h hd hpj
        have h2 := h1.trans (h.recs _ hpj).le
        rw [hd.diag j hj]
        exact min_eq_left (by split; exacts [h2, h1])
      rw [exactDev_set h hm, exactDev_cache h, hsplit (fun p => val (conv p.1.near.d : L)),
        hsplit fun p => val (conv (min (d p.2 j) (if p.1.near.i = m then p.1.seco.d else p.1.near.d)) : L)]
      dsimp only
      rw [hmin, M.conv_zero, M.std.zero]
      have : (data.zipIdx.map (pamS L val d j m)).sum = (data.zipIdx.map fun p => if p.2 = j then (0 : K) else
          val (conv (min (d p.2 j) (if p.1.near.i = m then p.1.seco.d else p.1.near.d)) : L)).sum -
          (data.zipIdx.map fun p => if p.2 = j then (0 : K) else val (conv p.1.near.d : L)).sum := by
        rw [eq_sub_iff_add_eq, ← List.sum_map_add]
        congr 1
        refine List.map_congr_left fun p _ => ?_
        simp only [pamS]
        split <;> ring
      rw [this]; ring
    rw [hchg] at key
    exact key.mono M.std le_rfl hsumA
  · refine ⟨hA0 p hp, ?_⟩
    have hAle := (hle p hp).trans hEB
    have hn := hnn p hp
    have hpn : p.2 < n := h.len ▸ mem_zipIdx_lt hp
    have hj0 : 0 ≤ val (conv (d p.2 j) : L) := M.val_nonneg (hd.nonneg _ _ hpn hj)
    have hr := (h.recs p hp).le
    have hrv : val (conv p.1.near.d : L) ≤ val (conv p.1.seco.d) := M.conv_mono hr
    by_cases h0 : p.2 = j
    · left
      exact ⟨by simp only [pamS, h0, if_true], fun acc => by simp only [pamStepP, h0, if_true]⟩
    · have hAe : A p = val (conv p.1.near.d : L) + gapP L val m p.1 := if_neg h0
      have hg0 := gapP_nonneg M h hp m
      by_cases h1 : p.1.near.i = m
      · have hge : gapP L val m p.1 = val (conv p.1.seco.d) - val (conv p.1.near.d) := by simp [gapP, h1]
        right
        by_cases h2 : d p.2 j < p.1.seco.d
        · refine ⟨RLoss.sub (conv (d p.2 j)) (conv p.1.near.d), ?_, fun acc => by
            simp only [pamStepP, h0, h1, rltN, h2, decide_true, if_true, if_false]⟩
          simp only [pamS, h0, h1, if_true, if_false, min_eq_left h2.le]
          refine appr_diff M _ _ ?_ hAle
          have g2 : val (conv (d p.2 j) : L) ≤ val (conv p.1.seco.d) := M.conv_mono h2.le
          rw [hAe, hge, abs_le]
          constructor <;> linarith
        · refine ⟨RLoss.sub (conv p.1.seco.d) (conv p.1.near.d), ?_, fun acc => by
            simp only [pamStepP, h0, h1, rltN, h2, decide_false, if_true, if_false, Bool.false_eq_true]⟩
          simp only [pamS, h0, h1, if_true, if_false, min_eq_right (not_lt.mp h2)]
          refine appr_diff M _ _ ?_ hAle
          rw [hAe, hge, abs_le]
          constructor <;> linarith
      · by_cases h2 : d p.2 j < p.1.near.d
        · right
          refine ⟨RLoss.sub (conv (d p.2 j)) (conv p.1.near.d), ?_, fun acc => by
            simp only [pamStepP, h0, h1, rltN, h2, decide_true, if_true, if_false]⟩
          simp only [pamS, h0, h1, if_false, min_eq_left h2.le]
          refine appr_diff M _ _ ?_ hAle
          have g2 : val (conv (d p.2 j) : L) ≤ val (conv p.1.near.d) := M.conv_mono h2.le
          rw [hAe, abs_le]
          constructor <;> linarith
        · left
          exact ⟨by simp only [pamS, h0, h1, if_false, min_eq_right (not_lt.mp h2), sub_self], fun acc => by
            simp only [pamStepP, h0, h1, rltN, h2, decide_false, if_false, Bool.false_eq_true]⟩

end cache

end KMedoids
