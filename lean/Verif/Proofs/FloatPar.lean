import Verif.Proofs.FloatSwap
import Verif.Proofs.ParAny

/-!
# The change computed by `par_find_best_swap` in floating point

Every worker adds up its part of the objects, starting from zero; then the parts are merged in any order. The error bound
holds for every schedule.
-/

set_option linter.unusedSectionVars false
set_option linter.overlappingInstances false

namespace KMedoids

variable {N L K : Type} [LinearOrder N] [Zero N] [RDist N] [LawfulDist N] [RLoss L] [RFrom N L]
  [Field K] [LinearOrder K] [IsStrictOrderedRing K]
open RFrom (conv)

variable {fin : L → Prop} {val : L → K} {u B : K}

/-! ## Sums over the parts -/

/-- The objects of one worker. -/
def chunk {α : Type} (l : List α) (s n x : Nat) : List α := (l.take (min (x * s + s) n)).drop (x * s)

theorem chunk_mem {α : Type} {l : List α} {s n x : Nat} {p : α} (h : p ∈ chunk l s n x) : p ∈ l :=
  List.mem_of_mem_take (List.mem_of_mem_drop h)

theorem chunk_length_le {α : Type} (l : List α) (s n x : Nat) : (chunk l s n x).length ≤ l.length := by
  simp only [chunk, List.length_drop, List.length_take]; omega

theorem chunk_sums {α : Type} (l : List α) (f : α → K) {s parts n : Nat} (hn : l.length = n) (hs : n ≤ parts * s) :
    ((List.range parts).map fun x => ((chunk l s n x).map f).sum).sum = (l.map f).sum := by
  have key : ∀ parts : Nat, ((List.range parts).map fun x => ((chunk l s n x).map f).sum).sum =
      ((l.take (parts * s)).map f).sum := by
    intro parts
    induction parts with
    | zero => simp
    | succ p ih =>
      rw [List.range_succ, List.map_append, List.sum_append, ih]
      have h1 : l.take (min (p * s + s) n) = l.take (p * s + s) := by
        rw [← hn, ← List.take_take, List.take_length]
      have h2 : l.take ((p + 1) * s) = l.take (p * s) ++ (l.take (p * s + s)).drop (p * s) := by
        rw [Nat.succ_mul]
        conv_lhs => rw [← List.take_append_drop (p * s) (l.take (p * s + s))]
        rw [List.take_take, Nat.min_eq_left (by omega)]
      rw [h2, List.map_singleton, chunk, h1]; simp
  rw [key, List.take_of_length_le (by omega)]

/-- Adding up terms that are sums themselves. -/
theorem Appr.foldl_add (M : StdModel fin val u B) {α : Type} {t : α → L} {S A : α → K} {ps : List α} {m : Nat}
    (hstep : ∀ p ∈ ps, Appr fin val u m (S p) (A p) (t p)) {s a : K} {x : L} (h : Appr fin val u m s a x)
    (hB : (1 + u) ^ (m + ps.length) * (a + (ps.map A).sum) ≤ B) :
    Appr fin val u (m + ps.length) (s + (ps.map S).sum) (a + (ps.map A).sum)
      (ps.foldl (fun acc p => RLoss.add acc (t p)) x) := by
  induction ps generalizing m s a x with
  | nil => simpa using h
  | cons p ps ih =>
    have hp := hstep p (by simp)
    have hrest : 0 ≤ (ps.map A).sum := List.sum_nonneg fun y hy => by
      obtain ⟨q, hq, rfl⟩ := List.mem_map.mp hy
      exact (hstep q (by simp [hq])).nonneg
    have ha := h.nonneg
    have hA := hp.nonneg
    rw [List.foldl_cons, List.map_cons, List.map_cons, List.sum_cons, List.sum_cons, ← add_assoc, ← add_assoc,
      List.length_cons, show m + (ps.length + 1) = (m + 1) + ps.length by omega]
    rw [List.map_cons, List.sum_cons, ← add_assoc, List.length_cons,
      show m + (ps.length + 1) = (m + 1) + ps.length by omega] at hB
    refine ih (fun q hq => (hstep q (by simp [hq])).mono M (by omega) le_rfl) ?_ hB
    refine h.add M hp (le_trans ?_ hB)
    have h1 : (1 + u) ^ m ≤ (1 + u) ^ (m + 1 + ps.length) := M.pow_mono (by omega)
    have h2 := M.one_le_pow m
    calc (1 + u) ^ m * (a + A p) ≤ (1 + u) ^ (m + 1 + ps.length) * (a + A p) :=
          mul_le_mul_of_nonneg_right h1 (by linarith)
      _ ≤ _ := mul_le_mul_of_nonneg_left (by linarith) (by linarith [M.one_le_pow (m + 1 + ps.length)])

/-! ## Slots of the merged lists -/

theorem zipWith_slot {a b : List L} {m : Nat} (ha : m < a.length) (hb : m < b.length) :
    (List.zipWith RLoss.add a b).getD m RLoss.zero = RLoss.add (a.getD m RLoss.zero) (b.getD m RLoss.zero) := by
  simp only [List.getD_eq_getElem?_getD, List.getElem?_zipWith, List.getElem?_eq_getElem ha, List.getElem?_eq_getElem hb,
    Option.getD_some]

theorem merge_slot {k m : Nat} (hm : m < k) {w : Nat → List L × L} (hw : ∀ x, (w x).1.length = k) {order : List Nat}
    {st : List L × L} (hst : st.1.length = k) :
    (order.foldl (fun st x => parMerge st (w x)) st).1.getD m RLoss.zero =
        order.foldl (fun acc x => RLoss.add acc ((w x).1.getD m RLoss.zero)) (st.1.getD m RLoss.zero) ∧
      (order.foldl (fun st x => parMerge st (w x)) st).2 = order.foldl (fun acc x => RLoss.add acc (w x).2) st.2 := by
  induction order generalizing st with
  | nil => exact ⟨rfl, rfl⟩
  | cons x order ih =>
    rw [List.foldl_cons, List.foldl_cons, List.foldl_cons]
    have hlen : (parMerge st (w x)).1.length = k := by simp [parMerge, hst, hw x]
    obtain ⟨i1, i2⟩ := ih hlen
    refine ⟨?_, i2⟩
    rw [i1]
    simp only [parMerge]
    rw [zipWith_slot (by omega) (by rw [hw x]; exact hm)]

section cache
variable {n : Nat} {d : Nat → Nat → N} {med : List Nat} {data : List (Rec N)}

/-- **`par_find_best_swap` in floating point**, for every schedule with at most `p` threads. -/
theorem parFbsP_float (M : FloatLoss N fin val u B) (h : CacheOk n d med data) (hd : Dissim n d) (hk : 1 ≤ med.length)
    {sc : Sched} (hsc : sc.Ok) {p : Nat} (hp : sc.parts ≤ p) {j : Nat} (hj : j < n)
    (hB : ∀ m < med.length, (1 + u) ^ (n + p + 1) * (2 * exactDev N val n d (med.eraseIdx m)) ≤ B) :
    fin (parFbsP sc d n (remP L data med.length) data j).1 ∧
    (0 ≤ val (parFbsP sc d n (remP L data med.length) data j).1 → ∀ m < med.length,
      exactDev N val n d med ≤ exactDev N val n d (med.set m j) +
        ((1 + u) ^ (n + p + 1) - 1) * (2 * exactDev N val n d (med.eraseIdx m))) ∧
    (¬ 0 ≤ val (parFbsP sc d n (remP L data med.length) data j).1 →
      exactDev N val n d (med.set (parFbsP sc d n (remP L data med.length) data j).2 j) ≤ exactDev N val n d med +
        ((1 + u) ^ (n + p + 1) - 1) *
          (2 * exactDev N val n d (med.eraseIdx (parFbsP sc d n (remP L data med.length) data j).2))) := by
  have hrl : (remP L data med.length).length = med.length := remP_length h.shape.recIdx
  have hlz : data.zipIdx.length = n := by rw [List.length_zipIdx, h.len]
  have hT := exactDev_cache (val := val) h
  have hnn : ∀ q ∈ data.zipIdx, 0 ≤ val (conv q.1.near.d : L) := fun q hq => M.val_nonneg (near_nonneg h hd hq)
  have hT0 : 0 ≤ exactDev N val n d med := by
    rw [hT]
    exact List.sum_nonneg fun x hx => by obtain ⟨q, hq, rfl⟩ := List.mem_map.mp hx; exact hnn q hq
  have hR0 : ∀ m, 0 ≤ (data.zipIdx.map fun p => gapP L val m p.1).sum := fun m => List.sum_nonneg fun x hx => by
    obtain ⟨q, hq, rfl⟩ := List.mem_map.mp hx; exact gapP_nonneg M h hq m
  have hB' : ∀ m < med.length, (1 + u) ^ (n + p + 1) *
      (2 * (data.zipIdx.map fun p => gapP L val m p.1).sum + exactDev N val n d med) ≤ B := fun m hm => by
    have := M.std.one_le_pow (n + p + 1)
    refine le_trans (mul_le_mul_of_nonneg_left ?_ (by linarith)) (hB m hm)
    rw [exactDev_erase h]; linarith
  have small : ∀ {e : Nat} {a : K} {m : Nat}, m < med.length → e ≤ n + p + 1 → 0 ≤ a →
      a ≤ 2 * (data.zipIdx.map fun p => gapP L val m p.1).sum + exactDev N val n d med → (1 + u) ^ e * a ≤ B := by
    intro e a m hm he ha hle
    have h1 := M.std.pow_mono he
    have h2 := M.std.one_le_pow (n + p + 1)
    exact (mul_le_mul h1 hle ha (by linarith)).trans (hB' m hm)
  generalize hs : (n + sc.parts - 1) / sc.parts = s
  have hsn : n ≤ sc.parts * s := hs ▸ upper_div n hsc.pos
  have hmem : ∀ x, ∀ q ∈ chunk data.zipIdx s n x, q ∈ data.zipIdx := fun x q hq => chunk_mem hq
  have hcl : ∀ x, (chunk data.zipIdx s n x).length ≤ n := fun x => (chunk_length_le _ _ _ _).trans hlz.le
  -- the workers
  have hwdef : ∀ x, workerP L d n med.length data j sc.parts x = (chunk data.zipIdx s n x).foldl (fbsStepP d j)
      (List.replicate med.length RLoss.zero, RLoss.zero) := fun x => by simp only [workerP, chunk, hs]
  have hw := fun m x => fbs_slot (L := L) d j m (k := med.length) (xs := chunk data.zipIdx s n x)
    (fun q hq => h.shape.recIdx _ (mem_zipIdx_mem (hmem x q hq))) (List.length_replicate (n := med.length) (a := RLoss.zero))
    RLoss.zero
  have hwl : ∀ x, (workerP L d n med.length data j sc.parts x).1.length = med.length := fun x => by
    rw [hwdef]
    have : ∀ (xs : List (Rec N × Nat)) (st : List L × L), (xs.foldl (fbsStepP d j) st).1.length = st.1.length := by
      intro xs
      induction xs with
      | nil => intro st; rfl
      | cons q xs ih => intro st; rw [List.foldl_cons, ih, fbsStepP_length]
    rw [this]; simp
  have hrep : ∀ m, (List.replicate med.length (RLoss.zero : L)).getD m RLoss.zero = RLoss.zero := fun m => by
    simp only [List.getD_eq_getElem?_getD, List.getElem?_replicate]
    split <;> rfl
  -- part of a sum of non-negative terms
  have hpart : ∀ (f : Rec N × Nat → K), (∀ q ∈ data.zipIdx, 0 ≤ f q) → ∀ x < sc.parts,
      0 ≤ ((chunk data.zipIdx s n x).map f).sum ∧ ((chunk data.zipIdx s n x).map f).sum ≤ (data.zipIdx.map f).sum := by
    intro f hf x hx
    have h0 : ∀ y, 0 ≤ ((chunk data.zipIdx s n y).map f).sum := fun y => List.sum_nonneg fun z hz => by
      obtain ⟨q, hq, rfl⟩ := List.mem_map.mp hz; exact hf q (hmem y q hq)
    refine ⟨h0 x, ?_⟩
    rw [← chunk_sums data.zipIdx f hlz hsn]
    exact List.single_le_sum (fun z hz => by obtain ⟨y, -, rfl⟩ := List.mem_map.mp hz; exact h0 y) _
      (List.mem_map.mpr ⟨x, List.mem_range.mpr hx, rfl⟩)
  have hord : ∀ f : Nat → K, (sc.order.map f).sum = ((List.range sc.parts).map f).sum := fun f =>
    (hsc.perm.map f).sum_eq
  have hol : sc.order.length = sc.parts := by rw [hsc.perm.length_eq, List.length_range]
  have hox : ∀ x ∈ sc.order, x < sc.parts := fun x hx => List.mem_range.mp (hsc.perm.mem_iff.mp hx)
  -- the accumulator
  have hacc : Appr fin val u (n + 1 + sc.parts) (data.zipIdx.map (accS L val d j)).sum (exactDev N val n d med)
      (sc.order.foldl (fun acc x => RLoss.add acc (workerP L d n med.length data j sc.parts x).2) RLoss.zero) := by
    have key := Appr.foldl_add M.std (t := fun x => (workerP L d n med.length data j sc.parts x).2)
      (S := fun x => ((chunk data.zipIdx s n x).map (accS L val d j)).sum)
      (A := fun x => ((chunk data.zipIdx s n x).map fun q => val (conv q.1.near.d : L)).sum) (ps := sc.order) (m := n + 1)
      (fun x hx => ?_) ((Appr.zero M.std).mono M.std (Nat.zero_le _) le_rfl) ?_
    · rw [hol, zero_add, zero_add, hord, hord, chunk_sums _ _ hlz hsn, chunk_sums _ _ hlz hsn, ← hT] at key
      exact key
    · obtain ⟨p0, p1⟩ := hpart _ hnn x (hox x hx)
      rw [← hT] at p1
      have hR := hR0 0
      have key := Appr.foldl M.std (step := fbsAccP (L := L) d j) (ps := chunk data.zipIdx s n x)
        (S := accS L val d j) (A := fun q => val (conv q.1.near.d : L))
        (fun q hq => acc_step M h hd hj (hmem x q hq) ((near_le_dev M h hd (hmem x q hq)).trans (by
          have := small (e := 0) hk (Nat.zero_le _) hT0 (by linarith)
          simpa using this))) (le_refl 1) ((Appr.zero M.std).mono M.std (Nat.zero_le 1) le_rfl)
        (small hk (by have := hcl x; omega) (by rw [zero_add]; exact p0) (by rw [zero_add]; linarith))
      rw [zero_add, zero_add] at key
      have hx2 := (hw 0 x).2
      rw [hwdef, hx2]
      exact key.mono M.std (by have := hcl x; omega) le_rfl
    · rw [hol, zero_add, hord, chunk_sums _ _ hlz hsn, ← hT]
      have hR := hR0 0
      exact small hk (by omega) hT0 (by linarith)
  -- the slots
  have hslot : ∀ m < med.length, Appr fin val u (n + 1 + sc.parts)
      ((data.zipIdx.map fun p => gapP L val m p.1).sum + (data.zipIdx.map (slotS L val d j m)).sum)
      (2 * (data.zipIdx.map fun p => gapP L val m p.1).sum)
      (sc.order.foldl (fun acc x => RLoss.add acc ((workerP L d n med.length data j sc.parts x).1.getD m RLoss.zero))
        ((remP L data med.length).getD m RLoss.zero)) := fun m hm => by
    have hR := hR0 m
    have hgap : ∀ q ∈ data.zipIdx, 0 ≤ gapP L val m q.1 := fun q hq => gapP_nonneg M h hq m
    have key := Appr.foldl_add M.std (t := fun x => (workerP L d n med.length data j sc.parts x).1.getD m RLoss.zero)
      (S := fun x => ((chunk data.zipIdx s n x).map (slotS L val d j m)).sum)
      (A := fun x => ((chunk data.zipIdx s n x).map fun q => gapP L val m q.1).sum) (ps := sc.order) (m := n + 1)
      (fun x hx => ?_) (appr_rem M h m (small hm (by omega) hR (by linarith))) ?_
    · rw [hol, hord, hord, chunk_sums _ _ hlz hsn, chunk_sums _ _ hlz hsn, ← two_mul] at key
      exact key
    · obtain ⟨p0, p1⟩ := hpart _ hgap x (hox x hx)
      have key := Appr.foldl M.std (step := fbsSlotP (L := L) d j m) (ps := chunk data.zipIdx s n x)
        (S := slotS L val d j m) (A := fun q => gapP L val m q.1)
        (fun q hq => slot_step M h m j (hmem x q hq) ((gapP_le_sum M h (hmem x q hq) m).trans (by
          have := small (e := 0) hm (Nat.zero_le _) hR (by linarith)
          simpa using this))) (le_refl 1) ((Appr.zero M.std).mono M.std (Nat.zero_le 1) le_rfl)
        (small hm (by have := hcl x; omega) (by rw [zero_add]; exact p0) (by rw [zero_add]; linarith))
      rw [zero_add, zero_add] at key
      have hx1 := (hw m x).1
      rw [hwdef, hx1, hrep]
      exact key.mono M.std (by have := hcl x; omega) le_rfl
    · rw [hol, hord, chunk_sums _ _ hlz hsn, ← two_mul]
      exact small hm (by omega) (by linarith) (by linarith)
  have hms := fun m (hm : m < med.length) => merge_slot (L := L) hm
    (w := fun x => workerP L d n med.length data j sc.parts x) hwl (order := sc.order)
    (st := (remP L data med.length, RLoss.zero)) hrl
  have hacP : parAccP sc d n (remP L data med.length) data j =
      sc.order.foldl (fun st x => parMerge st (workerP L d n med.length data j sc.parts x))
        (remP L data med.length, RLoss.zero) := by simp only [parAccP, hrl]
  refine change_float M h hk j hB (st := parAccP sc d n (remP L data med.length) data j) ?_ (fun m hm => ?_) ?_
  · rw [parAccP_length, hrl]
  · rw [hacP, (hms m hm).1]
    exact (hslot m hm).mono M.std (by omega) le_rfl
  · rw [hacP, (hms 0 hk).2]
    exact hacc.mono M.std (by omega) le_rfl

end cache

end KMedoids
