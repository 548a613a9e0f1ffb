import Verif.SpecSil
import Verif.Proofs.Sil
import Verif.Proofs.Loss
import Mathlib.Tactic.Linarith

/-! # The computed silhouettes are the textbook ones (exact arithmetic) -/

set_option linter.unusedSectionVars false

namespace KMedoids

open RFrom (conv)

section list
variable {L : Type} [LinearOrder L]

theorem min?_eq_of_mem {l l' : List L} (h : ∀ x, x ∈ l ↔ x ∈ l') : l.min? = l'.min? := by
  have key : ∀ {l l' : List L}, (∀ x, x ∈ l ↔ x ∈ l') → ∀ a, l.min? = some a → l'.min? = some a := by
    intro l l' h a ha
    rw [List.min?_eq_some_iff] at ha ⊢
    exact ⟨(h a).mp ha.1, fun b hb => ha.2 b ((h b).mpr hb)⟩
  cases h1 : l.min? with
  | some a => exact (key h a h1).symm
  | none =>
    cases h2 : l'.min? with
    | none => rfl
    | some a => have := key (fun x => (h x).symm) a h2; rw [h1] at this; cases this

end list

section field
variable {L : Type} [Field L] [LinearOrder L] [IsStrictOrderedRing L] [RLoss L] [LawfulField L]

theorem rgtL (a b : L) : rgt a b = decide (b < a) := by
  rw [Bool.eq_iff_iff]
  simp [rgt, LawfulLoss.pcmp_eq, compare_gt_iff_gt]
theorem divL (a : L) {b : L} (hb : b ≠ 0) : RLoss.div a b = a / b := LawfulField.div_eq a b hb
theorem oneL : (RLoss.one : L) = 1 := LawfulField.one_eq
theorem ofU32L (n : Nat) : (RLoss.ofU32 n : L) = n := LawfulField.ofU32_eq n

theorem checkedDivL (a b : L) : checkedDiv a b = if 0 < b then a / b else 0 := by
  simp only [checkedDiv, rgtL, zeroL, decide_eq_true_eq]
  split
  · rename_i h; exact divL a (ne_of_gt h)
  · rfl

theorem checkedDiv_nat (a : L) (n : Nat) : checkedDiv a (RLoss.ofU32 n) = a / (n : L) := by
  rw [checkedDivL, ofU32L]
  by_cases h : 0 < n
  · rw [if_pos (by exact_mod_cast h)]
  · have : n = 0 := by omega
    subst this; simp

variable {N : Type} [RDist N] [RFrom N L]

theorem foldl_silAdd (d : Nat → Nat → N) (i : Nat) (js : List Nat) (s : Nat × L) :
    js.foldl (silAdd d i) s = (s.1 + js.length, s.2 + (js.map fun j => (conv (d i j) : L)).sum) := by
  induction js generalizing s with
  | nil => simp
  | cons j js ih => simp [ih, silAdd, addL, add_assoc, add_comm 1]

theorem members_eq (assi : List Nat) (i c : Nat) :
    (assi.zipIdx.filter fun p => p.1 = c ∧ p.2 ≠ i).map Prod.snd = members assi i c := by
  have h : (assi.zipIdx.map Prod.snd).filter (fun j => assi[j]? = some c ∧ j ≠ i) = members assi i c := by
    rw [List.zipIdx_map_snd, ← List.range_eq_range']; rfl
  rw [← h, List.filter_map]
  congr 1
  refine List.filter_congr fun p hp => ?_
  have := mem_zipIdx_get hp
  simp [this]

theorem bucket_eq (d : Nat → Nat → N) (assi : List Nat) (i c : Nat) :
    (silBufP L d assi i).getD c (0, RLoss.zero) =
      ((members assi i c).length, ((members assi i c).map fun j => (conv (d i j) : L)).sum) := by
  rw [silBufP_getD, members_eq, foldl_silAdd]
  simp [zeroL]

theorem others_eq (d : Nat → Nat → N) (assi : List Nat) (i ai : Nat) :
    ((silBufP L d assi i).zipIdx.filter (fun p => p.2 ≠ ai)).map
      (fun p => checkedDiv p.1.2 (RLoss.ofU32 p.1.1)) =
    ((List.range (bufLen assi)).filter (· ≠ ai)).map (meanDist (conv : N → L) d assi i) := by
  have h1 : ((silBufP L d assi i).zipIdx.filter (fun p => p.2 ≠ ai)).map
      (fun p => checkedDiv p.1.2 (RLoss.ofU32 p.1.1)) =
      ((silBufP L d assi i).zipIdx.filter (fun p => p.2 ≠ ai)).map
      (fun p => meanDist (conv : N → L) d assi i p.2) := by
    refine List.map_congr_left fun p hp => ?_
    have hb := bucket_eq (L := L) d assi i p.2
    rw [List.getD_eq_getElem?_getD, mem_zipIdx_get (List.mem_of_mem_filter hp), Option.getD_some] at hb
    rw [hb, checkedDiv_nat]; rfl
  rw [h1, ← silBufP_length (L := L) d assi i, List.range_eq_range', ← List.zipIdx_map_snd,
    List.filter_map, List.map_map]
  rfl

theorem members_length_le (assi : List Nat) (i c : Nat) : (members assi i c).length ≤ assi.length := by
  have := List.length_filter_le (fun j => decide (assi[j]? = some c ∧ j ≠ i)) (List.range assi.length)
  simpa [members] using this

theorem mem_members {assi : List Nat} {i c j : Nat} :
    j ∈ members assi i c ↔ assi[j]? = some c ∧ j ≠ i := by
  simp only [members, List.mem_filter, List.mem_range, decide_eq_true_eq]
  refine ⟨fun h => h.2, fun h => ⟨?_, h⟩⟩
  exact (List.getElem?_eq_some_iff.mp h.1).1

theorem meanDist_nonneg {N : Type} [RDist N] [LinearOrder N] [Zero N] [RFrom N L] [LawfulFrom N L]
    {d : Nat → Nat → N} {assi : List Nat} {i : Nat}
    (hnn : ∀ j, j < assi.length → 0 ≤ d i j) (c : Nat) : 0 ≤ meanDist (conv : N → L) d assi i c := by
  refine div_nonneg (List.sum_nonneg fun x hx => ?_) (Nat.cast_nonneg _)
  obtain ⟨j, hj, rfl⟩ := List.mem_map.mp hx
  rw [← LawfulFrom.map_zero (N := N)]
  exact (LawfulFrom.strictMono (N := N) (L := L)).monotone
    (hnn j (List.getElem?_eq_some_iff.mp (mem_members.mp hj).1).1)

theorem foldl_min_eq (xs : List L) (a : L) :
    xs.foldl (fun x y => if rlt y x then y else x) a = xs.foldl min a := by
  congr 1
  funext x y
  rw [rltL, min_def]
  by_cases h : y < x
  · simp [h, not_le.mpr h]
  · simp [h, not_lt.mp h]

/-- The labels other than `ai` are exactly the occurring ones. -/
theorem others_mem {assi : List Nat} (hg : NoGap assi) (ai c : Nat) :
    c ∈ (List.range (bufLen assi)).filter (· ≠ ai) ↔ c ∈ assi.filter (· ≠ ai) := by
  simp only [List.mem_filter, List.mem_range]
  refine and_congr_left fun _ => ⟨fun h => ?_, lt_bufLen⟩
  have hne : assi ≠ [] := by rintro rfl; simp [bufLen] at h
  have := bufLen_mem hne
  exact hg c (bufLen assi - 1) (by omega) this.1

theorem frac_eq {a b : L} (ha0 : 0 ≤ a) (_hb0 : 0 ≤ b) :
    checkedDiv (RLoss.sub b a) (if rgt a b then a else b) = if max a b = 0 then 0 else (b - a) / max a b := by
  have hmax : (if rgt a b then a else b) = max a b := by
    rw [rgtL, max_def]
    by_cases h : b < a
    · simp [h, not_le.mpr h]
    · simp [h, not_lt.mp h]
  rw [hmax, checkedDivL, subL]
  by_cases h0 : max a b = 0
  · rw [if_pos h0, h0, if_neg (lt_irrefl _)]
  · rw [if_neg h0, if_pos (lt_of_le_of_ne (le_trans ha0 (le_max_left _ _)) (Ne.symm h0))]

/-- With `b` the smallest of the other means and `a` the own mean, the value is the textbook one; with no
other cluster it is computed with `b = 0`. -/
theorem silValueP_eq {N : Type} [RDist N] [LinearOrder N] [Zero N] [RFrom N L] [LawfulFrom N L] {d : Nat → Nat → N}
    {assi : List Nat} (hg : NoGap assi) {i ai : Nat} (hnn : ∀ j, j < assi.length → 0 ≤ d i j)
    (hi : assi[i]? = some ai) (hb : bufLen assi ≠ 1) :
    silValueP (silBufP L d assi i) ai = silWith (conv : N → L) d assi i ai := by
  unfold silValueP silWith
  simp only [others_eq]
  simp only [bucket_eq, checkedDiv_nat, foldl_min_eq]
  by_cases hm : members assi i ai = []
  · rw [if_pos hm, if_neg (by simp [hm]), zeroL]
  · rw [if_neg hm, if_pos (List.length_pos_iff.mpr hm)]
    have hmin := min?_eq_of_mem (l := ((List.range (bufLen assi)).filter (· ≠ ai)).map
      (meanDist (conv : N → L) d assi i)) (l' := (assi.filter (· ≠ ai)).map (meanDist (conv : N → L) d assi i))
      (fun x => by
        constructor
        · intro hx; obtain ⟨c, hc, rfl⟩ := List.mem_map.mp hx
          exact List.mem_map_of_mem ((others_mem hg ai c).mp hc)
        · intro hx; obtain ⟨c, hc, rfl⟩ := List.mem_map.mp hx
          exact List.mem_map_of_mem ((others_mem hg ai c).mpr hc))
    rw [← hmin]
    have hai : ai < bufLen assi := lt_bufLen (List.mem_of_getElem? hi)
    have hne : ((List.range (bufLen assi)).filter (· ≠ ai)).map (meanDist (conv : N → L) d assi i) ≠ [] := by
      obtain ⟨c, hc, hca⟩ : ∃ c, c < bufLen assi ∧ c ≠ ai :=
        if h0 : ai = 0 then ⟨1, by omega, by omega⟩ else ⟨0, by omega, by omega⟩
      intro h
      rw [List.map_eq_nil_iff, List.filter_eq_nil_iff] at h
      exact h c (List.mem_range.mpr hc) (by simpa using hca)
    obtain ⟨x, xs, hx⟩ := List.exists_cons_of_ne_nil hne
    have hmem : xs.foldl min x ∈ x :: xs := by
      have : (x :: xs).min? = some (xs.foldl min x) := rfl
      exact List.min?_mem this
    rw [hx]
    simp only [List.tail_cons, List.head?_cons, Option.getD_some, List.min?_cons']
    rw [← hx] at hmem
    obtain ⟨c, -, hc⟩ := List.mem_map.mp hmem
    have hb0 : 0 ≤ xs.foldl min x := hc ▸ meanDist_nonneg hnn c
    have ha0 : 0 ≤ meanDist (conv : N → L) d assi i ai := meanDist_nonneg hnn ai
    exact frac_eq ha0 hb0

theorem silWith_one {N : Type} [RFrom N L] (d : Nat → Nat → N) {assi : List Nat} (hb : bufLen assi = 1)
    {i ai : Nat} (hi : assi[i]? = some ai) : silWith (conv : N → L) d assi i ai = 0 := by
  unfold silWith
  have : assi.filter (· ≠ ai) = [] := by
    rw [List.filter_eq_nil_iff]
    intro c hc
    have := lt_bufLen hc
    have := lt_bufLen (List.mem_of_getElem? hi)
    simp; omega
  rw [this]
  simp

theorem sum_foldl (xs : List L) : xs.foldl RLoss.add RLoss.zero = xs.sum := by
  rw [foldl_add_sum (f := id) (fun a y _ => addL a y), zeroL]; simp

theorem silValsP_eq {N : Type} [RDist N] [LinearOrder N] [Zero N] [RFrom N L] [LawfulFrom N L] {d : Nat → Nat → N}
    {assi : List Nat} (hg : NoGap assi) (hnn : ∀ i j, i < assi.length → j < assi.length → 0 ≤ d i j)
    (hb : bufLen assi ≠ 1) : silValsP L d assi = silList (conv : N → L) d assi := by
  refine List.map_congr_left fun p hp => ?_
  exact silValueP_eq hg (fun j hj => hnn _ _ (mem_zipIdx_lt hp) hj) (mem_zipIdx_get hp) hb

theorem asU32_le {m : Nat} (h : m ≤ u32Max) : asU32 m = m := by
  unfold asU32 u32Max at *; omega

theorem silAvgP_eq {N : Type} [RDist N] [LinearOrder N] [Zero N] [RFrom N L] [LawfulFrom N L] {d : Nat → Nat → N}
    {assi : List Nat} (hg : NoGap assi) (hnn : ∀ i j, i < assi.length → j < assi.length → 0 ≤ d i j)
    (hne : assi ≠ []) (hu : assi.length ≤ u32Max) (hb : bufLen assi ≠ 1) :
    silAvgP L d assi = mean (silList (conv : N → L) d assi) := by
  rw [silAvgP, silValsP_eq hg hnn hb, sum_foldl, ofU32L, asU32_le hu,
    divL _ (by exact_mod_cast (List.length_pos_iff.mpr hne).ne'), mean]
  simp [silList]

theorem silList_one {N : Type} [RFrom N L] (d : Nat → Nat → N) {assi : List Nat} (hb : bufLen assi = 1) :
    silList (conv : N → L) d assi = List.replicate assi.length 0 := by
  refine List.eq_replicate_iff.mpr ⟨by simp [silList], fun x hx => ?_⟩
  obtain ⟨p, hp, rfl⟩ := List.mem_map.mp hx
  exact silWith_one d hb (mem_zipIdx_get hp)

theorem silhouetteP_eq {N : Type} [RDist N] [LinearOrder N] [Zero N] [RFrom N L] [LawfulFrom N L] {d : Nat → Nat → N}
    {assi : List Nat} (hg : NoGap assi) (hnn : ∀ i j, i < assi.length → j < assi.length → 0 ≤ d i j)
    (hne : assi ≠ []) (hu : assi.length ≤ u32Max) (samples : Bool) :
    silhouetteP L d assi samples = (mean (silList (conv : N → L) d assi),
      if samples then silList (conv : N → L) d assi else []) := by
  unfold silhouetteP
  by_cases hb : bufLen assi = 1
  · rw [if_pos hb, silList_one d hb, zeroL, mean]
    cases samples <;> simp
  · rw [if_neg hb, silAvgP_eq hg hnn hne hu hb, silValsP_eq hg hnn hb]

/-! ## range -/

theorem frac_range {a b : L} (ha : 0 ≤ a) (hb : 0 ≤ b) :
    -1 ≤ checkedDiv (b - a) (if rgt a b then a else b) ∧ checkedDiv (b - a) (if rgt a b then a else b) ≤ 1 := by
  rw [checkedDivL, rgtL]
  by_cases h : b < a
  · simp only [h, decide_true, if_true]
    split
    · rename_i h0
      rw [le_div_iff₀ h0, div_le_iff₀ h0]; constructor <;> linarith
    · constructor <;> norm_num
  · simp only [h, decide_false, Bool.false_eq_true, if_false]
    split
    · rename_i h0
      rw [le_div_iff₀ h0, div_le_iff₀ h0]; constructor <;> linarith
    · constructor <;> norm_num

theorem silValueP_range {N : Type} [RDist N] [LinearOrder N] [Zero N] [RFrom N L] [LawfulFrom N L] {d : Nat → Nat → N}
    {assi : List Nat} {i : Nat} (ai : Nat) (hnn : ∀ j, j < assi.length → 0 ≤ d i j) :
    -1 ≤ silValueP (silBufP L d assi i) ai ∧ silValueP (silBufP L d assi i) ai ≤ 1 := by
  unfold silValueP
  simp only [others_eq]
  simp only [bucket_eq, checkedDiv_nat, foldl_min_eq, subL]
  split
  · refine frac_range (meanDist_nonneg hnn ai) ?_
    cases h : ((List.range (bufLen assi)).filter (· ≠ ai)).map (meanDist (conv : N → L) d assi i) with
    | nil => simp [zeroL]
    | cons x xs =>
      have hmem : xs.foldl min x ∈ x :: xs := by
        have : (x :: xs).min? = some (xs.foldl min x) := rfl
        exact List.min?_mem this
      rw [← h] at hmem
      obtain ⟨c, -, hc⟩ := List.mem_map.mp hmem
      exact hc ▸ meanDist_nonneg hnn c
  · rw [zeroL]; constructor <;> norm_num

theorem mean_range {xs : List L} {lo hi : L} (h0 : xs ≠ []) (h : ∀ x ∈ xs, lo ≤ x ∧ x ≤ hi) :
    lo ≤ mean xs ∧ mean xs ≤ hi := by
  have hpos : (0 : L) < xs.length := by exact_mod_cast List.length_pos_iff.mpr h0
  unfold mean
  rw [le_div_iff₀ hpos, div_le_iff₀ hpos]
  constructor
  · have := List.card_nsmul_le_sum xs lo (fun x hx => (h x hx).1)
    rw [nsmul_eq_mul] at this; linarith
  · have := List.sum_le_card_nsmul xs hi (fun x hx => (h x hx).2)
    rw [nsmul_eq_mul] at this; linarith

end field

end KMedoids
