import Verif.Props.C90
import Verif.Props.C91
import Verif.Props.C97
import Mathlib.Algebra.Module.BigOperators

/-!
# C98: a constant added to all distances between different objects changes nothing but the loss

If every distance between two different objects is larger by `c` (or smaller, as long as it stays nonnegative), the total
deviation of every `k` distinct medoids changes by exactly `(n - k) c`. So all comparisons are the same: the algorithms
of the PAM family return the same medoids after the same swaps and iterations, and the loss is shifted. BUILD makes the
same choices, but can stop early only if the loss is zero, so the medoids without the constant are the first ones of those with it.
-/

set_option linter.unusedSectionVars false
set_option linter.overlappingInstances false

namespace KMedoids

open RFrom (conv)

/-! ## Searches that compare in the same way are the same -/

section congr

variable {L M : Type} [LinearOrder L] [LinearOrder M]

/-- `k` distinct objects. -/
structure Distinct (n k : Nat) (med : List Nat) : Prop where
  len : med.length = k
  nodup : med.Nodup
  range : ∀ m ∈ med, m < n

theorem Distinct.set {n k : Nat} {med : List Nat} (h : Distinct n k med) {j : Nat} (hj : j < n) (hjm : j ∉ med) (m : Nat) :
    Distinct n k (med.set m j) :=
  ⟨by rw [List.length_set]; exact h.len, nodup_set h.nodup hjm, fun x hx => by
    rcases List.mem_or_eq_of_mem_set hx with hx | rfl
    · exact h.range x hx
    · exact hj⟩

theorem Distinct.snoc {n k : Nat} {med : List Nat} (h : Distinct n k med) {j : Nat} (hj : j < n) (hjm : j ∉ med) :
    Distinct n (k + 1) (med ++ [j]) :=
  ⟨by rw [List.length_append, h.len]; rfl, by
    rw [List.nodup_append]
    exact ⟨h.nodup, by simp, fun a ha b hb e => by
      rw [List.mem_singleton] at hb; subst hb; exact hjm (e ▸ ha)⟩, fun x hx => by
    rw [List.mem_append, List.mem_singleton] at hx
    rcases hx with hx | rfl
    · exact h.range x hx
    · exact hj⟩

/-- The two functions compare lists of `k` distinct objects in the same way. -/
def SameOrder (n k : Nat) (T : List Nat → L) (T' : List Nat → M) : Prop :=
  ∀ a b, Distinct n k a → Distinct n k b → (T' a < T' b ↔ T a < T b)

variable {n k : Nat} {T : List Nat → L} {T' : List Nat → M}

theorem SameOrder.eagerStep (h : SameOrder n k T T') {s : List Nat × Nat} (hs : Distinct n k s.1) {j : Nat} (hj : j < n) :
    eagerStep T' s j = eagerStep T s j ∧ Distinct n k (KMedoids.eagerStep T s j).1 := by
  unfold KMedoids.eagerStep
  by_cases hjm : j ∈ s.1
  · rw [if_pos hjm, if_pos hjm]; exact ⟨rfl, hs⟩
  · rw [if_neg hjm, if_neg hjm]
    have e : firstMin (fun m => T' (s.1.set m j)) s.1.length = firstMin (fun m => T (s.1.set m j)) s.1.length :=
      firstMin_congr fun a b _ _ => h _ _ (hs.set hj hjm a) (hs.set hj hjm b)
    dsimp only
    rw [e]
    generalize firstMin (fun m => T (s.1.set m j)) s.1.length = m
    have hd := hs.set hj hjm m
    by_cases hlt : T (s.1.set m j) < T s.1
    · rw [if_pos hlt, if_pos ((h _ _ hd hs).mpr hlt)]; exact ⟨rfl, hd⟩
    · rw [if_neg hlt, if_neg (fun g => hlt ((h _ _ hd hs).mp g))]; exact ⟨rfl, hs⟩

theorem SameOrder.eagerFold (h : SameOrder n k T T') {seq : List Nat} (hseq : ∀ j ∈ seq, j < n) {s : List Nat × Nat}
    (hs : Distinct n k s.1) :
    seq.foldl (KMedoids.eagerStep T') s = seq.foldl (KMedoids.eagerStep T) s ∧
      Distinct n k (seq.foldl (KMedoids.eagerStep T) s).1 := by
  induction seq generalizing s with
  | nil => exact ⟨rfl, hs⟩
  | cons j js ih =>
    obtain ⟨e, hd⟩ := h.eagerStep hs (hseq j (by simp))
    rw [List.foldl_cons, List.foldl_cons, e]
    exact ih (fun x hx => hseq x (by simp [hx])) hd

theorem SameOrder.eagerRun (h : SameOrder n k T T') {seq : List Nat} (hseq : ∀ j ∈ seq, j < n) (fuel : Nat)
    {med : List Nat} (hs : Distinct n k med) :
    KMedoids.eagerRun T' seq fuel med = KMedoids.eagerRun T seq fuel med := by
  induction fuel generalizing med with
  | zero => rfl
  | succ fuel ih =>
    obtain ⟨e, hd⟩ := h.eagerFold (s := (med, 0)) hseq hs
    unfold KMedoids.eagerRun eagerPass
    rw [e]
    dsimp only
    rw [ih hd]

theorem SameOrder.bestOf (h : SameOrder n k T T') {l : List (List Nat)} (hl : ∀ y ∈ l, Distinct n k y) {med : List Nat}
    (hs : Distinct n k med) : KMedoids.bestOf T' l med = KMedoids.bestOf T l med ∧ Distinct n k (KMedoids.bestOf T l med) := by
  unfold KMedoids.bestOf
  induction l generalizing med with
  | nil => exact ⟨rfl, hs⟩
  | cons y l ih =>
    have hy := hl y (by simp)
    rw [List.foldl_cons, List.foldl_cons]
    by_cases hlt : T y < T med
    · rw [if_pos hlt, if_pos ((h _ _ hy hs).mpr hlt)]; exact ih (fun x hx => hl x (by simp [hx])) hy
    · rw [if_neg hlt, if_neg (fun g => hlt ((h _ _ hy hs).mp g))]; exact ih (fun x hx => hl x (by simp [hx])) hs

theorem SameOrder.steepRun (h : SameOrder n k T T') (fuel : Nat) {med : List Nat} (hs : Distinct n k med) :
    KMedoids.steepRun T' n fuel med = KMedoids.steepRun T n fuel med := by
  induction fuel generalizing med with
  | zero => rfl
  | succ fuel ih =>
    have hl : ∀ y ∈ neighbours n med, Distinct n k y := fun y hy => by
      obtain ⟨m, x, -, hx, hxm, rfl⟩ := mem_neighbours.mp hy
      exact hs.set hx hxm m
    obtain ⟨e, hd⟩ := h.bestOf hl hs
    unfold KMedoids.steepRun
    rw [e]
    dsimp only
    by_cases hlt : T (KMedoids.bestOf T (neighbours n med) med) < T med
    · rw [if_pos hlt, if_pos ((h _ _ hd hs).mpr hlt), ih hd]
    · rw [if_neg hlt, if_neg (fun g => hlt ((h _ _ hd hs).mp g))]

theorem bestMember_congr {f : Nat → L} {g : Nat → M} {c : Nat} {xs : List Nat}
    (h : ∀ x ∈ xs, ∀ y ∈ xs, (g x ≤ g y ↔ f x ≤ f y)) (hc : c ∈ xs) : bestMember g c xs = bestMember f c xs := by
  unfold bestMember
  have h1 : (∀ y ∈ xs, g c ≤ g y) ↔ ∀ y ∈ xs, f c ≤ f y :=
    ⟨fun H y hy => (h c hc y hy).mp (H y hy), fun H y hy => (h c hc y hy).mpr (H y hy)⟩
  have h2 : xs.find? (fun x => xs.all fun y => decide (g x ≤ g y)) = xs.find? fun x => xs.all fun y => decide (f x ≤ f y) := by
    have : ∀ (zs : List Nat), (∀ z ∈ zs, z ∈ xs) → zs.find? (fun x => xs.all fun y => decide (g x ≤ g y)) =
        zs.find? fun x => xs.all fun y => decide (f x ≤ f y) := by
      intro zs
      induction zs with
      | nil => intro _; rfl
      | cons z zs ih =>
        intro hz
        have e : (xs.all fun y => decide (g z ≤ g y)) = xs.all fun y => decide (f z ≤ f y) := by
          rw [Bool.eq_iff_iff, List.all_eq_true, List.all_eq_true]
          simp only [decide_eq_true_eq]
          exact ⟨fun H y hy => (h z (hz z (by simp)) y hy).mp (H y hy),
            fun H y hy => (h z (hz z (by simp)) y hy).mpr (H y hy)⟩
        rw [List.find?_cons, List.find?_cons, e, ih fun x hx => hz x (by simp [hx])]
    exact this xs fun _ h => h
  simp only [h1, h2]

end congr

/-! ## The shift -/

section shift

variable {N N' L : Type} [LinearOrder N] [Zero N] [RDist N] [LawfulDist N]
variable [LinearOrder N'] [Zero N'] [RDist N'] [LawfulDist N']
variable [AddCommGroup L] [LinearOrder L] [IsOrderedAddMonoid L] [RLoss L] [LawfulLoss L]
variable [RFrom N L] [LawfulFrom N L] [RFrom N' L] [LawfulFrom N' L]

/-- The distances of different objects differ by `c`. The two matrices can have different number types. -/
def Shifted (n : Nat) (d : Nat → Nat → N) (d' : Nat → Nat → N') (c : L) : Prop :=
  ∀ x y, x < n → y < n → x ≠ y → (conv (d' x y) : L) = conv (d x y) + c

variable {n : Nat} {d : Nat → Nat → N} {d' : Nat → Nat → N'} {c : L}

theorem Shifted.lt_iff (h : Shifted n d d' c) {o a b : Nat} (ho : o < n) (ha : a < n) (hb : b < n) (hoa : o ≠ a) (hob : o ≠ b) :
    d' o a < d' o b ↔ d o a < d o b := by
  rw [← (LawfulFrom.strictMono (N := N') (L := L)).lt_iff_lt, h o a ho ha hoa, h o b ho hb hob, add_lt_add_iff_right,
    (LawfulFrom.strictMono (N := N) (L := L)).lt_iff_lt]

theorem Shifted.minDist (h : Shifted n d d' c) (hd : Dissim n d) (hd' : Dissim n d') {med : List Nat} (hne : med ≠ [])
    (hr : ∀ m ∈ med, m < n) {o : Nat} (ho : o < n) :
    (conv (minDist d' o med) : L) = conv (minDist d o med) + if o ∈ med then 0 else c := by
  by_cases hom : o ∈ med
  · rw [if_pos hom, add_zero, minDist_eq (d := d) hom fun c' hc' => by rw [hd.diag _ ho]; exact hd.nonneg _ _ ho (hr c' hc'),
      minDist_eq (d := d') hom fun c' hc' => by rw [hd'.diag _ ho]; exact hd'.nonneg _ _ ho (hr c' hc'), hd.diag _ ho, hd'.diag _ ho,
      LawfulFrom.map_zero, LawfulFrom.map_zero]
  · rw [if_neg hom]
    obtain ⟨⟨a, ha, e⟩, h2⟩ := minDist_spec d o med hne
    have ne : ∀ x ∈ med, o ≠ x := fun x hx e => hom (e ▸ hx)
    rw [e, minDist_eq (d := d') ha fun b hb => not_lt.mp fun hlt =>
      absurd ((h.lt_iff ho (hr b hb) (hr a ha) (ne b hb) (ne a ha)).mp hlt) (not_lt.mpr (e ▸ h2 b hb))]
    exact h o a ho (hr a ha) (ne a ha)

/-- The total deviation of `k` distinct medoids changes by `(n - k) c`. -/
theorem Shifted.totalDev (h : Shifted n d d' c) (hd : Dissim n d) (hd' : Dissim n d') {k : Nat} {med : List Nat}
    (hs : Distinct n k med) (hk : 1 ≤ k) :
    totalDev (conv : N' → L) n d' med = totalDev (conv : N → L) n d med + (n - k) • c := by
  have hne : med ≠ [] := fun e => by have := hs.len; rw [e] at this; simp at this; omega
  rw [totalDev_eq_sum, totalDev_eq_sum,
    Finset.sum_congr rfl fun o ho => h.minDist hd hd' hne hs.range (Finset.mem_range.mp ho), Finset.sum_add_distrib]
  congr 1
  have e : ((Finset.range n).filter fun o => o ∉ med) = Finset.range n \ med.toFinset := by
    ext x; simp
  have hsub : med.toFinset ⊆ Finset.range n := fun x hx => Finset.mem_range.mpr (hs.range x (List.mem_toFinset.mp hx))
  rw [show (∑ o ∈ Finset.range n, if o ∈ med then (0 : L) else c) = ∑ o ∈ Finset.range n, if o ∉ med then c else 0 from
    Finset.sum_congr rfl fun o _ => by by_cases ho : o ∈ med <;> simp [ho],
    ← Finset.sum_filter, Finset.sum_const, e, Finset.card_sdiff_of_subset hsub, List.toFinset_card_of_nodup hs.nodup,
    Finset.card_range, hs.len]

theorem Shifted.sameOrder (h : Shifted n d d' c) (hd : Dissim n d) (hd' : Dissim n d') {k : Nat} (hk : 1 ≤ k) :
    SameOrder n k (KMedoids.totalDev (conv : N → L) n d) (KMedoids.totalDev (conv : N' → L) n d') := fun a b ha hb => by
  rw [h.totalDev hd hd' ha hk, h.totalDev hd hd' hb hk, add_lt_add_iff_right]

theorem ValidMeds.distinct {med : List Nat} (hv : ValidMeds n med) (hnd : med.Nodup) : Distinct n med.length med :=
  ⟨rfl, hnd, hv.range⟩

/-! ### Alternating -/

theorem getD_getElem {l : List Nat} {m : Nat} (h : m < l.length) : l.getD m 0 = l[m] := by
  rw [List.getD_eq_getElem?_getD, List.getElem?_eq_getElem h, Option.getD_some]

theorem Shifted.nearLabel (h : Shifted n d d' c) {med : List Nat} (hr : ∀ m ∈ med, m < n) {o : Nat} (ho : o < n) :
    nearLabel d' med o = nearLabel d med o := by
  unfold KMedoids.nearLabel
  split
  · rfl
  · rename_i hom
    refine firstMin_congr fun a b ha hb => ?_
    have hm : ∀ m, m < med.length → med.getD m 0 ∈ med := fun m hm => by
      rw [getD_getElem hm]; exact List.getElem_mem hm
    exact h.lt_iff ho (hr _ (hm a ha)) (hr _ (hm b hb)) (fun e => hom (e ▸ hm a ha)) (fun e => hom (e ▸ hm b hb))

theorem Shifted.sumTo (h : Shifted n d d' c) (hd : Dissim n d) (hd' : Dissim n d') {xs : List Nat} (hx : ∀ x ∈ xs, x < n)
    (hnd : xs.Nodup) {y : Nat} (hy : y ∈ xs) :
    sumTo (conv : N' → L) d' xs y = sumTo (conv : N → L) d xs y + (xs.length - 1) • c := by
  have key : ∀ zs : List Nat, (∀ z ∈ zs, z < n) → KMedoids.sumTo (conv : N' → L) d' zs y =
      KMedoids.sumTo (conv : N → L) d zs y + (zs.length - zs.count y) • c := by
    intro zs
    induction zs with
    | nil => intro _; simp [KMedoids.sumTo]
    | cons z zs ih =>
      intro hz
      have ih' := ih fun x hx => hz x (by simp [hx])
      have hc := List.count_le_length (a := y) (l := zs)
      unfold KMedoids.sumTo at ih' ⊢
      rw [List.map_cons, List.map_cons, List.sum_cons, List.sum_cons, ih']
      by_cases e : y = z
      · subst e
        rw [hd.diag _ (hx y hy), hd'.diag _ (hx y hy), LawfulFrom.map_zero, LawfulFrom.map_zero, List.count_cons_self,
          List.length_cons, show zs.length + 1 - (zs.count y + 1) = zs.length - zs.count y by omega]
        abel
      · rw [h y z (hx y hy) (hz z (by simp)) e, List.count_cons_of_ne (fun g => e g.symm), List.length_cons,
          show zs.length + 1 - zs.count y = (zs.length - zs.count y) + 1 by omega, succ_nsmul]
        abel
  rw [key xs hx, List.count_eq_one_of_mem hnd hy]

theorem Shifted.altRound (h : Shifted n d d' c) (hd : Dissim n d) (hd' : Dissim n d') {med : List Nat}
    (hv : ValidMeds n med) (hnd : med.Nodup) :
    altRound (conv : N' → L) d' n med = altRound (conv : N → L) d n med := by
  have hmem : ∀ m, membersOf d' n med m = membersOf d n med m := fun m => by
    unfold membersOf
    exact List.filter_congr fun o ho => by rw [h.nearLabel hv.range (List.mem_range.mp ho)]
  unfold KMedoids.altRound
  refine List.map_congr_left fun m hm => ?_
  rw [hmem]
  have hm := List.mem_range.mp hm
  have hlt : ∀ x ∈ membersOf d n med m, x < n := fun x hx => List.mem_range.mp (List.mem_filter.mp hx).1
  have hn : (membersOf d n med m).Nodup := List.Nodup.filter _ List.nodup_range
  refine bestMember_congr (fun x hx y hy => ?_) ?_
  · rw [h.sumTo hd hd' hlt hn hx, h.sumTo hd hd' hlt hn hy, add_le_add_iff_right]
  · rw [getD_getElem hm]
    refine List.mem_filter.mpr ⟨List.mem_range.mpr (hv.range _ (List.getElem_mem hm)), ?_⟩
    rw [decide_eq_true_eq]
    unfold KMedoids.nearLabel
    rw [if_pos (List.getElem_mem hm), List.Nodup.idxOf_getElem hnd]

theorem Shifted.altRun (h : Shifted n d d' c) (hd : Dissim n d) (hd' : Dissim n d') (fuel : Nat) {med : List Nat}
    (hv : ValidMeds n med) (hnd : med.Nodup) :
    altRun (conv : N' → L) d' n fuel med = altRun (conv : N → L) d n fuel med := by
  induction fuel generalizing med with
  | zero => rfl
  | succ fuel ih =>
    unfold KMedoids.altRun
    rw [h.altRound hd hd' hv hnd]
    obtain ⟨v1, v2⟩ := altRound_valid (L := L) hd hv hnd
    rw [ih v1 v2]

/-- **C98, alternating.** The result is the same, except for the loss. -/
theorem C98_alternating {mat : Mat N} {mat' : Mat N'} (hm : IsMatrix mat n d) (hm' : IsMatrix mat' n d')
    (hd : Dissim n d) (hd' : Dissim n d') (h : Shifted n d d' c) {med : List Nat} (hv : ValidMeds n med) (hnd : med.Nodup)
    (maxiter : Nat) {r r' : AltResult L} (hr : alternating L mat med maxiter = .ok r)
    (hr' : alternating L mat' med maxiter = .ok r') :
    r'.med = r.med ∧ r'.assi = r.assi ∧ r'.nIter = r.nIter ∧ r'.loss = r.loss + (n - med.length) • c := by
  obtain ⟨v1, v2⟩ := altRun_valid (L := L) hd maxiter hv hnd
  have hl : (KMedoids.altRun (conv : N → L) d n maxiter med).1.length = med.length := by
    have : ∀ (fuel : Nat) (med : List Nat), (KMedoids.altRun (conv : N → L) d n fuel med).1.length = med.length := by
      intro fuel
      induction fuel with
      | zero => intro med; rfl
      | succ fuel ih =>
        intro med
        unfold KMedoids.altRun
        split
        · rfl
        · dsimp only; rw [ih, altRound_length]
    exact this maxiter med
  rw [C91_alternating hm hd hv hnd] at hr
  rw [C91_alternating hm' hd' hv hnd, h.altRun hd hd' maxiter hv hnd] at hr'
  cases hr
  cases hr'
  refine ⟨rfl, List.map_congr_left fun o ho => h.nearLabel v1.range (List.mem_range.mp ho), rfl, ?_⟩
  exact h.totalDev hd hd' ⟨hl, v2, v1.range⟩ hv.sizes.pos

/-! ### The other algorithms -/

theorem Shifted.single (h : Shifted n d d' c) (hd : Dissim n d) (hd' : Dissim n d') {a : Nat} (ha : a < n) :
    (singleP L d' n a).med = (singleP L d n a).med ∧ (singleP L d' n a).nIter = (singleP L d n a).nIter ∧
      (singleP L d' n a).nSwap = (singleP L d n a).nSwap ∧
      (singleP L d' n a).loss = (singleP L d n a).loss + (n - 1) • c := by
  have hl : ∀ o < n, KMedoids.nearLabel d' [a] o = KMedoids.nearLabel d [a] o := fun o ho =>
    h.nearLabel (by simpa using ha) ho
  have hz : ∀ {N : Type} [LinearOrder N] (e : Nat → Nat → N) (o : Nat), KMedoids.nearLabel e [a] o = 0 := by
    intro N _ e o
    unfold KMedoids.nearLabel
    split
    · rename_i g; rw [List.mem_singleton] at g; rw [g]; simp
    · simp [firstMin]
  have hrep : ∀ {N : Type} [LinearOrder N] (e : Nat → Nat → N),
      List.replicate n 0 = (List.range n).map (KMedoids.nearLabel e [a]) := by
    intro N _ e
    rw [List.map_congr_left fun o _ => hz e o]
    simp
  have hmem : ∀ {N : Type} [LinearOrder N] (e : Nat → Nat → N), membersOf e n [a] 0 = List.range n := by
    intro N _ e
    unfold membersOf
    rw [List.filter_eq_self]
    intro o _
    simp [hz e o]
  have key : (chooseP L d' (List.replicate n 0) 0 a).1 = (chooseP L d (List.replicate n 0) 0 a).1 := by
    have e1 := chooseP_best (L := L) hd (med := [a]) 0 ha
    have e2 := chooseP_best (L := L) hd' (med := [a]) 0 ha
    rw [← hrep, hmem] at e1 e2
    rw [e1, e2]
    refine bestMember_congr (fun x hx y hy => ?_) (List.mem_range.mpr ha)
    rw [h.sumTo hd hd' (fun z hz => List.mem_range.mp hz) List.nodup_range hx,
      h.sumTo hd hd' (fun z hz => List.mem_range.mp hz) List.nodup_range hy, add_le_add_iff_right]
  have hmed : (singleP L d' n a).med = (singleP L d n a).med := by unfold singleP; dsimp only; rw [key]
  refine ⟨hmed, rfl, by unfold singleP; dsimp only; rw [key], ?_⟩
  obtain ⟨b, h1, h2, h3, -⟩ := singleP_spec (L := L) hd ha
  obtain ⟨b', h1', h2', h3', -⟩ := singleP_spec (L := L) hd' ha
  rw [h2, h2'] at hmed
  cases hmed
  rw [h3, h3']
  have := h.sumTo hd hd' (fun z hz => List.mem_range.mp hz) List.nodup_range (List.mem_range.mpr h1)
  rw [List.length_range] at this
  exact this

/-- What the two runs have in common. -/
structure SameRun (n k : Nat) (c : L) (r r' : SwapResult L) : Prop where
  med : r'.med = r.med
  nIter : r'.nIter = r.nIter
  nSwap : r'.nSwap = r.nSwap
  loss : r'.loss = r.loss + (n - k) • c

variable {mat : Mat N} {mat' : Mat N'}

/-- **C98, rand_fasterpam** with the same order of the objects. -/
theorem C98_rand_fasterpam (hm : IsMatrix mat n d) (hm' : IsMatrix mat' n d') (hd : Dissim n d) (hd' : Dissim n d')
    (h : Shifted n d d' c) {med : List Nat} (hv : ValidMeds n med) (hnd : med.Nodup) (maxiter : Nat) {seq : List Nat}
    (hseq : ∀ j ∈ seq, j < n) (hsn : seq.Nodup) {r r' : SwapResult L} (hr : randFasterpam L mat med maxiter seq = .ok r)
    (hr' : randFasterpam L mat' med maxiter seq = .ok r') : SameRun n med.length c r r' := by
  by_cases h1 : med.length = 1
  · rw [randFasterpam_eq hm hv maxiter hseq] at hr
    rw [randFasterpam_eq hm' hv maxiter hseq] at hr'
    obtain ⟨a, rfl⟩ := List.length_eq_one_iff.mp h1
    rw [fpP_single] at hr hr'
    cases hr
    cases hr'
    obtain ⟨a1, a2, a3, a4⟩ := h.single hd hd' (hv.range a (by simp))
    exact ⟨a1, a2, a3, a4⟩
  · have hk : 2 ≤ med.length := by have := hv.sizes.pos; omega
    obtain ⟨e1, e2⟩ := C89_rand_fasterpam hm hd hv hnd hk maxiter hseq hsn hr
    obtain ⟨f1, f2⟩ := C89_rand_fasterpam hm' hd' hv hnd hk maxiter hseq hsn hr'
    rw [(h.sameOrder hd hd' hv.sizes.pos).eagerRun hseq maxiter (hv.distinct hnd), ← e1] at f1
    obtain ⟨g1, g2, g3⟩ : r'.med = r.med ∧ r'.nIter = r.nIter ∧ r'.nSwap = r.nSwap := by
      simpa only [Prod.mk.injEq] using f1
    refine ⟨g1, g2, g3, ?_⟩
    obtain ⟨r0, e, hw⟩ := C04_rand_fasterpam (L := L) hm hv maxiter hseq
    rw [hr] at e
    cases e
    rw [f2, e2, g1]
    exact h.totalDev hd hd' ⟨hw.medLen, C06_rand_fasterpam hm hd hv hnd maxiter hseq hr, hw.medRange⟩ hv.sizes.pos

/-- **C98, fasterpam.** -/
theorem C98_fasterpam (hm : IsMatrix mat n d) (hm' : IsMatrix mat' n d') (hd : Dissim n d) (hd' : Dissim n d')
    (h : Shifted n d d' c) {med : List Nat} (hv : ValidMeds n med) (hnd : med.Nodup) (maxiter : Nat)
    {r r' : SwapResult L} (hr : fasterpam L mat med maxiter = .ok r)
    (hr' : fasterpam L mat' med maxiter = .ok r') : SameRun n med.length c r r' := by
  rw [fasterpam_eq_rand, hm.len] at hr
  rw [fasterpam_eq_rand, hm'.len] at hr'
  exact C98_rand_fasterpam hm hm' hd hd' h hv hnd maxiter (fun j hj => List.mem_range.mp hj) List.nodup_range hr hr'

/-- **C98, par_fasterpam** with the same order of the objects, for all schedules of the threads of the two runs. -/
theorem C98_par_fasterpam (sc0 sc0' : Sched) {scF scS scF' scS' : Nat → Nat → Sched} (hF : ∀ i j, (scF i j).Ok)
    (hF' : ∀ i j, (scF' i j).Ok) (hm : IsMatrix mat n d) (hm' : IsMatrix mat' n d') (hd : Dissim n d) (hd' : Dissim n d')
    (h : Shifted n d d' c) {med : List Nat} (hv : ValidMeds n med) (hnd : med.Nodup) (maxiter : Nat) {seq : List Nat}
    (hseq : ∀ j ∈ seq, j < n) (hsn : seq.Nodup) {r r' : SwapResult L}
    (hr : parFasterpam L sc0 scF scS mat med maxiter seq = .ok r)
    (hr' : parFasterpam L sc0' scF' scS' mat' med maxiter seq = .ok r') : SameRun n med.length c r r' := by
  rw [(C17_par_fasterpam sc0 (scS := scS) hF hm hd hv hnd maxiter hseq).1] at hr
  rw [(C17_par_fasterpam sc0' (scS := scS') hF' hm' hd' hv hnd maxiter hseq).1] at hr'
  exact C98_rand_fasterpam hm hm' hd hd' h hv hnd maxiter hseq hsn hr hr'

/-- **C98, pam_swap.** -/
theorem C98_pam_swap (hm : IsMatrix mat n d) (hm' : IsMatrix mat' n d') (hd : Dissim n d) (hd' : Dissim n d')
    (h : Shifted n d d' c) {med : List Nat} (hv : ValidMeds n med) (hnd : med.Nodup) (maxiter : Nat)
    {r r' : SwapResult L} (hr : pamSwap L mat med maxiter = .ok r)
    (hr' : pamSwap L mat' med maxiter = .ok r') : SameRun n med.length c r r' := by
  by_cases h1 : med.length = 1
  · rw [pamSwap_eq hm hv maxiter] at hr
    rw [pamSwap_eq hm' hv maxiter] at hr'
    obtain ⟨a, rfl⟩ := List.length_eq_one_iff.mp h1
    unfold pamSwapP at hr hr'
    rw [pOptP_single] at hr hr'
    cases hr
    cases hr'
    obtain ⟨a1, a2, a3, a4⟩ := h.single hd hd' (hv.range a (by simp))
    exact ⟨a1, a2, a3, a4⟩
  · have hk : 2 ≤ med.length := by have := hv.sizes.pos; omega
    obtain ⟨e1, e2⟩ := C90_pam_swap hm hd hv hnd hk maxiter hr
    obtain ⟨f1, f2⟩ := C90_pam_swap hm' hd' hv hnd hk maxiter hr'
    rw [(h.sameOrder hd hd' hv.sizes.pos).steepRun maxiter (hv.distinct hnd), ← e1] at f1
    obtain ⟨g1, g2, g3⟩ : r'.med = r.med ∧ r'.nIter = r.nIter ∧ r'.nSwap = r.nSwap := by
      simpa only [Prod.mk.injEq] using f1
    refine ⟨g1, g2, g3, ?_⟩
    obtain ⟨r0, e, hw⟩ := C04_pam_swap (L := L) hm hv maxiter
    rw [hr] at e
    cases e
    rw [f2, e2, g1]
    exact h.totalDev hd hd' ⟨hw.medLen, C06_pam_swap hm hd hv hnd maxiter hr, hw.medRange⟩ hv.sizes.pos

/-- **C98, fastpam1.** -/
theorem C98_fastpam1 (hm : IsMatrix mat n d) (hm' : IsMatrix mat' n d') (hd : Dissim n d) (hd' : Dissim n d')
    (h : Shifted n d d' c) {med : List Nat} (hv : ValidMeds n med) (hnd : med.Nodup) (maxiter : Nat)
    {r r' : SwapResult L} (hr : fastpam1 L mat med maxiter = .ok r)
    (hr' : fastpam1 L mat' med maxiter = .ok r') : SameRun n med.length c r r' := by
  rw [(C14_fastpam1_eq_pam_swap hm hd hv hnd maxiter).1] at hr
  rw [(C14_fastpam1_eq_pam_swap hm' hd' hv hnd maxiter).1] at hr'
  exact C98_pam_swap hm hm' hd hd' h hv hnd maxiter hr hr'

/-! ### BUILD -/

theorem greedyFrom_prefix {M : Type} [LinearOrder M] (T : List Nat → M) (lo n cnt : Nat) (med : List Nat) :
    med <+: greedyFrom T lo n cnt med := by
  induction cnt generalizing med with
  | zero => exact List.prefix_refl _
  | succ cnt ih =>
    unfold greedyFrom
    dsimp only
    split
    · refine List.IsPrefix.trans ?_ (ih _)
      rcases bestOf_mem T ((List.range' lo (n - lo)).map fun x => med ++ [x]) med with e | e
      · rw [e]
      · obtain ⟨x, -, e⟩ := List.mem_map.mp e
        rw [← e]; exact List.prefix_append _ _
    · exact List.prefix_refl _

theorem Shifted.greedyFrom (h : Shifted n d d' c) (hd : Dissim n d) (hd' : Dissim n d') (hc : 0 ≤ c) (cnt : Nat)
    {k : Nat} (hk : 1 ≤ k) {med : List Nat} (hs : Distinct n k med) :
    greedyFrom (KMedoids.totalDev (conv : N → L) n d) 0 n cnt med <+:
      greedyFrom (KMedoids.totalDev (conv : N' → L) n d') 0 n cnt med := by
  induction cnt generalizing k med with
  | zero => exact List.prefix_refl _
  | succ cnt ih =>
    by_cases hx : ∃ x < n, KMedoids.totalDev (conv : N → L) n d (med ++ [x]) < KMedoids.totalDev (conv : N → L) n d med
    · obtain ⟨x, hxn, hlt⟩ := hx
      obtain ⟨g1, g2, g3⟩ := firstMin_spec (fun x => KMedoids.totalDev (conv : N → L) n d (med ++ [x])) (k := n) (by omega)
      generalize firstMin (fun x => KMedoids.totalDev (conv : N → L) n d (med ++ [x])) n = b at g1 g2 g3
      have hb := lt_of_le_of_lt (g2 x hxn) hlt
      have hbm : b ∉ med := fun hm => by
        rw [totalDev_append_mem hm] at hb; exact lt_irrefl _ hb
      have hsb := hs.snoc g1 hbm
      have hle : k + 1 ≤ n := by
        rw [← hsb.len]
        have := List.subperm_of_subset hsb.nodup (l₂ := List.range n) fun z hz => List.mem_range.mpr (hsb.range z hz)
        simpa using this.length_le
      have htd := h.totalDev hd hd' hs hk
      have htb := h.totalDev hd hd' hsb (by omega)
      have hsh : (n - k) • c = (n - (k + 1)) • c + c := by
        rw [show n - k = (n - (k + 1)) + 1 by omega, succ_nsmul]
      have hlt' : KMedoids.totalDev (conv : N' → L) n d' (med ++ [b]) < KMedoids.totalDev (conv : N' → L) n d' med := by
        rw [htd, htb, hsh, ← add_assoc]
        exact lt_of_lt_of_le (add_lt_add_of_lt_of_le hb (le_refl _)) (le_add_of_nonneg_right hc)
      rw [greedyFrom_more (Nat.zero_le b) g1 hb (fun y _ hy => g2 y hy) fun y _ hy => g3 y hy,
        greedyFrom_more (T := KMedoids.totalDev (conv : N' → L) n d') (Nat.zero_le b) g1 hlt' (fun y _ hy => ?_)
          fun y _ hy => ?_]
      · exact ih (by omega) hsb
      · by_cases hym : y ∈ med
        · rw [totalDev_append_mem hym]; exact le_of_lt hlt'
        · rw [htb, h.totalDev hd hd' (hs.snoc hy hym) (by omega)]
          exact add_le_add (g2 y hy) (le_refl _)
      · by_cases hym : y ∈ med
        · rw [totalDev_append_mem hym]; exact hlt'
        · rw [htb, h.totalDev hd hd' (hs.snoc (by omega) hym) (by omega)]
          exact add_lt_add_of_lt_of_le (g3 y hy) (le_refl _)
    · rw [greedyFrom_stop fun x _ hxn => not_lt.mp fun hlt => hx ⟨x, hxn, hlt⟩]
      exact greedyFrom_prefix _ _ _ _ _

/-- **C98, pam_build:** for `c ≥ 0` the medoids are the first ones of those for the larger distances. If there are
`k` they are the same, and the loss is shifted. For `c > 0` there are always `k`. -/
theorem C98_pam_build (hm : IsMatrix mat n d) (hm' : IsMatrix mat' n d') (hd : Dissim n d) (hd' : Dissim n d')
    (h : Shifted n d d' c) (hc : 0 ≤ c) {k : Nat} (hs : Sizes n k) {b b' : BuildResult L}
    (hb : pamBuild L mat k = .ok b) (hb' : pamBuild L mat' k = .ok b') :
    b.med <+: b'.med ∧ (b.med.length = k → b'.med = b.med ∧ b'.loss = b.loss + (n - k) • c) ∧
      (0 < c → b'.med.length = k) := by
  have e := C90_pam_build hm hd hs hb
  have e' := C90_pam_build hm' hd' hs hb'
  have hn : 0 < n := lt_of_lt_of_le hs.pos hs.le
  have hsing : ∀ x < n, Distinct n 1 [x] := fun x hx => ⟨rfl, by simp, by simpa using hx⟩
  have h1 : firstMin (fun x => KMedoids.totalDev (conv : N' → L) n d' [x]) n =
      firstMin (fun x => KMedoids.totalDev (conv : N → L) n d [x]) n :=
    firstMin_congr fun x y hx hy => h.sameOrder hd hd' (le_refl _) _ _ (hsing x hx) (hsing y hy)
  have hpre : b.med <+: b'.med := by
    rw [e, e']
    unfold greedyBuild
    rw [h1]
    exact h.greedyFrom hd hd' hc _ (le_refl _) (hsing _ (firstMin_spec _ hn).1)
  obtain ⟨-, a2, a3, a4, -, a6⟩ := C19_pam_build hm hd hs hb
  obtain ⟨-, a2', a3', a4', -, a6'⟩ := C19_pam_build hm' hd' hs hb'
  refine ⟨hpre, fun hk => ?_, fun hpos => ?_⟩
  · have hmed := hpre.eq_of_length (le_antisymm hpre.length_le (hk ▸ a2'))
    refine ⟨hmed.symm, ?_⟩
    rw [a6', a6, ← hmed]
    exact h.totalDev hd hd' ⟨hk, a3, a4⟩ hs.pos
  · refine (C20_pam_build hm' hd' hs hb').2 fun ms hl hne hnd hr => ne_of_gt ?_
    have hl1 : 1 ≤ ms.length := List.length_pos_iff.mpr hne
    rw [h.totalDev hd hd' ⟨rfl, hnd, hr⟩ hl1]
    refine add_pos_of_nonneg_of_pos ?_ (nsmul_pos hpos (by have := hs.le; omega))
    rw [totalDev_eq_sum]
    refine Finset.sum_nonneg fun o ho => ?_
    obtain ⟨⟨a, ha, ea⟩, -⟩ := minDist_spec d o ms hne
    rw [ea, ← LawfulFrom.map_zero (N := N) (L := L)]
    exact (LawfulFrom.strictMono (N := N) (L := L)).monotone (hd.nonneg _ _ (Finset.mem_range.mp ho) (hr a ha))

/-- **C98, pam,** if BUILD finds `k` medoids. -/
theorem C98_pam (hm : IsMatrix mat n d) (hm' : IsMatrix mat' n d') (hd : Dissim n d) (hd' : Dissim n d')
    (h : Shifted n d d' c) (hc : 0 ≤ c) {k : Nat} (hs : Sizes n k) (maxiter : Nat) {b : BuildResult L}
    (hb : pamBuild L mat k = .ok b) (hk : b.med.length = k) {r r' : SwapResult L} (hr : pam L mat k maxiter = .ok r)
    (hr' : pam L mat' k maxiter = .ok r') : SameRun n k c r r' := by
  have hb' := pamBuild_eq (L := L) hm' hs
  obtain ⟨-, h2, -⟩ := C98_pam_build hm hm' hd hd' h hc hs hb hb'
  have hmed := (h2 hk).1
  obtain ⟨-, -, a3, a4, -, -⟩ := C19_pam_build hm hd hs hb
  rw [(C22_pam hm hd hs maxiter hb).1] at hr
  rw [(C22_pam hm' hd' hs maxiter hb').1, hmed] at hr'
  have := C98_pam_swap hm hm' hd hd' h (med := b.med) ⟨by rw [hk]; exact hs, a4⟩ a3 maxiter hr hr'
  rw [hk] at this
  exact this

end shift

/-! ## Examples -/

/-- The distances plus three. -/
def plus3 (d : Nat → Nat → ℕ) (x y : Nat) : ℕ := if x = y then 0 else d x y + 3

theorem plus3_shifted (n : Nat) (d : Nat → Nat → ℕ) : Shifted n d (plus3 d) (3 : ℤ) := fun x y _ _ h => by
  unfold plus3
  rw [if_neg h]
  show ((d x y + 3 : ℕ) : ℤ) = (d x y : ℤ) + 3
  push_cast
  ring

theorem plus3_dissim (n : Nat) (d : Nat → Nat → ℕ) : Dissim n (plus3 d) :=
  ⟨fun x _ => by simp [plus3], fun _ _ _ _ => Nat.zero_le _⟩

/-- Five points on a line: two swaps, with and without the constant; the loss grows by `(5 - 2) · 3`. -/
example : fasterpam ℤ (lineMat [0, 1, 2, 3, 4]) [0, 1] 8 = .ok ⟨3, [1, 1, 1, 0, 0], 2, 2, [3, 1]⟩ ∧
    fasterpam ℤ (fnMat 5 (plus3 (lineD [0, 1, 2, 3, 4]))) [0, 1] 8 = .ok ⟨12, [1, 1, 1, 0, 0], 2, 2, [3, 1]⟩ ∧
    alternating ℤ (lineMat [0, 5, 10, 15, 20]) [0, 4] 100 = .ok ⟨15, [0, 0, 0, 1, 1], 2, [1, 4]⟩ ∧
    alternating ℤ (fnMat 5 (plus3 (lineD [0, 5, 10, 15, 20]))) [0, 4] 100 = .ok ⟨24, [0, 0, 0, 1, 1], 2, [1, 4]⟩ := by
  refine ⟨by decide +kernel, by decide +kernel, by decide +kernel, by decide +kernel⟩

/-- Two different places only: BUILD stops after two medoids, with the constant it returns three. -/
example : (pamBuild ℤ (lineMat [0, 0, 5, 5]) 3).toOption.map (·.med) = some [0, 2] ∧
    (pamBuild ℤ (fnMat 4 (plus3 (lineD [0, 0, 5, 5]))) 3).toOption.map (·.med) = some [0, 2, 1] := by
  refine ⟨by decide +kernel, by decide +kernel⟩

end KMedoids
