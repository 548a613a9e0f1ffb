import Verif.Proofs.Outcome
import Mathlib.Data.Finset.Prod
import Mathlib.Data.Finset.Powerset

/-! # Strictly decreasing sequences of medoid lists are finite -/

set_option linter.unusedSectionVars false

namespace KMedoids

open RFrom (conv)

/-- `c` steps lead from `a` to `b`, each strictly decreases `T`, and all lists reached satisfy `V`. -/
inductive Descent {α L : Type} [LT L] (T : α → L) (V : α → Prop) : Nat → α → α → Prop
  | refl (a : α) : Descent T V 0 a a
  | step {c : Nat} {a b : α} (h : Descent T V c a b) (e : α) (he : V e) (hT : T e < T b) : Descent T V (c + 1) a e

namespace Descent

variable {α L : Type} [LinearOrder L] {T : α → L} {V : α → Prop}

theorem trans {c c' : Nat} {a b e : α} (h : Descent T V c a b) (h' : Descent T V c' b e) :
    Descent T V (c + c') a e := by
  induction h' with
  | refl _ => exact h
  | step _ e he hT ih => exact .step (ih h) e he hT

theorem valid {c : Nat} {a b : α} (h : Descent T V c a b) (ha : V a) : V b := by
  cases h with
  | refl _ => exact ha
  | step _ _ he _ => exact he

theorem le {c : Nat} {a b : α} (h : Descent T V c a b) : T b ≤ T a := by
  induction h with
  | refl _ => exact le_rfl
  | step _ _ _ hT ih => exact le_trans hT.le ih

theorem lt {c : Nat} {a b : α} (h : Descent T V c a b) (hc : 0 < c) : T b < T a := by
  cases h with
  | refl _ => omega
  | step h _ _ hT => exact lt_of_lt_of_le hT h.le

/-- If `T` is a function of a key that takes finitely many values, there are fewer steps than keys. -/
theorem count {κ : Type} [DecidableEq κ] {key : α → κ} {F : Finset κ} (hF : ∀ a, V a → key a ∈ F)
    (hkey : ∀ a b, V a → V b → key a = key b → T a = T b) {c : Nat} {a b : α} (h : Descent T V c a b)
    (ha : V a) : c < F.card := by
  have hstep : ∃ S : Finset κ, S.card = c ∧ S ⊆ F ∧ ∀ s ∈ S, ∃ x, V x ∧ key x = s ∧ T b < T x := by
    induction h with
    | refl _ => exact ⟨∅, rfl, by simp, by simp⟩
    | @step c a b h e he hT ih =>
      obtain ⟨S, h1, h2, h3⟩ := ih ha
      have hb := h.valid ha
      have hnew : key b ∉ S := fun hmem => by
        obtain ⟨x, hx, hk, hlt⟩ := h3 _ hmem
        rw [hkey x b hx hb hk] at hlt
        exact lt_irrefl _ hlt
      refine ⟨insert (key b) S, by rw [Finset.card_insert_of_notMem hnew, h1],
        Finset.insert_subset (hF b hb) h2, fun s hs => ?_⟩
      rcases Finset.mem_insert.mp hs with rfl | hs
      · exact ⟨b, hb, rfl, hT⟩
      · obtain ⟨x, hx, hk, hlt⟩ := h3 s hs
        exact ⟨x, hx, hk, lt_trans hT hlt⟩
  obtain ⟨S, h1, h2, h3⟩ := hstep
  have hb := h.valid ha
  have hnew : key b ∉ S := fun hmem => by
    obtain ⟨x, hx, hk, hlt⟩ := h3 _ hmem
    rw [hkey x b hx hb hk] at hlt
    exact lt_irrefl _ hlt
  have := Finset.card_le_card (Finset.insert_subset (hF b hb) h2)
  rw [Finset.card_insert_of_notMem hnew, h1] at this
  omega

end Descent

/-- A list of `k` distinct objects. -/
def IsSel (n k : Nat) (a : List Nat) : Prop := a.length = k ∧ a.Nodup ∧ ∀ m ∈ a, m < n

theorem Descent.count_sel {L : Type} [LinearOrder L] {T : List Nat → L} {n k c : Nat} {a b : List Nat}
    (hset : ∀ x y : List Nat, x.toFinset = y.toFinset → T x = T y) (h : Descent T (IsSel n k) c a b)
    (ha : IsSel n k a) : c < Nat.choose n k := by
  have := h.count (key := List.toFinset) (F := Finset.powersetCard k (Finset.range n)) (fun a ha => by
    rw [Finset.mem_powersetCard]
    exact ⟨fun m hm => Finset.mem_range.mpr (ha.2.2 m (List.mem_toFinset.mp hm)),
      by rw [List.toFinset_card_of_nodup ha.2.1, ha.1]⟩) (fun x y _ _ => hset x y) ha
  rwa [Finset.card_powersetCard, Finset.card_range] at this

/-- All lists of length `k` over `0 … n-1`. -/
def allLists (n : Nat) : Nat → Finset (List Nat)
  | 0 => {[]}
  | k + 1 => (Finset.range n ×ˢ allLists n k).image fun p => p.1 :: p.2

theorem allLists_card (n k : Nat) : (allLists n k).card ≤ n ^ k := by
  induction k with
  | zero => simp [allLists]
  | succ k ih =>
    refine le_trans Finset.card_image_le ?_
    rw [Finset.card_product, Finset.card_range, pow_succ, mul_comm]
    exact Nat.mul_le_mul_right _ ih

theorem mem_allLists {n : Nat} : ∀ {a : List Nat}, (∀ m ∈ a, m < n) → a ∈ allLists n a.length
  | [], _ => by simp [allLists]
  | x :: a, h => by
    rw [List.length_cons, allLists, Finset.mem_image]
    exact ⟨(x, a), Finset.mem_product.mpr ⟨Finset.mem_range.mpr (h x (by simp)),
      mem_allLists fun m hm => h m (by simp [hm])⟩, rfl⟩

theorem Descent.count_list {L : Type} [LinearOrder L] {T : List Nat → L} {n k c : Nat} {a b : List Nat}
    (h : Descent T (fun a => a.length = k ∧ ∀ m ∈ a, m < n) c a b) (ha : a.length = k ∧ ∀ m ∈ a, m < n) :
    c < n ^ k :=
  lt_of_lt_of_le (h.count (key := id) (F := allLists n k)
    (fun a (ha : a.length = k ∧ ∀ m ∈ a, m < n) => ha.1 ▸ mem_allLists ha.2)
    (fun x y _ _ e => by rw [show x = y from e]) ha) (allLists_card n k)

/-! ## alternating -/

variable {N L : Type} [LinearOrder N] [Zero N] [RDist N] [LawfulDist N]
variable [AddCommGroup L] [LinearOrder L] [IsOrderedAddMonoid L] [RLoss L] [LawfulLoss L]
variable [RFrom N L] [LawfulFrom N L]

/-- Moving a medoid to a better member of its cluster decreases the loss. -/
theorem altUpdate_lt {n : Nat} {d : Nat → Nat → N} (hd : Dissim n d) (hsym : Symm n d)
    {med assi : List Nat} (hr : ∀ m ∈ med, m < n) (ha : NearestAssignment n d med assi)
    (hch : (altUpdateP L d assi med).1 = true) :
    totalDev (conv : N → L) n d (altUpdateP L d assi med).2 < totalDev (conv : N → L) n d med := by
  have hlt := ha.lt
  have hlen : (altUpdateP L d assi med).2.length = med.length := by rw [altUpdateP_eq]; simp
  refine lt_of_le_of_lt (totalDev_le_assi d ha.length (by rw [hlen]; exact hlt)) ?_
  rw [totalDev_assi ha,
    sum_by_cluster assi med.length hlt (fun m o => conv (d o ((altUpdateP L d assi med).2.getD m 0))),
    sum_by_cluster assi med.length hlt (fun m o => conv (d o (med.getD m 0)))]
  have key : ∀ m c, c < n → ((assi.zipIdx.filter fun p => p.1 = m).map fun p => (conv (d p.2 c) : L)).sum =
      clusterSum (conv : N → L) d assi m c := by
    intro m c hc
    unfold clusterSum
    congr 1
    refine List.map_congr_left fun p hp => ?_
    have hp' := (List.mem_filter.mp hp).1
    rw [hsym p.2 c (ha.length ▸ mem_zipIdx_lt hp') hc]
  have hch' := hch
  rw [altUpdateP_eq] at hch'
  obtain ⟨⟨c, i⟩, hp, hne⟩ := List.any_eq_true.mp hch'
  have hget := List.mem_zipIdx_iff_getElem?.mp hp
  simp only at hget hne
  have hi : i < med.length := (List.getElem?_eq_some_iff.mp hget).1
  apply List.sum_lt_sum
  · intro m hm
    have hm := List.mem_range.mp hm
    have hmn : med.getD m 0 < n := hr _ (by simp [hm])
    obtain ⟨c0, c1, -, c3, -⟩ := chooseP_spec (L := L) hd ha.length m hmn
    rw [altUpdateP_getD d assi med hm, key _ _ c0, key _ _ hmn, ← c1]
    exact c3
  · refine ⟨i, List.mem_range.mpr hi, ?_⟩
    have e : med.getD i 0 = c := by rw [List.getD_eq_getElem?_getD, hget]; rfl
    have hmn : med.getD i 0 < n := hr _ (by simp [hi])
    obtain ⟨c0, c1, -, -, c4⟩ := chooseP_spec (L := L) hd ha.length i hmn
    rw [altUpdateP_getD d assi med hi, key _ _ c0, key _ _ hmn, ← c1]
    refine c4 ?_
    rw [e]
    simpa using hne

theorem altLoopP_descent {n : Nat} {d : Nat → Nat → N} (hd : Dissim n d) (hsym : Symm n d) {fuel iter : Nat}
    {loss : L} {assi med : List Nat} (hv : ValidMeds n med) (hnd : med.Nodup)
    (ha : NearestAssignment n d med assi) :
    ∃ c, Descent (totalDev (conv : N → L) n d) (IsSel n med.length) c med
        (altLoopP d n fuel iter loss assi med).med ∧
      (altLoopP d n fuel iter loss assi med).nIter ≤ iter + c + 1 ∧
      iter + c ≤ (altLoopP d n fuel iter loss assi med).nIter := by
  induction fuel generalizing iter loss assi med with
  | zero => exact ⟨0, .refl _, by simp [altLoopP], by simp [altLoopP]⟩
  | succ fuel ih =>
    unfold altLoopP
    dsimp only
    split
    · rename_i h
      rw [altUpdateP_unchanged (by simpa using h)]
      exact ⟨0, .refl _, le_rfl, by simp⟩
    · rename_i h
      have hnd' := altUpdateP_nodup (L := L) ha
      have hl : (altUpdateP L d assi med).2.length = med.length := by rw [altUpdateP_eq]; simp
      have hv' : ValidMeds n (altUpdateP L d assi med).2 := by
        rw [altUpdateP_eq]
        refine ⟨by simpa using hv.sizes, fun m hm => ?_⟩
        obtain ⟨p, hp, rfl⟩ := List.mem_map.mp hm
        exact (chooseP_spec (L := L) hd ha.length p.2 (hv.range _ (mem_zipIdx_mem hp))).1
      have hlt := altUpdate_lt (L := L) hd hsym hv.range ha (by simpa using h)
      obtain ⟨c, h1, h2, h3⟩ := ih (iter := iter + 1) (loss := nearAssiLossP L d n (altUpdateP L d assi med).2)
        hv' hnd' (nearAssiP_ok hd hv' hnd')
      rw [hl] at h1
      refine ⟨1 + c, (Descent.step (.refl med) _ ⟨hl, hnd', hv'.range⟩ hlt).trans h1, by omega, by omega⟩

end KMedoids
