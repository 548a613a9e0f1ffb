import Verif.Spec
import Verif.Proofs.Cache
import Mathlib.Data.Finset.Powerset
import Mathlib.Data.Nat.Choose.Basic
import Mathlib.Data.Finset.Card

/-! # Facts about chains of improving exchanges -/

namespace KMedoids

variable {L : Type} [LinearOrder L] {T : List Nat → L} {n : Nat}

namespace SwapChain

theorem trans {c c' : Nat} {a b e : List Nat} (h : SwapChain T n c a b) (h' : SwapChain T n c' b e) :
    SwapChain T n (c + c') a e := by
  induction h' with
  | refl _ => exact h
  | step h' b j hb hj hjm hT ih => exact .step (ih h) b j hb hj hjm hT

theorem length {c : Nat} {a b : List Nat} (h : SwapChain T n c a b) : b.length = a.length := by
  induction h with
  | refl _ => rfl
  | step h b j hb hj hjm hT ih => simpa using ih

theorem nodup {c : Nat} {a b : List Nat} (h : SwapChain T n c a b) (ha : a.Nodup) : b.Nodup := by
  induction h with
  | refl _ => exact ha
  | step h b j hb hj hjm hT ih => exact nodup_set (ih ha) hjm

theorem range {c : Nat} {a b : List Nat} (h : SwapChain T n c a b) (ha : ∀ m ∈ a, m < n) :
    ∀ m ∈ b, m < n := by
  induction h with
  | refl _ => exact ha
  | step h b j hb hj hjm hT ih =>
    intro m hm
    rcases List.mem_or_eq_of_mem_set hm with h | h
    · exact ih ha m h
    · omega

theorem le {c : Nat} {a b : List Nat} (h : SwapChain T n c a b) : T b ≤ T a := by
  induction h with
  | refl _ => exact le_refl _
  | step h b j hb hj hjm hT ih => exact le_trans (le_of_lt hT) ih

theorem lt {c : Nat} {a b : List Nat} (h : SwapChain T n c a b) (hc : 0 < c) : T b < T a := by
  cases h with
  | refl _ => omega
  | step h b j hb hj hjm hT => exact lt_of_lt_of_le hT h.le

theorem eq_of_zero {a b : List Nat} (h : SwapChain T n 0 a b) : b = a := by
  cases h; rfl

/-- A chain of improving exchanges never visits the same set twice. -/
theorem count' {c : Nat} {a b : List Nat} (h : SwapChain T n c a b) (ha : a.Nodup)
    (hr : ∀ m ∈ a, m < n) (hset : ∀ x y : List Nat, x.length = a.length → x.Nodup → y.Nodup →
      x.toFinset = y.toFinset → T x = T y) :
    c < Nat.choose n a.length := by
  have key : ∃ S : Finset (Finset Nat), S.card = c ∧
      (∀ s ∈ S, s ∈ Finset.powersetCard a.length (Finset.range n)) ∧
      ∀ s ∈ S, ∃ x : List Nat, x.length = a.length ∧ x.Nodup ∧ x.toFinset = s ∧ T b < T x := by
    induction h with
    | refl med => exact ⟨∅, rfl, by simp, by simp⟩
    | @step c med med' h b j hb hj hjm hT ih =>
      obtain ⟨S, h1, h2, h3⟩ := ih ha hr hset
      have hnew : med'.toFinset ∉ S := by
        intro hmem
        obtain ⟨x, hxl, hxn, hx, hlt⟩ := h3 _ hmem
        rw [hset x med' hxl hxn (h.nodup ha) hx] at hlt
        exact lt_irrefl _ hlt
      refine ⟨insert med'.toFinset S, by rw [Finset.card_insert_of_notMem hnew, h1], ?_, ?_⟩
      · intro s hs
        rcases Finset.mem_insert.mp hs with rfl | hs
        · rw [Finset.mem_powersetCard]
          refine ⟨fun m hm => Finset.mem_range.mpr (h.range hr m (List.mem_toFinset.mp hm)), ?_⟩
          rw [List.toFinset_card_of_nodup (h.nodup ha), h.length]
        · exact h2 s hs
      · intro s hs
        rcases Finset.mem_insert.mp hs with rfl | hs
        · exact ⟨med', h.length, h.nodup ha, rfl, hT⟩
        · obtain ⟨x, hxl, hxn, hx, hlt⟩ := h3 s hs
          exact ⟨x, hxl, hxn, hx, lt_trans hT hlt⟩
  obtain ⟨S, h1, h2, h3⟩ := key
  have hnew : b.toFinset ∉ S := by
    intro hmem
    obtain ⟨x, hxl, hxn, hx, hlt⟩ := h3 _ hmem
    rw [hset x b hxl hxn (h.nodup ha) hx] at hlt
    exact lt_irrefl _ hlt
  have hsub : insert b.toFinset S ⊆ Finset.powersetCard a.length (Finset.range n) := by
    intro s hs
    rcases Finset.mem_insert.mp hs with rfl | hs
    · rw [Finset.mem_powersetCard]
      refine ⟨fun m hm => Finset.mem_range.mpr (h.range hr m (List.mem_toFinset.mp hm)), ?_⟩
      rw [List.toFinset_card_of_nodup (h.nodup ha), h.length]
    · exact h2 s hs
  have := Finset.card_le_card hsub
  rw [Finset.card_insert_of_notMem hnew, h1, Finset.card_powersetCard, Finset.card_range] at this
  omega

theorem count {c : Nat} {a b : List Nat} (h : SwapChain T n c a b) (ha : a.Nodup)
    (hr : ∀ m ∈ a, m < n) (hset : ∀ x y : List Nat, x.toFinset = y.toFinset → T x = T y) :
    c < Nat.choose n a.length :=
  h.count' ha hr fun x y _ _ _ => hset x y

end SwapChain

end KMedoids
