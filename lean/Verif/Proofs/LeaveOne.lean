import Verif.Proofs.SteepRun

/-!
# All objects but one are medoids

If `n - 1` of `n` objects are medoids, then every other choice of `n - 1` medoids is one exchange away. Local search
therefore reaches a best choice with at most one exchange.
-/

set_option linter.unusedSectionVars false

namespace KMedoids

variable {L : Type} [LinearOrder L]

/-- `n - 1` distinct objects. -/
structure AllButOne (n : Nat) (med : List Nat) : Prop where
  length : med.length + 1 = n
  range : ∀ m ∈ med, m < n
  nodup : med.Nodup

theorem exists_not_mem {n : Nat} {l : List Nat} (h : l.length < n) : ∃ x, x < n ∧ x ∉ l := by
  by_contra hc
  have hs : List.range n ⊆ l := fun x hx => by
    by_contra hxl
    exact hc ⟨x, List.mem_range.mp hx, hxl⟩
  have := (List.subperm_of_subset List.nodup_range hs).length_le
  rw [List.length_range] at this
  omega

theorem AllButOne.perm {n : Nat} {med : List Nat} (h : AllButOne n med) {x : Nat} (hx : x < n) (hxm : x ∉ med) :
    (x :: med).Perm (List.range n) := by
  refine (List.subperm_of_subset (List.nodup_cons.mpr ⟨hxm, h.nodup⟩) fun y hy => ?_).perm_of_length_le ?_
  · rcases List.mem_cons.mp hy with rfl | hy
    · exact List.mem_range.mpr hx
    · exact List.mem_range.mpr (h.range y hy)
  · rw [List.length_range, List.length_cons, h.length]

theorem AllButOne.set {n : Nat} {med : List Nat} (h : AllButOne n med) {m x : Nat} (hx : x < n) (hxm : x ∉ med) :
    AllButOne n (med.set m x) :=
  ⟨by rw [List.length_set]; exact h.length, fun y hy => (List.mem_or_eq_of_mem_set hy).elim (h.range y) fun e => e ▸ hx,
    nodup_set h.nodup hxm⟩

/-- The object left out is unique. -/
theorem AllButOne.unique {n : Nat} {med : List Nat} (h : AllButOne n med) {x y : Nat} (hx : x < n) (hxm : x ∉ med)
    (hy : y < n) (hym : y ∉ med) : y = x := by
  have := (h.perm hx hxm).mem_iff.mpr (List.mem_range.mpr hy)
  rcases List.mem_cons.mp this with e | e
  · exact e
  · exact absurd e hym

/-- Every other choice is one exchange away. -/
theorem AllButOne.exchange {n : Nat} {med other : List Nat} (h : AllButOne n med) (h' : AllButOne n other) {x : Nat} (hx : x < n)
    (hxm : x ∉ med) : other.Perm med ∨ ∃ m < med.length, other.Perm (med.set m x) := by
  obtain ⟨y, hy, hyo⟩ := exists_not_mem (n := n) (l := other) (by have := h'.length; omega)
  by_cases e : y = x
  · subst e
    exact .inl (((h'.perm hy hyo).trans (h.perm hx hxm).symm).cons_inv)
  · right
    have hym : y ∈ med := by
      by_contra hc
      exact e (h.unique hx hxm hy hc)
    obtain ⟨m, hm, em⟩ := List.getElem_of_mem hym
    refine ⟨m, hm, ?_⟩
    have hys : y ∉ med.set m x := fun hc => by
      obtain ⟨i, hi, ei⟩ := List.getElem_of_mem hc
      rw [List.length_set] at hi
      rw [List.getElem_set] at ei
      split at ei
      · exact e ei.symm
      · rename_i hne
        exact hne ((h.nodup.getElem_inj_iff (hi := hm) (hj := hi)).mp (em.trans ei.symm))
    exact ((h'.perm hy hyo).trans ((h.set hx hxm).perm hy hys).symm).cons_inv

/-- A best choice of `n - 1` objects. -/
def BestButOne (T : List Nat → L) (n : Nat) (med : List Nat) : Prop := ∀ other, AllButOne n other → T med ≤ T other

/-- The objective depends on the set of medoids only. -/
def SetFn (T : List Nat → L) (n : Nat) : Prop := ∀ a b : List Nat, AllButOne n a → a.Perm b → T a = T b

theorem AllButOne.best {T : List Nat → L} {n : Nat} (hT : SetFn T n) {med : List Nat} (h : AllButOne n med) {x : Nat} (hx : x < n)
    (hxm : x ∉ med) {v : L} (h0 : v ≤ T med) (h1 : ∀ m < med.length, v ≤ T (med.set m x)) {other : List Nat}
    (h' : AllButOne n other) : v ≤ T other := by
  rcases h.exchange h' hx hxm with e | ⟨m, hm, e⟩
  · rw [hT _ _ h' e]; exact h0
  · rw [hT _ _ h' e]; exact h1 m hm

theorem BestButOne.noBetter {T : List Nat → L} {n : Nat} {med : List Nat} (hb : BestButOne T n med) (h : AllButOne n med) :
    NoBetter T n med := fun _ _ _ hx hxm => hb _ (h.set hx hxm)

theorem AllButOne.of_noBetter {T : List Nat → L} {n : Nat} (hT : SetFn T n) {med : List Nat} (h : AllButOne n med)
    (hb : NoBetter T n med) : BestButOne T n med := fun other h' => by
  obtain ⟨x, hx, hxm⟩ := exists_not_mem (n := n) (l := med) (by have := h.length; omega)
  exact h.best hT hx hxm le_rfl (fun m hm => hb m x hm hx hxm) h'

theorem bestOf_le (T : List Nat → L) (l : List (List Nat)) (med : List Nat) :
    T (bestOf T l med) ≤ T med ∧ ∀ y ∈ l, T (bestOf T l med) ≤ T y := by
  unfold bestOf
  induction l generalizing med with
  | nil => exact ⟨le_rfl, by simp⟩
  | cons y l ih =>
    rw [List.foldl_cons]
    obtain ⟨h1, h2⟩ := ih (if T y < T med then y else med)
    have h3 : T (if T y < T med then y else med) ≤ T med ∧ T (if T y < T med then y else med) ≤ T y := by
      split
      · rename_i h; exact ⟨h.le, le_rfl⟩
      · rename_i h; exact ⟨le_rfl, not_lt.mp h⟩
    refine ⟨h1.trans h3.1, fun z hz => ?_⟩
    rcases List.mem_cons.mp hz with rfl | hz
    · exact h1.trans h3.2
    · exact h2 z hz

/-- **Steepest search** needs one exchange, and one more iteration to notice. -/
theorem steepRun_allButOne {T : List Nat → L} {n : Nat} (hT : SetFn T n) {med : List Nat} (h : AllButOne n med) (fuel : Nat) :
    let r := steepRun T n (fuel + 1) med
    AllButOne n r.1 ∧ BestButOne T n r.1 ∧ r.2.2 ≤ 1 ∧ r.2.1 = min (fuel + 1) (r.2.2 + 1) := by
  dsimp only
  obtain ⟨x, hx, hxm⟩ := exists_not_mem (n := n) (l := med) (by have := h.length; omega)
  by_cases hlt : T (bestOf T (neighbours n med) med) < T med
  · obtain ⟨b1, b2⟩ := bestOf_le T (neighbours n med) med
    have hb : BestButOne T n (bestOf T (neighbours n med) med) := fun other h' =>
      h.best hT hx hxm b1 (fun m hm => b2 _ (mem_neighbours.mpr ⟨m, x, hm, hx, hxm, rfl⟩)) h'
    have ha : AllButOne n (bestOf T (neighbours n med) med) := by
      rcases bestOf_mem T (neighbours n med) med with e | e
      · rw [e]; exact h
      · obtain ⟨m, y, -, hy, hym, e⟩ := mem_neighbours.mp e
        rw [e]; exact h.set hy hym
    rw [steepRun_more hlt]
    cases fuel with
    | zero => exact ⟨ha, hb, le_rfl, by simp [steepRun]⟩
    | succ fuel =>
      rw [steepRun_none (hb.noBetter ha)]
      exact ⟨ha, hb, le_rfl, by simp⟩
  · rw [steepRun_done hlt]
    refine ⟨h, fun other h' => ?_, Nat.zero_le _, by simp⟩
    obtain ⟨b1, b2⟩ := bestOf_le T (neighbours n med) med
    have hle := not_lt.mp hlt
    exact h.best hT hx hxm le_rfl (fun m hm => hle.trans (b2 _ (mem_neighbours.mpr ⟨m, x, hm, hx, hxm, rfl⟩))) h'

theorem eager_best {T : List Nat → L} {n : Nat} {med : List Nat} (h : AllButOne n med) (hl : 1 ≤ med.length)
    (hb : BestButOne T n med) {seq : List Nat} (hseq : ∀ j ∈ seq, j < n) (c : Nat) :
    seq.foldl (eagerStep T) (med, c) = (med, c) :=
  eager_settled hl fun x hx => by
    by_cases hxm : x ∈ med
    · exact .inl hxm
    · exact .inr fun m hm => hb.noBetter h m x hm (hseq x hx) hxm

theorem eagerPass_allButOne {T : List Nat → L} {n : Nat} (hT : SetFn T n) {med : List Nat} (h : AllButOne n med)
    (hl : 1 ≤ med.length) {seq : List Nat} (hseq : ∀ j ∈ seq, j < n) (hall : ∀ j < n, j ∈ seq) :
    AllButOne n (eagerPass T seq med).1 ∧ BestButOne T n (eagerPass T seq med).1 ∧ (eagerPass T seq med).2 ≤ 1 := by
  obtain ⟨x, hx, hxm⟩ := exists_not_mem (n := n) (l := med) (by have := h.length; omega)
  obtain ⟨pre, post, e, hpre⟩ := List.eq_append_cons_of_mem (hall x hx)
  have hp : pre.foldl (eagerStep T) (med, 0) = (med, 0) := eager_settled hl fun y hy => by
    by_contra hc
    have hym : y ∉ med := fun hh => hc (.inl hh)
    have := h.unique hx hxm (hseq y (e ▸ List.mem_append_left _ hy)) hym
    exact hpre (this ▸ hy)
  have hpost : ∀ j ∈ post, j < n := fun j hj => hseq j (by rw [e]; exact List.mem_append_right _ (List.mem_cons_of_mem _ hj))
  obtain ⟨f1, f2, -⟩ := firstMin_spec (fun m => T (med.set m x)) hl
  have key : AllButOne n (eagerStep T (med, 0) x).1 ∧ BestButOne T n (eagerStep T (med, 0) x).1 ∧
      (eagerStep T (med, 0) x).2 ≤ 1 := by
    unfold eagerStep
    rw [if_neg hxm]
    dsimp only
    split
    · rename_i hlt
      exact ⟨h.set hx hxm, fun other h' => h.best hT hx hxm hlt.le f2 h', le_rfl⟩
    · rename_i hlt
      exact ⟨h, fun other h' => h.best hT hx hxm le_rfl (fun m hm => (not_lt.mp hlt).trans (f2 m hm)) h', Nat.zero_le _⟩
  obtain ⟨k1, k2, k3⟩ := key
  unfold eagerPass
  rw [e, List.foldl_append, hp, List.foldl_cons,
    eager_best k1 (by have := k1.length; have := h.length; omega) k2 hpost (eagerStep T (med, 0) x).2]
  exact ⟨k1, k2, k3⟩

/-- **Eager search** over all objects, in any order, needs one exchange as well. -/
theorem eagerRun_allButOne {T : List Nat → L} {n : Nat} (hT : SetFn T n) {med : List Nat} (h : AllButOne n med)
    (hl : 1 ≤ med.length) {seq : List Nat} (hseq : ∀ j ∈ seq, j < n) (hall : ∀ j < n, j ∈ seq) (fuel : Nat) :
    let r := eagerRun T seq (fuel + 1) med
    AllButOne n r.1 ∧ BestButOne T n r.1 ∧ r.2.2 ≤ 1 ∧ r.2.1 = min (fuel + 1) (r.2.2 + 1) := by
  dsimp only
  obtain ⟨h1, h2, h3⟩ := eagerPass_allButOne hT h hl hseq hall
  by_cases h0 : (eagerPass T seq med).2 = 0
  · have hm : eagerPass T seq med = (med, 0) := by
      rcases eager_count T seq (med, 0) with ⟨h, -⟩ | ⟨h', -⟩
      · exact h
      · exact absurd h' (by unfold eagerPass at h0; omega)
    rw [eagerRun_done h0]
    rw [hm] at h1 h2
    exact ⟨h1, h2, Nat.zero_le _, by simp⟩
  · have h1' : (eagerPass T seq med).2 = 1 := by omega
    rw [eagerRun_more h0, h1']
    cases fuel with
    | zero => exact ⟨h1, h2, by simp [eagerRun], by simp [eagerRun]⟩
    | succ fuel =>
      have hz : (eagerPass T seq (eagerPass T seq med).1).2 = 0 := by
        have := eager_best h1 (by have := h1.length; have := h.length; omega) h2 hseq 0
        unfold eagerPass at this ⊢
        rw [this]
      rw [eagerRun_done hz]
      exact ⟨h1, h2, by simp, by simp⟩

end KMedoids
