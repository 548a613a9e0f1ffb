import Verif.Proofs.CacheLoops
import Verif.Proofs.ParAny

/-!
# The cache of one object when distances need not be comparable

Only the comparisons within the row of object `o` are restricted: `<` is transitive and irreflexive there, and nothing is
smaller than zero or than the distance of `o` to itself. Two distances may be incomparable (NaN). Nothing is assumed about
the rows of the other objects or about the losses.
-/

set_option linter.unusedSectionVars false

namespace KMedoids

variable {N L : Type} [RDist N] [RLoss L] [RFrom N L]
open RFrom (conv)

/-- The comparisons within row `o`. -/
structure RowOrder (n : Nat) (d : Nat → Nat → N) (o : Nat) : Prop where
  irrefl : ∀ x, x < n → rlt (d o x) (d o x) = false
  trans : ∀ x y z, x < n → y < n → z < n → rlt (d o x) (d o y) = true → rlt (d o y) (d o z) = true →
    rlt (d o x) (d o z) = true
  self : ∀ x, x < n → rlt (d o x) (d o o) = false
  zero : ∀ x, x < n → rlt (d o x) (RDist.zero : N) = false

variable {n : Nat} {d : Nat → Nat → N} {o : Nat}

theorem RowOrder.below (h : RowOrder n d o) {x y z : Nat} (hx : x < n) (hy : y < n) (hz : z < n)
    (hxz : rlt (d o x) (d o z) = false) (hyz : rlt (d o y) (d o z) = true) : rlt (d o x) (d o y) = false := by
  by_contra hc
  have := h.trans x y z hx hy hz (by simpa using hc) hyz
  rw [hxz] at this; cases this

/-- The cached medoids of object `o`: no medoid is closer than the first, none but the first closer than the second. -/
structure RecW (d : Nat → Nat → N) (med : List Nat) (o : Nat) (r : Rec N) : Prop where
  near : ∃ c, med[r.near.i]? = some c ∧ (r.near.d = d o c ∨ c = o ∧ r.near.d = RDist.zero)
  seco : ∃ c, med[r.seco.i]? = some c ∧ r.seco.d = d o c
  ne : r.near.i ≠ r.seco.i
  first : ∀ c ∈ med, rlt (d o c) r.near.d = false
  second : ∀ m c : Nat, med[m]? = some c → m ≠ r.near.i → rlt (d o c) r.seco.d = false
  own : ∀ m : Nat, med[m]? = some o → r.near.i = m

theorem usnP_row (h : RowOrder n d o) {med : List Nat} (hr : ∀ m ∈ med, m < n) {nn b j : Nat}
    (hb : med[b]? = some j) (hnb : nn ≠ b) :
    (∃ c, med[(usnP d med nn b o (d o j)).i]? = some c ∧ (usnP d med nn b o (d o j)).d = d o c) ∧
    (usnP d med nn b o (d o j)).i ≠ nn ∧
    (∀ m c : Nat, med[m]? = some c → m ≠ nn → rlt (d o c) (usnP d med nn b o (d o j)).d = false) := by
  have hjn : j < n := hr j (List.mem_of_getElem? hb)
  have key : ∀ xs : List (Nat × Nat), (∀ p ∈ xs, med[p.2]? = some p.1) → ∀ s : DistancePair N,
      (∃ c, med[s.i]? = some c ∧ s.d = d o c) → s.i ≠ nn →
      let s' := xs.foldl (fun (s : DistancePair N) (p : Nat × Nat) =>
        if p.2 = nn ∨ p.2 = b then s else if rlt (d o p.1) s.d then ⟨p.2, d o p.1⟩ else s) s
      (∃ c, med[s'.i]? = some c ∧ s'.d = d o c) ∧ s'.i ≠ nn ∧
        (∀ x, x < n → rlt (d o x) s.d = false → rlt (d o x) s'.d = false) ∧
        ∀ p ∈ xs, p.2 ≠ nn → p.2 ≠ b → rlt (d o p.1) s'.d = false := by
    intro xs
    induction xs with
    | nil => intro _ s h1 h2; exact ⟨h1, h2, fun x _ hx => hx, by simp⟩
    | cons p xs ih =>
      intro hmem s h1 h2
      have hp := hmem p (by simp)
      have hpn : p.1 < n := hr _ (List.mem_of_getElem? hp)
      have ih := ih (fun q hq => hmem q (by simp [hq]))
      simp only [List.foldl_cons]
      by_cases hc : p.2 = nn ∨ p.2 = b
      · simp only [if_pos hc]
        obtain ⟨a1, a2, a3, a4⟩ := ih s h1 h2
        refine ⟨a1, a2, a3, ?_⟩
        intro q hq hq1 hq2
        rcases List.mem_cons.mp hq with rfl | hq
        · rcases hc with hc | hc
          · exact absurd hc hq1
          · exact absurd hc hq2
        · exact a4 q hq hq1 hq2
      · simp only [if_neg hc]
        rw [not_or] at hc
        obtain ⟨cs, hcs, hds⟩ := h1
        have hcsn : cs < n := hr _ (List.mem_of_getElem? hcs)
        by_cases hlt : rlt (d o p.1) s.d = true
        · simp only [hlt, if_true]
          obtain ⟨a1, a2, a3, a4⟩ := ih ⟨p.2, d o p.1⟩ ⟨p.1, hp, rfl⟩ hc.1
          have hdown : ∀ x, x < n → rlt (d o x) s.d = false → rlt (d o x) (d o p.1) = false := by
            intro x hx hxs
            rw [hds] at hxs hlt
            exact h.below hx hpn hcsn hxs hlt
          refine ⟨a1, a2, fun x hx hxs => a3 x hx (hdown x hx hxs), ?_⟩
          intro q hq hq1 hq2
          rcases List.mem_cons.mp hq with rfl | hq
          · exact a3 _ hpn (h.irrefl _ hpn)
          · exact a4 q hq hq1 hq2
        · simp only [hlt, Bool.false_eq_true, if_false]
          obtain ⟨a1, a2, a3, a4⟩ := ih s ⟨cs, hcs, hds⟩ h2
          refine ⟨a1, a2, a3, ?_⟩
          intro q hq hq1 hq2
          rcases List.mem_cons.mp hq with rfl | hq
          · exact a3 _ hpn (by simpa using hlt)
          · exact a4 q hq hq1 hq2
  obtain ⟨a1, a2, a3, a4⟩ := key med.zipIdx (fun p hp => mem_zipIdx_get hp) ⟨b, d o j⟩ ⟨j, hb, rfl⟩
    (fun h => hnb h.symm)
  refine ⟨a1, a2, ?_⟩
  intro m c hm hmn
  by_cases hmb : m = b
  · subst hmb
    rw [hb] at hm; cases hm
    exact a3 _ hjn (h.irrefl _ hjn)
  · exact a4 (c, m) (List.mem_zipIdx_iff_getElem?.mpr (by simpa using hm)) hmn hmb

theorem getElem?_set_lt' {α : Type} {l : List α} {b : Nat} (hb : b < l.length) (x : α) (m : Nat) :
    (l.set b x)[m]? = if m = b then some x else l[m]? := by
  rw [List.getElem?_set]
  by_cases h : b = m
  · subst h; simp [hb]
  · simp [h, Ne.symm h]

/-- The record after an exchange; both the order of the tests in `do_swap` and that in `par_do_swap`. -/
theorem swapRecP_row (h : RowOrder n d o) {med : List Nat} {b j : Nat} (hb : b < med.length) (hj : j < n)
    (hr : ∀ m ∈ med, m < n) (hjo : o = j → j ∉ med) {r : Rec N} (hrec : RecW d med o r) :
    RecW d (med.set b j) o (swapRecP d (med.set b j) b j (r, o)) ∧
      RecW d (med.set b j) o (parSwapRecP d (med.set b j) b j (r, o)) := by
  have hset := getElem?_set_lt' (l := med) hb j
  have hsb : (med.set b j)[b]? = some j := by rw [hset]; simp
  obtain ⟨⟨c1, hc1, hd1⟩, ⟨c2, hc2, hd2⟩, hne, hfirst, hsecond, hown⟩ := hrec
  have hc1n : c1 < n := hr _ (List.mem_of_getElem? hc1)
  have hc2n : c2 < n := hr _ (List.mem_of_getElem? hc2)
  have hr' : ∀ m ∈ med.set b j, m < n := by
    intro m hm
    rcases List.mem_or_eq_of_mem_set hm with hm | hm
    · exact hr m hm
    · omega
  -- members of the new list
  have hmem : ∀ c ∈ med.set b j, c = j ∨ ∃ m : Nat, m ≠ b ∧ med[m]? = some c := by
    intro c hc
    obtain ⟨m, hm⟩ := List.mem_iff_getElem?.mp hc
    rw [hset] at hm
    split at hm
    · left; cases hm; rfl
    · exact Or.inr ⟨m, by assumption, hm⟩
  have hfirst' : ∀ m c : Nat, med[m]? = some c → rlt (d o c) r.near.d = false :=
    fun m c hm => hfirst c (List.mem_of_getElem? hm)
  unfold swapRecP parSwapRecP
  by_cases hoj : o = j
  · have hjm : ∀ m : Nat, med[m]? ≠ some j := fun m h => hjo hoj (List.mem_of_getElem? h)
    have hc1o : c1 ≠ o := fun e => hjm _ (by rw [hc1, e, hoj])
    have hd1 : r.near.d = d o c1 := by
      rcases hd1 with hd1 | hd1
      · exact hd1
      · exact absurd hd1.1 hc1o
    subst hoj
    simp only [if_true]
    have hownj : ∀ m : Nat, (med.set b o)[m]? = some o → b = m := by
      intro m hm
      by_contra hmb
      rw [hset, if_neg (Ne.symm hmb)] at hm
      exact hjm m hm
    have hgoal : RecW d (med.set b o) o
        ⟨⟨b, RDist.zero⟩, if r.near.i ≠ b then r.near else r.seco⟩ := by
      by_cases hnb : r.near.i = b
      · rw [if_neg (by simpa using hnb)]
        refine ⟨⟨o, hsb, Or.inr ⟨rfl, rfl⟩⟩, ⟨c2, ?_, hd2⟩, ?_, fun c hc => h.zero c (hr' c hc), ?_, hownj⟩
        · dsimp only; rw [hset, if_neg (by omega)]; exact hc2
        · dsimp only; omega
        · intro m c hm hmb
          dsimp only at hmb ⊢
          rw [hset, if_neg hmb] at hm
          exact hsecond m c hm (by omega)
      · rw [if_pos hnb]
        refine ⟨⟨o, hsb, Or.inr ⟨rfl, rfl⟩⟩, ⟨c1, ?_, hd1⟩, ?_, fun c hc => h.zero c (hr' c hc), ?_, hownj⟩
        · dsimp only; rw [hset, if_neg hnb]; exact hc1
        · dsimp only; omega
        · intro m c hm hmb
          dsimp only at hmb ⊢
          rw [hset, if_neg hmb] at hm
          exact hfirst' m c hm
    exact ⟨hgoal, hgoal⟩
  · simp only [hoj, if_false]
    have hown' : ∀ m : Nat, (med.set b j)[m]? = some o → m ≠ b ∧ r.near.i = m := by
      intro m hm
      rw [hset] at hm
      split at hm
      · cases hm; exact absurd rfl hoj
      · exact ⟨by assumption, hown m hm⟩
    by_cases hnb : r.near.i = b
    · simp only [if_pos hnb]
      by_cases h1 : rlt (d o j) r.seco.d = true
      · simp only [if_pos h1]
        have hgoal : RecW d (med.set b j) o ⟨⟨b, d o j⟩, r.seco⟩ := by
          refine ⟨⟨j, hsb, Or.inl rfl⟩, ⟨c2, ?_, hd2⟩, ?_, ?_, ?_, ?_⟩
          · dsimp only; rw [hset, if_neg (by omega)]; exact hc2
          · dsimp only; omega
          · intro c hc
            rcases hmem c hc with rfl | ⟨m, hmb, hm⟩
            · exact h.irrefl _ hj
            · have := hsecond m c hm (by omega)
              rw [hd2] at this h1
              exact h.below (hr' c hc) hj hc2n this h1
          · intro m c hm hmb
            dsimp only at hmb ⊢
            rw [hset, if_neg hmb] at hm
            exact hsecond m c hm (by omega)
          · intro m hm
            have := hown' m hm
            dsimp only; omega
        exact ⟨hgoal, hgoal⟩
      · simp only [if_neg h1]
        obtain ⟨u1, u2, u3⟩ := usnP_row h hr' hsb (nn := r.seco.i) (by omega)
        have hgoal : RecW d (med.set b j) o ⟨r.seco, usnP d (med.set b j) r.seco.i b o (d o j)⟩ := by
          refine ⟨⟨c2, ?_, Or.inl hd2⟩, u1, Ne.symm u2, ?_, u3, ?_⟩
          · dsimp only; rw [hset, if_neg (by omega)]; exact hc2
          · intro c hc
            rcases hmem c hc with rfl | ⟨m, hmb, hm⟩
            · simpa using h1
            · exact hsecond m c hm (by omega)
          · intro m hm
            have := hown' m hm
            omega
        exact ⟨hgoal, hgoal⟩
    · simp only [if_neg hnb]
      by_cases h1 : rlt (d o j) r.near.d = true
      · simp only [if_pos h1]
        have hd1' : r.near.d = d o c1 := by
          rcases hd1 with hd1 | ⟨-, hd1⟩
          · exact hd1
          · rw [hd1, h.zero j hj] at h1; cases h1
        have hgoal : RecW d (med.set b j) o ⟨⟨b, d o j⟩, r.near⟩ := by
          refine ⟨⟨j, hsb, Or.inl rfl⟩, ⟨c1, ?_, hd1'⟩, ?_, ?_, ?_, ?_⟩
          · rw [hset, if_neg hnb]; exact hc1
          · dsimp only; omega
          · intro c hc
            rcases hmem c hc with rfl | ⟨m, hmb, hm⟩
            · exact h.irrefl _ hj
            · have := hfirst' m c hm
              rw [hd1'] at this h1
              exact h.below (hr' c hc) hj hc1n this h1
          · intro m c hm hmb
            dsimp only at hmb ⊢
            rw [hset, if_neg hmb] at hm
            exact hfirst' m c hm
          · intro m hm
            have h2 := hown' m hm
            rw [hset, if_neg h2.1] at hm
            rw [h2.2, hm] at hc1
            cases hc1
            rw [hd1', h.self j hj] at h1
            cases h1
        exact ⟨hgoal, hgoal⟩
      · simp only [if_neg h1]
        have hf : ∀ c ∈ med.set b j, rlt (d o c) r.near.d = false := by
          intro c hc
          rcases hmem c hc with rfl | ⟨m, hmb, hm⟩
          · simpa using h1
          · exact hfirst' m c hm
        have hn : ∃ c, (med.set b j)[r.near.i]? = some c ∧ (r.near.d = d o c ∨ c = o ∧ r.near.d = RDist.zero) :=
          ⟨c1, by rw [hset, if_neg hnb]; exact hc1, hd1⟩
        have hgu : r.seco.i = b →
            RecW d (med.set b j) o { r with seco := usnP d (med.set b j) r.near.i b o (d o j) } := by
          intro h3
          obtain ⟨u1, u2, u3⟩ := usnP_row h hr' hsb (nn := r.near.i) hnb
          exact ⟨hn, u1, Ne.symm u2, hf, u3, fun m hm => (hown' m hm).2⟩
        have hgs : rlt (d o j) r.seco.d = true → RecW d (med.set b j) o { r with seco := ⟨b, d o j⟩ } := by
          intro h2
          refine ⟨hn, ⟨j, hsb, rfl⟩, hnb, hf, ?_, fun m hm => (hown' m hm).2⟩
          intro m c hm hmi
          rw [hset] at hm
          split at hm
          · cases hm; exact h.irrefl _ hj
          · have := hsecond m c hm hmi
            rw [hd2] at this h2
            exact h.below (hr _ (List.mem_of_getElem? hm)) hj hc2n this h2
        have hgn : rlt (d o j) r.seco.d = false → r.seco.i ≠ b → RecW d (med.set b j) o r := by
          intro h2 h3
          refine ⟨hn, ⟨c2, ?_, hd2⟩, hne, hf, ?_, fun m hm => (hown' m hm).2⟩
          · rw [hset, if_neg h3]; exact hc2
          · intro m c hm hmi
            rw [hset] at hm
            split at hm
            · cases hm; exact h2
            · exact hsecond m c hm hmi
        by_cases h2 : rlt (d o j) r.seco.d = true
        · by_cases h3 : r.seco.i = b
          · simp only [h2, h3, if_true]; exact ⟨hgs h2, hgu h3⟩
          · simp only [h2, h3, if_true, if_false]; exact ⟨hgs h2, hgs h2⟩
        · by_cases h3 : r.seco.i = b
          · simp only [h2, h3, if_true, Bool.false_eq_true, if_false]; exact ⟨hgu h3, hgu h3⟩
          · simp only [h2, h3, Bool.false_eq_true, if_false]
            exact ⟨hgn (by simpa using h2) h3, hgn (by simpa using h2) h3⟩

/-! ## initial assignment -/

/-- State of the record while the medoid list is being read. -/
def InitW (d : Nat → Nat → N) (med : List Nat) (o : Nat) (r : Rec N) : Prop :=
  (∃ c, med = [c] ∧ r.near = ⟨0, d o c⟩ ∧ r.seco.i = u32Max) ∨ (2 ≤ med.length ∧ RecW d med o r)

theorem getElem?_append_one {α : Type} (l : List α) (x : α) (m : Nat) :
    (l ++ [x])[m]? = if m = l.length then some x else l[m]? := by
  by_cases h : m = l.length
  · subst h; simp
  · rw [if_neg h]
    by_cases h2 : m < l.length
    · rw [List.getElem?_append_left h2]
    · rw [List.getElem?_eq_none (by simp; omega), List.getElem?_eq_none (by omega)]

theorem initStepP_row (h : RowOrder n d o) {med : List Nat} {c : Nat} (hr : ∀ m ∈ med, m < n)
    (hcn : c < n) (hco : o = c → c ∉ med) (hlen : med.length < u32Max) {r : Rec N} (hi : InitW d med o r) :
    InitW d (med ++ [c]) o (initStepP d o r (c, med.length)) := by
  right
  have happ := getElem?_append_one med c
  have hlast : (med ++ [c])[med.length]? = some c := by rw [happ]; simp
  have hmem : ∀ x ∈ med ++ [c], x ∈ med ∨ x = c := by
    intro x hx; simpa using hx
  rcases hi with ⟨c0, rfl, hnear, hsec⟩ | ⟨hl, hrec⟩
  · refine ⟨by simp, ?_⟩
    have hc0 : c0 < n := hr c0 (by simp)
    have hget : ∀ m x : Nat, [c0, c][m]? = some x → (m = 0 ∧ x = c0) ∨ (m = 1 ∧ x = c) := by
      intro m x hm
      match m, hm with
      | 0, hm => left; simpa [eq_comm] using hm
      | 1, hm => right; simpa [eq_comm] using hm
      | m + 2, hm => simp at hm
    simp only [initStepP, hnear, hsec, List.length_singleton, beq_self_eq_true, Bool.true_or,
      if_true, List.singleton_append, Bool.or_eq_true, beq_iff_eq]
    split
    · rename_i hc
      have hsm : rlt (d o c0) (d o c) = false := by
        rcases hc with hc | hc
        · exact h.below hc0 hcn hc0 (h.irrefl _ hc0) hc
        · subst hc; exact h.self _ hc0
      refine ⟨⟨c, rfl, Or.inl rfl⟩, ⟨c0, rfl, rfl⟩, by simp, ?_, ?_, ?_⟩
      · intro x hx
        rcases List.mem_cons.mp hx with rfl | hx
        · exact hsm
        · rw [List.mem_singleton.mp hx]; exact h.irrefl _ hcn
      · intro m x hm hmi
        dsimp only at hmi ⊢
        rcases hget m x hm with ⟨rfl, rfl⟩ | ⟨rfl, rfl⟩
        · exact h.irrefl _ hc0
        · exact absurd rfl hmi
      · intro m hm
        rcases hget m o hm with ⟨rfl, rfl⟩ | ⟨rfl, rfl⟩
        · exfalso
          rcases hc with hc | hc
          · rw [h.self _ hcn] at hc; cases hc
          · exact hco hc (by simp [hc])
        · rfl
    · rename_i hc
      rw [not_or] at hc
      refine ⟨⟨c0, rfl, Or.inl rfl⟩, ⟨c, rfl, rfl⟩, by simp, ?_, ?_, ?_⟩
      · intro x hx
        rcases List.mem_cons.mp hx with rfl | hx
        · exact h.irrefl _ hc0
        · rw [List.mem_singleton.mp hx]; simpa using hc.1
      · intro m x hm hmi
        dsimp only at hmi ⊢
        rcases hget m x hm with ⟨rfl, rfl⟩ | ⟨rfl, rfl⟩
        · exact absurd rfl hmi
        · exact h.irrefl _ hcn
      · intro m hm
        rcases hget m o hm with ⟨rfl, rfl⟩ | ⟨rfl, rfl⟩
        · rfl
        · exact absurd rfl hc.2
  · refine ⟨by simp; omega, ?_⟩
    obtain ⟨⟨c1, hc1, hd1⟩, ⟨c2, hc2, hd2⟩, hne, hfirst, hsecond, hown⟩ := hrec
    have hi1 : r.near.i < med.length := (List.getElem?_eq_some_iff.mp hc1).1
    have hi2 : r.seco.i < med.length := (List.getElem?_eq_some_iff.mp hc2).1
    have hsu : (r.seco.i == u32Max) = false := by simp; omega
    have h1' : (med ++ [c])[r.near.i]? = some c1 := by rw [happ, if_neg (by omega)]; exact hc1
    have h2' : (med ++ [c])[r.seco.i]? = some c2 := by rw [happ, if_neg (by omega)]; exact hc2
    have hc1n : c1 < n := hr _ (List.mem_of_getElem? hc1)
    have hc2n : c2 < n := hr _ (List.mem_of_getElem? hc2)
    simp only [initStepP, hsu, Bool.false_or, Bool.or_eq_true, beq_iff_eq]
    split
    · rename_i hc
      have hsm : ∀ x ∈ med, rlt (d o x) (d o c) = false := by
        intro x hx
        rcases hc with hc | hc
        · rcases hd1 with hd1 | ⟨-, hd1⟩
          · have := hfirst x hx
            rw [hd1] at this hc
            exact h.below (hr x hx) hcn hc1n this hc
          · rw [hd1, h.zero _ hcn] at hc; cases hc
        · subst hc; exact h.self _ (hr x hx)
      have hd1' : r.near.d = d o c1 := by
        rcases hd1 with hd1 | ⟨hco1, hd1⟩
        · exact hd1
        · rcases hc with hc | hc
          · rw [hd1, h.zero _ hcn] at hc; cases hc
          · exact absurd (List.mem_of_getElem? hc1) (by rw [hco1, hc]; exact hco hc)
      refine ⟨⟨c, hlast, Or.inl rfl⟩, ⟨c1, h1', hd1'⟩, by dsimp only; omega, ?_, ?_, ?_⟩
      · intro x hx
        rcases hmem x hx with hx | rfl
        · exact hsm x hx
        · exact h.irrefl _ hcn
      · intro m x hm hmi
        dsimp only at hmi ⊢
        rw [happ, if_neg hmi] at hm
        exact hfirst x (List.mem_of_getElem? hm)
      · intro m hm
        rw [happ] at hm
        split at hm
        · rename_i h; exact h.symm
        · exfalso
          rcases hc with hc | hc
          · have := hown m hm
            rw [← this, hc1] at hm
            cases hm
            rw [hd1', h.self _ hcn] at hc; cases hc
          · exact hco hc (hc ▸ List.mem_of_getElem? hm)
    · rename_i hc
      rw [not_or] at hc
      have hown' : ∀ m : Nat, (med ++ [c])[m]? = some o → r.near.i = m := by
        intro m hm
        rw [happ] at hm
        split at hm
        · cases hm; exact absurd rfl hc.2
        · exact hown m hm
      have hf : ∀ x ∈ med ++ [c], rlt (d o x) r.near.d = false := by
        intro x hx
        rcases hmem x hx with hx | rfl
        · exact hfirst x hx
        · simpa using hc.1
      split
      · rename_i hc2'
        refine ⟨⟨c1, h1', hd1⟩, ⟨c, hlast, rfl⟩, by dsimp only; omega, hf, ?_, hown'⟩
        intro m x hm hmi
        rw [happ] at hm
        split at hm
        · cases hm; exact h.irrefl _ hcn
        · have := hsecond m x hm hmi
          rw [hd2] at this hc2'
          exact h.below (hr _ (List.mem_of_getElem? hm)) hcn hc2n this hc2'
      · rename_i hc2'
        refine ⟨⟨c1, h1', hd1⟩, ⟨c2, h2', hd2⟩, hne, hf, ?_, hown'⟩
        intro m x hm hmi
        rw [happ] at hm
        split at hm
        · cases hm; simpa using hc2'
        · exact hsecond m x hm hmi

theorem initRecP_append' (d : Nat → Nat → N) {med : List Nat} (hm : med ≠ []) (c o : Nat) :
    initRecP d (med ++ [c]) o = initStepP d o (initRecP d med o) (c, med.length) := by
  obtain ⟨a, t, rfl⟩ := List.exists_cons_of_ne_nil hm
  simp only [initRecP, List.cons_append, List.zipIdx_cons, List.drop_one, List.tail_cons, List.headD_cons]
  rw [List.zipIdx_append, List.foldl_append]
  simp [Nat.add_comm]

/-- The record of an object that occurs at most once among the medoids. -/
theorem initRecP_row (h : RowOrder n d o) (med : List Nat) (hm : med ≠ []) (hr : ∀ m ∈ med, m < n)
    (hc : med.count o ≤ 1) (hlen : med.length ≤ u32Max) : InitW d med o (initRecP d med o) := by
  induction med using List.reverseRecOn with
  | nil => exact absurd rfl hm
  | append_singleton med c ih =>
    by_cases hne : med = []
    · subst hne; left; exact ⟨c, rfl, rfl, rfl⟩
    · rw [initRecP_append' d hne]
      have hl : med.length < u32Max := by simp at hlen; omega
      rw [List.count_append] at hc
      refine initStepP_row h (fun m hm => hr m (by simp [hm])) (hr c (by simp)) (fun e hcm => ?_) hl
        (ih hne (fun m hm => hr m (by simp [hm])) (by omega) (le_of_lt hl))
      subst e
      have := List.count_pos_iff.mpr hcm
      simp at hc
      omega

/-! ## The invariant -/

/-- The cached record of object `o` is correct. -/
def ObjW (d : Nat → Nat → N) (o : Nat) (med : List Nat) (data : List (Rec N)) : Prop :=
  ∃ r, data[o]? = some r ∧ RecW d med o r

theorem ObjW.own_iff {med : List Nat} {data : List (Rec N)} (h : ObjW d o med data) :
    ownP med data o = true ↔ o ∈ med := by
  obtain ⟨r, hr, hok⟩ := h
  simp only [ownP, hr, beq_iff_eq]
  constructor
  · exact fun h' => List.mem_of_getElem? h'
  · intro h'
    obtain ⟨m, hm⟩ := List.mem_iff_getElem?.mp h'
    rw [hok.own m hm]; exact hm

theorem zipIdx_map_get {α β : Type} {l : List α} {i : Nat} {a : α} (h : l[i]? = some a) (f : α × Nat → β) :
    (l.zipIdx.map f)[i]? = some (f (a, i)) := by
  simp [List.getElem?_zipIdx, h]

theorem swapDataP_row (he : RowOrder n d o) {k : Nat} {med : List Nat} {data : List (Rec N)}
    (hs : Shape n k med data) (h : ObjW d o med data) {b j : Nat} (hb : b < k) (hj : j < n)
    (hown : ownP med data j = false) :
    ObjW d o (med.set b j) (swapDataP d med data b j) ∧
      ObjW d o (med.set b j) (parSwapDataP d med data b j) := by
  have hjo : o = j → j ∉ med := by
    rintro rfl hm
    rw [h.own_iff.mpr hm] at hown; simp at hown
  obtain ⟨r, hr, hok⟩ := h
  have hnew := swapRecP_row he (hs.medLen ▸ hb) hj hs.medRange hjo hok
  exact ⟨⟨_, zipIdx_map_get hr _, hnew.1⟩, ⟨_, zipIdx_map_get hr _, hnew.2⟩⟩

theorem initDataP_row (he : RowOrder n d o) (ho : o < n) {med : List Nat} (hk : 2 ≤ med.length)
    (hv : ValidMeds n med) (hc : med.count o ≤ 1) : ObjW d o med (initDataP d n med) := by
  have hne : med ≠ [] := by intro h; simp [h] at hk
  refine ⟨initRecP d med o, by simp [initDataP, ho], ?_⟩
  rcases initRecP_row he med hne hv.range hc (le_of_lt hv.sizes.k_lt) with ⟨c, h, -, -⟩ | h
  · rw [h] at hk; simp at hk
  · exact h.2

/-! ## Loops -/

theorem fpPassP_row {mat : Mat N} (hm : IsMatrix mat n d) (he : RowOrder n d o) {k : Nat}
    (hk : k < u32Max) (hk1 : 1 ≤ k) {js : List Nat} (hjs : ∀ j ∈ js, j < n) {s : FPState N L}
    (hs : FPShape n k s) (h : ObjW d o s.med s.data) :
    ObjW d o (fpPassP d js s).med (fpPassP d js s).data := by
  induction js generalizing s with
  | nil => exact h
  | cons j js ih =>
    have hj : j < n := hjs j (by simp)
    have ih' := fun {s : FPState N L} (h : FPShape n k s) => ih (fun j hj => hjs j (by simp [hj])) h
    unfold fpPassP
    split
    · exact h
    · split
      · exact ih' hs h
      · rename_i hown
        dsimp only
        split
        · exact ih' hs h
        · have hb := fbsP_lt d (rem := s.rem) s.data j (by rw [hs.remLen]; exact hk1)
          rw [hs.remLen] at hb
          exact ih' (fpSwapP_shape hm hs hk hb hj)
            (swapDataP_row he hs.shape h hb hj (by simpa using hown)).1

theorem fpLoopP_row {mat : Mat N} (hm : IsMatrix mat n d) (he : RowOrder n d o) {k : Nat}
    (hk : k < u32Max) (hk1 : 1 ≤ k) {seq : List Nat} (hseq : ∀ j ∈ seq, j < n) {fuel iter : Nat}
    {s : FPState N L} (hs : FPShape n k s) (h : ObjW d o s.med s.data) :
    ObjW d o (fpLoopP d seq fuel iter s).1.med (fpLoopP d seq fuel iter s).1.data := by
  induction fuel generalizing iter s with
  | zero => exact h
  | succ fuel ih =>
    have h' := fpPassP_row hm he hk hk1 hseq hs h
    unfold fpLoopP
    dsimp only
    split
    · exact h'
    · exact ih (fpPass_eq hm hk hk1 hseq hs).2 h'

theorem parPassP_row (scF scS : Nat → Sched) {mat : Mat N} (hm : IsMatrix mat n d) (he : RowOrder n d o)
    {k : Nat} (hk : k < u32Max) (hk1 : 1 ≤ k) {js : List Nat} (hjs : ∀ j ∈ js, j < n)
    {s : FPState N L} (hs : FPShape n k s) (h : ObjW d o s.med s.data) :
    ObjW d o (parPassP scF scS d n js s).med (parPassP scF scS d n js s).data := by
  induction js generalizing s with
  | nil => exact h
  | cons j js ih =>
    have hj : j < n := hjs j (by simp)
    have ih' := fun {s : FPState N L} (h : FPShape n k s) => ih (fun j hj => hjs j (by simp [hj])) h
    unfold parPassP
    split
    · exact h
    · split
      · exact ih' hs h
      · rename_i hown
        dsimp only
        split
        · exact ih' hs h
        · have hb := parFbsP_lt (scF j) d n (rem := s.rem) s.data j (by rw [hs.remLen]; exact hk1)
          rw [hs.remLen] at hb
          exact ih' (parSwapP_shape (scS j) hm hs hk hb hj)
            (swapDataP_row he hs.shape h hb hj (by simpa using hown)).2

theorem parLoopP_row (scF scS : Nat → Nat → Sched) {mat : Mat N} (hm : IsMatrix mat n d)
    (he : RowOrder n d o) {k : Nat} (hk : k < u32Max) (hk1 : 1 ≤ k) {seq : List Nat}
    (hseq : ∀ j ∈ seq, j < n) {fuel iter : Nat} {s : FPState N L} (hs : FPShape n k s)
    (h : ObjW d o s.med s.data) :
    ObjW d o (parLoopP scF scS d n seq fuel iter s).1.med (parLoopP scF scS d n seq fuel iter s).1.data := by
  induction fuel generalizing iter s with
  | zero => exact h
  | succ fuel ih =>
    have h' := parPassP_row (scF iter) (scS iter) hm he hk hk1 hseq hs h
    unfold parLoopP
    dsimp only
    split
    · exact h'
    · exact ih (parPass_any (scF iter) (scS iter) hm hk hk1 hseq hs).2 h'

/-- What the loop needs from the scan, without laws. -/
def ScanFine (n k : Nat) (scan : List Nat → List (Rec N) → L × Nat × Nat) : Prop :=
  ∀ med data, Shape n k med data → rlt (scan med data).1 RLoss.zero = true →
    (scan med data).2.1 < k ∧ (scan med data).2.2 < n ∧ ownP med data (scan med data).2.2 = false

theorem pamScanP_fine [SaneZero L] (n k : Nat) (d : Nat → Nat → N) :
    ScanFine n k (pamScanP (L := L) d n k) := by
  intro med data _ hlt
  rcases scan_fold (pamFbsP L d k data) (ownP med data) (List.range n) (RLoss.zero, k, usizeMax) with
    h | ⟨j, hj, hown, h⟩
  · rw [pamScanP, h] at hlt; simp [rlt_zero_zero] at hlt
  · have hj := List.mem_range.mp hj
    rw [pamScanP, h] at hlt ⊢
    exact ⟨pamFbsP_lt d k data j hlt, hj, hown⟩

theorem fastScanP_fine [SaneZero L] {n k : Nat} (hk : 1 ≤ k) (d : Nat → Nat → N) :
    ScanFine n k (fastScanP (L := L) d n k) := by
  intro med data hs hlt
  have hrl : (remP L data k).length = k := remP_length hs.recIdx
  rcases scan_fold (fbsP d (remP L data k) data) (ownP med data) (List.range n)
    (RLoss.zero, usizeMax, usizeMax) with h | ⟨j, hj, hown, h⟩
  · rw [fastScanP, h] at hlt; simp [rlt_zero_zero] at hlt
  · have hj := List.mem_range.mp hj
    rw [fastScanP, h]
    refine ⟨?_, hj, hown⟩
    have := fbsP_lt d (rem := remP L data k) data j (by rw [hrl]; exact hk)
    rw [hrl] at this; exact this

theorem pLoopP_row {mat : Mat N} (hm : IsMatrix mat n d) (he : RowOrder n d o) {k : Nat}
    (hk : k < u32Max) {scan : List Nat → List (Rec N) → L × Nat × Nat} (hscan : ScanFine n k scan)
    {fuel iter : Nat} {s : PState N L} (hs : Shape n k s.med s.data) (h : ObjW d o s.med s.data) :
    ObjW d o (pLoopP d scan fuel iter s).1.med (pLoopP d scan fuel iter s).1.data := by
  induction fuel generalizing iter s with
  | zero => exact h
  | succ fuel ih =>
    unfold pLoopP
    dsimp only
    split
    · rename_i hlt
      obtain ⟨h1, h2, h3⟩ := hscan _ _ hs hlt
      have h' := (swapDataP_row he hs h h1 h2 h3).1
      have hs' := (doSwap_eq (L := L) hm hs hk h1 h2).2
      split
      · exact h'
      · exact ih (s := pSwapP d s _ _ _) hs' h'
    · exact h

/-! ## Results -/

/-- The label of object `o`: no medoid is closer, and if `o` is a medoid, it is once in the list and labelled with
itself. -/
def ObjBest (d : Nat → Nat → N) (o : Nat) (med assi : List Nat) : Prop :=
  ∃ m c : Nat, assi[o]? = some m ∧ med[m]? = some c ∧ (∀ c' ∈ med, rlt (d o c') (d o c) = false) ∧
    ∀ m' : Nat, med[m']? = some o → m' = m

theorem RecW.best (he : RowOrder n d o) {med : List Nat} (hr : ∀ m ∈ med, m < n) {r : Rec N}
    (h : RecW d med o r) : ∃ c, med[r.near.i]? = some c ∧ ∀ c' ∈ med, rlt (d o c') (d o c) = false := by
  obtain ⟨⟨c, hc, hd⟩, -, -, hfirst, -, -⟩ := h
  refine ⟨c, hc, fun c' hc' => ?_⟩
  rcases hd with hd | ⟨rfl, -⟩
  · rw [← hd]; exact hfirst c' hc'
  · exact he.self _ (hr c' hc')

theorem ObjW.best (he : RowOrder n d o) {med : List Nat} {data : List (Rec N)} (hr : ∀ m ∈ med, m < n)
    (h : ObjW d o med data) : ObjBest d o med (data.map (·.near.i)) := by
  obtain ⟨r, hg, hrec⟩ := h
  obtain ⟨c, hc, hb⟩ := hrec.best he hr
  exact ⟨r.near.i, c, by simp [hg], hc, hb, fun m' hm' => (hrec.own m' hm').symm⟩

theorem single_best (he : RowOrder n d o) (ho : o < n) {c : Nat} (hc : c < n) :
    ObjBest d o [c] (List.replicate n 0) := by
  refine ⟨0, c, by simp [ho], rfl, by simp [he.irrefl _ hc], fun m' hm' => ?_⟩
  match m', hm' with
  | 0, _ => rfl
  | m' + 1, hm' => simp at hm'

theorem nearAssiP_best (he : RowOrder n d o) (ho : o < n) {med : List Nat} (hv : ValidMeds n med)
    (hc : med.count o ≤ 1) : ObjBest d o med (nearAssiP d n med) := by
  have hne : med ≠ [] := by intro h; have := hv.sizes.pos; simp [h] at this
  have hl : (nearAssiP d n med)[o]? = some (initRecP d med o).near.i := by
    simp [nearAssiP, nearRecP_eq, ho]
  rcases initRecP_row he med hne hv.range hc (le_of_lt hv.sizes.k_lt) with ⟨c, h1, h2, -⟩ | ⟨-, h⟩
  · rw [h2] at hl
    have hcn : c < n := hv.range c (by rw [h1]; simp)
    rw [h1] at hl ⊢
    refine ⟨0, c, hl, rfl, by simp [he.irrefl _ hcn], fun m' hm' => ?_⟩
    match m', hm' with
    | 0, _ => rfl
    | m' + 1, hm' => simp at hm'
  · obtain ⟨c, h1, h2⟩ := h.best he hv.range
    exact ⟨_, c, hl, h1, h2, fun m' hm' => (h.own m' hm').symm⟩

theorem count_le_one_of_pos {l : List Nat} {o m : Nat} (h : ∀ i : Nat, l[i]? = some o → i = m) :
    l.count o ≤ 1 := by
  induction l generalizing m with
  | nil => simp
  | cons a l ih =>
    by_cases ha : a = o
    · subst ha
      have h0 := h 0 rfl
      have : a ∉ l := fun hm => by
        obtain ⟨i, hi⟩ := List.mem_iff_getElem?.mp hm
        have := h (i + 1) (by simpa using hi)
        omega
      simp [List.count_eq_zero.mpr this]
    · rw [List.count_cons_of_ne ha]
      refine ih (m := m - 1) fun i hi => ?_
      have := h (i + 1) (by simpa using hi)
      omega

theorem altUpdateP_row {assi med : List Nat} (h : ObjBest d o med assi) :
    (altUpdateP L d assi med).2.count o ≤ 1 := by
  obtain ⟨m, c, ha, -, -, hown⟩ := h
  refine count_le_one_of_pos (m := m) fun i hi => ?_
  rw [altUpdateP_eq] at hi
  simp only [List.getElem?_map, List.getElem?_zipIdx, Option.map_map] at hi
  obtain ⟨c', hc', he⟩ := Option.map_eq_some_iff.mp hi
  simp only [Function.comp_def, Nat.zero_add] at he
  rcases chooseP_mem (L := L) d assi i c' with h | h
  · rw [he] at h; subst h; exact hown i hc'
  · rw [he, ha] at h; cases h; rfl

theorem altLoopP_best (he : RowOrder n d o) (ho : o < n) {fuel iter : Nat} {loss : L}
    {assi med : List Nat} (hv : ValidMeds n med) (hl : assi.length = n) (ha : ObjBest d o med assi) :
    ObjBest d o (altLoopP d n fuel iter loss assi med).med (altLoopP d n fuel iter loss assi med).assi := by
  induction fuel generalizing iter loss assi med with
  | zero => exact ha
  | succ fuel ih =>
    unfold altLoopP
    dsimp only
    split
    · rename_i h
      rw [altUpdateP_unchanged (by simpa using h)]
      exact ha
    · have hv' : ValidMeds n (altUpdateP L d assi med).2 := by
        rw [altUpdateP_eq]
        refine ⟨by simpa using hv.sizes, fun m hm => ?_⟩
        obtain ⟨p, hp, rfl⟩ := List.mem_map.mp hm
        rcases chooseP_mem (L := L) d assi p.2 p.1 with h | h
        · rw [h]; exact hv.range _ (mem_zipIdx_mem hp)
        · exact hl ▸ (List.getElem?_eq_some_iff.mp h).1
      exact ih hv' (by simp [nearAssiP]) (nearAssiP_best he ho hv' (altUpdateP_row ha))

end KMedoids
