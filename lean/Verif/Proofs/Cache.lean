import Verif.Proofs.PurePam
import Mathlib.Data.List.Induction

/-!
# The caches of the PAM family are correct

Level 2: distances are linearly ordered, nothing is assumed about the loss type.
-/

set_option linter.unusedSectionVars false

namespace KMedoids

variable {N : Type} [LinearOrder N] [Zero N] [RDist N] [LawfulDist N]

theorem rltN (a b : N) : rlt a b = decide (a < b) := by
  rw [Bool.eq_iff_iff]
  simp [rlt, LawfulDist.pcmp_eq, compare_lt_iff_lt]

theorem zeroN : (RDist.zero : N) = 0 := LawfulDist.zero_eq

/-- The cached nearest and second nearest medoids of object `o` are correct, and if `o` is itself a
medoid then it is its own nearest. -/
structure RecOk (d : Nat → Nat → N) (med : List Nat) (o : Nat) (r : Rec N) : Prop where
  near : ∃ c, med[r.near.i]? = some c ∧ d o c = r.near.d
  seco : ∃ c, med[r.seco.i]? = some c ∧ d o c = r.seco.d
  ne : r.near.i ≠ r.seco.i
  le : r.near.d ≤ r.seco.d
  rest : ∀ m c : Nat, med[m]? = some c → m ≠ r.near.i → r.seco.d ≤ d o c
  own : ∀ m : Nat, med[m]? = some o → r.near.i = m

theorem usnP_spec (d : Nat → Nat → N) {med : List Nat} {nn b o j : Nat} (hb : med[b]? = some j)
    (hnb : nn ≠ b) :
    (∃ c, med[(usnP d med nn b o (d o j)).i]? = some c ∧ d o c = (usnP d med nn b o (d o j)).d) ∧
    (usnP d med nn b o (d o j)).i ≠ nn ∧
    (∀ m c : Nat, med[m]? = some c → m ≠ nn → (usnP d med nn b o (d o j)).d ≤ d o c) := by
  have h : ∀ xs : List (Nat × Nat), (∀ p ∈ xs, med[p.2]? = some p.1) → ∀ s : DistancePair N,
      (∃ c, med[s.i]? = some c ∧ d o c = s.d) → s.i ≠ nn →
      let s' := xs.foldl (fun (s : DistancePair N) (p : Nat × Nat) =>
        if p.2 = nn ∨ p.2 = b then s else if rlt (d o p.1) s.d then ⟨p.2, d o p.1⟩ else s) s
      (∃ c, med[s'.i]? = some c ∧ d o c = s'.d) ∧ s'.i ≠ nn ∧ s'.d ≤ s.d ∧
        ∀ p ∈ xs, p.2 ≠ nn → p.2 ≠ b → s'.d ≤ d o p.1 := by
    intro xs
    induction xs with
    | nil => intro _ s h1 h2; exact ⟨h1, h2, le_refl _, by simp⟩
    | cons p xs ih =>
      intro hmem s h1 h2
      have hp := hmem p (by simp)
      have ih := ih (fun q hq => hmem q (by simp [hq]))
      simp only [List.foldl_cons]
      by_cases hc : p.2 = nn ∨ p.2 = b
      · simp only [if_pos hc]
        obtain ⟨a1, a2, a3, a4⟩ := ih s h1 h2
        refine ⟨a1, a2, a3, ?_⟩
        intro q hq hq1 hq2
        rcases List.mem_cons.mp hq with rfl | hq
        · rcases hc with hc | hc
          · exact absurd hc hq1
          · exact absurd hc hq2
        · exact a4 q hq hq1 hq2
      · simp only [if_neg hc]
        rw [not_or] at hc
        have hr := rltN (d o p.1) s.d
        by_cases hlt : d o p.1 < s.d
        · simp only [hlt, decide_true] at hr
          simp only [hr, if_true]
          obtain ⟨a1, a2, a3, a4⟩ := ih ⟨p.2, d o p.1⟩ ⟨p.1, hp, rfl⟩ hc.1
          refine ⟨a1, a2, le_trans a3 (le_of_lt hlt), ?_⟩
          intro q hq hq1 hq2
          rcases List.mem_cons.mp hq with rfl | hq
          · exact a3
          · exact a4 q hq hq1 hq2
        · simp only [hlt, decide_false] at hr
          simp only [hr, Bool.false_eq_true, if_false]
          obtain ⟨a1, a2, a3, a4⟩ := ih s h1 h2
          refine ⟨a1, a2, a3, ?_⟩
          intro q hq hq1 hq2
          rcases List.mem_cons.mp hq with rfl | hq
          · exact le_trans a3 (not_lt.mp hlt)
          · exact a4 q hq hq1 hq2
  obtain ⟨a1, a2, a3, a4⟩ := h med.zipIdx (fun p hp => mem_zipIdx_get hp) ⟨b, d o j⟩ ⟨j, hb, rfl⟩
    (fun h => hnb h.symm)
  refine ⟨a1, a2, ?_⟩
  intro m c hm hmn
  by_cases hmb : m = b
  · subst hmb
    rw [hb] at hm; cases hm
    exact a3
  · exact a4 (c, m) (List.mem_zipIdx_iff_getElem?.mpr (by simpa using hm)) hmn hmb

theorem getElem?_set_lt {α : Type} {l : List α} {b : Nat} (hb : b < l.length) (x : α) (m : Nat) :
    (l.set b x)[m]? = if m = b then some x else l[m]? := by
  rw [List.getElem?_set]
  by_cases h : b = m
  · subst h; simp [hb]
  · simp [h, Ne.symm h]

theorem swapRecP_ok {n : Nat} {d : Nat → Nat → N} (hd : Dissim n d) {med : List Nat} {b j o : Nat}
    (hb : b < med.length) (hj : j < n) (ho : o < n) (hr : ∀ m ∈ med, m < n)
    (hjm : j ∉ med) {r : Rec N} (h : RecOk d med o r) :
    RecOk d (med.set b j) o (swapRecP d (med.set b j) b j (r, o)) := by
  have hset := getElem?_set_lt (l := med) hb j
  have hsb : (med.set b j)[b]? = some j := by rw [hset]; simp
  obtain ⟨⟨c1, hc1, hd1⟩, ⟨c2, hc2, hd2⟩, hne, hle, hrest, hown⟩ := h
  have hc1n : c1 < n := hr _ (List.mem_of_getElem? hc1)
  have hjm' : ∀ m : Nat, med[m]? ≠ some j := fun m h => hjm (List.mem_of_getElem? h)
  unfold swapRecP
  by_cases hoj : o = j
  · -- the object that becomes a medoid
    subst hoj
    simp only [if_true, zeroN]
    by_cases hnb : r.near.i = b
    · rw [if_neg (by simpa using hnb)]
      refine ⟨⟨o, hsb, hd.diag o ho⟩, ⟨c2, ?_, hd2⟩, ?_, ?_, ?_, ?_⟩
      · dsimp only; rw [hset, if_neg (by omega)]; exact hc2
      · dsimp only; omega
      · dsimp only; rw [← hd2]; exact hd.nonneg _ _ ho (hr _ (List.mem_of_getElem? hc2))
      · intro m c hm hmb
        dsimp only at hmb ⊢
        rw [hset, if_neg hmb] at hm
        exact hrest m c hm (by omega)
      · intro m hm
        rw [hset] at hm
        by_contra hmb
        dsimp only at hmb
        rw [if_neg (Ne.symm hmb)] at hm
        exact hjm' m hm
    · rw [if_pos hnb]
      refine ⟨⟨o, hsb, hd.diag o ho⟩, ⟨c1, ?_, hd1⟩, ?_, ?_, ?_, ?_⟩
      · dsimp only; rw [hset, if_neg hnb]; exact hc1
      · dsimp only; omega
      · dsimp only; rw [← hd1]; exact hd.nonneg _ _ ho hc1n
      · intro m c hm hmb
        dsimp only at hmb ⊢
        rw [hset, if_neg hmb] at hm
        by_cases hmi : m = r.near.i
        · subst hmi; rw [hc1] at hm; cases hm; exact le_of_eq hd1.symm
        · exact le_trans hle (hrest m c hm hmi)
      · intro m hm
        rw [hset] at hm
        by_contra hmb
        dsimp only at hmb
        rw [if_neg (Ne.symm hmb)] at hm
        exact hjm' m hm
  · simp only [hoj, if_false, rltN, decide_eq_true_eq]
    have hown' : ∀ m : Nat, (med.set b j)[m]? = some o → m ≠ b ∧ r.near.i = m := by
      intro m hm
      rw [hset] at hm
      split at hm
      · cases hm; exact absurd rfl hoj
      · exact ⟨by assumption, hown m hm⟩
    -- an object that is a medoid (and stays one) is at distance 0 of itself
    have hself : ∀ m : Nat, med[m]? = some o → r.near.d = 0 := by
      intro m hm
      have := hown m hm
      subst this
      rw [hc1] at hm; cases hm
      rw [← hd1]; exact hd.diag o ho
    have hdoj : 0 ≤ d o j := hd.nonneg o j ho hj
    by_cases hnb : r.near.i = b
    · rw [if_pos hnb]
      by_cases h1 : d o j < r.seco.d
      · rw [if_pos h1]
        refine ⟨⟨j, hsb, rfl⟩, ⟨c2, ?_, hd2⟩, ?_, le_of_lt h1, ?_, ?_⟩
        · dsimp only; rw [hset, if_neg (by omega)]; exact hc2
        · dsimp only; omega
        · intro m c hm hmb
          dsimp only at hmb ⊢
          rw [hset, if_neg hmb] at hm
          exact hrest m c hm (by omega)
        · intro m hm
          have := hown' m hm
          dsimp only; omega
      · rw [if_neg h1]
        obtain ⟨u1, u2, u3⟩ := usnP_spec d (o := o) hsb (nn := r.seco.i) (by omega)
        have h1 := not_lt.mp h1
        refine ⟨⟨c2, ?_, hd2⟩, u1, Ne.symm u2, ?_, u3, ?_⟩
        · dsimp only; rw [hset, if_neg (by omega)]; exact hc2
        · obtain ⟨c, hc, hcd⟩ := u1
          dsimp only
          rw [← hcd]
          rw [hset] at hc
          split at hc
          · cases hc; exact h1
          · exact hrest _ c hc (by omega)
        · intro m hm
          have := hown' m hm
          omega
    · rw [if_neg hnb]
      by_cases h1 : d o j < r.near.d
      · rw [if_pos h1]
        refine ⟨⟨j, hsb, rfl⟩, ⟨c1, ?_, hd1⟩, ?_, le_of_lt h1, ?_, ?_⟩
        · rw [hset, if_neg hnb]; exact hc1
        · dsimp only; omega
        · intro m c hm hmb
          dsimp only at hmb ⊢
          rw [hset, if_neg hmb] at hm
          by_cases hmi : m = r.near.i
          · subst hmi; rw [hc1] at hm; cases hm; exact le_of_eq hd1.symm
          · exact le_trans hle (hrest m c hm hmi)
        · intro m hm
          have h2 := hown' m hm
          rw [hset, if_neg h2.1] at hm
          rw [hself m hm] at h1
          exact absurd hdoj (not_le.mpr h1)
      · rw [if_neg h1]
        have h1 := not_lt.mp h1
        by_cases h2 : d o j < r.seco.d
        · rw [if_pos h2]
          refine ⟨⟨c1, ?_, hd1⟩, ⟨j, hsb, rfl⟩, hnb, h1, ?_, fun m hm => (hown' m hm).2⟩
          · rw [hset, if_neg hnb]; exact hc1
          · intro m c hm hmi
            rw [hset] at hm
            split at hm
            · cases hm; exact le_refl _
            · exact le_trans (le_of_lt h2) (hrest m c hm hmi)
        · rw [if_neg h2]
          have h2 := not_lt.mp h2
          by_cases h3 : r.seco.i = b
          · rw [if_pos h3]
            obtain ⟨u1, u2, u3⟩ := usnP_spec d (o := o) hsb (nn := r.near.i) hnb
            refine ⟨⟨c1, ?_, hd1⟩, u1, Ne.symm u2, ?_, u3, fun m hm => (hown' m hm).2⟩
            · rw [hset, if_neg hnb]; exact hc1
            · obtain ⟨c, hc, hcd⟩ := u1
              dsimp only
              rw [← hcd]
              rw [hset] at hc
              split at hc
              · cases hc; exact h1
              · exact le_trans hle (hrest _ c hc u2)
          · rw [if_neg h3]
            refine ⟨⟨c1, ?_, hd1⟩, ⟨c2, ?_, hd2⟩, hne, hle, ?_, fun m hm => (hown' m hm).2⟩
            · rw [hset, if_neg hnb]; exact hc1
            · rw [hset, if_neg h3]; exact hc2
            · intro m c hm hmi
              rw [hset] at hm
              split at hm
              · cases hm; exact h2
              · exact hrest m c hm hmi

/-! ## initial assignment -/

/-- State of the record while the medoid list is being read. -/
def InitOk (d : Nat → Nat → N) (med : List Nat) (o : Nat) (r : Rec N) : Prop :=
  (∃ c, med = [c] ∧ r.near = ⟨0, d o c⟩ ∧ r.seco.i = u32Max) ∨ (2 ≤ med.length ∧ RecOk d med o r)

theorem getElem?_append_singleton {α : Type} (l : List α) (x : α) (m : Nat) :
    (l ++ [x])[m]? = if m = l.length then some x else l[m]? := by
  by_cases h : m = l.length
  · subst h; simp
  · rw [if_neg h]
    by_cases h2 : m < l.length
    · rw [List.getElem?_append_left h2]
    · rw [List.getElem?_eq_none (by simp; omega), List.getElem?_eq_none (by omega)]

theorem initStepP_ok {n : Nat} {d : Nat → Nat → N} (hd : Dissim n d) {med : List Nat} {c o : Nat}
    (ho : o < n) (hr : ∀ m ∈ med, m < n) (hcn : c < n) (hnd : (med ++ [c]).Nodup)
    (hlen : med.length < u32Max) {r : Rec N} (h : InitOk d med o r) :
    InitOk d (med ++ [c]) o (initStepP d o r (c, med.length)) := by
  right
  have happ := getElem?_append_singleton med c
  have hcm : c ∉ med := by
    intro hc; rw [List.nodup_append] at hnd; exact hnd.2.2 c hc c (by simp) rfl
  have hcm' : ∀ m : Nat, med[m]? ≠ some c := fun m h => hcm (List.mem_of_getElem? h)
  have hdc : 0 ≤ d o c := hd.nonneg o c ho hcn
  rcases h with ⟨c0, rfl, hnear, hsec⟩ | ⟨hl, hok⟩
  · refine ⟨by simp, ?_⟩
    have hc0 : c0 < n := hr c0 (by simp)
    have hget : ∀ m x : Nat, [c0, c][m]? = some x → (m = 0 ∧ x = c0) ∨ (m = 1 ∧ x = c) := by
      intro m x hm
      match m, hm with
      | 0, hm => left; simpa [eq_comm] using hm
      | 1, hm => right; simpa [eq_comm] using hm
      | m + 2, hm => simp at hm
    have hne : c ≠ c0 := fun h => hcm (by simp [h])
    simp only [initStepP, hnear, hsec, List.length_singleton, rltN, beq_self_eq_true, Bool.true_or,
      if_true, List.singleton_append, Bool.or_eq_true, decide_eq_true_eq, beq_iff_eq]
    split
    · rename_i hc
      refine ⟨⟨c, rfl, rfl⟩, ⟨c0, rfl, rfl⟩, by simp, ?_, ?_, ?_⟩
      · rcases hc with hc | hc
        · exact le_of_lt hc
        · subst hc; dsimp only; rw [hd.diag o ho]; exact hd.nonneg _ _ ho hc0
      · intro m x hm hmi
        dsimp only at hmi ⊢
        rcases hget m x hm with ⟨rfl, rfl⟩ | ⟨rfl, rfl⟩
        · exact le_refl _
        · exact absurd rfl hmi
      · intro m hm
        rcases hget m o hm with ⟨rfl, rfl⟩ | ⟨rfl, rfl⟩
        · exfalso
          rcases hc with hc | hc
          · rw [hd.diag o ho] at hc; exact absurd hdc (not_le.mpr hc)
          · exact hne hc.symm
        · rfl
    · rename_i hc
      rw [not_or] at hc
      refine ⟨⟨c0, rfl, rfl⟩, ⟨c, rfl, rfl⟩, by simp, not_lt.mp hc.1, ?_, ?_⟩
      · intro m x hm hmi
        dsimp only at hmi ⊢
        rcases hget m x hm with ⟨rfl, rfl⟩ | ⟨rfl, rfl⟩
        · exact absurd rfl hmi
        · exact le_refl _
      · intro m hm
        rcases hget m o hm with ⟨rfl, rfl⟩ | ⟨rfl, rfl⟩
        · rfl
        · exact absurd rfl hc.2
  · refine ⟨by simp; omega, ?_⟩
    obtain ⟨⟨c1, hc1, hd1⟩, ⟨c2, hc2, hd2⟩, hne, hle, hrest, hown⟩ := hok
    have hi1 : r.near.i < med.length := (List.getElem?_eq_some_iff.mp hc1).1
    have hi2 : r.seco.i < med.length := (List.getElem?_eq_some_iff.mp hc2).1
    have hsu : (r.seco.i == u32Max) = false := by simp; omega
    have hlast : (med ++ [c])[med.length]? = some c := by rw [happ]; simp
    have h1' : (med ++ [c])[r.near.i]? = some c1 := by rw [happ, if_neg (by omega)]; exact hc1
    have h2' : (med ++ [c])[r.seco.i]? = some c2 := by rw [happ, if_neg (by omega)]; exact hc2
    have hc1n : c1 < n := hr _ (List.mem_of_getElem? hc1)
    have hself : ∀ m : Nat, med[m]? = some o → r.near.d = 0 := by
      intro m hm
      have := hown m hm
      subst this
      rw [hc1] at hm; cases hm
      rw [← hd1]; exact hd.diag o ho
    simp only [initStepP, hsu, rltN, Bool.false_or, Bool.or_eq_true, decide_eq_true_eq, beq_iff_eq]
    split
    · rename_i hc
      refine ⟨⟨c, hlast, rfl⟩, ⟨c1, h1', hd1⟩, by dsimp only; omega, ?_, ?_, ?_⟩
      · rcases hc with hc | hc
        · exact le_of_lt hc
        · subst hc; dsimp only; rw [hd.diag o ho, ← hd1]; exact hd.nonneg _ _ ho hc1n
      · intro m x hm hmi
        dsimp only at hmi ⊢
        rw [happ, if_neg hmi] at hm
        by_cases hmn : m = r.near.i
        · subst hmn; rw [hc1] at hm; cases hm; exact le_of_eq hd1.symm
        · exact le_trans hle (hrest m x hm hmn)
      · intro m hm
        rw [happ] at hm
        split at hm
        · rename_i h; exact h.symm
        · exfalso
          rcases hc with hc | hc
          · rw [hself m hm] at hc; exact absurd hdc (not_le.mpr hc)
          · subst hc; exact hcm' m hm
    · rename_i hc
      rw [not_or] at hc
      have hown' : ∀ m : Nat, (med ++ [c])[m]? = some o → r.near.i = m := by
        intro m hm
        rw [happ] at hm
        split at hm
        · cases hm; exact absurd rfl hc.2
        · exact hown m hm
      split
      · rename_i hc2'
        refine ⟨⟨c1, h1', hd1⟩, ⟨c, hlast, rfl⟩, by dsimp only; omega, not_lt.mp hc.1, ?_, hown'⟩
        intro m x hm hmi
        rw [happ] at hm
        split at hm
        · cases hm; exact le_refl _
        · exact le_trans (le_of_lt hc2') (hrest m x hm hmi)
      · rename_i hc2'
        refine ⟨⟨c1, h1', hd1⟩, ⟨c2, h2', hd2⟩, hne, hle, ?_, hown'⟩
        intro m x hm hmi
        rw [happ] at hm
        split at hm
        · cases hm; exact not_lt.mp hc2'
        · exact hrest m x hm hmi

/-- Appending a medoid is one more step of the record computation. -/
theorem initRecP_append (d : Nat → Nat → N) {med : List Nat} (hm : med ≠ []) (c o : Nat) :
    initRecP d (med ++ [c]) o = initStepP d o (initRecP d med o) (c, med.length) := by
  obtain ⟨a, t, rfl⟩ := List.exists_cons_of_ne_nil hm
  simp only [initRecP, List.cons_append, List.zipIdx_cons, List.drop_one, List.tail_cons, List.headD_cons]
  rw [List.zipIdx_append, List.foldl_append]
  simp [Nat.add_comm]

theorem initRecP_init {n : Nat} {d : Nat → Nat → N} (hd : Dissim n d) {o : Nat} (ho : o < n)
    (med : List Nat) (hm : med ≠ []) (hr : ∀ m ∈ med, m < n) (hnd : med.Nodup)
    (hlen : med.length ≤ u32Max) : InitOk d med o (initRecP d med o) := by
  induction med using List.reverseRecOn with
  | nil => exact absurd rfl hm
  | append_singleton med c ih =>
    by_cases hne : med = []
    · subst hne; left; exact ⟨c, rfl, rfl, rfl⟩
    · rw [initRecP_append d hne]
      have hl : med.length < u32Max := by simp at hlen; omega
      exact initStepP_ok hd ho (fun m hm => hr m (by simp [hm])) (hr c (by simp)) hnd hl
        (ih hne (fun m hm => hr m (by simp [hm])) (List.nodup_append.mp hnd).1 (le_of_lt hl))

/-- All caches are correct, the medoids are distinct objects. -/
structure CacheOk (n : Nat) (d : Nat → Nat → N) (med : List Nat) (data : List (Rec N)) : Prop where
  nodup : med.Nodup
  range : ∀ m ∈ med, m < n
  len : data.length = n
  recs : ∀ p ∈ data.zipIdx, RecOk d med p.2 p.1

theorem mem_range_map_zipIdx {α : Type} {f : Nat → α} {n : Nat} {p : α × Nat}
    (h : p ∈ ((List.range n).map f).zipIdx) : p.2 < n ∧ p.1 = f p.2 := by
  have h1 := mem_zipIdx_lt h
  have h2 := mem_zipIdx_get h
  simp at h1
  simp [h1] at h2
  exact ⟨h1, h2.symm⟩

theorem initDataP_ok {n : Nat} {d : Nat → Nat → N} (hd : Dissim n d) {med : List Nat}
    (hk : 2 ≤ med.length) (hv : ValidMeds n med) (hnd : med.Nodup) :
    CacheOk n d med (initDataP d n med) := by
  refine ⟨hnd, hv.range, by simp [initDataP], fun p hp => ?_⟩
  obtain ⟨h1, h2⟩ := mem_range_map_zipIdx hp
  rw [h2]
  have hne : med ≠ [] := by intro h; simp [h] at hk
  rcases initRecP_init hd h1 med hne hv.range hnd (le_of_lt hv.sizes.k_lt) with ⟨c, h, -, -⟩ | h
  · rw [h] at hk; simp at hk
  · exact h.2

theorem nodup_set {med : List Nat} (hnd : med.Nodup) {b j : Nat} (hjm : j ∉ med) :
    (med.set b j).Nodup := by
  rw [List.nodup_iff_pairwise_ne, List.pairwise_iff_getElem] at *
  intro x y hx hy hxy
  simp only [List.length_set] at hx hy
  have h := hnd x y hx hy hxy
  simp only [List.getElem_set]
  split
  · split
    · omega
    · exact fun h => hjm (h ▸ List.getElem_mem hy)
  · split
    · exact fun h => hjm (h ▸ List.getElem_mem hx)
    · exact h

theorem swapDataP_ok {n : Nat} {d : Nat → Nat → N} (hd : Dissim n d) {med : List Nat}
    {data : List (Rec N)} (h : CacheOk n d med data) {b j : Nat} (hb : b < med.length) (hj : j < n)
    (hjm : j ∉ med) : CacheOk n d (med.set b j) (swapDataP d med data b j) := by
  refine ⟨nodup_set h.nodup hjm, ?_, by simp [swapDataP, h.len], ?_⟩
  · intro m hm
    rcases List.mem_or_eq_of_mem_set hm with h' | h'
    · exact h.range m h'
    · omega
  · intro p hp
    rw [swapDataP, zipIdx_map_zipIdx] at hp
    obtain ⟨q, hq, rfl⟩ := List.mem_map.mp hp
    have hqn : q.2 < n := h.len ▸ mem_zipIdx_lt hq
    exact swapRecP_ok hd hb hj hqn h.range hjm (h.recs q hq)

/-- The test for "is already a medoid" is exact. -/
theorem ownP_iff {n : Nat} {d : Nat → Nat → N} {med : List Nat} {data : List (Rec N)}
    (h : CacheOk n d med data) {j : Nat} (hj : j < n) : ownP med data j = true ↔ j ∈ med := by
  have hjl : j < data.length := h.len ▸ hj
  have hrec := h.recs (data[j], j) (List.mem_zipIdx_iff_getElem?.mpr (by simp [hjl]))
  simp only [ownP, List.getElem?_eq_getElem hjl, beq_iff_eq]
  constructor
  · intro h'; exact List.mem_of_getElem? h'
  · intro h'
    obtain ⟨m, hm⟩ := List.mem_iff_getElem?.mp h'
    rw [hrec.own m hm]; exact hm

theorem CacheOk.shape {n : Nat} {d : Nat → Nat → N} {med : List Nat} {data : List (Rec N)}
    (h : CacheOk n d med data) : Shape n med.length med data := by
  refine ⟨rfl, h.range, h.len, fun r hr => ?_⟩
  obtain ⟨i, hi, rfl⟩ := List.mem_iff_getElem.mp hr
  have hrec := h.recs (data[i], i) (List.mem_zipIdx_iff_getElem?.mpr (by simp [hi]))
  obtain ⟨c, hc, -⟩ := hrec.near
  obtain ⟨c', hc', -⟩ := hrec.seco
  exact ⟨(List.getElem?_eq_some_iff.mp hc).1, (List.getElem?_eq_some_iff.mp hc').1⟩

/-- Correct caches give a nearest-medoid assignment. -/
theorem CacheOk.assignment {n : Nat} {d : Nat → Nat → N} {med : List Nat} {data : List (Rec N)}
    (h : CacheOk n d med data) : NearestAssignment n d med (data.map (·.near.i)) := by
  have hget : ∀ o : Nat, ∀ r, data[o]? = some r → RecOk d med o r := fun o r ho =>
    h.recs (r, o) (List.mem_zipIdx_iff_getElem?.mpr (by simpa using ho))
  refine ⟨by simp [h.len], ?_, ?_⟩
  · intro o m hm
    rw [List.getElem?_map] at hm
    obtain ⟨r, hr, rfl⟩ := Option.map_eq_some_iff.mp hm
    obtain ⟨⟨c1, hc1, hd1⟩, -, -, hle, hrest, -⟩ := hget o r hr
    refine ⟨c1, hc1, fun c' hc' => ?_⟩
    obtain ⟨m', hm'⟩ := List.mem_iff_getElem?.mp hc'
    by_cases hmi : m' = r.near.i
    · subst hmi; rw [hc1] at hm'; cases hm'; exact le_refl _
    · rw [hd1]; exact le_trans hle (hrest m' c' hm' hmi)
  · intro m c hm
    have hc : c < data.length := h.len ▸ h.range c (List.mem_of_getElem? hm)
    rw [List.getElem?_map, List.getElem?_eq_getElem hc]
    have := (hget c data[c] (List.getElem?_eq_getElem hc)).own m hm
    simp [this]

end KMedoids
