import Verif.Proofs.PamSilExact

/-!
# PAMSIL as a function

Textbook description of the SWAP phase of PAMSIL: among all exchanges of a medoid for an object that is not a
medoid (by position of the medoid, then by number of the object) take the first one with the largest silhouette,
as long as it is larger than the present one. Shown here: the code computes this, with two deviations that
are part of the description: exchanges whose silhouette is not positive are never taken, and the code panics if
the present silhouette is negative and no exchange has a positive one. A third deviation, that the code
sometimes also considers to repeat a medoid (C42), is excluded by the condition `Tame`.
-/

set_option linter.unusedSectionVars false

namespace KMedoids

open RFrom (conv)

/-! ## Definition -/

section spec
variable {L : Type} [LinearOrder L] [Zero L]

/-- All exchanges of a medoid for an object that is not a medoid, by position, then by object. -/
def exchanges (n : Nat) (med : List Nat) : List (List Nat) :=
  (List.range med.length).flatMap fun m => ((List.range n).filter (· ∉ med)).map fun j => med.set m j

/-- `c` becomes the best so far if it is better; nothing up to `F` is accepted. -/
def pickStep (S : List Nat → L) (F : L) : Option (List Nat) → List Nat → Option (List Nat)
  | none, c => if F < S c then some c else none
  | some b, c => if S b < S c then some c else some b

/-- The first of the lists with the largest value, if that is larger than `F`. -/
def pickBest (S : List Nat → L) (F : L) (l : List (List Nat)) : Option (List Nat) :=
  l.foldl (pickStep S F) none

/-- Steepest ascent with at most `fuel` iterations: medoids, silhouette, iterations, swaps. `none`: panic. -/
def silRun (S : List Nat → L) (n : Nat) : Nat → L → List Nat → Option (List Nat × L × Nat × Nat)
  | 0, sil, med => some (med, sil, 0, 0)
  | fuel + 1, sil, med =>
    match pickBest S (max 0 sil) (exchanges n med) with
    | some b => (silRun S n fuel (S b) b).map fun r => (r.1, r.2.1, r.2.2.1 + 1, r.2.2.2 + 1)
    | none => if sil < 0 then none else some (med, sil, 1, 0)

/-- At every step of the run, to repeat a medoid does not pay. Only those objects matter that come before the
first object that is not a medoid; the condition holds if object 0 is never a medoid. `R l s`: list `l` has
silhouette `s`. -/
def Tame (S : List Nat → L) (R : List Nat → L → Prop) (n : Nat) : Nat → L → List Nat → Prop
  | 0, _, _ => True
  | fuel + 1, sil, med =>
    (∀ m j, m < med.length → j ∈ med → (∀ i < j, i ∈ med) → j ≠ med.getD m 0 →
      ∀ s, R (med.set m j) s → s ≤ max 0 sil) ∧
    ∀ b, pickBest S (max 0 sil) (exchanges n med) = some b → Tame S R n fuel (S b) b

/-! ## What is picked -/

theorem pickBest_snoc (S : List Nat → L) (F : L) (l : List (List Nat)) (c : List Nat) :
    pickBest S F (l ++ [c]) = pickStep S F (pickBest S F l) c := by
  unfold pickBest; rw [List.foldl_append]; rfl

/-- `pickBest` is what its name says. -/
theorem pickBest_spec (S : List Nat → L) (F : L) (l : List (List Nat)) :
    match pickBest S F l with
    | none => ∀ c ∈ l, S c ≤ F
    | some b => ∃ pre post, l = pre ++ b :: post ∧ F < S b ∧ (∀ c ∈ pre, S c < S b) ∧ ∀ c ∈ post, S c ≤ S b := by
  induction l using List.reverseRecOn with
  | nil => intro c hc; simp at hc
  | append_singleton l c ih =>
    rw [pickBest_snoc]
    generalize pickBest S F l = b at ih
    unfold pickStep
    cases b with
    | none =>
      dsimp only at ih ⊢
      by_cases h : F < S c
      · rw [if_pos h]
        exact ⟨l, [], by simp, h, fun x hx => lt_of_le_of_lt (ih x hx) h, by simp⟩
      · rw [if_neg h]
        intro x hx
        rcases List.mem_append.mp hx with hx | hx
        · exact ih x hx
        · rw [List.mem_singleton.mp hx]; exact not_lt.mp h
    | some b =>
      dsimp only at ih ⊢
      obtain ⟨pre, post, e, h1, h2, h3⟩ := ih
      by_cases h : S b < S c
      · rw [if_pos h]
        refine ⟨l, [], by simp, lt_trans h1 h, fun x hx => ?_, by simp⟩
        rw [e] at hx
        rcases List.mem_append.mp hx with hx | hx
        · exact lt_trans (h2 x hx) h
        · rcases List.mem_cons.mp hx with rfl | hx
          · exact h
          · exact lt_of_le_of_lt (h3 x hx) h
      · rw [if_neg h]
        refine ⟨pre, post ++ [c], by rw [e]; simp, h1, h2, fun x hx => ?_⟩
        rcases List.mem_append.mp hx with hx | hx
        · exact h3 x hx
        · rw [List.mem_singleton.mp hx]; exact not_lt.mp h

theorem mem_exchanges {n : Nat} {med y : List Nat} :
    y ∈ exchanges n med ↔ ∃ m x, m < med.length ∧ x < n ∧ x ∉ med ∧ y = med.set m x := by
  unfold exchanges
  simp only [List.mem_flatMap, List.mem_range, List.mem_map, List.mem_filter, decide_eq_true_eq]
  constructor
  · rintro ⟨m, hm, x, ⟨hx, hxm⟩, rfl⟩; exact ⟨m, x, hm, hx, hxm, rfl⟩
  · rintro ⟨m, x, hm, hx, hxm, rfl⟩; exact ⟨m, hm, x, ⟨hx, hxm⟩, rfl⟩

theorem pickBest_mem {S : List Nat → L} {F : L} {l : List (List Nat)} {b : List Nat} (h : pickBest S F l = some b) :
    b ∈ l ∧ F < S b := by
  have := pickBest_spec S F l
  rw [h] at this
  obtain ⟨pre, post, e, h1, -⟩ := this
  exact ⟨by rw [e]; simp, h1⟩

/-- Values matter only on the lists themselves. -/
theorem pickBest_congr {S S' : List Nat → L} {F : L} {l : List (List Nat)} (h : ∀ c ∈ l, S c = S' c) :
    pickBest S F l = pickBest S' F l := by
  induction l using List.reverseRecOn with
  | nil => rfl
  | append_singleton l c ih =>
    have ih := ih fun c hc => h c (by simp [hc])
    rw [pickBest_snoc, pickBest_snoc, ih]
    unfold pickStep
    cases hb : pickBest S' F l with
    | none => dsimp only; rw [h c (by simp)]
    | some b =>
      dsimp only
      rw [h c (by simp), h b (by have := (pickBest_mem hb).1; simp [this])]

theorem silRun_congr {S S' : List Nat → L} {n k : Nat}
    (h : ∀ c : List Nat, c.length = k → (∀ m ∈ c, m < n) → c.Nodup → S c = S' c) (fuel : Nat) (sil : L)
    {med : List Nat} (hk : med.length = k) (hr : ∀ m ∈ med, m < n) (hnd : med.Nodup) :
    silRun S n fuel sil med = silRun S' n fuel sil med := by
  induction fuel generalizing sil med with
  | zero => rfl
  | succ fuel ih =>
    have hex : ∀ c ∈ exchanges n med, c.length = k ∧ (∀ m ∈ c, m < n) ∧ c.Nodup := by
      intro c hc
      obtain ⟨m, x, hm, hx, hxm, rfl⟩ := mem_exchanges.mp hc
      refine ⟨by simpa using hk, fun y hy => ?_, nodup_set hnd hxm⟩
      rcases List.mem_or_eq_of_mem_set hy with h | h
      · exact hr y h
      · exact h ▸ hx
    unfold silRun
    rw [pickBest_congr (S := S) (S' := S') fun c hc => by
      obtain ⟨h1, h2, h3⟩ := hex c hc; exact h c h1 h2 h3]
    cases hb : pickBest S' (max 0 sil) (exchanges n med) with
    | none => rfl
    | some b =>
      obtain ⟨h1, h2, h3⟩ := hex b (pickBest_mem hb).1
      dsimp only
      rw [h b h1 h2 h3, ih _ h1 h2 h3]

theorem Tame_congr {S S' : List Nat → L} {R R' : List Nat → L → Prop} {n k : Nat}
    (h : ∀ c : List Nat, c.length = k → (∀ m ∈ c, m < n) → c.Nodup → S c = S' c)
    (hR : ∀ c s, c.length = k → (∀ m ∈ c, m < n) → R' c s → R c s) {fuel : Nat} {sil : L}
    {med : List Nat} (hk : med.length = k) (hr : ∀ m ∈ med, m < n) (hnd : med.Nodup)
    (ht : Tame S R n fuel sil med) : Tame S' R' n fuel sil med := by
  induction fuel generalizing sil med with
  | zero => trivial
  | succ fuel ih =>
    have hex : ∀ c ∈ exchanges n med, c.length = k ∧ (∀ m ∈ c, m < n) ∧ c.Nodup := by
      intro c hc
      obtain ⟨m, x, hm, hx, hxm, rfl⟩ := mem_exchanges.mp hc
      refine ⟨by simpa using hk, fun y hy => ?_, nodup_set hnd hxm⟩
      rcases List.mem_or_eq_of_mem_set hy with h | h
      · exact hr y h
      · exact h ▸ hx
    obtain ⟨h1, h2⟩ := ht
    refine ⟨fun m j hm hj hi hne s hs => h1 m j hm hj hi hne s (hR _ _ (by simpa using hk) (fun y hy => ?_) hs),
      fun b hb => ?_⟩
    · rcases List.mem_or_eq_of_mem_set hy with h | h
      · exact hr y h
      · exact h ▸ hr j hj
    · rw [← pickBest_congr (S := S) (S' := S') fun c hc => by
        obtain ⟨h1, h2, h3⟩ := hex c hc; exact h c h1 h2 h3] at hb
      obtain ⟨g1, g2, g3⟩ := hex b (pickBest_mem hb).1
      have := ih g1 g2 g3 (h2 b hb)
      rwa [← h b g1 g2 g3]

/-- The medoids of a run stay distinct. -/
theorem silRun_valid {S : List Nat → L} {n k fuel : Nat} {sil : L} {med : List Nat} (hk : med.length = k)
    (hr : ∀ m ∈ med, m < n) (hnd : med.Nodup) {r : List Nat × L × Nat × Nat} (h : silRun S n fuel sil med = some r) :
    r.1.length = k ∧ (∀ m ∈ r.1, m < n) ∧ r.1.Nodup := by
  induction fuel generalizing sil med r with
  | zero => cases h; exact ⟨hk, hr, hnd⟩
  | succ fuel ih =>
    unfold silRun at h
    cases hb : pickBest S (max 0 sil) (exchanges n med) with
    | none =>
      rw [hb] at h
      dsimp only at h
      split at h
      · cases h
      · cases h; exact ⟨hk, hr, hnd⟩
    | some b =>
      rw [hb] at h
      dsimp only at h
      obtain ⟨r', hr', rfl⟩ := Option.map_eq_some_iff.mp h
      obtain ⟨m, x, hm, hx, hxm, rfl⟩ := mem_exchanges.mp (pickBest_mem hb).1
      refine ih (r := r') (by simpa using hk) (fun y hy => by
        rcases List.mem_or_eq_of_mem_set hy with h | h
        · exact hr y h
        · exact h ▸ hx) (nodup_set hnd hxm) hr'

/-- If object 0 is a medoid at no time, the run is tame. -/
theorem Tame_of_zero {S : List Nat → L} (R : List Nat → L → Prop) {n fuel : Nat} {sil : L} {med : List Nat}
    (h : ∀ i < fuel, ∀ r, silRun S n i sil med = some r → 0 ∉ r.1) : Tame S R n fuel sil med := by
  induction fuel generalizing sil med with
  | zero => trivial
  | succ fuel ih =>
    refine ⟨fun m j _ hj hi _ _ _ => absurd ?_ (h 0 (by omega) _ rfl), fun b hb => ih fun i hi r hr => ?_⟩
    · rcases Nat.eq_zero_or_pos j with rfl | h0
      · exact hj
      · exact hi 0 h0
    · have := h (i + 1) (by omega) (r.1, r.2.1, r.2.2.1 + 1, r.2.2.2 + 1) (by
        unfold silRun; rw [hb]; dsimp only; rw [hr]; rfl)
      exact this

end spec

/-! ## The code -/

section dist
variable {N L : Type} [LinearOrder N] [Zero N] [RDist N] [LawfulDist N] [RLoss L] [RFrom N L]

/-- A medoid belongs to itself, also if medoids are repeated. -/
theorem nearRecP_own {n : Nat} {d : Nat → Nat → N} (hd : Dissim n d) {o : Nat} (ho : o < n) :
    ∀ (med : List Nat), med ≠ [] → (∀ m ∈ med, m < n) → o ∈ med →
      med[(nearRecP d med o).1]? = some o ∧ (nearRecP d med o).2 = 0 := by
  intro med
  induction med using List.reverseRecOn with
  | nil => intro h; exact absurd rfl h
  | append_singleton l c ih =>
    intro _ hr hmem
    rcases eq_or_ne l [] with rfl | hl
    · obtain rfl : o = c := by simpa using hmem
      exact ⟨by simp [nearRecP], by simp [nearRecP, hd.diag o ho]⟩
    · have e : nearRecP d (l ++ [c]) o =
          if rlt (d o c) (nearRecP d l o).2 || o == c then (l.length, d o c) else nearRecP d l o := by
        obtain ⟨x, xs, rfl⟩ := List.exists_cons_of_ne_nil hl
        unfold nearRecP
        rw [List.zipIdx_append, List.drop_append_of_le_length (by simp), List.foldl_append]
        simp
      rw [e]
      by_cases hoc : o = c
      · subst hoc
        simp [hd.diag o ho]
      · have hol : o ∈ l := by
          rcases List.mem_append.mp hmem with h | h
          · exact h
          · exact absurd (List.mem_singleton.mp h) hoc
        obtain ⟨h1, h2⟩ := ih hl (fun m hm => hr m (by simp [hm])) hol
        have h3 : ¬ d o c < 0 := not_lt.mpr (hd.nonneg o c ho (hr c (by simp)))
        have h4 : ¬ (rlt (d o c) (nearRecP d l o).2 || o == c) = true := by
          simp [rltN, h2, h3, hoc]
        rw [if_neg h4]
        refine ⟨?_, h2⟩
        rw [List.getElem?_append_left (List.getElem?_eq_some_iff.mp h1).1]
        exact h1

end dist

section exactLoss
variable {N L : Type} [LinearOrder N] [Zero N] [RDist N] [LawfulDist N]
variable [AddCommGroup L] [LinearOrder L] [IsOrderedAddMonoid L] [RLoss L] [LawfulLoss L]
variable [RFrom N L] [LawfulFrom N L]

/-- The best candidate of the code, `b`, and the best of the description, `a`. -/
def PSPick (d : Nat → Nat → N) (n k : Nat) (med : List Nat) (F : L) (a : Option (List Nat)) (b : L × Nat × Nat) : Prop :=
  (a = none ∧ b.1 ≤ F) ∨
    (a = some (med.set b.2.1 b.2.2) ∧ b.1 = silM L d n (med.set b.2.1 b.2.2) ∧ F < b.1 ∧ b.2.1 < k ∧ b.2.2 < n ∧
      b.2.2 ∉ med)

/-- The scan for one medoid. -/
theorem psMedP_pick {n k : Nat} {d : Nat → Nat → N} (hd : Dissim n d) {med : List Nat}
    (hv : ValidMeds n med) {m : Nat} (hk : med.length = k) (hmk : m < k) {F : L}
    (hF : ∀ j, j ∈ med → (∀ i < j, i ∈ med) → j ≠ med.getD m 0 → silM L d n (med.set m j) ≤ F)
    {st : PSScan L} (hok : PSOk n k st) (hst : st.med = med) {a : Option (List Nat)}
    (hb : PSPick d n k med F a st.best) :
    PSPick d n k med F ((((List.range n).filter (· ∉ med)).map fun j => med.set m j).foldl
      (pickStep (silM L d n) F) a) (psMedP d n st m).best := by
  have hml : m < med.length := hk ▸ hmk
  have h := foldl_prefix (fun pre s =>
      PSPick d n k med F (((pre.filter (· ∉ med)).map fun j => med.set m j).foldl (pickStep (silM L d n) F) a) s.best ∧
      ((∀ i ∈ pre, i ∈ med) ∧ s.med = med ∧ s.assi = st.assi ∨
        ∃ j ∈ pre, j < n ∧ s.med = med.set m j ∧ s.assi = nearAssiP d n (med.set m j)))
    (g := psStepP (L := L) d n m (st.med.getD m 0)) (xs := List.range n)
    (fun pre x post s he hs => by
      have hpre : pre = List.range x := by
        have h1 : (List.range n)[pre.length]? = some x := by rw [he]; simp
        have h2 : pre.length < n := by
          have := congrArg List.length he
          simp at this; omega
        rw [List.getElem?_range h2] at h1
        have h1 : pre.length = x := by simpa using h1
        have := congrArg (List.take pre.length) he
        rw [List.take_left', List.take_range] at this
        · rw [← this, h1, min_eq_left (by omega)]
        · rfl
      have hx : x < n := by
        have : x ∈ List.range n := by rw [he]; simp
        exact List.mem_range.mp this
      have hxp : x ∉ pre := by rw [hpre]; simp
      obtain ⟨hb, hs⟩ := hs
      have hset : s.med.set m x = med.set m x := by
        rcases hs with ⟨-, e, -⟩ | ⟨j, -, -, e, -⟩
        · rw [e]
        · rw [e, List.set_set]
      -- what a non-skipped object does
      have hstep : ¬ (x = st.med.getD m 0 ∨ x = s.med.getD (s.assi.getD x 0) 0) →
          psStepP d n m (st.med.getD m 0) s x = ⟨med.set m x, nearAssiP d n (med.set m x),
            if rle (silM L d n (med.set m x)) s.best.1 then s.best else (silM L d n (med.set m x), m, x)⟩ := by
        intro hns
        unfold psStepP
        rw [if_neg hns, hset]
      by_cases hxm : x ∈ med
      · have hfil : (pre ++ [x]).filter (· ∉ med) = pre.filter (· ∉ med) := by
          rw [List.filter_append]; simp [hxm]
        rw [hfil]
        by_cases hns : x = st.med.getD m 0 ∨ x = s.med.getD (s.assi.getD x 0) 0
        · have : psStepP d n m (st.med.getD m 0) s x = s := by unfold psStepP; rw [if_pos hns]
          rw [this]
          refine ⟨hb, ?_⟩
          rcases hs with ⟨h1, h2⟩ | ⟨j, hj, h⟩
          · refine .inl ⟨fun i hi => ?_, h2⟩
            rcases List.mem_append.mp hi with hi | hi
            · exact h1 i hi
            · rw [List.mem_singleton.mp hi]; exact hxm
          · exact .inr ⟨j, by simp [hj], h⟩
        · -- a repeated medoid: only before the first non-medoid
          have hall : ∀ i < x, i ∈ med := by
            rcases hs with ⟨h1, -⟩ | ⟨j, hjp, hj, e1, e2⟩
            · intro i hi; exact h1 i (by rw [hpre]; simpa using hi)
            · exfalso
              apply hns
              obtain ⟨p, hp⟩ := List.mem_iff_getElem?.mp hxm
              by_cases hpm : p = m
              · left; rw [hst, List.getD_eq_getElem?_getD, ← hpm, hp]; rfl
              · right
                have hp' : (med.set m j)[p]? = some x := by
                  rw [List.getElem?_set_ne (Ne.symm hpm), hp]
                have hv' := hv.set m hj
                have hown := (nearRecP_own hd hx (med.set m j) (by
                  intro e; have := congrArg List.length e; simp at this; subst this; simp at hml)
                  hv'.range (List.mem_of_getElem? hp')).1
                have hlab : (nearAssiP d n (med.set m j)).getD x 0 = (nearRecP d (med.set m j) x).1 := by
                  rw [List.getD_eq_getElem?_getD]
                  simp [nearAssiP, List.getElem?_range hx]
                rw [e1, e2, hlab, List.getD_eq_getElem?_getD, hown]
                rfl
          have hle := hF x hxm hall (fun e => hns (.inl (by rw [hst]; exact e)))
          rw [hstep hns]
          refine ⟨?_, .inr ⟨x, by simp, hx, rfl, rfl⟩⟩
          dsimp only
          rw [rleL']
          by_cases hc : silM L d n (med.set m x) ≤ s.best.1
          · rw [if_pos (by simpa using hc)]; exact hb
          · rw [if_neg (by simpa using hc)]
            rcases hb with ⟨g1, -⟩ | ⟨-, -, g3, -⟩
            · exact .inl ⟨g1, hle⟩
            · exact absurd (le_trans hle (le_of_lt g3)) hc
      · have hfil : (pre ++ [x]).filter (· ∉ med) = pre.filter (· ∉ med) ++ [x] := by
          rw [List.filter_append]; simp [hxm]
        have hns : ¬ (x = st.med.getD m 0 ∨ x = s.med.getD (s.assi.getD x 0) 0) := by
          rintro (e | e)
          · refine hxm ?_
            rw [e, hst, List.getD_eq_getElem?_getD, List.getElem?_eq_getElem hml]
            exact List.getElem_mem _
          · have hlt : s.assi.getD x 0 < s.med.length := by
              rcases hs with ⟨-, e1, e2⟩ | ⟨j, -, hj, e1, e2⟩
              · have hja : x < st.assi.length := hok.assiLen ▸ hx
                rw [e1, e2, List.getD_eq_getElem?_getD, List.getElem?_eq_getElem hja, hk]
                exact hok.label _ (List.getElem_mem hja)
              · have hv' := hv.set m hj
                have hja : x < (nearAssiP d n (med.set m j)).length := by rw [nearAssiP_length]; exact hx
                rw [e1, e2, List.getD_eq_getElem?_getD, List.getElem?_eq_getElem hja]
                exact nearAssiP_label d hv'.sizes.pos _ (List.getElem_mem hja)
            have hmem : x ∈ s.med := by
              rw [List.getD_eq_getElem?_getD (l := s.med), List.getElem?_eq_getElem hlt] at e
              rw [e]; exact List.getElem_mem _
            rcases hs with ⟨-, e1, -⟩ | ⟨j, hjp, -, e1, -⟩
            · rw [e1] at hmem; exact hxm hmem
            · rw [e1] at hmem
              rcases List.mem_or_eq_of_mem_set hmem with h | h
              · exact hxm h
              · rw [h] at hxp; exact hxp hjp
        rw [hstep hns, hfil, List.map_append, List.foldl_append]
        refine ⟨?_, .inr ⟨x, by simp, hx, rfl, rfl⟩⟩
        simp only [List.map_cons, List.map_nil, List.foldl_cons, List.foldl_nil]
        generalize ((pre.filter (· ∉ med)).map fun j => med.set m j).foldl (pickStep (silM L d n) F) a = a' at hb
        rw [rleL']
        unfold pickStep
        rcases hb with ⟨g1, g2⟩ | ⟨g1, g2, g3, g4⟩
        · subst g1
          dsimp only
          by_cases hc : F < silM L d n (med.set m x)
          · rw [if_pos hc, if_neg (by simpa using lt_of_le_of_lt g2 hc)]
            exact .inr ⟨rfl, rfl, hc, hmk, hx, hxm⟩
          · rw [if_neg hc]
            refine .inl ⟨rfl, ?_⟩
            split
            · exact g2
            · exact not_lt.mp hc
        · subst g1
          dsimp only
          rw [← g2]
          by_cases hc : s.best.1 < silM L d n (med.set m x)
          · rw [if_pos hc, if_neg (by simpa using hc)]
            exact .inr ⟨rfl, rfl, lt_trans g3 hc, hmk, hx, hxm⟩
          · rw [if_neg hc, if_pos (by simpa using hc)]
            exact .inr ⟨rfl, g2, g3, g4⟩) (s := st) ⟨by simpa using hb, .inl ⟨by simp, hst, rfl⟩⟩
  exact h.1

/-- One scan finds what the description says. -/
theorem psScanP_pick {n k : Nat} {d : Nat → Nat → N} (hd : Dissim n d) {med assi : List Nat}
    (hv : ValidMeds n med) (hk : med.length = k) (hl : assi.length = n) (hlab : ∀ a ∈ assi, a < k) {F : L}
    (h0 : 0 ≤ F)
    (hF : ∀ m j, m < med.length → j ∈ med → (∀ i < j, i ∈ med) → j ≠ med.getD m 0 →
      silM L d n (med.set m j) ≤ F) :
    PSPick d n k med F (pickBest (silM L d n) F (exchanges n med)) (psScanP (L := L) d n k med assi).best := by
  have h := foldl_prefix (fun pre (s : PSScan L) => (s.med = med ∧ PSBest d n k med s.best ∧ PSOk n k s) ∧
      PSPick d n k med F (pickBest (silM L d n) F (pre.flatMap fun m =>
        ((List.range n).filter (· ∉ med)).map fun j => med.set m j)) s.best)
    (g := psMedP d n) (xs := List.range k)
    (fun pre m post s he hs => by
      have hm : m < k := by
        have : m ∈ List.range k := by rw [he]; simp
        exact List.mem_range.mp this
      obtain ⟨⟨h1, h2, h3⟩, h4⟩ := hs
      obtain ⟨a1, a2⟩ := psMedP_spec hm hk h1 h2
      refine ⟨⟨a1, a2, psMedP_psok d h3 hm⟩, ?_⟩
      have := psMedP_pick hd hv hk hm (fun j => hF m j (hk ▸ hm)) h3 h1 h4
      rw [List.flatMap_append]
      unfold pickBest at this ⊢
      rw [List.foldl_append]
      simpa using this)
    (s := ⟨med, assi, ((RLoss.zero : L), k, usizeMax)⟩)
    ⟨⟨rfl, .inl rfl, ⟨hv, hk, hl, hlab⟩⟩, .inl ⟨rfl, by
      show (RLoss.zero : L) ≤ F
      rw [zeroL]; exact h0⟩⟩
  have h := h.2
  unfold exchanges
  rw [hk]
  exact h

/-- The whole loop. -/
theorem psLoopP_run {n k : Nat} {d : Nat → Nat → N} (hd : Dissim n d) {med assi : List Nat}
    (hv : ValidMeds n med) (hnd : med.Nodup) (hk : med.length = k) (hl : assi.length = n) (hlab : ∀ a ∈ assi, a < k)
    {fuel iter : Nat} {sil : L} {nSwaps : Nat}
    (ht : Tame (silM L d n) (fun l s => s = silM L d n l) n fuel sil med) :
    psLoopP d n k fuel iter sil med assi nSwaps =
      match silRun (silM L d n) n fuel sil med with
      | some r => .ok (r.2.1, r.1, iter + r.2.2.1, nSwaps + r.2.2.2)
      | none => .error .index := by
  induction fuel generalizing iter sil med assi nSwaps with
  | zero => rfl
  | succ fuel ih =>
    obtain ⟨t1, t2⟩ := ht
    have hp := psScanP_pick (F := max 0 sil) hd hv hk hl hlab (le_max_left _ _) fun m j hm hj hi hne =>
      t1 m j hm hj hi hne _ rfl
    obtain ⟨hc1, hc2, hc3, -⟩ := psScanP_cover (L := L) (d := d) hv hk hl hlab
    unfold psLoopP silRun
    dsimp only
    rcases hp with ⟨p1, p2⟩ | ⟨p1, p2, p3, p4, p5, p6⟩
    · rw [p1]
      dsimp only
      rw [rleL']
      by_cases h0 : sil < 0
      · rw [max_eq_left (le_of_lt h0)] at p2
        have hb : (psScanP (L := L) d n k med assi).best = (0, k, usizeMax) := by
          rcases hc2 with h | h
          · exact h
          · exact absurd p2 (not_le.mpr h)
        have hlt : sil < (psScanP (L := L) d n k med assi).best.1 := by rw [hb]; exact h0
        rw [if_pos h0, if_neg (by simpa using hlt), hb]
        have : setIdx med k usizeMax = .error .index := by simp [setIdx, hk]
        dsimp only
        rw [this]; rfl
      · rw [max_eq_right (not_lt.mp h0)] at p2
        rw [if_neg h0, if_pos (by simpa using p2)]
        rfl
    · rw [p1]
      dsimp only
      have hlt : sil < (psScanP (L := L) d n k med assi).best.1 := lt_of_le_of_lt (le_max_right _ _) p3
      rw [rleL', if_neg (by simpa using hlt), setIdx_lt (hk ▸ p4), ok_bind, p2]
      have ht' := t2 _ p1
      rw [ih (hv.set _ p5) (nodup_set hnd p6) (by simpa using hk) hc1.assiLen hc1.label ht']
      cases silRun (silM L d n) n fuel (silM L d n (med.set (psScanP (L := L) d n k med assi).best.2.1
        (psScanP (L := L) d n k med assi).best.2.2)) (med.set (psScanP (L := L) d n k med assi).best.2.1
        (psScanP (L := L) d n k med assi).best.2.2) with
      | none => rfl
      | some r =>
        dsimp only [Option.map_some]
        congr 4 <;> omega

end exactLoss

end KMedoids
