import Verif.Proofs.AltRun
import Verif.Props.C86

/-!
# C91: alternating is the textbook alternation, including ties

C23 and C55 say that the run never gets worse and where it ends. Here the run is equated with a function:
`altRun` assigns every object to its nearest medoid (a medoid to itself, the first one if several are nearest),
and then replaces every medoid by the best member of its cluster (kept if no member is better, the first best
one if there are several), until nothing changes. This determines everything that is returned. It follows that a
run can be stopped and continued, and, if there are no ties, that the order of objects and medoids does not matter.
-/

set_option linter.unusedSectionVars false

namespace KMedoids

open RFrom (conv)

section exact

variable {N L : Type} [LinearOrder N] [Zero N] [RDist N] [LawfulDist N]
variable [AddCommGroup L] [LinearOrder L] [IsOrderedAddMonoid L] [RLoss L] [LawfulLoss L]
variable [RFrom N L] [LawfulFrom N L]

/-- **C91.** The medoids and the number of iterations are those of `altRun`; the assignment and the loss follow
from the medoids. -/
theorem C91_alternating {mat : Mat N} {n : Nat} {d : Nat → Nat → N} (hm : IsMatrix mat n d)
    (hd : Dissim n d) {med : List Nat} (hv : ValidMeds n med) (hnd : med.Nodup) (maxiter : Nat) :
    alternating L mat med maxiter = .ok
      ⟨totalDev (conv : N → L) n d (altRun (conv : N → L) d n maxiter med).1,
        (List.range n).map (nearLabel d (altRun (conv : N → L) d n maxiter med).1),
        (altRun (conv : N → L) d n maxiter med).2, (altRun (conv : N → L) d n maxiter med).1⟩ := by
  rw [(alternating_eq (L := L) hm hv maxiter).1]
  obtain ⟨h1, h2, h3, h4⟩ := altLoopP_run (L := L) hd maxiter 0 hv hnd
  have : altP L d n med maxiter = altLoopP d n maxiter 0 (nearAssiLossP L d n med) (nearAssiP d n med) med := rfl
  rw [← this] at h1 h2 h3 h4
  rw [Nat.zero_add] at h2
  rw [← h1, ← h2, ← h3, ← h4]

/-- **C91, stop and continue:** if the run is stopped after at most `a` iterations and continued from its medoids for
at most `b` iterations, medoids, assignment and loss are those of one run. The iterations are too, except that a
run that had already converged needs one more to notice. -/
theorem C91_resume {mat : Mat N} {n : Nat} {d : Nat → Nat → N} (hm : IsMatrix mat n d)
    (hd : Dissim n d) {med : List Nat} (hv : ValidMeds n med) (hnd : med.Nodup) (a b : Nat)
    {r r1 r2 : AltResult L} (hr : alternating L mat med (a + b) = .ok r)
    (hr1 : alternating L mat med a = .ok r1) (hr2 : alternating L mat r1.med b = .ok r2) :
    r2.med = r.med ∧ r2.assi = r.assi ∧ r2.loss = r.loss ∧
      (r1.nIter + r2.nIter = r.nIter ∨ r1.nIter = r.nIter ∧ r2.nIter = min b 1) := by
  rw [C91_alternating hm hd hv hnd] at hr hr1
  cases hr
  cases hr1
  obtain ⟨v1, v2⟩ := altRun_valid (L := L) hd a hv hnd
  rw [C91_alternating hm hd v1 v2] at hr2
  cases hr2
  obtain ⟨e1, e2⟩ := altRun_add (conv : N → L) d n a b med
  dsimp only
  rw [e1]
  refine ⟨rfl, rfl, rfl, ?_⟩
  rcases e2 with e2 | ⟨e2, e3⟩
  · exact Or.inl e2.symm
  · rw [e3]; exact Or.inr ⟨e2.symm, rfl⟩

end exact

/-! ## Order of objects and medoids -/

section order

variable {N L : Type} [LinearOrder N] [LinearOrder L] [AddCommGroup L]

/-- The cluster of medoid `c`, without reference to the order of the medoids. -/
def clusterOf (d : Nat → Nat → N) (n : Nat) (med : List Nat) (c : Nat) : List Nat :=
  (List.range n).filter fun o => decide (o = c) || (decide (o ∉ med) && med.all fun c' => decide (d o c ≤ d o c'))

/-- No object has two nearest medoids. -/
def NearTieless (d : Nat → Nat → N) (n : Nat) (med : List Nat) : Prop :=
  ∀ o < n, o ∉ med → ∀ a ∈ med, ∀ b ∈ med, (∀ c ∈ med, d o a ≤ d o c) → (∀ c ∈ med, d o b ≤ d o c) → a = b

/-- No cluster whose medoid has to be replaced has two best members. -/
def BestTieless (conv : N → L) (d : Nat → Nat → N) (n : Nat) (med : List Nat) : Prop :=
  ∀ c ∈ med, ∀ x ∈ clusterOf d n med c, ∀ y ∈ clusterOf d n med c,
    sumTo conv d (clusterOf d n med c) x < sumTo conv d (clusterOf d n med c) c →
    (∀ z ∈ clusterOf d n med c, sumTo conv d (clusterOf d n med c) x ≤ sumTo conv d (clusterOf d n med c) z) →
    (∀ z ∈ clusterOf d n med c, sumTo conv d (clusterOf d n med c) y ≤ sumTo conv d (clusterOf d n med c) z) →
    x = y

/-- There are no ties in the first `fuel` iterations. -/
def AltTieless (conv : N → L) (d : Nat → Nat → N) (n : Nat) : Nat → List Nat → Prop
  | 0, _ => True
  | fuel + 1, med => NearTieless d n med ∧ BestTieless conv d n med ∧ AltTieless conv d n fuel (altRound conv d n med)

instance (d : Nat → Nat → N) (n : Nat) (med : List Nat) : Decidable (NearTieless d n med) := by
  unfold NearTieless; infer_instance

instance (cv : N → L) (d : Nat → Nat → N) (n : Nat) (med : List Nat) : Decidable (BestTieless cv d n med) := by
  unfold BestTieless; infer_instance

instance decAltTieless (cv : N → L) (d : Nat → Nat → N) (n : Nat) :
    ∀ (fuel : Nat) (med : List Nat), Decidable (AltTieless cv d n fuel med)
  | 0, _ => isTrue trivial
  | fuel + 1, med =>
    have := decAltTieless cv d n fuel (altRound cv d n med)
    inferInstanceAs (Decidable (_ ∧ _ ∧ _))

theorem mem_clusterOf {d : Nat → Nat → N} {n : Nat} {med : List Nat} {c o : Nat} :
    o ∈ clusterOf d n med c ↔ o < n ∧ (o = c ∨ o ∉ med ∧ ∀ c' ∈ med, d o c ≤ d o c') := by
  simp [clusterOf]

/-- `b` is what becomes of medoid `c` in a cluster. -/
def BecomesOf (f : Nat → L) (c : Nat) (xs : List Nat) (b : Nat) : Prop :=
  (b = c ∧ ∀ y ∈ xs, f c ≤ f y) ∨ (b ∈ xs ∧ f b < f c ∧ ∀ y ∈ xs, f b ≤ f y)

theorem exists_least {f : Nat → L} {xs : List Nat} (h : xs ≠ []) : ∃ b ∈ xs, ∀ y ∈ xs, f b ≤ f y := by
  induction xs with
  | nil => exact absurd rfl h
  | cons a xs ih =>
    rcases eq_or_ne xs [] with rfl | hne
    · exact ⟨a, by simp, by simp⟩
    · obtain ⟨b, hb, hmin⟩ := ih hne
      rcases le_total (f a) (f b) with hab | hab
      · exact ⟨a, by simp, by simpa using fun y hy => le_trans hab (hmin y hy)⟩
      · exact ⟨b, by simp [hb], by simpa using ⟨hab, hmin⟩⟩

theorem bestMember_becomes {f : Nat → L} {c : Nat} {xs : List Nat} (hc : c ∈ xs) :
    BecomesOf f c xs (bestMember f c xs) := by
  by_cases h : ∀ y ∈ xs, f c ≤ f y
  · rw [bestMember_keep h]; exact Or.inl ⟨rfl, h⟩
  · right
    push Not at h
    obtain ⟨y, hy, hlt⟩ := h
    obtain ⟨b, hb, hmin⟩ := exists_least (f := f) (List.ne_nil_of_mem hc)
    unfold bestMember
    rw [if_neg (fun h => absurd (h y hy) (not_le.mpr hlt))]
    cases hf : xs.find? fun x => xs.all fun y => decide (f x ≤ f y) with
    | none =>
      rw [List.find?_eq_none] at hf
      exact absurd (by simpa using hmin) (hf b hb)
    | some x =>
      have h1 := List.mem_of_find?_eq_some hf
      have h2 := List.find?_some hf
      simp only [List.all_eq_true, decide_eq_true_eq] at h2
      exact ⟨h1, lt_of_le_of_lt (h2 y hy) hlt, h2⟩

theorem membersOf_cluster {d : Nat → Nat → N} {n : Nat} {med : List Nat} (hnd : med.Nodup)
    (ht : NearTieless d n med) {m : Nat} (hm : m < med.length) :
    membersOf d n med m = clusterOf d n med med[m] := by
  unfold membersOf clusterOf
  refine List.filter_congr fun o ho => ?_
  have ho := List.mem_range.mp ho
  unfold nearLabel
  by_cases hmem : o ∈ med
  · rw [if_pos hmem]
    have : med.idxOf o = m ↔ o = med[m] := by
      constructor
      · intro h; subst h; simp
      · intro h; subst h; exact hnd.idxOf_getElem m hm
    simp [this, hmem]
  · rw [if_neg hmem]
    have hpos : 1 ≤ med.length := by omega
    obtain ⟨h1, h2, -⟩ := firstMin_spec (fun m => d o (med.getD m 0)) hpos
    have hne : o ≠ med[m] := fun h => hmem (h ▸ List.getElem_mem hm)
    generalize firstMin (fun m => d o (med.getD m 0)) med.length = b at h1 h2
    have hb : ∀ c ∈ med, d o med[b] ≤ d o c := by
      intro c hc
      obtain ⟨i, hi, rfl⟩ := List.mem_iff_getElem.mp hc
      simpa [hi, h1] using h2 i hi
    have : b = m ↔ ∀ c' ∈ med, d o med[m] ≤ d o c' := by
      constructor
      · intro h; subst h; exact hb
      · intro h
        have := ht o ho hmem _ (List.getElem_mem h1) _ (List.getElem_mem hm) hb h
        exact (List.Nodup.getElem_inj_iff hnd).mp this
    rw [Bool.eq_iff_iff]
    simp [this, hmem, hne]

/-- One iteration, without reference to the order of the medoids. -/
theorem altRound_map {cv : N → L} {d : Nat → Nat → N} {n : Nat} {med : List Nat} (hnd : med.Nodup)
    (ht : NearTieless d n med) : altRound cv d n med =
      med.map fun c => bestMember (sumTo cv d (clusterOf d n med c)) c (clusterOf d n med c) := by
  unfold altRound
  refine List.ext_getElem (by simp) fun i hi hi' => ?_
  have him : i < med.length := by simpa using hi
  simp only [List.getElem_map, List.getElem_range, membersOf_cluster hnd ht him]
  simp [him]

theorem NearTieless.renumber {n : Nat} {σ : Nat → Nat} (hσ : Renumbering n σ) {d : Nat → Nat → N}
    {med med' : List Nat} (hr : ∀ m ∈ med', m < n) (h : (med'.map σ).Perm med) (ht : NearTieless d n med) :
    NearTieless (fun x y => d (σ x) (σ y)) n med' := by
  have hmem : ∀ c ∈ med', σ c ∈ med := fun c hc => h.mem_iff.mp (List.mem_map_of_mem hc)
  have hback : ∀ c ∈ med, ∃ c' ∈ med', σ c' = c := fun c hc => by
    simpa using h.mem_iff.mpr hc
  intro o ho hom a ha b hb h1 h2
  refine hσ.inj a b (hr a ha) (hr b hb) (ht (σ o) (hσ.range o ho) (fun hm => ?_) _ (hmem a ha) _ (hmem b hb) ?_ ?_)
  · obtain ⟨c', hc', e⟩ := hback _ hm
    exact hom (hσ.inj c' o (hr c' hc') ho e ▸ hc')
  · intro c hc
    obtain ⟨c', hc', rfl⟩ := hback c hc
    exact h1 c' hc'
  · intro c hc
    obtain ⟨c', hc', rfl⟩ := hback c hc
    exact h2 c' hc'

theorem clusterOf_renumber {n : Nat} {σ : Nat → Nat} (hσ : Renumbering n σ) {d : Nat → Nat → N}
    {med med' : List Nat} (hr : ∀ m ∈ med', m < n) (h : (med'.map σ).Perm med) {c : Nat} (hc : c < n) :
    ((clusterOf (fun x y => d (σ x) (σ y)) n med' c).map σ).Perm (clusterOf d n med (σ c)) := by
  have hback : ∀ c ∈ med, ∃ c' ∈ med', σ c' = c := fun c hc => by
    simpa using h.mem_iff.mpr hc
  have hfil : ((List.range n).map σ).filter (fun o => decide (o = σ c) || (decide (o ∉ med) &&
      med.all fun c' => decide (d o (σ c) ≤ d o c'))) =
      (clusterOf (fun x y => d (σ x) (σ y)) n med' c).map σ := by
    rw [List.filter_map, clusterOf]
    congr 1
    refine List.filter_congr fun o ho => ?_
    have ho := List.mem_range.mp ho
    rw [Bool.eq_iff_iff]
    simp only [Function.comp, Bool.or_eq_true, decide_eq_true_eq, Bool.and_eq_true, List.all_eq_true]
    have e1 : σ o = σ c ↔ o = c := ⟨fun e => hσ.inj o c ho hc e, fun e => by rw [e]⟩
    have e2 : σ o ∈ med ↔ o ∈ med' := by
      rw [← h.mem_iff, List.mem_map]
      exact ⟨fun ⟨a, ha, e⟩ => hσ.inj a o (hr a ha) ho e ▸ ha, fun ha => ⟨o, ha, rfl⟩⟩
    have e3 : (∀ c' ∈ med, d (σ o) (σ c) ≤ d (σ o) c') ↔ ∀ c' ∈ med', d (σ o) (σ c) ≤ d (σ o) (σ c') := by
      constructor
      · intro h1 c' hc'
        exact h1 _ (h.mem_iff.mp (List.mem_map_of_mem hc'))
      · intro h1 c' hc'
        obtain ⟨a, ha, rfl⟩ := hback c' hc'
        exact h1 a ha
    rw [e1, e2, e3]
  rw [← hfil]
  exact hσ.perm.filter _

/-- One iteration commutes with renumbering, if there are no ties. -/
theorem altRound_renumber {cv : N → L} {n : Nat} {σ : Nat → Nat} (hσ : Renumbering n σ) {d : Nat → Nat → N}
    {med med' : List Nat} (hr : ∀ m ∈ med', m < n) (hnd : med.Nodup) (h : (med'.map σ).Perm med)
    (ht : NearTieless d n med) (hb : BestTieless cv d n med) :
    ((altRound cv (fun x y => d (σ x) (σ y)) n med').map σ).Perm (altRound cv d n med) ∧
      (altRound cv (fun x y => d (σ x) (σ y)) n med' = med' ↔ altRound cv d n med = med) := by
  have hnd' := nodup_of_map h hnd
  rw [altRound_map hnd ht, altRound_map hnd' (ht.renumber hσ hr h)]
  have hsum : ∀ c ∈ med', ∀ x, sumTo cv (fun x y => d (σ x) (σ y)) (clusterOf (fun x y => d (σ x) (σ y)) n med' c) x =
      sumTo cv d (clusterOf d n med (σ c)) (σ x) := by
    intro c hc x
    unfold sumTo
    rw [← ((clusterOf_renumber hσ hr h (d := d) (hr c hc)).map _).sum_eq, List.map_map]
    rfl
  have key : ∀ c ∈ med', σ (bestMember (sumTo cv (fun x y => d (σ x) (σ y))
        (clusterOf (fun x y => d (σ x) (σ y)) n med' c)) c (clusterOf (fun x y => d (σ x) (σ y)) n med' c)) =
      bestMember (sumTo cv d (clusterOf d n med (σ c))) (σ c) (clusterOf d n med (σ c)) ∧
      bestMember (sumTo cv (fun x y => d (σ x) (σ y)) (clusterOf (fun x y => d (σ x) (σ y)) n med' c)) c
        (clusterOf (fun x y => d (σ x) (σ y)) n med' c) < n := by
    intro c hc
    have hσc : σ c ∈ med := h.mem_iff.mp (List.mem_map_of_mem hc)
    have hp := clusterOf_renumber hσ hr h (d := d) (hr c hc)
    have b1 := bestMember_becomes (f := sumTo cv (fun x y => d (σ x) (σ y))
        (clusterOf (fun x y => d (σ x) (σ y)) n med' c)) (c := c)
        (xs := clusterOf (fun x y => d (σ x) (σ y)) n med' c) (mem_clusterOf.mpr ⟨hr c hc, Or.inl rfl⟩)
    have b2 := bestMember_becomes (f := sumTo cv d (clusterOf d n med (σ c))) (c := σ c)
        (xs := clusterOf d n med (σ c)) (mem_clusterOf.mpr ⟨hσ.range c (hr c hc), Or.inl rfl⟩)
    generalize bestMember (sumTo cv (fun x y => d (σ x) (σ y)) (clusterOf (fun x y => d (σ x) (σ y)) n med' c)) c
        (clusterOf (fun x y => d (σ x) (σ y)) n med' c) = b at b1 ⊢
    generalize bestMember (sumTo cv d (clusterOf d n med (σ c))) (σ c) (clusterOf d n med (σ c)) = b' at b2 ⊢
    have hmin : ∀ x, (∀ y ∈ clusterOf (fun x y => d (σ x) (σ y)) n med' c,
        sumTo cv (fun x y => d (σ x) (σ y)) (clusterOf (fun x y => d (σ x) (σ y)) n med' c) x ≤
        sumTo cv (fun x y => d (σ x) (σ y)) (clusterOf (fun x y => d (σ x) (σ y)) n med' c) y) →
        ∀ y ∈ clusterOf d n med (σ c),
          sumTo cv d (clusterOf d n med (σ c)) (σ x) ≤ sumTo cv d (clusterOf d n med (σ c)) y := by
      intro x h1 y hy
      obtain ⟨y', hy', rfl⟩ := List.mem_map.mp (hp.mem_iff.mpr hy)
      have := h1 y' hy'
      rwa [hsum c hc, hsum c hc] at this
    rcases b1 with ⟨e, g⟩ | ⟨g1, g2, g3⟩
    · have g := hmin c g
      subst e
      refine ⟨?_, hr _ hc⟩
      rcases b2 with ⟨e', -⟩ | ⟨q1, q2, -⟩
      · exact e'.symm
      · exact absurd (g _ q1) (not_le.mpr q2)
    · have g3 := hmin b g3
      rw [hsum c hc, hsum c hc] at g2
      have gm : σ b ∈ clusterOf d n med (σ c) := hp.mem_iff.mp (List.mem_map_of_mem g1)
      refine ⟨?_, (mem_clusterOf.mp g1).1⟩
      rcases b2 with ⟨-, q⟩ | ⟨q1, -, q3⟩
      · exact absurd (q _ gm) (not_le.mpr g2)
      · exact hb (σ c) hσc _ gm _ q1 g2 g3 q3
  constructor
  · rw [List.map_map]
    refine List.Perm.trans ?_ (h.map _)
    rw [List.map_map]
    exact List.Perm.of_eq (List.map_congr_left fun c hc => (key c hc).1)
  · have hfix : ∀ (l : List Nat) (g : Nat → Nat), l.map g = l ↔ ∀ c ∈ l, g c = c := by
      intro l g
      conv_lhs => rhs; rw [← List.map_id l]
      exact List.map_inj_left
    rw [hfix, hfix]
    constructor
    · intro h1 c hc
      obtain ⟨a, ha, rfl⟩ := List.mem_map.mp (h.mem_iff.mpr hc)
      rw [← (key a ha).1, h1 a ha]
    · intro h1 c hc
      refine hσ.inj _ c (key c hc).2 (hr c hc) ?_
      rw [(key c hc).1, h1 _ (h.mem_iff.mp (List.mem_map_of_mem hc))]

end order

section result

variable {N L : Type} [LinearOrder N] [Zero N] [RDist N] [LawfulDist N]
variable [AddCommGroup L] [LinearOrder L] [IsOrderedAddMonoid L] [RLoss L] [LawfulLoss L]
variable [RFrom N L] [LawfulFrom N L]

theorem altRun_renumber {n : Nat} {σ : Nat → Nat} (hσ : Renumbering n σ) {d : Nat → Nat → N} (hd : Dissim n d)
    (fuel : Nat) {med med' : List Nat} (hv : ValidMeds n med) (hv' : ValidMeds n med') (hnd : med.Nodup)
    (h : (med'.map σ).Perm med) (ht : AltTieless (conv : N → L) d n fuel med) :
    ((altRun (conv : N → L) (fun x y => d (σ x) (σ y)) n fuel med').1.map σ).Perm
      (altRun (conv : N → L) d n fuel med).1 ∧
    (altRun (conv : N → L) (fun x y => d (σ x) (σ y)) n fuel med').2 = (altRun (conv : N → L) d n fuel med).2 := by
  induction fuel generalizing med med' with
  | zero => exact ⟨h, rfl⟩
  | succ fuel ih =>
    obtain ⟨t1, t2, t3⟩ := ht
    obtain ⟨s1, s2⟩ := altRound_renumber hσ hv'.range hnd h t1 t2
    by_cases hs : altRound (conv : N → L) d n med = med
    · rw [altRun_same hs, altRun_same (s2.mpr hs)]
      exact ⟨h, rfl⟩
    · rw [altRun_more hs, altRun_more fun e => hs (s2.mp e)]
      obtain ⟨v1, v2⟩ := altRound_valid (L := L) hd hv hnd
      obtain ⟨w1, -⟩ := altRound_valid (L := L) (hd.renumber hσ) hv' (nodup_of_map h hnd)
      obtain ⟨i1, i2⟩ := ih v1 w1 v2 s1 t3
      exact ⟨i1, by dsimp only; omega⟩

/-- **C91, order of objects and medoids:** the objects are renumbered by `σ`, and the medoids are listed in any order.
If there are no ties in the run, the result is the same. -/
theorem C91_order {n : Nat} {σ : Nat → Nat} (hσ : Renumbering n σ) {d : Nat → Nat → N} {mat mat' : Mat N}
    (hm : IsMatrix mat n d) (hm' : IsMatrix mat' n fun x y => d (σ x) (σ y)) (hd : Dissim n d) {med med' : List Nat}
    (hv : ValidMeds n med) (hv' : ValidMeds n med') (hnd : med.Nodup) (h : (med'.map σ).Perm med) {maxiter : Nat}
    (hu : AltTieless (conv : N → L) d n maxiter med) {r r' : AltResult L}
    (hr : alternating L mat med maxiter = .ok r) (hr' : alternating L mat' med' maxiter = .ok r') :
    (r'.med.map σ).Perm r.med ∧ r'.nIter = r.nIter ∧ r'.loss = r.loss := by
  rw [C91_alternating hm hd hv hnd] at hr
  rw [C91_alternating hm' (hd.renumber hσ) hv' (nodup_of_map h hnd)] at hr'
  cases hr
  cases hr'
  obtain ⟨h1, h2⟩ := altRun_renumber (L := L) hσ hd maxiter hv hv' hnd h hu
  exact ⟨h1, h2, C61_totalDev hσ d h1⟩

end result

/-! ## Examples -/

def altRows : List (List ℕ) :=
  [[0, 3, 34, 8, 37, 29], [3, 0, 11, 7, 24, 32], [34, 11, 0, 12, 10, 11], [8, 7, 12, 0, 11, 37],
    [37, 24, 10, 11, 0, 22], [29, 32, 11, 37, 22, 0]]

def altD (x y : Nat) : ℕ := (altRows.getD x []).getD y 0

theorem alt_isMatrix : IsMatrix (ofRows altRows) 6 altD :=
  ⟨rfl, rfl, fun x y hx hy => by
    have : ∀ x < 6, ∀ y < 6, (ofRows altRows).get x y = .ok (altD x y) := by decide +kernel
    exact this x hx y hy⟩

theorem alt_dissim : Dissim 6 altD := ⟨by decide +kernel, fun _ _ _ _ => Nat.zero_le _⟩

/-- The objects in the opposite order. -/
def altRows' : List (List ℕ) := (altRows.map List.reverse).reverse

theorem alt_isMatrix' : IsMatrix (ofRows altRows') 6 (fun x y => altD (5 - x) (5 - y)) :=
  ⟨rfl, rfl, fun x y hx hy => by
    have : ∀ x < 6, ∀ y < 6, (ofRows altRows').get x y = .ok (altD (5 - x) (5 - y)) := by decide +kernel
    exact this x hx y hy⟩

/-- Four iterations; in the first three, medoids are replaced. The run is also stopped after two and continued. -/
example : IsMatrix (ofRows altRows) 6 altD ∧ Dissim 6 altD ∧ ValidMeds 6 [0, 1] ∧ [0, 1].Nodup ∧
    alternating ℤ (ofRows altRows) [0, 1] 9 = .ok ⟨31, [0, 0, 1, 0, 1, 1], 4, [1, 2]⟩ ∧
    altRun (conv : ℕ → ℤ) altD 6 9 [0, 1] = ([1, 2], 4) ∧
    (List.range 6).map (nearLabel altD [0, 1]) = [0, 1, 1, 1, 1, 0] ∧
    altRound (conv : ℕ → ℤ) altD 6 [0, 1] = [0, 3] ∧
    alternating ℤ (ofRows altRows) [0, 1] 2 = .ok ⟨43, [0, 0, 1, 0, 1, 1], 2, [0, 4]⟩ ∧
    alternating ℤ (ofRows altRows) [0, 4] 7 = .ok ⟨31, [0, 0, 1, 0, 1, 1], 2, [1, 2]⟩ :=
  ⟨alt_isMatrix, alt_dissim, ⟨⟨by decide, by decide, by decide, by decide⟩, by decide⟩, by decide, by decide +kernel,
    by decide +kernel, by decide +kernel, by decide +kernel, by decide +kernel, by decide +kernel⟩

/-- This run has no ties; the objects in the opposite order, and the medoids exchanged. -/
example : AltTieless (conv : ℕ → ℤ) altD 6 9 [0, 1] ∧ Renumbering 6 (fun x => 5 - x) ∧
    IsMatrix (ofRows altRows') 6 (fun x y => altD (5 - x) (5 - y)) ∧ ValidMeds 6 [4, 5] ∧
    ([4, 5].map fun x => 5 - x).Perm [0, 1] ∧
    alternating ℤ (ofRows altRows') [4, 5] 9 = .ok ⟨31, [0, 0, 1, 0, 1, 1], 4, [3, 4]⟩ :=
  ⟨by decide +kernel, ⟨fun i hi => by omega, fun i j hi hj h => by omega⟩, alt_isMatrix',
    ⟨⟨by decide, by decide, by decide, by decide⟩, by decide⟩, by decide, by decide +kernel⟩

def altTieRows : List (List ℕ) :=
  [[0, 5, 6, 2, 1], [5, 0, 4, 2, 1], [6, 4, 0, 2, 6], [2, 2, 2, 0, 1], [1, 1, 6, 1, 0]]

def altTieD (x y : Nat) : ℕ := (altTieRows.getD x []).getD y 0

theorem altTie_isMatrix : IsMatrix (ofRows altTieRows) 5 altTieD :=
  ⟨rfl, rfl, fun x y hx hy => by
    have : ∀ x < 5, ∀ y < 5, (ofRows altTieRows).get x y = .ok (altTieD x y) := by decide +kernel
    exact this x hx y hy⟩

/-- **With ties the order of the medoids matters:** exchanging the two initial medoids gives another loss. -/
theorem C91_order_negation :
    ¬ ∀ (mat : Mat ℕ) (n : Nat) (d : Nat → Nat → ℕ) (med med' : List Nat) (maxiter : Nat) (r r' : AltResult ℤ),
      IsMatrix mat n d → Dissim n d → Symm n d → ValidMeds n med → med.Nodup → med'.Perm med →
      alternating ℤ mat med maxiter = .ok r → alternating ℤ mat med' maxiter = .ok r' → r'.loss = r.loss := by
  intro h
  have := h (ofRows altTieRows) 5 altTieD [0, 1] [1, 0] 9 ⟨6, [0, 1, 1, 0, 0], 2, [4, 1]⟩
    ⟨5, [1, 0, 0, 0, 0], 2, [3, 0]⟩ altTie_isMatrix ⟨by decide +kernel, fun _ _ _ _ => Nat.zero_le _⟩
    (fun x y hx hy => by
      have : ∀ x < 5, ∀ y < 5, altTieD x y = altTieD y x := by decide +kernel
      exact this x hx y hy)
    ⟨⟨by decide, by decide, by decide, by decide⟩, by decide⟩ (by decide) (by decide) (by decide +kernel)
    (by decide +kernel)
  exact absurd this (by decide)

end KMedoids
