import Verif.Proofs.Eager
import Verif.Proofs.Outcome

/-!
# Alternating as a function on medoids

The textbook description: every object joins its nearest medoid, every cluster chooses its best member, and
this is repeated until the medoids do not change. Shown here: `alternating` computes exactly this.
-/

set_option linter.unusedSectionVars false

namespace KMedoids

open RFrom (conv)

/-! ## Definition -/

section spec

variable {N L : Type} [LinearOrder N] [LinearOrder L] [AddCommGroup L]

/-- The cluster of object `o`: its own if it is a medoid, otherwise that of the first of the nearest medoids. -/
def nearLabel (d : Nat → Nat → N) (med : List Nat) (o : Nat) : Nat :=
  if o ∈ med then med.idxOf o else firstMin (fun m => d o (med.getD m 0)) med.length

/-- The members of cluster `m`, by number. -/
def membersOf (d : Nat → Nat → N) (n : Nat) (med : List Nat) (m : Nat) : List Nat :=
  (List.range n).filter fun o => nearLabel d med o = m

/-- Sum of the distances from `c` to the objects of a list. -/
def sumTo (conv : N → L) (d : Nat → Nat → N) (xs : List Nat) (c : Nat) : L :=
  (xs.map fun x => conv (d c x)).sum

/-- Element `c` if no element of the list has a smaller `f`, otherwise the first element with the smallest `f`. -/
def bestMember (f : Nat → L) (c : Nat) (xs : List Nat) : Nat :=
  if ∀ y ∈ xs, f c ≤ f y then c else (xs.find? fun x => xs.all fun y => decide (f x ≤ f y)).getD c

/-- One iteration: the best members of all clusters. -/
def altRound (conv : N → L) (d : Nat → Nat → N) (n : Nat) (med : List Nat) : List Nat :=
  (List.range med.length).map fun m =>
    bestMember (sumTo conv d (membersOf d n med m)) (med.getD m 0) (membersOf d n med m)

/-- At most `fuel` iterations, until one changes nothing: medoids and number of iterations. -/
def altRun (conv : N → L) (d : Nat → Nat → N) (n : Nat) : Nat → List Nat → List Nat × Nat
  | 0, med => (med, 0)
  | fuel + 1, med =>
    if altRound conv d n med = med then (med, 1)
    else ((altRun conv d n fuel (altRound conv d n med)).1, (altRun conv d n fuel (altRound conv d n med)).2 + 1)

theorem altRun_same {cv : N → L} {d : Nat → Nat → N} {n : Nat} {med : List Nat}
    (h : altRound cv d n med = med) (fuel : Nat) : altRun cv d n fuel med = (med, min fuel 1) := by
  cases fuel with
  | zero => rfl
  | succ fuel => rw [altRun, if_pos h, Nat.min_eq_right (by omega)]

theorem altRun_more {cv : N → L} {d : Nat → Nat → N} {n : Nat} {med : List Nat}
    (h : altRound cv d n med ≠ med) (fuel : Nat) : altRun cv d n (fuel + 1) med =
      ((altRun cv d n fuel (altRound cv d n med)).1, (altRun cv d n fuel (altRound cv d n med)).2 + 1) := by
  rw [altRun, if_neg h]

theorem altRun_add (cv : N → L) (d : Nat → Nat → N) (n a b : Nat) (med : List Nat) :
    (altRun cv d n (a + b) med).1 = (altRun cv d n b (altRun cv d n a med).1).1 ∧
      ((altRun cv d n (a + b) med).2 = (altRun cv d n a med).2 + (altRun cv d n b (altRun cv d n a med).1).2 ∨
        (altRun cv d n (a + b) med).2 = (altRun cv d n a med).2 ∧
          altRun cv d n b (altRun cv d n a med).1 = ((altRun cv d n a med).1, min b 1)) := by
  induction a generalizing med with
  | zero => simp [altRun]
  | succ a ih =>
    by_cases h : altRound cv d n med = med
    · rw [altRun_same h, altRun_same h]
      dsimp only
      rw [altRun_same h]
      refine ⟨rfl, Or.inr ⟨?_, rfl⟩⟩
      show min (a + 1 + b) 1 = min (a + 1) 1
      omega
    · rw [show a + 1 + b = (a + b) + 1 by omega, altRun_more h, altRun_more h]
      obtain ⟨i1, i2⟩ := ih (altRound cv d n med)
      dsimp only
      refine ⟨i1, ?_⟩
      rcases i2 with i2 | ⟨i2, i3⟩
      · left; omega
      · right; exact ⟨by omega, i3⟩

theorem bestMember_keep {f : Nat → L} {c : Nat} {xs : List Nat} (h : ∀ y ∈ xs, f c ≤ f y) :
    bestMember f c xs = c := by
  unfold bestMember; rw [if_pos h]

theorem bestMember_first {f : Nat → L} {c b : Nat} {xs ys : List Nat} (h1 : ∀ y ∈ xs ++ b :: ys, f b ≤ f y)
    (h2 : ∀ y ∈ xs, f b < f y) (h3 : f b < f c) : bestMember f c (xs ++ b :: ys) = b := by
  unfold bestMember
  rw [if_neg (fun h => absurd (h b (by simp)) (not_le.mpr h3))]
  have : (xs ++ b :: ys).find? (fun x => (xs ++ b :: ys).all fun y => decide (f x ≤ f y)) = some b := by
    rw [List.find?_eq_some_iff_append]
    refine ⟨by simpa only [List.all_eq_true, decide_eq_true_eq] using h1, xs, ys, rfl, fun a ha => ?_⟩
    rw [Bool.not_eq_true', List.all_eq_false]
    exact ⟨b, by simp, by simpa using h2 a ha⟩
  rw [this]; rfl

theorem altRound_length (cv : N → L) (d : Nat → Nat → N) (n : Nat) (med : List Nat) :
    (altRound cv d n med).length = med.length := by simp [altRound]

end spec

/-! ## Labels -/

section dist

variable {N : Type} [LinearOrder N] [Zero N] [RDist N] [LawfulDist N]

theorem nearRecP_first (d : Nat → Nat → N) (o : Nat) : ∀ (med : List Nat), med ≠ [] → o ∉ med →
    nearRecP d med o = (firstMin (fun m => d o (med.getD m 0)) med.length,
      d o (med.getD (firstMin (fun m => d o (med.getD m 0)) med.length) 0)) := by
  intro med
  induction med using List.reverseRecOn with
  | nil => intro h; exact absurd rfl h
  | append_singleton l c ih =>
    intro _ ho
    rcases eq_or_ne l [] with rfl | hl
    · simp [nearRecP, firstMin]
    · have ho' : o ∉ l := fun h => ho (by simp [h])
      have hoc : o ≠ c := fun h => ho (by simp [h])
      have hpos : 1 ≤ l.length := List.length_pos_iff.mpr hl
      have e1 : nearRecP d (l ++ [c]) o =
          if d o c < (nearRecP d l o).2 then (l.length, d o c) else nearRecP d l o := by
        unfold nearRecP
        have hh : (l ++ [c]).headD 0 = l.headD 0 := by cases l <;> simp_all
        rw [hh, List.zipIdx_append, List.drop_append_of_le_length (by simpa using hpos), List.foldl_append]
        simp only [List.zipIdx_cons, List.zipIdx_nil, List.foldl_cons, List.foldl_nil, Nat.zero_add]
        have hf : (o == c) = false := by simpa using hoc
        rw [hf, Bool.or_false]
        simp only [rltN, decide_eq_true_eq]
      have e2 : firstMin (fun m => d o ((l ++ [c]).getD m 0)) (l ++ [c]).length =
          if d o c < d o (l.getD (firstMin (fun m => d o (l.getD m 0)) l.length) 0) then l.length
          else firstMin (fun m => d o (l.getD m 0)) l.length := by
        have e0 : firstMin (fun m => d o ((l ++ [c]).getD m 0)) l.length =
            firstMin (fun m => d o (l.getD m 0)) l.length := by
          refine firstMin_congr fun a b ha hb => ?_
          simp [List.getElem?_append_left, ha, hb]
        obtain ⟨hlt, -, -⟩ := firstMin_spec (fun m => d o (l.getD m 0)) hpos
        have : firstMin (fun m => d o ((l ++ [c]).getD m 0)) (l.length + 1) =
            if d o ((l ++ [c]).getD l.length 0) <
              d o ((l ++ [c]).getD (firstMin (fun m => d o ((l ++ [c]).getD m 0)) l.length) 0) then l.length
            else firstMin (fun m => d o ((l ++ [c]).getD m 0)) l.length := by
          unfold firstMin; rw [List.range_succ, List.foldl_append]; rfl
        rw [List.length_append, List.length_singleton, this, e0]
        have g1 : (l ++ [c]).getD l.length 0 = c := by simp
        have g2 : (l ++ [c]).getD (firstMin (fun m => d o (l.getD m 0)) l.length) 0 =
            l.getD (firstMin (fun m => d o (l.getD m 0)) l.length) 0 := by
          rw [List.getD_eq_getElem?_getD, List.getElem?_append_left hlt, ← List.getD_eq_getElem?_getD]
        rw [g1, g2]
      obtain ⟨hlt, -, -⟩ := firstMin_spec (fun m => d o (l.getD m 0)) hpos
      rw [e2, e1, ih hl ho']
      dsimp only
      split
      · simp
      · rw [List.getD_eq_getElem?_getD (l := l ++ [c]), List.getElem?_append_left hlt, ← List.getD_eq_getElem?_getD]

theorem nearRecP_label {n : Nat} {d : Nat → Nat → N} (hd : Dissim n d) {med : List Nat}
    (hv : ValidMeds n med) (hnd : med.Nodup) {o : Nat} (ho : o < n) :
    (nearRecP d med o).1 = nearLabel d med o := by
  have hne : med ≠ [] := by intro h; have := hv.sizes.pos; simp [h] at this
  unfold nearLabel
  split
  · rename_i hm
    have hi := initRecP_init hd ho med hne hv.range hnd (le_of_lt hv.sizes.k_lt)
    rw [nearRecP_eq]
    refine hi.nearest.2.2 _ ?_
    rw [List.getElem?_eq_getElem (List.idxOf_lt_length_iff.mpr hm)]
    simp
  · rename_i hm
    rw [nearRecP_first d o med hne hm]

theorem nearAssiP_nearLabel {n : Nat} {d : Nat → Nat → N} (hd : Dissim n d) {med : List Nat}
    (hv : ValidMeds n med) (hnd : med.Nodup) : nearAssiP d n med = (List.range n).map (nearLabel d med) :=
  List.map_congr_left fun _ ho => nearRecP_label hd hv hnd (List.mem_range.mp ho)

end dist

/-! ## The loop -/

section exact

variable {N L : Type} [LinearOrder N] [Zero N] [RDist N] [LawfulDist N]
variable [AddCommGroup L] [LinearOrder L] [IsOrderedAddMonoid L] [RLoss L] [LawfulLoss L]
variable [RFrom N L] [LawfulFrom N L]

theorem clusterSum_members (d : Nat → Nat → N) (n : Nat) (med : List Nat) (m c : Nat) :
    clusterSum (conv : N → L) d ((List.range n).map (nearLabel d med)) m c =
      sumTo (conv : N → L) d (membersOf d n med m) c := by
  unfold clusterSum sumTo membersOf
  rw [filter_sum, filter_sum]
  have h := sum_range_zipIdx ((List.range n).map (nearLabel d med))
    (fun o => if decide (nearLabel d med o = m) = true then (conv (d c o) : L) else 0)
  rw [List.length_map, List.length_range] at h
  rw [h]
  congr 1
  refine List.map_congr_left fun p hp => ?_
  have := mem_zipIdx_get hp
  obtain ⟨h1, h2⟩ := List.getElem?_eq_some_iff.mp this
  simp only [List.getElem_map, List.getElem_range] at h2
  rw [h2]

/-- The chosen medoid is the first among the best ones. -/
theorem chooseP_first {n : Nat} {d : Nat → Nat → N} (hd : Dissim n d) {assi : List Nat}
    (hl : assi.length = n) (m : Nat) {c : Nat} (hc : c < n) :
    (chooseP L d assi m c).1 ≠ c → ∀ x < (chooseP L d assi m c).1, assi[x]? = some m →
      (chooseP L d assi m c).2 < clusterSum (conv : N → L) d assi m x := by
  have hg : ∀ t ≤ n,
      let r := (assi.zipIdx.take t).foldl (fun (st : Nat × L) (p : Nat × Nat) =>
        if p.2 ≠ c ∧ p.1 = m then
          if rlt (partSumP L d assi m p.2) st.2 then (p.2, partSumP L d assi m p.2) else st
        else st) (c, partSumP L d assi m c)
      r.2 ≤ clusterSum (conv : N → L) d assi m c ∧
      (∀ x < t, assi[x]? = some m → r.2 ≤ clusterSum (conv : N → L) d assi m x) ∧
      (r.1 ≠ c → r.1 < t ∧ ∀ x < r.1, assi[x]? = some m → r.2 < clusterSum (conv : N → L) d assi m x) := by
    intro t
    induction t with
    | zero =>
      intro _
      exact ⟨le_of_eq (partSumP_eq hd m hc), fun x hx => absurd hx (by omega), by simp⟩
    | succ t ih =>
      intro ht
      obtain ⟨i0, i1, i2⟩ := ih (by omega)
      have htl : t < assi.zipIdx.length := by simp; omega
      rw [← List.take_concat_get' _ _ htl, List.foldl_append, List.foldl_cons, List.foldl_nil]
      have hp : assi.zipIdx[t] = (assi[t]'(by omega), t) := by simp
      rw [hp]
      dsimp only at i0 i1 i2 ⊢
      generalize (assi.zipIdx.take t).foldl (fun (st : Nat × L) (p : Nat × Nat) =>
        if p.2 ≠ c ∧ p.1 = m then
          if rlt (partSumP L d assi m p.2) st.2 then (p.2, partSumP L d assi m p.2) else st
        else st) (c, partSumP L d assi m c) = r at *
      have hget : assi[t]? = some (assi[t]'(by omega)) := List.getElem?_eq_getElem (by omega)
      simp only [partSumP_eq hd m (by omega : t < n), rltL, decide_eq_true_eq]
      have hall : ∀ v : L, v ≤ r.2 → (assi[t]? = some m → v ≤ clusterSum (conv : N → L) d assi m t) →
          ∀ x < t + 1, assi[x]? = some m → v ≤ clusterSum (conv : N → L) d assi m x := by
        intro v h1 h2 x hx hxm
        rcases Nat.lt_succ_iff_lt_or_eq.mp hx with h | rfl
        · exact le_trans h1 (i1 x h hxm)
        · exact h2 hxm
      split
      · split
        · rename_i hlt
          refine ⟨le_of_lt (lt_of_lt_of_le hlt i0), hall _ (le_of_lt hlt) (fun _ => le_refl _), fun _ =>
            ⟨by dsimp only; omega, fun x hx hxm => lt_of_lt_of_le hlt (i1 x hx hxm)⟩⟩
        · rename_i hlt
          exact ⟨i0, hall _ (le_refl _) (fun _ => not_lt.mp hlt), fun h => ⟨by have := (i2 h).1; omega, (i2 h).2⟩⟩
      · rename_i hn
        refine ⟨i0, hall _ (le_refl _) (fun hm => ?_), fun h => ⟨by have := (i2 h).1; omega, (i2 h).2⟩⟩
        have : t = c := by
          by_contra h'
          rw [hget] at hm
          exact hn ⟨h', Option.some.inj hm⟩
        rw [this]; exact i0
  have := hg n (le_refl _)
  rw [List.take_of_length_le (by simp [hl])] at this
  exact fun h => ((this.2.2) h).2

theorem filter_range_split (n : Nat) (p : Nat → Bool) {b : Nat} (hb : b < n) (hp : p b = true) :
    (List.range n).filter p = (List.range b).filter p ++ b :: (List.range' (b + 1) (n - b - 1)).filter p := by
  have e : List.range n = List.range b ++ b :: List.range' (b + 1) (n - b - 1) := by
    rw [List.range_eq_range', List.range_eq_range', show n = b + (1 + (n - b - 1)) by omega,
      ← List.range'_append, ← List.range'_append]
    simp
  rw [e, List.filter_append, List.filter_cons, if_pos hp]

theorem chooseP_best {n : Nat} {d : Nat → Nat → N} (hd : Dissim n d) {med : List Nat} (m : Nat) {c : Nat}
    (hc : c < n) : (chooseP L d ((List.range n).map (nearLabel d med)) m c).1 =
      bestMember (sumTo (conv : N → L) d (membersOf d n med m)) c (membersOf d n med m) := by
  have hl : ((List.range n).map (nearLabel d med)).length = n := by simp
  obtain ⟨h1, h2, h3, h4, h5⟩ := chooseP_spec (L := L) hd hl m hc
  have h6 := chooseP_first (L := L) hd hl m hc
  have h7 := chooseP_mem (L := L) d ((List.range n).map (nearLabel d med)) m c
  simp only [clusterSum_members] at h2 h3 h4 h5 h6
  generalize chooseP L d ((List.range n).map (nearLabel d med)) m c = r at *
  have hget : ∀ x, ((List.range n).map (nearLabel d med))[x]? = some m ↔ x < n ∧ nearLabel d med x = m := by
    intro x
    by_cases hx : x < n <;> simp [hx]
  simp only [hget] at h3 h6 h7
  have hmem : ∀ x, x ∈ membersOf d n med m ↔ x < n ∧ nearLabel d med x = m := by
    intro x; simp [membersOf]
  by_cases hrc : r.1 = c
  · rw [hrc]
    refine (bestMember_keep fun y hy => ?_).symm
    rw [← hrc, ← h2]
    exact h3 y ((hmem y).mp hy)
  · have hr := h7.resolve_left hrc
    have hs := filter_range_split n (fun o => decide (nearLabel d med o = m)) hr.1 (by simpa using hr.2)
    have hs' : membersOf d n med m = (List.range r.1).filter (fun o => decide (nearLabel d med o = m)) ++
        r.1 :: (List.range' (r.1 + 1) (n - r.1 - 1)).filter (fun o => decide (nearLabel d med o = m)) := hs
    have e : bestMember (sumTo (conv : N → L) d (membersOf d n med m)) c
        ((List.range r.1).filter (fun o => decide (nearLabel d med o = m)) ++
        r.1 :: (List.range' (r.1 + 1) (n - r.1 - 1)).filter (fun o => decide (nearLabel d med o = m))) = r.1 := by
      refine bestMember_first (fun y hy => ?_) (fun y hy => ?_) ?_
      · rw [← hs'] at hy
        rw [← h2]; exact h3 y ((hmem y).mp hy)
      · simp only [List.mem_filter, List.mem_range, decide_eq_true_eq] at hy
        rw [← h2]; exact h6 hrc y hy.1 ⟨by omega, hy.2⟩
      · rw [← h2]; exact h5 hrc
    rw [← hs'] at e
    exact e.symm

theorem altUpdateP_step {n : Nat} {d : Nat → Nat → N} (hd : Dissim n d) {med : List Nat}
    (hv : ValidMeds n med) (hnd : med.Nodup) :
    (altUpdateP L d (nearAssiP d n med) med).2 = altRound (conv : N → L) d n med ∧
    ((altUpdateP L d (nearAssiP d n med) med).1 = false ↔ altRound (conv : N → L) d n med = med) := by
  rw [nearAssiP_nearLabel hd hv hnd]
  have h2 : (altUpdateP L d ((List.range n).map (nearLabel d med)) med).2 = altRound (conv : N → L) d n med := by
    rw [altUpdateP_eq]
    dsimp only
    refine List.ext_getElem (by simp [altRound]) fun i hi hi' => ?_
    have him : i < med.length := by simpa using hi
    simp only [List.getElem_map, List.getElem_zipIdx, Nat.zero_add, altRound, List.getElem_range]
    rw [chooseP_best (L := L) hd i (hv.range _ (List.getElem_mem him))]
    simp [him]
  refine ⟨h2, fun h => by rw [← h2]; exact altUpdateP_unchanged h, fun h => ?_⟩
  rw [← h2] at h
  rw [altUpdateP_eq] at h ⊢
  dsimp only at h ⊢
  rw [List.any_eq_false]
  intro p hp
  simp only [bne_iff_ne, ne_eq, not_not]
  obtain ⟨hp1, hp2⟩ := List.getElem?_eq_some_iff.mp (mem_zipIdx_get hp)
  have := congrArg (fun l => l[p.2]?) h
  simp only [List.getElem?_map, List.getElem?_zipIdx, Nat.zero_add, mem_zipIdx_get hp, Option.map_some] at this
  simpa using this

theorem altRound_valid {n : Nat} {d : Nat → Nat → N} (hd : Dissim n d) {med : List Nat}
    (hv : ValidMeds n med) (hnd : med.Nodup) :
    ValidMeds n (altRound (conv : N → L) d n med) ∧ (altRound (conv : N → L) d n med).Nodup := by
  have ha := nearAssiP_ok hd hv hnd
  have h := (altUpdateP_step (L := L) hd hv hnd).1
  refine ⟨⟨by rw [altRound_length]; exact hv.sizes, ?_⟩, h ▸ altUpdateP_nodup (L := L) ha⟩
  rw [← h, altUpdateP_eq]
  intro x hx
  obtain ⟨p, hp, rfl⟩ := List.mem_map.mp hx
  exact (chooseP_spec (L := L) hd ha.length p.2 (hv.range _ (mem_zipIdx_mem hp))).1

theorem altLoopP_run {n : Nat} {d : Nat → Nat → N} (hd : Dissim n d) (fuel iter : Nat) {med : List Nat}
    (hv : ValidMeds n med) (hnd : med.Nodup) :
    let r := altLoopP d n fuel iter (nearAssiLossP L d n med) (nearAssiP d n med) med
    r.med = (altRun (conv : N → L) d n fuel med).1 ∧
      r.nIter = iter + (altRun (conv : N → L) d n fuel med).2 ∧
      r.assi = (List.range n).map (nearLabel d r.med) ∧
      r.loss = totalDev (conv : N → L) n d r.med := by
  induction fuel generalizing iter med with
  | zero => exact ⟨rfl, rfl, nearAssiP_nearLabel hd hv hnd, nearAssiLossP_eq hd hv hnd⟩
  | succ fuel ih =>
    obtain ⟨h1, h2⟩ := altUpdateP_step (L := L) hd hv hnd
    unfold altLoopP
    dsimp only
    by_cases h : altRound (conv : N → L) d n med = med
    · rw [h2.mpr h, altRun_same h, h1, h]
      refine ⟨rfl, ?_, nearAssiP_nearLabel hd hv hnd, nearAssiLossP_eq hd hv hnd⟩
      show iter + 1 = iter + min (fuel + 1) 1
      omega
    · have : (altUpdateP L d (nearAssiP d n med) med).1 = true := by
        by_contra h'
        exact h (h2.mp (by simpa using h'))
      rw [this, altRun_more h, h1]
      simp only [Bool.not_true, Bool.false_eq_true, if_false]
      obtain ⟨v1, v2⟩ := altRound_valid (L := L) hd hv hnd
      obtain ⟨i1, i2, i3, i4⟩ := ih (iter + 1) v1 v2
      exact ⟨i1, by rw [i2]; omega, i3, i4⟩

theorem altRun_valid {n : Nat} {d : Nat → Nat → N} (hd : Dissim n d) (fuel : Nat) {med : List Nat}
    (hv : ValidMeds n med) (hnd : med.Nodup) :
    ValidMeds n (altRun (conv : N → L) d n fuel med).1 ∧ (altRun (conv : N → L) d n fuel med).1.Nodup := by
  induction fuel generalizing med with
  | zero => exact ⟨hv, hnd⟩
  | succ fuel ih =>
    by_cases h : altRound (conv : N → L) d n med = med
    · rw [altRun_same h]; exact ⟨hv, hnd⟩
    · rw [altRun_more h]
      obtain ⟨v1, v2⟩ := altRound_valid (L := L) hd hv hnd
      exact ih v1 v2

end exact

end KMedoids
