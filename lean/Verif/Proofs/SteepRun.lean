import Verif.Props.C87
import Verif.Proofs.Eager

/-!
# The steepest search as a function

Textbook specification of PAM: try all exchanges in the order of the object numbers, then of the medoid
numbers, and take the first best one as long as it improves the objective. And of BUILD: add the first best
object as long as it improves the objective. Unlike `Steepest`, this is a function, so ties are decided.
-/

set_option linter.unusedSectionVars false

namespace KMedoids

open RFrom (conv)

section spec

variable {L : Type} [LinearOrder L]

/-- The first best of `med` and the lists in `l`. -/
def bestOf (T : List Nat → L) (l : List (List Nat)) (med : List Nat) : List Nat :=
  l.foldl (fun b c => if T c < T b then c else b) med

/-- All exchanges of a medoid for an object that is not a medoid. -/
def neighbours (n : Nat) (med : List Nat) : List (List Nat) :=
  (List.range n).flatMap fun j => if j ∈ med then [] else (List.range med.length).map fun m => med.set m j

/-- Steepest search with at most `fuel` iterations: the medoids, the number of iterations, and of exchanges. -/
def steepRun (T : List Nat → L) (n : Nat) : Nat → List Nat → List Nat × Nat × Nat
  | 0, med => (med, 0, 0)
  | fuel + 1, med =>
    let b := bestOf T (neighbours n med) med
    if T b < T med then
      let r := steepRun T n fuel b
      (r.1, r.2.1 + 1, r.2.2 + 1)
    else (med, 1, 0)

/-- Greedy extension by at most `cnt` objects, chosen from `lo, …, n - 1`. -/
def greedyFrom (T : List Nat → L) (lo n : Nat) : Nat → List Nat → List Nat
  | 0, med => med
  | cnt + 1, med =>
    let b := bestOf T ((List.range' lo (n - lo)).map fun x => med ++ [x]) med
    if T b < T med then greedyFrom T lo n cnt b else med

/-- The best single medoid, then greedy extension. -/
def greedyBuild (T : List Nat → L) (lo n k : Nat) : List Nat :=
  greedyFrom T lo n (k - 1) [firstMin (fun x => T [x]) n]

/-! ## Basic facts -/

theorem bestOf_none {T : List Nat → L} {l : List (List Nat)} {med : List Nat} (h : ∀ y ∈ l, T med ≤ T y) :
    bestOf T l med = med := by
  unfold bestOf
  induction l with
  | nil => rfl
  | cons y l ih =>
    rw [List.foldl_cons, if_neg (not_lt.mpr (h y (by simp)))]
    exact ih fun y hy => h y (by simp [hy])

theorem bestOf_mem (T : List Nat → L) (l : List (List Nat)) (med : List Nat) :
    bestOf T l med = med ∨ bestOf T l med ∈ l := by
  unfold bestOf
  induction l generalizing med with
  | nil => left; rfl
  | cons y l ih =>
    rw [List.foldl_cons]
    split
    · rcases ih y with h | h
      · right; rw [h]; simp
      · right; simp [h]
    · rcases ih med with h | h
      · left; exact h
      · right; simp [h]

theorem bestOf_append (T : List Nat → L) (l l' : List (List Nat)) (med : List Nat) :
    bestOf T (l ++ l') med = bestOf T l' (bestOf T l med) := by
  unfold bestOf; rw [List.foldl_append]

theorem bestOf_split {T : List Nat → L} {pre post : List (List Nat)} {x med : List Nat} (h0 : T x < T med)
    (h1 : ∀ y ∈ pre, T x < T y) (h2 : ∀ y ∈ post, T x ≤ T y) : bestOf T (pre ++ x :: post) med = x := by
  rw [bestOf_append]
  have hlt : T x < T (bestOf T pre med) := by
    rcases bestOf_mem T pre med with h | h
    · rw [h]; exact h0
    · exact h1 _ h
  generalize bestOf T pre med = z at hlt
  have : bestOf T (x :: post) z = bestOf T post x := by
    unfold bestOf; rw [List.foldl_cons, if_pos hlt]
  rw [this]
  exact bestOf_none h2

theorem range_split {n j : Nat} (h : j < n) :
    List.range n = List.range j ++ j :: (List.range (n - j - 1)).map (fun x => j + 1 + x) := by
  conv_lhs => rw [show n = (j + 1) + (n - j - 1) by omega, List.range_add, List.range_succ]
  simp

theorem mem_neighbours {n : Nat} {med y : List Nat} :
    y ∈ neighbours n med ↔ ∃ m x, m < med.length ∧ x < n ∧ x ∉ med ∧ y = med.set m x := by
  unfold neighbours
  rw [List.mem_flatMap]
  constructor
  · rintro ⟨x, hx, hy⟩
    by_cases h : x ∈ med
    · simp [h] at hy
    · rw [if_neg h] at hy
      obtain ⟨m, hm, rfl⟩ := List.mem_map.mp hy
      exact ⟨m, x, List.mem_range.mp hm, List.mem_range.mp hx, h, rfl⟩
  · rintro ⟨m, x, hm, hx, h, rfl⟩
    exact ⟨x, List.mem_range.mpr hx, by rw [if_neg h]; exact List.mem_map.mpr ⟨m, List.mem_range.mpr hm, rfl⟩⟩

theorem neighbours_none {T : List Nat → L} {n : Nat} {med : List Nat} (h : NoBetter T n med) :
    bestOf T (neighbours n med) med = med :=
  bestOf_none fun y hy => by
    obtain ⟨m, x, hm, hx, hxm, rfl⟩ := mem_neighbours.mp hy
    exact h m x hm hx hxm

/-- The first best exchange is found. -/
theorem neighbours_first {T : List Nat → L} {n : Nat} {med : List Nat} {b j : Nat} (hb : b < med.length) (hj : j < n)
    (hjm : j ∉ med) (lt : T (med.set b j) < T med)
    (best : ∀ b' j', b' < med.length → j' < n → j' ∉ med → T (med.set b j) ≤ T (med.set b' j'))
    (first : ∀ b' j', b' < med.length → j' ∉ med → (j' < j ∨ j' = j ∧ b' < b) →
      T (med.set b j) < T (med.set b' j')) :
    bestOf T (neighbours n med) med = med.set b j := by
  have hmem : ∀ y ∈ neighbours n med, T (med.set b j) ≤ T y := fun y hy => by
    obtain ⟨m, x, hm, hx, hxm, rfl⟩ := mem_neighbours.mp hy
    exact best m x hm hx hxm
  have e : neighbours n med = (neighbours j med ++ (List.range b).map fun m => med.set m j) ++ med.set b j ::
      ((List.range (med.length - b - 1)).map (fun x => med.set (b + 1 + x) j) ++
        ((List.range (n - j - 1)).map (fun x => j + 1 + x)).flatMap fun j =>
          if j ∈ med then [] else (List.range med.length).map fun m => med.set m j) := by
    unfold neighbours
    conv_lhs => rw [range_split hj, List.flatMap_append, List.flatMap_cons, if_neg hjm]
    conv_lhs => enter [2, 1]; rw [range_split hb]
    simp [List.map_append, List.append_assoc, Function.comp_def]
  rw [e] at hmem ⊢
  refine bestOf_split lt (fun y hy => ?_) fun y hy => hmem y (by simp [hy])
  rcases List.mem_append.mp hy with hy | hy
  · obtain ⟨m, x, hm, hx, hxm, rfl⟩ := mem_neighbours.mp hy
    exact first m x hm hxm (Or.inl hx)
  · obtain ⟨m, hm, rfl⟩ := List.mem_map.mp hy
    have hm := List.mem_range.mp hm
    exact first m j (by omega) hjm (Or.inr ⟨rfl, hm⟩)

theorem steepRun_done {T : List Nat → L} {n fuel : Nat} {med : List Nat}
    (h : ¬ T (bestOf T (neighbours n med) med) < T med) : steepRun T n (fuel + 1) med = (med, 1, 0) := by
  unfold steepRun; simp only [h, if_false]

theorem steepRun_more {T : List Nat → L} {n fuel : Nat} {med : List Nat}
    (h : T (bestOf T (neighbours n med) med) < T med) : steepRun T n (fuel + 1) med =
      ((steepRun T n fuel (bestOf T (neighbours n med) med)).1,
        (steepRun T n fuel (bestOf T (neighbours n med) med)).2.1 + 1,
        (steepRun T n fuel (bestOf T (neighbours n med) med)).2.2 + 1) := by
  conv_lhs => unfold steepRun
  simp only [h, if_true]

theorem steepRun_none {T : List Nat → L} {n fuel : Nat} {med : List Nat} (h : NoBetter T n med) :
    steepRun T n (fuel + 1) med = (med, 1, 0) :=
  steepRun_done (by rw [neighbours_none h]; exact lt_irrefl _)

/-- Stopping after `a` iterations and going on for `b` more is the same as `a + b` iterations. -/
theorem steepRun_add (T : List Nat → L) (n a b : Nat) (med : List Nat) :
    (steepRun T n (a + b) med).1 = (steepRun T n b (steepRun T n a med).1).1 ∧
    (steepRun T n (a + b) med).2.2 = (steepRun T n a med).2.2 + (steepRun T n b (steepRun T n a med).1).2.2 ∧
    ((steepRun T n (a + b) med).2.1 =
        (steepRun T n a med).2.1 + (steepRun T n b (steepRun T n a med).1).2.1 ∨
      (steepRun T n (a + b) med).2.1 = (steepRun T n a med).2.1 ∧
        (steepRun T n b (steepRun T n a med).1).2 = (min b 1, 0)) := by
  induction a generalizing med with
  | zero =>
    rw [Nat.zero_add]
    exact ⟨rfl, (Nat.zero_add _).symm, Or.inl (Nat.zero_add _).symm⟩
  | succ a ih =>
    have e : a + 1 + b = a + b + 1 := by omega
    rw [e]
    by_cases h0 : T (bestOf T (neighbours n med) med) < T med
    · rw [steepRun_more h0, steepRun_more h0]
      obtain ⟨i1, i2, i3⟩ := ih (bestOf T (neighbours n med) med)
      dsimp only
      refine ⟨i1, by omega, ?_⟩
      rcases i3 with i3 | ⟨i3, i4⟩
      · exact Or.inl (by omega)
      · exact Or.inr ⟨by omega, i4⟩
    · rw [steepRun_done h0, steepRun_done h0]
      cases b with
      | zero => exact ⟨rfl, rfl, Or.inl rfl⟩
      | succ b =>
        dsimp only
        rw [steepRun_done h0]
        have : min (b + 1) 1 = 1 := by omega
        rw [this]
        exact ⟨rfl, rfl, Or.inr ⟨rfl, rfl⟩⟩

/-- Objectives that order the medoid lists in the same way lead to the same search. -/
theorem bestOf_congr {M : Type} [LinearOrder M] {T : List Nat → L} {T' : List Nat → M}
    (hT : ∀ a b, T' a < T' b ↔ T a < T b) (l : List (List Nat)) (med : List Nat) :
    bestOf T' l med = bestOf T l med := by
  unfold bestOf; simp only [hT]

theorem steepRun_congr {M : Type} [LinearOrder M] {T : List Nat → L} {T' : List Nat → M}
    (hT : ∀ a b, T' a < T' b ↔ T a < T b) (n fuel : Nat) (med : List Nat) :
    steepRun T' n fuel med = steepRun T n fuel med := by
  induction fuel generalizing med with
  | zero => rfl
  | succ fuel ih => unfold steepRun; simp only [bestOf_congr hT, hT, ih]

/-- BUILD: the first best object is found. -/
theorem extend_split {T : List Nat → L} {med : List Nat} {xs pre post : List Nat} {c : Nat}
    (e : xs = pre ++ c :: post) (lt : T (med ++ [c]) < T med) (h1 : ∀ y ∈ pre, T (med ++ [c]) < T (med ++ [y]))
    (h2 : ∀ y ∈ xs, T (med ++ [c]) ≤ T (med ++ [y])) :
    bestOf T (xs.map fun x => med ++ [x]) med = med ++ [c] := by
  subst e
  rw [List.map_append, List.map_cons]
  refine bestOf_split lt (fun y hy => ?_) fun y hy => ?_
  · obtain ⟨x, hx, rfl⟩ := List.mem_map.mp hy
    exact h1 x hx
  · obtain ⟨x, hx, rfl⟩ := List.mem_map.mp hy
    exact h2 x (by simp [hx])

theorem extend_none {T : List Nat → L} {med : List Nat} {xs : List Nat} (h : ∀ y ∈ xs, T med ≤ T (med ++ [y])) :
    bestOf T (xs.map fun x => med ++ [x]) med = med :=
  bestOf_none fun y hy => by
    obtain ⟨x, hx, rfl⟩ := List.mem_map.mp hy
    exact h x hx

theorem greedyFrom_stop {T : List Nat → L} {lo n cnt : Nat} {med : List Nat}
    (h : ∀ x, lo ≤ x → x < n → T med ≤ T (med ++ [x])) : greedyFrom T lo n cnt med = med := by
  cases cnt with
  | zero => rfl
  | succ cnt =>
    unfold greedyFrom
    dsimp only
    rw [extend_none fun y hy => by rw [List.mem_range'_1] at hy; exact h y (by omega) (by omega),
      if_neg (lt_irrefl _)]

theorem greedyFrom_more {T : List Nat → L} {lo n cnt c : Nat} {med : List Nat} (h0 : lo ≤ c) (hc : c < n)
    (lt : T (med ++ [c]) < T med) (best : ∀ x, lo ≤ x → x < n → T (med ++ [c]) ≤ T (med ++ [x]))
    (first : ∀ x, lo ≤ x → x < c → T (med ++ [c]) < T (med ++ [x])) :
    greedyFrom T lo n (cnt + 1) med = greedyFrom T lo n cnt (med ++ [c]) := by
  have e : List.range' lo (n - lo) = List.range' lo (c - lo) ++ c :: List.range' (c + 1) (n - c - 1) := by
    have : c :: List.range' (c + 1) (n - c - 1) = List.range' c (n - c - 1 + 1) := by rw [List.range'_succ]
    rw [this]
    conv_lhs => rw [show n - lo = (c - lo) + (n - c - 1 + 1) by omega]
    rw [← List.range'_append]
    congr 2; omega
  have := extend_split (T := T) (med := med) e lt
    (fun y hy => by rw [List.mem_range'_1] at hy; exact first y (by omega) (by omega))
    (fun y hy => by rw [List.mem_range'_1] at hy; exact best y (by omega) (by omega))
  conv_lhs => unfold greedyFrom
  dsimp only
  rw [this, if_pos lt]

end spec

/-! ## PAM and FastPAM1 -/

section pam

variable {N L : Type} [LinearOrder N] [Zero N] [RDist N] [LawfulDist N]
variable [AddCommGroup L] [LinearOrder L] [IsOrderedAddMonoid L] [RLoss L] [LawfulLoss L]
variable [RFrom N L] [LawfulFrom N L]

/-- PAM's scan: earlier exchanges are worse than the one found. -/
theorem pamScanP_first {n : Nat} {d : Nat → Nat → N} (hd : Dissim n d) {med : List Nat}
    {data : List (Rec N)} (hc : CacheOk n d med data) :
    let best := pamScanP (L := L) d n med.length med data
    best.1 < 0 → ∀ m j, m < med.length → j ∉ med → (j < best.2.2 ∨ j = best.2.2 ∧ m < best.2.1) →
      best.1 < changeP L d data m j := by
  have hg : ∀ n' ≤ n,
      let best := (List.range n').foldl (scanStepP (pamFbsP L d med.length data) (ownP med data))
        ((RLoss.zero : L), med.length, usizeMax)
      best.1 ≤ 0 ∧ (∀ m j, m < med.length → j < n' → j ∉ med → best.1 ≤ changeP L d data m j) ∧
      (best.1 < 0 → best.2.2 < n' ∧
        ∀ m j, m < med.length → j ∉ med → (j < best.2.2 ∨ j = best.2.2 ∧ m < best.2.1) →
          best.1 < changeP L d data m j) := by
    intro n' hn'
    induction n' with
    | zero => simp [zeroL]
    | succ j ih =>
      obtain ⟨i1, i2, i3⟩ := ih (by omega)
      have hj : j < n := by omega
      rw [List.range_succ, List.foldl_append, List.foldl_cons, List.foldl_nil]
      generalize (List.range j).foldl (scanStepP (pamFbsP L d med.length data) (ownP med data))
        ((RLoss.zero : L), med.length, usizeMax) = best at *
      unfold scanStepP
      by_cases hown : ownP med data j = true
      · simp only [hown, if_true]
        refine ⟨i1, fun m x hm hx hxm => ?_, fun h => ⟨by have := (i3 h).1; omega, (i3 h).2⟩⟩
        rcases Nat.lt_succ_iff_lt_or_eq.mp hx with hx | rfl
        · exact i2 m x hm hx hxm
        · exact absurd ((ownP_iff hc hj).mp hown) hxm
      · obtain ⟨p1, p2, p3⟩ := pamFbsP_spec (L := L) hd hc hj
        have hown : ownP med data j = false := by simpa using hown
        simp only [hown, Bool.false_eq_true, if_false, rgeL]
        by_cases hle : best.1 ≤ (pamFbsP L d med.length data j).1
        · simp only [hle, decide_true, if_true]
          refine ⟨i1, fun m x hm hx hxm => ?_, fun h => ⟨by have := (i3 h).1; omega, (i3 h).2⟩⟩
          rcases Nat.lt_succ_iff_lt_or_eq.mp hx with hx | rfl
          · exact i2 m x hm hx hxm
          · exact le_trans hle (p2 m hm)
        · simp only [hle, decide_false, Bool.false_eq_true, if_false]
          have hlt := not_le.mp hle
          have hneg := lt_of_lt_of_le hlt i1
          refine ⟨le_of_lt hneg, fun m x hm hx hxm => ?_, fun _ => ⟨by omega, fun m x hm hxm hc => ?_⟩⟩
          · rcases Nat.lt_succ_iff_lt_or_eq.mp hx with hx | rfl
            · exact le_of_lt (lt_of_lt_of_le hlt (i2 m x hm hx hxm))
            · exact p2 m hm
          · rcases hc with hc | ⟨rfl, hc⟩
            · exact lt_of_lt_of_le hlt (i2 m x hm hc hxm)
            · exact (p3 hneg).2.2 m hc
  intro best hneg
  exact ((hg n (le_refl _)).2.2 hneg).2

/-- PAM is the steepest search. -/
theorem pLoopP_steep {n k : Nat} {d : Nat → Nat → N} (hd : Dissim n d) (fuel iter : Nat) {s : PState N L}
    (hs : PEx n k d s) :
    let r := pLoopP d (pamScanP d n k) fuel iter s
    let e := steepRun (totalDev (conv : N → L) n d) n fuel s.med
    r.1.med = e.1 ∧ r.2 = iter + e.2.1 ∧ r.1.nSwaps = s.nSwaps + e.2.2 := by
  induction fuel generalizing iter s with
  | zero => exact ⟨rfl, rfl, rfl⟩
  | succ fuel ih =>
    have hb := pamScanP_good (L := L) (k := k) hd s.med s.data hs.cache hs.medLen
    have hf := pamScanP_first (L := L) hd hs.cache
    rw [hs.medLen] at hf
    dsimp only at hf ⊢
    by_cases hneg : (pamScanP (L := L) d n k s.med s.data).1 < 0
    · obtain ⟨h1, h2, h3, h4⟩ := hb.attained hneg
      have hf := hf hneg
      have hbound := hb.bound
      generalize hbest : pamScanP (L := L) d n k s.med s.data = best at *
      have hc := swapDataP_ok hd hs.cache h1 h2 h3
      have hjm : best.2.2 ∈ s.med.set best.2.1 best.2.2 := List.mem_of_getElem? (i := best.2.1) (by simp [h1])
      have hl := swapSumP_eq (L := L) hd hc hjm
      rw [changeP_eq hs.cache h1] at h4
      have hlt : totalDev (conv : N → L) n d (s.med.set best.2.1 best.2.2) <
          totalDev (conv : N → L) n d s.med := by rw [h4] at hneg; exact sub_neg.mp hneg
      have e : bestOf (totalDev (conv : N → L) n d) (neighbours n s.med) s.med = s.med.set best.2.1 best.2.2 := by
        refine neighbours_first h1 h2 h3 hlt (fun m x hm hx hxm => ?_) fun m x hm hxm hcmp => ?_
        · have := hbound m x hm hx hxm
          rw [h4, changeP_eq hs.cache hm] at this
          exact (sub_le_sub_iff_right _).mp this
        · have := hf m x (hs.medLen ▸ hm) hxm hcmp
          rw [h4, changeP_eq hs.cache hm] at this
          exact (sub_lt_sub_iff_right _).mp this
      have h5 : rge (swapSumP L best.2.2 (swapDataP d s.med s.data best.2.1 best.2.2)) s.loss = false := by
        rw [rgeL, hl, hs.loss]; simpa using hlt
      have hstep : pLoopP d (pamScanP d n k) (fuel + 1) iter s = pLoopP d (pamScanP d n k) fuel (iter + 1)
          (pSwapP d s best.2.1 best.2.2 (swapSumP L best.2.2 (swapDataP d s.med s.data best.2.1 best.2.2))) := by
        conv_lhs => unfold pLoopP
        simp only [hbest, rltL, zeroL, hneg, decide_true, if_true, h5, Bool.false_eq_true, if_false]
      rw [steepRun_more (by rw [e]; exact hlt), hstep, e]
      obtain ⟨i1, i2, i3⟩ := ih (iter + 1) (s := pSwapP d s best.2.1 best.2.2
        (swapSumP L best.2.2 (swapDataP d s.med s.data best.2.1 best.2.2)))
        ⟨hc, by simp [pSwapP, hs.medLen], hl⟩
      have ec : (pSwapP d s best.2.1 best.2.2
        (swapSumP L best.2.2 (swapDataP d s.med s.data best.2.1 best.2.2))).med = s.med.set best.2.1 best.2.2 := rfl
      have ec' : (pSwapP d s best.2.1 best.2.2
        (swapSumP L best.2.2 (swapDataP d s.med s.data best.2.1 best.2.2))).nSwaps = s.nSwaps + 1 := rfl
      rw [ec] at i1 i2 i3
      rw [ec'] at i3
      refine ⟨i1, ?_, ?_⟩
      · rw [i2]; dsimp only; omega
      · rw [i3]; dsimp only; omega
    · have hno : NoBetter (totalDev (conv : N → L) n d) n s.med := fun m j hm hj hjm => by
        have := le_trans (not_lt.mp hneg) (hb.bound m j hm hj hjm)
        rw [changeP_eq hs.cache hm] at this
        exact sub_nonneg.mp this
      rw [steepRun_none hno]
      conv_lhs => unfold pLoopP
      unfold pLoopP
      simp only [rltL, zeroL, hneg, decide_false, Bool.false_eq_true, if_false, Nat.add_zero, and_self]

/-! ## BUILD -/

theorem argminP_firstMin (f : Nat → L) (n k : Nat) (hn : 0 < n) :
    argminP f n k = (f (firstMin f n), firstMin f n) := by
  have h2 : ∀ n, 0 < n → argminP f n k = (f (firstMin f n), firstMin f n) := by
    intro n
    induction n with
    | zero => intro h; omega
    | succ n ih =>
      intro _
      have e1 : firstMin f (n + 1) = if f n < f (firstMin f n) then n else firstMin f n := by
        unfold firstMin; rw [List.range_succ, List.foldl_append]; rfl
      have e2 : argminP f (n + 1) k = if n = 0 ∨ f n < (argminP f n k).1 then (f n, n)
          else argminP f n k := by
        unfold argminP
        rw [List.range_succ, List.foldl_append, List.foldl_cons, List.foldl_nil]
        simp only [rltL, Bool.or_eq_true, beq_iff_eq, decide_eq_true_eq]
      rw [e2, e1]
      by_cases h0 : n = 0
      · subst h0; simp [firstMin]
      · rw [ih (by omega)]
        simp only [h0, false_or]
        split <;> rfl
  exact h2 n hn

theorem buildLoopP_greedy {n k : Nat} {d : Nat → Nat → N} (hd : Dissim n d) (hk : k < u32Max) {cnt : Nat}
    {meds : List Nat} {data : List (Rec N)} {loss : L} (h : BuildInv n d meds data loss)
    (hcnt : meds.length + cnt ≤ k) :
    (buildLoopP d n k (List.range' meds.length cnt) meds data loss).1 =
      greedyFrom (totalDev (conv : N → L) n d) 0 n cnt meds := by
  induction cnt generalizing meds data loss with
  | zero => rfl
  | succ cnt ih =>
    have hn : 0 < n := by
      obtain ⟨m, hm⟩ := List.exists_mem_of_ne_nil _ h.ne
      have := h.range m hm; omega
    obtain ⟨b1, b2, b3⟩ := build_next (k := k) hd h
    have hfm := argminP_firstMin (buildSumP L d (data.map (·.near.d))) n k hn
    obtain ⟨-, -, hfirst⟩ := firstMin_spec (buildSumP L d (data.map (·.near.d))) hn
    rw [List.range'_succ]
    unfold buildLoopP
    have b4 : ∀ x < (argminP (buildSumP L d (data.map (·.near.d))) n k).2,
        (argminP (buildSumP L d (data.map (·.near.d))) n k).1 <
          totalDev (conv : N → L) n d (meds ++ [x]) - totalDev (conv : N → L) n d meds := by
      intro x hx
      rw [← buildSumP_eq hd h.ne h.range (by omega : x < n), ← h.near hd]
      rw [hfm] at hx ⊢
      exact hfirst x hx
    generalize argminP (buildSumP L d (data.map (·.near.d))) n k = best at b1 b2 b3 b4 ⊢
    simp only [rgeL, zeroL, decide_eq_true_eq]
    split
    · rename_i hge
      exact (greedyFrom_stop fun x _ hx => sub_nonneg.mp (le_trans hge (b3 x hx))).symm
    · rename_i hlt
      have hlt := not_le.mp hlt
      rw [b2] at hlt
      have hlt := sub_neg.mp hlt
      have hnm : best.2 ∉ meds := fun hm => by
        rw [totalDev_append_mem hm] at hlt; exact lt_irrefl _ hlt
      have hnd : (meds ++ [best.2]).Nodup := by
        rw [List.nodup_append]
        exact ⟨h.nodup, by simp, fun a ha b hb => by
          rw [List.mem_singleton.mp hb]; rintro rfl; exact hnm ha⟩
      have hr : ∀ m ∈ meds ++ [best.2], m < n := by
        intro m hm
        rcases List.mem_append.mp hm with hm | hm
        · exact h.range m hm
        · rw [List.mem_singleton.mp hm]; exact b1
      have hdata : data.zipIdx.map (buildRecP d meds.length best.2) = initDataP d n (meds ++ [best.2]) := by
        rw [h.data, buildData_eq hd h.ne b1]
      rw [hdata]
      have hinv : BuildInv n d (meds ++ [best.2]) (initDataP d n (meds ++ [best.2]))
          (buildLoss L best.2 (initDataP d n (meds ++ [best.2]))) :=
        ⟨by simp, hnd, hr, by simp; omega, rfl,
          buildLoss_eq hd (by simp) hnd hr (by simp; omega) (by simp)⟩
      have := ih hinv (by simp; omega)
      simp only [List.length_append, List.length_singleton] at this
      rw [this]
      refine (greedyFrom_more (Nat.zero_le _) b1 hlt (fun x _ hx => ?_) fun x _ hx => ?_).symm
      · have := b3 x hx
        rw [b2] at this
        exact (sub_le_sub_iff_right _).mp this
      · have := b4 x hx
        rw [b2] at this
        exact (sub_lt_sub_iff_right _).mp this

theorem buildP_greedy {n k : Nat} {d : Nat → Nat → N} (hd : Dissim n d) (hs : Sizes n k) :
    (buildP L d n k).1 = greedyBuild (totalDev (conv : N → L) n d) 0 n k := by
  have hn : 0 < n := by have := hs.pos; have := hs.le; omega
  obtain ⟨a1, a2, -⟩ := argminP_spec (buildFirstSumP L d n) k hn
  have hinv : BuildInv n d [(argminP (buildFirstSumP L d n) n k).2]
      (buildInitP d n (argminP (buildFirstSumP L d n) n k).2) (argminP (buildFirstSumP L d n) n k).1 :=
    ⟨by simp, by simp, by simpa using a1, by simp [u32Max], rfl, by rw [a2, buildFirstSumP_eq hd a1]⟩
  have := buildLoopP_greedy hd hs.k_lt (cnt := k - 1) hinv (by simp; have := hs.pos; omega)
  unfold buildP greedyBuild
  simp only [List.length_singleton] at this
  dsimp only
  rw [this, argminP_firstMin _ _ _ hn]
  congr 2
  refine firstMin_congr fun a b ha hb => ?_
  rw [buildFirstSumP_eq hd ha, buildFirstSumP_eq hd hb]

end pam

/-! ## PAMMEDSIL -/

section msc

variable {N L : Type} [LinearOrder N] [Zero N] [RDist N] [LawfulDist N]
variable [Field L] [LinearOrder L] [IsStrictOrderedRing L] [RLoss L] [LawfulField L]
variable [RFrom N L] [LawfulFrom N L]

theorem msLoop_steep {n k : Nat} {d : Nat → Nat → N} (hd : Dissim n d) (hk : 2 ≤ k) (hku : k < u32Max)
    (fuel iter : Nat) {s : MPState N L} (hs : MPEx n k d s) :
    let r := loopB (mpStepP d (pmsScanP d n k)) fuel iter s
    let e := steepRun (msT L n d) n fuel s.med
    r.1.med = e.1 ∧ r.2 = iter + e.2.1 ∧ r.1.nSwaps = s.nSwaps + e.2.2 := by
  induction fuel generalizing iter s with
  | zero => exact ⟨rfl, rfl, rfl⟩
  | succ fuel ih =>
    dsimp only
    rcases pmsStep_spec hd hk hku hs with ⟨h1, h2⟩ | ⟨b, j, s', h1, h2, h3, h4, h5⟩
    · have hno : NoBetter (msT L n d) n s.med := fun m x hm hx hxm => by
        rcases h2 x hx with h | h
        · exact absurd h hxm
        · exact h m hm
      rw [steepRun_none hno]
      unfold loopB
      rw [h1]
      exact ⟨rfl, rfl, rfl⟩
    · have e := neighbours_first h1.hb h1.hj h1.hjm h1.lt h1.best h1.first
      rw [steepRun_more (by rw [e]; exact h1.lt), e]
      unfold loopB
      rw [h5]
      obtain ⟨i1, i2, i3⟩ := ih (iter + 1) h4
      rw [h2] at i1 i2 i3
      refine ⟨i1, ?_, ?_⟩
      · show (loopB (mpStepP d (pmsScanP d n k)) fuel (iter + 1) s').2 = _
        rw [i2]; dsimp only; omega
      · show (loopB (mpStepP d (pmsScanP d n k)) fuel (iter + 1) s').1.nSwaps = _
        rw [i3]; dsimp only; omega

theorem argmin1P_first (f : Nat → L) (n k : Nat) :
    (argmin1P f n k).1 < 0 → ∀ x, 1 ≤ x → x < (argmin1P f n k).2 → (argmin1P f n k).1 < f x := by
  have hg : ∀ n, (argmin1P f (n + 1) k).1 ≤ 0 ∧ (∀ x, 1 ≤ x → x < n + 1 → (argmin1P f (n + 1) k).1 ≤ f x) ∧
      ((argmin1P f (n + 1) k).1 < 0 → (argmin1P f (n + 1) k).2 < n + 1 ∧
        ∀ x, 1 ≤ x → x < (argmin1P f (n + 1) k).2 → (argmin1P f (n + 1) k).1 < f x) := by
    intro n
    induction n with
    | zero => simp [argmin1P, zeroL]; intro x h1 h2; omega
    | succ n ih =>
      have e : argmin1P f (n + 1 + 1) k = if f (n + 1) < (argmin1P f (n + 1) k).1 then (f (n + 1), n + 1)
          else argmin1P f (n + 1) k := by
        unfold argmin1P
        rw [List.range_succ, List.drop_append_of_le_length (by simp), List.foldl_append, List.foldl_cons,
          List.foldl_nil]
        simp [rltL]
      obtain ⟨i1, i2, i3⟩ := ih
      rw [e]
      split
      · rename_i hlt
        have hneg := lt_of_lt_of_le hlt i1
        refine ⟨hneg.le, fun x h1 hx => ?_, fun _ => ⟨by dsimp only; omega, fun x h1 hx => ?_⟩⟩
        · rcases Nat.lt_succ_iff_lt_or_eq.mp hx with hx | rfl
          · exact le_trans hlt.le (i2 x h1 hx)
          · exact le_refl _
        · exact lt_of_lt_of_le hlt (i2 x h1 hx)
      · rename_i hlt
        refine ⟨i1, fun x h1 hx => ?_, fun h => ⟨by have := (i3 h).1; omega, (i3 h).2⟩⟩
        rcases Nat.lt_succ_iff_lt_or_eq.mp hx with hx | rfl
        · exact i2 x h1 hx
        · exact not_lt.mp hlt
  intro hneg
  cases n with
  | zero => simp [argmin1P, zeroL] at hneg
  | succ n => exact ((hg n).2.2 hneg).2

theorem pmsBuildLoopP_greedy {n k : Nat} {d : Nat → Nat → N} (hd : Dissim n d) (hk : k < u32Max) {cnt : Nat}
    {meds : List Nat} {data : List (Reco N)} {loss : L} (h : MBuildInv n d meds data loss)
    (hcnt : meds.length + cnt ≤ k) :
    (pmsBuildLoopP d n k (List.range' meds.length cnt) meds data loss).1 =
      greedyFrom (totalDev (conv : N → L) n d) 1 n cnt meds := by
  induction cnt generalizing meds data loss with
  | zero => rfl
  | succ cnt ih =>
    have hspec := argmin1P_spec (buildSumP L d (data.map (·.near.d))) n k
    have hfirst := argmin1P_first (buildSumP L d (data.map (·.near.d))) n k
    rw [h.near hd] at hspec hfirst
    have hsum : ∀ x, x < n → buildSumP L d ((List.range n).map fun o => minDist d o meds) x =
        totalDev (conv : N → L) n d (meds ++ [x]) - totalDev (conv : N → L) n d meds :=
      fun x hx => buildSumP_eq hd h.ne h.range hx
    rw [List.range'_succ]
    unfold pmsBuildLoopP
    rw [h.near hd]
    generalize argmin1P (buildSumP L d ((List.range n).map fun o => minDist d o meds)) n k = best at *
    dsimp only
    rcases hspec with ⟨rfl, hs⟩ | ⟨b0, b1, b2, b3, b4⟩
    · rw [if_pos (by rw [rgeL, zeroL]; simp)]
      refine (greedyFrom_stop fun x hx0 hx => ?_).symm
      exact sub_nonneg.mp (hsum x hx ▸ hs x hx0 hx)
    · rw [if_neg (by rw [rgeL, zeroL, decide_eq_true_eq]; exact not_le.mpr b3)]
      have hfirst := hfirst b3
      rw [b2, hsum _ b1] at b3
      have hlt := sub_neg.mp b3
      have hnm : best.2 ∉ meds := fun hm => by
        rw [totalDev_append_mem hm] at hlt; exact lt_irrefl _ hlt
      have hnd : (meds ++ [best.2]).Nodup := by
        rw [List.nodup_append]
        exact ⟨h.nodup, by simp, fun a ha b hb => by
          rw [List.mem_singleton.mp hb]; rintro rfl; exact hnm ha⟩
      have hr : ∀ m ∈ meds ++ [best.2], m < n := by
        intro m hm
        rcases List.mem_append.mp hm with hm | hm
        · exact h.range m hm
        · rw [List.mem_singleton.mp hm]; exact b1
      have hdata : data.zipIdx.map (pmsBuildRecP d meds.length best.2) = mscInitDataP d n (meds ++ [best.2]) := by
        rw [h.recs, pmsBuildData_eq hd h.ne b1]
      rw [hdata]
      have hg : Greedy1 (totalDev (conv : N → L) n d) n (meds ++ [best.2]) := by
        intro l c hl1 hl
        rw [getElem?_append_singleton] at hl
        split at hl
        · rename_i e; subst e; cases hl
          refine ⟨b0, fun x hx0 hx => ?_⟩
          have := b4 x hx0 hx
          rw [b2, hsum _ b1, hsum _ hx] at this
          simpa using (sub_le_sub_iff_right _).mp this
        · have hlt : l < meds.length := (List.getElem?_eq_some_iff.mp hl).1
          rw [List.take_append_of_le_length (le_of_lt hlt)]
          exact h.greedy l c hl1 hl
      have hinv : MBuildInv n d (meds ++ [best.2]) (mscInitDataP d n (meds ++ [best.2]))
          (pmsBuildLoss L (mscInitDataP d n (meds ++ [best.2]))) :=
        ⟨by simp, hnd, hr, by simp; omega, rfl, fun _ => pmsBuildLoss_eq _, hg⟩
      have := ih hinv (by simp; omega)
      simp only [List.length_append, List.length_singleton] at this
      rw [this]
      refine (greedyFrom_more b0 b1 hlt (fun x hx0 hx => ?_) fun x hx0 hx => ?_).symm
      · have := b4 x hx0 hx
        rw [b2, hsum _ b1, hsum _ hx] at this
        exact (sub_le_sub_iff_right _).mp this
      · have := hfirst x hx0 hx
        rw [b2, hsum _ b1, hsum _ (by omega)] at this
        exact (sub_lt_sub_iff_right _).mp this

theorem pmsBuildP_greedy {n k : Nat} {d : Nat → Nat → N} (hd : Dissim n d) (hs : Sizes n k) :
    (pmsBuildP L d n k).1 = greedyBuild (totalDev (conv : N → L) n d) 1 n k := by
  have hn : 0 < n := by have := hs.pos; have := hs.le; omega
  obtain ⟨a1, a2, -⟩ := argminP_spec (buildFirstSumP L d n) k hn
  have hinv : MBuildInv n d [(argminP (buildFirstSumP L d n) n k).2]
      (pmsBuildInitP d n (argminP (buildFirstSumP L d n) n k).2) (argminP (buildFirstSumP L d n) n k).1 :=
    ⟨by simp, by simp, by simpa using a1, by simp [u32Max], rfl, by simp, by
      intro l c hl1 hl
      rw [List.getElem?_eq_none (by simpa using hl1)] at hl; cases hl⟩
  have := pmsBuildLoopP_greedy hd hs.k_lt (cnt := k - 1) hinv (by simp; have := hs.pos; omega)
  unfold pmsBuildP greedyBuild
  simp only [List.length_singleton] at this
  dsimp only
  rw [this, argminP_firstMin _ _ _ hn]
  congr 2
  refine firstMin_congr fun a b ha hb => ?_
  rw [buildFirstSumP_eq hd ha, buildFirstSumP_eq hd hb]

end msc

end KMedoids
