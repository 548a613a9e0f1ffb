import Verif.Model.Repaired4
import Verif.Proofs.PmsBuild

/-! # PAMMEDSIL with object 0 considered in BUILD (`Model/Repaired4.lean`), for C122 -/

set_option linter.unusedSectionVars false

namespace KMedoids

open RFrom (conv)

section any
variable {N L : Type} [RDist N] [RLoss L] [RFrom N L]

/-- pure `fixPmsBuildLoop` -/
def fixPmsBuildLoopP (d : Nat → Nat → N) (n k : Nat) :
    List Nat → List Nat → List (Reco N) → L → List Nat × List (Reco N) × L
  | [], meds, data, loss => (meds, data, loss)
  | l :: ls, meds, data, loss =>
    let best := argminP (buildSumP L d (data.map (·.near.d))) n k
    if rge best.1 RLoss.zero then (meds, data, loss)
    else
      let data := data.zipIdx.map (pmsBuildRecP d l best.2)
      fixPmsBuildLoopP d n k ls (meds ++ [best.2]) data (pmsBuildLoss L data)

theorem fixPmsBuildLoop_eq {mat : Mat N} {n k : Nat} {d : Nat → Nat → N} (hm : IsMatrix mat n d)
    (hk : k < u32Max) (hn : 0 < n) {cnt : Nat} {meds : List Nat} {data : List (Reco N)} {loss : L}
    (hs : MBShape n meds data) (hcnt : meds.length + cnt ≤ k) :
    fixPmsBuildLoop mat k (List.range' meds.length cnt) meds data loss =
      .ok (fixPmsBuildLoopP d n k (List.range' meds.length cnt) meds data loss) ∧
    MBShape n (fixPmsBuildLoopP d n k (List.range' meds.length cnt) meds data loss).1
      (fixPmsBuildLoopP d n k (List.range' meds.length cnt) meds data loss).2.1 ∧
    (fixPmsBuildLoopP d n k (List.range' meds.length cnt) meds data loss).1.length ≤ meds.length + cnt := by
  induction cnt generalizing meds data loss with
  | zero => exact ⟨rfl, hs, by simp [fixPmsBuildLoopP]⟩
  | succ cnt ih =>
    have hmap : (data.map (·.near.d)).length = n := by simp [hs.dataLen]
    rw [List.range'_succ]
    unfold fixPmsBuildLoop fixPmsBuildLoopP
    simp only [buildNext_eq (L := L) hm hmap k, ok_bind]
    split
    · exact ⟨rfl, hs, by dsimp only; omega⟩
    · have hc := argminP_lt (buildSumP L d (data.map (·.near.d))) k hn
      rw [pmsBuildUpdate_eq hm hs.dataLen (by omega) hc]
      simp only [ok_bind]
      have := ih (loss := pmsBuildLoss L
        (data.zipIdx.map (pmsBuildRecP d meds.length
          (argminP (buildSumP L d (data.map (·.near.d))) n k).2)))
        (pmsBuildRecP_shape (d := d) hs hc) (by simp; omega)
      simp only [List.length_append, List.length_singleton] at this
      refine ⟨this.1, this.2.1, by omega⟩

/-- pure `pammedsilBuildFixed` -/
def fixPmsBuildP (L : Type) [RLoss L] [RFrom N L] (d : Nat → Nat → N) (n k : Nat) :
    List Nat × List (Reco N) × L :=
  let best := argminP (buildFirstSumP L d n) n k
  fixPmsBuildLoopP d n k (List.range' 1 (k - 1)) [best.2] (pmsBuildInitP d n best.2) best.1

theorem fixPmsBuild_eq {mat : Mat N} {n k : Nat} {d : Nat → Nat → N} (hm : IsMatrix mat n d)
    (hs : Sizes n k) :
    pammedsilBuildFixed L mat k = .ok (fixPmsBuildP L d n k) ∧
      MBShape n (fixPmsBuildP L d n k).1 (fixPmsBuildP L d n k).2.1 ∧ (fixPmsBuildP L d n k).1.length ≤ k := by
  have hn : 0 < n := by have := hs.pos; have := hs.le; omega
  have hc := argminP_lt (buildFirstSumP L d n) k hn
  have hmap : mapRes (fun j => do
      let x ← mat.get j (argminP (buildFirstSumP L d n) n k).2
      .ok (⟨⟨0, x⟩, ⟨u32Max, RDist.zero⟩, ⟨u32Max, RDist.zero⟩⟩ : Reco N)) (List.range n) =
      .ok (pmsBuildInitP d n (argminP (buildFirstSumP L d n) n k).2) :=
    mapRes_eq fun j hj => by simp only [hm.get j _ (List.mem_range.mp hj) hc, ok_bind]
  have h := fixPmsBuildLoop_eq (L := L) hm hs.k_lt hn (cnt := k - 1)
    (loss := (argminP (buildFirstSumP L d n) n k).1) (pmsBuildInitP_shape d hc)
    (by simp; have := hs.pos; omega)
  simp only [List.length_singleton] at h
  refine ⟨?_, h.2.1, ?_⟩
  · simp only [pammedsilBuildFixed, ok_bind, buildFirst_eq hm,
      hm.len, hmap, drop_one_range, h.1, fixPmsBuildP]
  · have := h.2.2; have := hs.pos; simp only [fixPmsBuildP]; omega

/-- The nearest medoid in a record does not depend on the rest of the record. -/
theorem pmsBuildRecP_near (d : Nat → Nat → N) (l c : Nat) {r : Reco N} {q : Rec N} (h : r.near = q.near) (o : Nat) :
    (pmsBuildRecP d l c (r, o)).near = (buildRecP d l c (q, o)).near := by
  unfold pmsBuildRecP buildRecP
  dsimp only
  rw [h]
  split
  · rfl
  · split
    · rfl
    · repeat' split
      all_goals first | rfl | exact h

theorem build_near_lockstep (d : Nat → Nat → N) (l c : Nat) {data : List (Reco N)} {data' : List (Rec N)}
    (h : data.map (·.near) = data'.map (·.near)) :
    (data.zipIdx.map (pmsBuildRecP d l c)).map (·.near) = (data'.zipIdx.map (buildRecP d l c)).map (·.near) := by
  apply List.ext_getElem?
  intro o
  have ho := congrArg (·[o]?) h
  simp only [List.getElem?_map, List.getElem?_zipIdx, Nat.zero_add] at ho ⊢
  cases h1 : data[o]? <;> cases h2 : data'[o]? <;> simp [h1, h2] at ho ⊢
  exact pmsBuildRecP_near d l c ho o

/-- The repaired BUILD of PAMMEDSIL goes through the medoids of the BUILD of PAM. -/
theorem fixPmsBuildLoopP_lockstep (d : Nat → Nat → N) (n k : Nat) (ls : List Nat) (meds : List Nat)
    {data : List (Reco N)} {data' : List (Rec N)} (loss loss' : L) (h : data.map (·.near) = data'.map (·.near)) :
    (fixPmsBuildLoopP d n k ls meds data loss).1 = (buildLoopP d n k ls meds data' loss').1 ∧
    (fixPmsBuildLoopP d n k ls meds data loss).2.1.map (·.near) =
      (buildLoopP d n k ls meds data' loss').2.1.map (·.near) := by
  induction ls generalizing meds data data' loss loss' with
  | nil => exact ⟨rfl, h⟩
  | cons l ls ih =>
    have hd : data.map (·.near.d) = data'.map (·.near.d) := by
      have := congrArg (List.map (·.d)) h
      simpa only [List.map_map, Function.comp_def] using this
    unfold fixPmsBuildLoopP buildLoopP
    dsimp only
    rw [hd]
    split
    · exact ⟨rfl, h⟩
    · exact ih _ _ _ (build_near_lockstep d l _ h)

theorem fixPmsBuildP_lockstep (d : Nat → Nat → N) (n k : Nat) :
    (fixPmsBuildP L d n k).1 = (buildP L d n k).1 ∧
    (fixPmsBuildP L d n k).2.1.map (·.near) = (buildP L d n k).2.1.map (·.near) := by
  refine fixPmsBuildLoopP_lockstep d n k _ _ _ _ ?_
  simp [pmsBuildInitP, buildInitP]

theorem fixPmsBuildP_valid {mat : Mat N} {n k : Nat} {d : Nat → Nat → N} (hm : IsMatrix mat n d)
    (hs : Sizes n k) : ValidMeds n (fixPmsBuildP L d n k).1 := by
  obtain ⟨-, h2, h3⟩ := fixPmsBuild_eq (L := L) hm hs
  exact ⟨⟨h2.pos, le_trans h3 hs.le, hs.n_le, lt_of_le_of_lt h3 hs.k_lt⟩, h2.medRange⟩

theorem pammedsilFixed_eq [SaneZero L] {mat : Mat N} {n k : Nat} {d : Nat → Nat → N} (hm : IsMatrix mat n d)
    (hs : Sizes n k) (maxiter : Nat) : pammedsilFixed L mat k maxiter =
      .ok (pmsOptP d n ⟨(fixPmsBuildP L d n k).1, (fixPmsBuildP L d n k).2.1, (fixPmsBuildP L d n k).2.2, 0⟩ maxiter) := by
  obtain ⟨h1, h2, h3⟩ := fixPmsBuild_eq (L := L) hm hs
  simp only [pammedsilFixed, assertSizes_ok hm hs, ok_bind, h1]
  exact pammedsilOptimize_eq hm (fixPmsBuildP_valid hm hs) h2.shape maxiter _

theorem fixPmsBuildLoopP_extends (d : Nat → Nat → N) (n k : Nat) (ls : List Nat) (meds : List Nat)
    (data : List (Reco N)) (loss : L) : ∃ ext, (fixPmsBuildLoopP d n k ls meds data loss).1 = meds ++ ext := by
  induction ls generalizing meds data loss with
  | nil => exact ⟨[], by simp [fixPmsBuildLoopP]⟩
  | cons l ls ih =>
    unfold fixPmsBuildLoopP
    dsimp only
    split
    · exact ⟨[], by simp⟩
    · obtain ⟨ext, h⟩ := ih (meds ++ [(argminP (buildSumP L d (data.map (·.near.d))) n k).2]) _
        (pmsBuildLoss L (data.zipIdx.map (pmsBuildRecP d l (argminP (buildSumP L d (data.map (·.near.d))) n k).2)))
      exact ⟨_, by rw [h, List.append_assoc]⟩

end any

section exact
variable {N L : Type} [LinearOrder N] [Zero N] [RDist N] [LawfulDist N]
variable [Field L] [LinearOrder L] [IsStrictOrderedRing L] [RLoss L] [LawfulField L]
variable [RFrom N L] [LawfulFrom N L]

/-- The records and the loss after the repaired BUILD. -/
theorem fixPmsBuildLoopP_data {n k : Nat} {d : Nat → Nat → N} (hd : Dissim n d) (hn : 0 < n) {cnt : Nat} {meds : List Nat}
    (hne : meds ≠ []) (loss : L) (hl : 2 ≤ meds.length → loss = mscLossP L (mscInitDataP d n meds)) :
    let r := fixPmsBuildLoopP d n k (List.range' meds.length cnt) meds (mscInitDataP d n meds) loss
    r.2.1 = mscInitDataP d n r.1 ∧ (2 ≤ r.1.length → r.2.2 = mscLossP L (mscInitDataP d n r.1)) := by
  induction cnt generalizing meds loss with
  | zero => exact ⟨rfl, hl⟩
  | succ cnt ih =>
    rw [List.range'_succ]
    unfold fixPmsBuildLoopP
    dsimp only
    split
    · exact ⟨rfl, hl⟩
    · have hc := argminP_lt (buildSumP L d ((mscInitDataP d n meds).map (·.near.d))) k hn
      rw [pmsBuildData_eq hd hne hc]
      have := ih (meds := meds ++ [(argminP (buildSumP L d ((mscInitDataP d n meds).map (·.near.d))) n k).2]) (by simp)
        _ (fun _ => pmsBuildLoss_eq (L := L) _)
      simpa only [List.length_append, List.length_singleton] using this

theorem fixPmsBuildP_data {n k : Nat} {d : Nat → Nat → N} (hd : Dissim n d) (hn : 0 < n) :
    (fixPmsBuildP L d n k).2.1 = mscInitDataP d n (fixPmsBuildP L d n k).1 ∧
    (2 ≤ (fixPmsBuildP L d n k).1.length →
      (fixPmsBuildP L d n k).2.2 = mscLossP L (mscInitDataP d n (fixPmsBuildP L d n k).1)) :=
  fixPmsBuildLoopP_data (k := k) hd hn (cnt := k - 1) (meds := [(argminP (buildFirstSumP L d n) n k).2]) (by simp) _
    (by simp)

/-- If object 0 is not a best choice, skipping it changes nothing. -/
theorem argmin1P_eq_argminP (f : Nat → L) {n : Nat} (k : Nat) (hn : 0 < n) (h0 : (argminP f n k).2 ≠ 0)
    (hneg : (argminP f n k).1 < 0) : argmin1P f n k = argminP f n k := by
  obtain ⟨m, rfl⟩ : ∃ m, n = m + 1 := ⟨n - 1, by omega⟩
  unfold argmin1P argminP at *
  rw [drop_one_range]
  rw [List.range_eq_range', List.range'_succ] at h0 hneg ⊢
  simp only [List.foldl_cons, Nat.add_sub_cancel, Nat.zero_add, beq_self_eq_true, Bool.true_or, if_true] at h0 hneg ⊢
  -- two searches over the same objects which start with different values
  have key : ∀ (xs : List Nat), (∀ x ∈ xs, x ≠ 0) → ∀ b c : L × Nat,
      (xs.foldl (fun (best : L × Nat) (i : Nat) => if i == 0 || rlt (f i) best.1 then (f i, i) else best) c).1 < b.1 →
      (xs.foldl (fun (best : L × Nat) (i : Nat) => if i == 0 || rlt (f i) best.1 then (f i, i) else best) c) ≠ c →
      xs.foldl (fun (best : L × Nat) (i : Nat) => if i == 0 || rlt (f i) best.1 then (f i, i) else best) b =
      xs.foldl (fun (best : L × Nat) (i : Nat) => if i == 0 || rlt (f i) best.1 then (f i, i) else best) c := by
    intro xs
    induction xs with
    | nil => intro _ b c _ h; exact absurd rfl h
    | cons x xs ih =>
      intro hx b c hb hc
      have hx0 : (x == 0) = false := by simpa using hx x (by simp)
      simp only [List.foldl_cons, hx0, Bool.false_or, rltL, decide_eq_true_eq] at hb hc ⊢
      have hx' : ∀ y ∈ xs, y ≠ 0 := fun y hy => hx y (by simp [hy])
      simp only [rltL] at ih
      by_cases h1 : f x < c.1
      · rw [if_pos h1] at hb hc ⊢
        by_cases h2 : f x < b.1
        · rw [if_pos h2]
        · rw [if_neg h2]
          refine ih hx' _ _ hb fun e => ?_
          rw [e] at hb
          exact h2 hb
      · rw [if_neg h1] at hb hc ⊢
        by_cases h2 : f x < b.1
        · rw [if_pos h2]
          refine ih hx' _ _ ?_ hc
          have hle : ∀ (ys : List Nat) (c : L × Nat), (∀ x ∈ ys, x ≠ 0) →
              (ys.foldl (fun (best : L × Nat) (i : Nat) =>
                if i == 0 || decide (f i < best.1) then (f i, i) else best) c) = c ∨
              (ys.foldl (fun (best : L × Nat) (i : Nat) =>
                if i == 0 || decide (f i < best.1) then (f i, i) else best) c).1 < c.1 := by
            intro ys
            induction ys with
            | nil => intro c _; exact .inl rfl
            | cons y ys ih =>
              intro c hy
              have hy0 : (y == 0) = false := by simpa using hy y (by simp)
              simp only [List.foldl_cons, hy0, Bool.false_or, decide_eq_true_eq]
              have hy' : ∀ x ∈ ys, x ≠ 0 := fun x hx => hy x (by simp [hx])
              by_cases h : f y < c.1
              · rw [if_pos h]
                rcases ih (f y, y) hy' with e | e
                · rw [e]; exact .inr h
                · exact .inr (lt_trans e h)
              · rw [if_neg h]; exact ih c hy'
          rcases hle xs c hx' with e | e
          · exact absurd e hc
          · exact lt_of_lt_of_le e (not_lt.mp h1)
        · rw [if_neg h2]
          exact ih hx' _ _ hb hc
  refine key _ (fun x hx => ?_) _ _ (by rw [zeroL]; exact hneg) (fun e => h0 (by rw [e]))
  rw [List.mem_range'_1] at hx; omega

/-- If object 0 is not taken as a further medoid, the repaired BUILD is that of the code. -/
theorem fixPmsBuildLoopP_same {n k : Nat} {d : Nat → Nat → N} (hn : 0 < n) (ls : List Nat) (meds : List Nat)
    (data : List (Reco N)) (loss : L) (hne : meds ≠ [])
    (h : 0 ∉ (fixPmsBuildLoopP d n k ls meds data loss).1.drop meds.length) :
    pmsBuildLoopP d n k ls meds data loss = fixPmsBuildLoopP d n k ls meds data loss := by
  induction ls generalizing meds data loss with
  | nil => rfl
  | cons l ls ih =>
    have hspec := argminP_spec (buildSumP L d (data.map (·.near.d))) k hn
    unfold fixPmsBuildLoopP at h
    unfold fixPmsBuildLoopP pmsBuildLoopP
    dsimp only at h ⊢
    by_cases hge : rge (argminP (buildSumP L d (data.map (·.near.d))) n k).1 RLoss.zero = true
    · rw [if_pos hge]
      rw [rgeL, zeroL, decide_eq_true_eq] at hge
      rcases argmin1P_spec (buildSumP L d (data.map (·.near.d))) n k with ⟨e, -⟩ | ⟨b0, b1, b2, b3, -⟩
      · rw [e, if_pos (by rw [rgeL, zeroL]; simp)]
      · exact absurd (le_trans hge (hspec.2.2 _ b1)) (not_le.mpr (b2 ▸ b3))
    · rw [if_neg hge] at h ⊢
      have hlt : (argminP (buildSumP L d (data.map (·.near.d))) n k).1 < 0 := by
        rw [rgeL, zeroL, decide_eq_true_eq] at hge; exact not_le.mp hge
      have h0 : (argminP (buildSumP L d (data.map (·.near.d))) n k).2 ≠ 0 := fun e => by
        obtain ⟨ext, hext⟩ := fixPmsBuildLoopP_extends d n k ls
          (meds ++ [(argminP (buildSumP L d (data.map (·.near.d))) n k).2])
          (data.zipIdx.map (pmsBuildRecP d l (argminP (buildSumP L d (data.map (·.near.d))) n k).2))
          (pmsBuildLoss L (data.zipIdx.map (pmsBuildRecP d l (argminP (buildSumP L d (data.map (·.near.d))) n k).2)))
        rw [hext, e] at h
        simp at h
      rw [argmin1P_eq_argminP _ k hn h0 hlt, if_neg hge]
      refine ih _ _ _ (by simp) fun h' => h ?_
      simp only [List.length_append, List.length_singleton] at h'
      rw [← List.drop_drop] at h'
      exact List.mem_of_mem_drop h'

end exact

end KMedoids
