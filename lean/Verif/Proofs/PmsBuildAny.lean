import Verif.Proofs.BuildAny
import Verif.Proofs.PmsBuild

/-! # BUILD of PAMMEDSIL for any arithmetic of the loss -/

set_option linter.unusedSectionVars false

namespace KMedoids

open RFrom (conv)

section level2
variable {N L : Type} [LinearOrder N] [Zero N] [RDist N] [LawfulDist N] [RLoss L] [RFrom N L]

/-- No candidate, or the best candidate with its own value. -/
theorem argmin1P_own (f : Nat → L) (n k : Nat) :
    argmin1P f n k = (RLoss.zero, k) ∨ (1 ≤ (argmin1P f n k).2 ∧ (argmin1P f n k).2 < n ∧
      (argmin1P f n k).1 = f (argmin1P f n k).2) := by
  refine foldl_inv (fun b : L × Nat => b = (RLoss.zero, k) ∨ 1 ≤ b.2 ∧ b.2 < n ∧ b.1 = f b.2) (fun b i hi hb => ?_)
    (.inl rfl)
  rw [drop_one_range, List.mem_range'_1] at hi
  split
  · right; exact ⟨hi.1, by dsimp only; omega, rfl⟩
  · exact hb

/-- Invariant of BUILD without laws for the loss. -/
structure MBuildOk (n : Nat) (d : Nat → Nat → N) (meds : List Nat) (data : List (Reco N)) (loss : L) : Prop where
  ne : meds ≠ []
  nodup : meds.Nodup
  range : ∀ m ∈ meds, m < n
  len : meds.length ≤ u32Max
  recs : data = mscInitDataP d n meds
  loss : 2 ≤ meds.length → loss = pmsBuildLoss L data

theorem MBuildOk.near {n : Nat} {d : Nat → Nat → N} (hd : Dissim n d) {meds : List Nat} {data : List (Reco N)} {loss : L}
    (h : MBuildOk n d meds data loss) : data.map (·.near.d) = (List.range n).map fun o => minDist d o meds := by
  rw [h.recs, mscInitDataP, List.map_map]
  exact List.map_congr_left fun o ho => nearRecP_minDist hd (List.mem_range.mp ho) h.ne h.range h.len

theorem pmsBuildLoopP_ok [SaneZero L] (hz : NegZero N L) {n k : Nat} {d : Nat → Nat → N} (hd : Dissim n d) (hk : k < u32Max)
    {cnt : Nat} {meds : List Nat} {data : List (Reco N)} {loss : L} (h : MBuildOk n d meds data loss)
    (hcnt : meds.length + cnt ≤ k) :
    let r := pmsBuildLoopP d n k (List.range' meds.length cnt) meds data loss
    MBuildOk n d r.1 r.2.1 r.2.2 ∧ (∃ ext, r.1 = meds ++ ext) ∧ r.1.length ≤ meds.length + cnt ∧
    (∀ l c, meds.length ≤ l → r.1[l]? = some c → 1 ≤ c ∧
      c = (argmin1P (buildSumP L d ((List.range n).map fun o => minDist d o (r.1.take l))) n k).2 ∧
      (argmin1P (buildSumP L d ((List.range n).map fun o => minDist d o (r.1.take l))) n k).1 =
        buildSumP L d ((List.range n).map fun o => minDist d o (r.1.take l)) c) ∧
    (r.1.length < meds.length + cnt →
      rge (argmin1P (buildSumP L d ((List.range n).map fun o => minDist d o r.1)) n k).1 RLoss.zero = true) := by
  induction cnt generalizing meds data loss with
  | zero =>
    refine ⟨h, ⟨[], by simp [pmsBuildLoopP]⟩, by simp [pmsBuildLoopP], fun l c hl hc => ?_, by simp [pmsBuildLoopP]⟩
    simp only [List.range'_zero, pmsBuildLoopP] at hc
    rw [List.getElem?_eq_none hl] at hc; cases hc
  | succ cnt ih =>
    have b := argmin1P_own (buildSumP L d (data.map (·.near.d))) n k
    rw [List.range'_succ]
    unfold pmsBuildLoopP
    rw [h.near hd] at b ⊢
    generalize hbest : argmin1P (buildSumP L d ((List.range n).map fun o => minDist d o meds)) n k = best at *
    dsimp only
    split
    · rename_i hge
      refine ⟨h, ⟨[], by simp⟩, by dsimp only; omega, fun l c hl hc => ?_, fun _ => by rw [hbest]; exact hge⟩
      rw [List.getElem?_eq_none hl] at hc; cases hc
    · rename_i hlt
      obtain ⟨b0, b1, b2⟩ : 1 ≤ best.2 ∧ best.2 < n ∧
          best.1 = buildSumP L d ((List.range n).map fun o => minDist d o meds) best.2 := by
        rcases b with e | b
        · exfalso; apply hlt; rw [e]; simp [rge, SaneZero.pcmp_zero]
        · exact b
      have hnm : best.2 ∉ meds := fun hm => by
        rw [b2, buildSumP_mem hd h.range hm] at hlt
        exact hlt hz
      have hnd : (meds ++ [best.2]).Nodup := by
        rw [List.nodup_append]
        exact ⟨h.nodup, by simp, fun a ha b hb => by
          rw [List.mem_singleton.mp hb]; rintro rfl; exact hnm ha⟩
      have hr : ∀ m ∈ meds ++ [best.2], m < n := by
        intro m hm
        rcases List.mem_append.mp hm with hm | hm
        · exact h.range m hm
        · rw [List.mem_singleton.mp hm]; exact b1
      have hdata : data.zipIdx.map (pmsBuildRecP d meds.length best.2) = mscInitDataP d n (meds ++ [best.2]) := by
        rw [h.recs, pmsBuildData_eq hd h.ne b1]
      rw [hdata]
      have hinv : MBuildOk n d (meds ++ [best.2]) (mscInitDataP d n (meds ++ [best.2]))
          (pmsBuildLoss L (mscInitDataP d n (meds ++ [best.2]))) :=
        ⟨by simp, hnd, hr, by simp; omega, rfl, fun _ => rfl⟩
      have := ih hinv (by simp; omega)
      simp only [List.length_append, List.length_singleton] at this
      obtain ⟨i1, ⟨ext, i2⟩, i3, i4, i5⟩ := this
      refine ⟨i1, ⟨best.2 :: ext, by rw [i2]; simp⟩, by omega, fun l c hl hc => ?_, fun hl => i5 (by omega)⟩
      by_cases e : l = meds.length
      · subst e
        rw [i2] at hc ⊢
        simp only [List.append_assoc, List.singleton_append, List.getElem?_append_right le_rfl, Nat.sub_self,
          List.getElem?_cons_zero, Option.some.injEq, List.take_left'] at hc ⊢
        subst hc
        rw [hbest]
        exact ⟨b0, rfl, b2⟩
      · exact i4 l c (by omega) hc

/-- BUILD of PAMMEDSIL. -/
theorem pmsBuildP_ok [SaneZero L] (hz : NegZero N L) {n k : Nat} {d : Nat → Nat → N} (hd : Dissim n d) (hs : Sizes n k) :
    MBuildOk n d (pmsBuildP L d n k).1 (pmsBuildP L d n k).2.1 (pmsBuildP L d n k).2.2 ∧
    (pmsBuildP L d n k).1.length ≤ k ∧
    (pmsBuildP L d n k).1[0]? = some (argminP (fun i => skipSum L n d [i] i) n k).2 ∧
    (∀ l c, 1 ≤ l → (pmsBuildP L d n k).1[l]? = some c → 1 ≤ c ∧
      c = (argmin1P (buildSumP L d ((List.range n).map fun o => minDist d o ((pmsBuildP L d n k).1.take l))) n k).2 ∧
      (argmin1P (buildSumP L d ((List.range n).map fun o => minDist d o ((pmsBuildP L d n k).1.take l))) n k).1 =
        buildSumP L d ((List.range n).map fun o => minDist d o ((pmsBuildP L d n k).1.take l)) c) ∧
    ((pmsBuildP L d n k).1.length < k →
      rge (argmin1P (buildSumP L d ((List.range n).map fun o => minDist d o (pmsBuildP L d n k).1)) n k).1
        RLoss.zero = true) := by
  have hn : 0 < n := by have := hs.pos; have := hs.le; omega
  have a1 := argminP_lt (buildFirstSumP L d n) k hn
  have hinv : MBuildOk n d [(argminP (buildFirstSumP L d n) n k).2]
      (pmsBuildInitP d n (argminP (buildFirstSumP L d n) n k).2) (argminP (buildFirstSumP L d n) n k).1 :=
    ⟨by simp, by simp, by simpa using a1, by simp [u32Max], rfl, by simp⟩
  obtain ⟨b1, ⟨ext, b2⟩, b3, b4, b5⟩ := pmsBuildLoopP_ok hz hd hs.k_lt (cnt := k - 1) hinv
    (by simp; have := hs.pos; omega)
  simp only [List.length_singleton] at b1 b2 b3 b4 b5
  have hk := hs.pos
  refine ⟨b1, by simp only [pmsBuildP]; omega, ?_, b4, fun h => b5 (by simp only [pmsBuildP] at h; omega)⟩
  simp only [pmsBuildP]
  rw [b2]
  have : buildFirstSumP L d n = fun i => skipSum L n d [i] i := funext fun i => buildFirstSumP_skip d n i
  rw [this]; rfl

/-- Adding a contribution to zero does not change it. -/
def ZeroAdd (N L : Type) [RDist N] [RLoss L] [RFrom N L] : Prop :=
  ∀ a b : N, RLoss.add RLoss.zero (mscLoss L a b) = mscLoss L a b

theorem pmsBuildLoss_sumP (hza : ZeroAdd N L) {data : List (Reco N)} (hne : data ≠ []) :
    pmsBuildLoss L data = mscLossP L data := by
  obtain ⟨r, t, rfl⟩ := List.exists_cons_of_ne_nil hne
  simp only [pmsBuildLoss, mscLossP, sumP, reduceAdd, List.map_cons, List.foldl_cons, Option.getD_some, hza _ _,
    List.foldl_map]

/-- PAMMEDSIL is BUILD followed by SWAP. -/
theorem pammedsilP_eq' [SaneZero L] (hz : NegZero N L) (hza : ZeroAdd N L) {n k : Nat} {d : Nat → Nat → N} (hd : Dissim n d)
    (hs : Sizes n k) (maxiter : Nat) :
    pammedsilP L d n k maxiter = pammedsilSwapP L d n (pmsBuildP L d n k).1 maxiter := by
  obtain ⟨h1, h4, -⟩ := pmsBuildP_ok (L := L) hz hd hs
  have hn : 0 < n := hs.pos.trans hs.le
  unfold pammedsilP pammedsilSwapP
  by_cases hl : (pmsBuildP L d n k).1.length = 1
  · obtain ⟨c, hc⟩ := List.length_eq_one_iff.mp hl
    rw [h1.recs, hc]; rfl
  · have hk : 2 ≤ (pmsBuildP L d n k).1.length := by
      have := List.length_pos_iff.mpr h1.ne; omega
    rw [h1.loss hk, h1.recs, pmsBuildLoss_sumP hza (by
      intro e; have := congrArg List.length e; simp [mscInitDataP] at this; omega)]
    rfl

end level2
end KMedoids
