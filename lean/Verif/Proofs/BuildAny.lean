import Verif.Proofs.Build
import Verif.Proofs.BitLoss

/-! # BUILD for any arithmetic of the loss -/

set_option linter.unusedSectionVars false

namespace KMedoids

open RFrom (conv)

variable {N L : Type} [LinearOrder N] [Zero N] [RDist N] [LawfulDist N] [RLoss L] [RFrom N L]

/-- The best candidate comes with its own value. -/
theorem argminP_value (f : Nat → L) {n : Nat} (k : Nat) (hn : 0 < n) :
    (argminP f n k).1 = f (argminP f n k).2 := by
  induction n with
  | zero => omega
  | succ n ih =>
    have hstep : argminP f (n + 1) k = if (n == 0 || rlt (f n) (argminP f n k).1) = true then (f n, n)
        else argminP f n k := by
      unfold argminP
      rw [List.range_succ, List.foldl_append, List.foldl_cons, List.foldl_nil]
    rw [hstep]
    split
    · rfl
    · rename_i h
      refine ih ?_
      by_contra h0
      exact h (by simp [show n = 0 by omega])

/-- The loss that BUILD reports: one object is left out. -/
def skipSum (L : Type) [RLoss L] [RFrom N L] (n : Nat) (d : Nat → Nat → N) (med : List Nat) (c : Nat) : L :=
  (List.range n).foldl (fun (loss : L) (o : Nat) =>
    if o = c then loss else RLoss.add loss (conv (minDist d o med))) RLoss.zero

theorem buildFirstSumP_skip (d : Nat → Nat → N) (n i : Nat) : buildFirstSumP L d n i = skipSum L n d [i] i := by
  unfold buildFirstSumP skipSum
  congr 1
  funext acc o
  by_cases h : o = i <;> simp [h, minDist]

/-- Invariant of BUILD without laws for the loss. -/
structure BuildOk (n : Nat) (d : Nat → Nat → N) (meds : List Nat) (data : List (Rec N)) (loss : L) : Prop where
  ne : meds ≠ []
  nodup : meds.Nodup
  range : ∀ m ∈ meds, m < n
  len : meds.length ≤ u32Max
  data : data = initDataP d n meds
  loss : ∃ c ∈ meds, loss = skipSum L n d meds c

theorem BuildOk.near {n : Nat} {d : Nat → Nat → N} (hd : Dissim n d) {meds : List Nat}
    {data : List (Rec N)} {loss : L} (h : BuildOk n d meds data loss) :
    data.map (·.near.d) = (List.range n).map fun o => minDist d o meds := by
  rw [h.data, initDataP, List.map_map]
  exact List.map_congr_left fun o ho =>
    initRecP_minDist hd (List.mem_range.mp ho) h.ne h.range h.nodup h.len

theorem buildLoss_skip {n : Nat} {d : Nat → Nat → N} (hd : Dissim n d) {meds : List Nat}
    (hne : meds ≠ []) (hnd : meds.Nodup) (hr : ∀ m ∈ meds, m < n) (hlen : meds.length ≤ u32Max) (c : Nat) :
    buildLoss L c (initDataP d n meds) = skipSum L n d meds c := by
  unfold buildLoss skipSum initDataP
  have hz : ∀ (f : Nat → Rec N), ((List.range n).map f).zipIdx = (List.range n).map fun o => (f o, o) := by
    intro f
    apply List.ext_getElem?
    intro o
    by_cases ho : o < n
    · simp [List.getElem?_zipIdx, List.getElem?_range ho]
    · rw [List.getElem?_eq_none (by simp; omega), List.getElem?_eq_none (by simp; omega)]
  rw [hz, List.foldl_map]
  refine List.foldl_ext _ _ _ fun acc o ho => ?_
  rw [initRecP_minDist hd (List.mem_range.mp ho) hne hr hnd hlen]

/-- A medoid is never a gain. -/
theorem buildSumP_mem {n : Nat} {d : Nat → Nat → N} (hd : Dissim n d) {meds : List Nat}
    (hr : ∀ m ∈ meds, m < n) {i : Nat} (hi : i ∈ meds) :
    buildSumP L d ((List.range n).map fun o => minDist d o meds) i = RLoss.neg (conv (0 : N)) := by
  have hin := hr i hi
  have hne : meds ≠ [] := List.ne_nil_of_mem hi
  have h0 : minDist d i meds = 0 := by
    rw [minDist_eq hi fun c' hc' => by rw [hd.diag i hin]; exact hd.nonneg i c' hin (hr c' hc'), hd.diag i hin]
  unfold buildSumP
  have hg : ((List.range n).map fun o => minDist d o meds).getD i RDist.zero = 0 := by
    rw [List.getD_eq_getElem?_getD]; simp [hin, h0]
  rw [hg]
  refine foldl_inv (fun s : L => s = RLoss.neg (conv (0 : N))) (fun s p hp hs => ?_) rfl
  obtain ⟨-, h2⟩ := mem_range_map_zipIdx hp
  have : ¬ d p.2 i < p.1 := by rw [h2]; exact not_lt.mpr ((minDist_spec d p.2 meds hne).2 i hi)
  simp [rltN, this, hs]

/-- The condition under which BUILD stops instead of adding a medoid twice. -/
def NegZero (N L : Type) [Zero N] [RLoss L] [RFrom N L] : Prop :=
  rge (RLoss.neg (conv (0 : N) : L)) RLoss.zero = true

theorem buildLoopP_ok (hz : NegZero N L) {n k : Nat} {d : Nat → Nat → N} (hd : Dissim n d) (hk : k < u32Max) {cnt : Nat}
    {meds : List Nat} {data : List (Rec N)} {loss : L} (h : BuildOk n d meds data loss)
    (hcnt : meds.length + cnt ≤ k) :
    let r := buildLoopP d n k (List.range' meds.length cnt) meds data loss
    BuildOk n d r.1 r.2.1 r.2.2 ∧ (∃ ext, r.1 = meds ++ ext) ∧ r.1.length ≤ meds.length + cnt ∧
    (∀ l c, meds.length ≤ l → r.1[l]? = some c →
      c = (argminP (buildSumP L d ((List.range n).map fun o => minDist d o (r.1.take l))) n k).2) ∧
    (r.1.length < meds.length + cnt →
      rge (argminP (buildSumP L d ((List.range n).map fun o => minDist d o r.1)) n k).1 RLoss.zero = true) := by
  induction cnt generalizing meds data loss with
  | zero =>
    refine ⟨h, ⟨[], by simp [buildLoopP]⟩, by simp [buildLoopP], fun l c hl hc => ?_, by simp [buildLoopP]⟩
    simp only [List.range'_zero, buildLoopP] at hc
    rw [List.getElem?_eq_none hl] at hc; cases hc
  | succ cnt ih =>
    have hn : 0 < n := by
      obtain ⟨m, hm⟩ := List.exists_mem_of_ne_nil _ h.ne
      have := h.range m hm; omega
    have b1 := argminP_lt (buildSumP L d (data.map (·.near.d))) k hn
    have b2 := argminP_value (buildSumP L d (data.map (·.near.d))) k hn
    rw [List.range'_succ]
    unfold buildLoopP
    rw [h.near hd] at b1 b2 ⊢
    generalize hbest : argminP (buildSumP L d ((List.range n).map fun o => minDist d o meds)) n k = best at *
    dsimp only
    split
    · rename_i hge
      refine ⟨h, ⟨[], by simp⟩, by dsimp only; omega, fun l c hl hc => ?_, fun _ => by rw [hbest]; exact hge⟩
      rw [List.getElem?_eq_none hl] at hc; cases hc
    · rename_i hlt
      have hnm : best.2 ∉ meds := fun hm => by
        rw [b2, buildSumP_mem hd h.range hm] at hlt
        exact hlt hz
      have hnd : (meds ++ [best.2]).Nodup := by
        rw [List.nodup_append]
        exact ⟨h.nodup, by simp, fun a ha b hb => by
          rw [List.mem_singleton.mp hb]; rintro rfl; exact hnm ha⟩
      have hr : ∀ m ∈ meds ++ [best.2], m < n := by
        intro m hm
        rcases List.mem_append.mp hm with hm | hm
        · exact h.range m hm
        · rw [List.mem_singleton.mp hm]; exact b1
      have hdata : data.zipIdx.map (buildRecP d meds.length best.2) = initDataP d n (meds ++ [best.2]) := by
        rw [h.data, buildData_eq hd h.ne b1]
      rw [hdata]
      have hinv : BuildOk n d (meds ++ [best.2]) (initDataP d n (meds ++ [best.2]))
          (buildLoss L best.2 (initDataP d n (meds ++ [best.2]))) :=
        ⟨by simp, hnd, hr, by simp; omega, rfl, best.2, by simp,
          buildLoss_skip hd (by simp) hnd hr (by simp; omega) _⟩
      have := ih hinv (by simp; omega)
      simp only [List.length_append, List.length_singleton] at this
      obtain ⟨i1, ⟨ext, i2⟩, i3, i4, i5⟩ := this
      refine ⟨i1, ⟨best.2 :: ext, by rw [i2]; simp⟩, by omega, fun l c hl hc => ?_, fun hl => i5 (by omega)⟩
      by_cases e : l = meds.length
      · subst e
        rw [i2] at hc ⊢
        simp only [List.append_assoc, List.singleton_append, List.getElem?_append_right le_rfl, Nat.sub_self,
          List.getElem?_cons_zero, Option.some.injEq, List.take_left'] at hc ⊢
        rw [hbest, hc]
      · exact i4 l c (by omega) hc

/-- BUILD. -/
theorem buildP_ok (hz : NegZero N L) {n k : Nat} {d : Nat → Nat → N} (hd : Dissim n d) (hs : Sizes n k) :
    BuildOk n d (buildP L d n k).1 (buildP L d n k).2.1 (buildP L d n k).2.2 ∧
    (buildP L d n k).1.length ≤ k ∧
    (buildP L d n k).1[0]? = some (argminP (fun i => skipSum L n d [i] i) n k).2 ∧
    (∀ l c, 1 ≤ l → (buildP L d n k).1[l]? = some c →
      c = (argminP (buildSumP L d ((List.range n).map fun o => minDist d o ((buildP L d n k).1.take l))) n k).2) ∧
    ((buildP L d n k).1.length < k →
      rge (argminP (buildSumP L d ((List.range n).map fun o => minDist d o (buildP L d n k).1)) n k).1
        RLoss.zero = true) := by
  have hn : 0 < n := by have := hs.pos; have := hs.le; omega
  have a1 := argminP_lt (buildFirstSumP L d n) k hn
  have a2 := argminP_value (buildFirstSumP L d n) k hn
  have hinv : BuildOk n d [(argminP (buildFirstSumP L d n) n k).2]
      (buildInitP d n (argminP (buildFirstSumP L d n) n k).2) (argminP (buildFirstSumP L d n) n k).1 :=
    ⟨by simp, by simp, by simpa using a1, by simp [u32Max], rfl, _, List.mem_singleton_self _,
      by rw [a2, buildFirstSumP_skip]⟩
  obtain ⟨b1, ⟨ext, b2⟩, b3, b4, b5⟩ := buildLoopP_ok hz hd hs.k_lt (cnt := k - 1) hinv
    (by simp; have := hs.pos; omega)
  simp only [List.length_singleton] at b1 b2 b3 b4 b5
  have hk := hs.pos
  refine ⟨b1, by simp only [buildP]; omega, ?_, b4, fun h => b5 (by simp only [buildP] at h; omega)⟩
  simp only [buildP]
  rw [b2]
  have : buildFirstSumP L d n = fun i => skipSum L n d [i] i := funext fun i => buildFirstSumP_skip d n i
  rw [this]; rfl

theorem buildP_valid' (hz : NegZero N L) {n k : Nat} {d : Nat → Nat → N} (hd : Dissim n d) (hs : Sizes n k) :
    ValidMeds n (buildP L d n k).1 ∧ (buildP L d n k).1.Nodup ∧
    (buildP L d n k).2.1 = initDataP d n (buildP L d n k).1 := by
  obtain ⟨h1, h2, -⟩ := buildP_ok hz hd hs
  refine ⟨⟨⟨?_, le_trans h2 hs.le, hs.n_le, lt_of_le_of_lt h2 hs.k_lt⟩, h1.range⟩, h1.nodup, h1.data⟩
  exact List.length_pos_iff.mpr h1.ne

end KMedoids
