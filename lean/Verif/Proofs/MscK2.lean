import Verif.Proofs.MscLoops
import Verif.Proofs.PureMsc2

/-! # Exact outcome of FasterMSC and FastMSC for k = 2 -/

set_option linter.unusedSectionVars false

namespace KMedoids

open RFrom (conv)

variable {N L : Type} [LinearOrder N] [Zero N] [RDist N] [LawfulDist N]
variable [Field L] [LinearOrder L] [IsStrictOrderedRing L] [RLoss L] [LawfulField L]
variable [RFrom N L] [LawfulFrom N L]

theorem reqN (a b : N) : req a b = decide (a = b) := by
  rw [Bool.eq_iff_iff]
  simp [req, LawfulDist.pcmp_eq]

theorem range_get {n i x : Nat} (h : (List.range n)[i]? = some x) : x = i ∧ i < n := by
  obtain ⟨h1, h2⟩ := List.getElem?_eq_some_iff.mp h
  simp only [List.length_range] at h1
  simp only [List.getElem_range] at h2
  exact ⟨h2.symm, h1⟩

/-! ## the objective for two medoids -/

/-- Smaller over larger distance. -/
def ratio2 (L : Type) [Field L] [RFrom N L] (a b : N) : L :=
  if a < b then conv a / conv b else conv b / conv a

theorem ratio2_comm (a b : N) : ratio2 L a b = ratio2 L b a := by
  unfold ratio2
  rcases lt_trichotomy a b with h | rfl | h
  · rw [if_pos h, if_neg (not_lt.mpr h.le)]
  · rfl
  · rw [if_neg (not_lt.mpr h.le), if_pos h]

theorem ratio2_of_le {a b : N} (h : a ≤ b) : ratio2 L a b = conv a / conv b := by
  unfold ratio2
  rcases lt_or_eq_of_le h with h | rfl
  · rw [if_pos h]
  · simp

theorem ratio2_zero {b : N} (h : 0 ≤ b) : ratio2 L (0 : N) b = 0 := by
  rw [ratio2_of_le h, conv_zero, zero_div]

theorem convLe {a b : N} (h : a ≤ b) : (conv a : L) ≤ conv b := LawfulFrom.strictMono.monotone h

theorem convNonneg {a : N} (h : 0 ≤ a) : (0 : L) ≤ conv a := by
  have := convLe (L := L) h
  rwa [conv_zero] at this

theorem convPos {a : N} (h : 0 < a) : (0 : L) < conv a := by
  have := LawfulFrom.strictMono (N := N) (L := L) h
  rwa [conv_zero] at this

theorem ratio2_le_one {a b : N} (ha : 0 ≤ a) (hb : 0 ≤ b) : ratio2 L a b ≤ 1 := by
  have key : ∀ a b : N, 0 ≤ a → a ≤ b → ratio2 L a b ≤ 1 := fun a b ha h => by
    rw [ratio2_of_le h]
    exact div_le_one_of_le₀ (convLe h) (convNonneg (le_trans ha h))
  rcases le_total a b with h | h
  · exact key a b ha h
  · rw [ratio2_comm]; exact key b a hb h

/-- Taking one medoid twice is never better. -/
theorem ratio2_dup {a b : N} (ha : 0 ≤ a) (hb : 0 ≤ b) : ratio2 L a b ≤ ratio2 L a a := by
  rcases lt_or_eq_of_le ha with h | rfl
  · have : ratio2 L a a = 1 := by
      rw [ratio2_of_le le_rfl, div_self (convPos h).ne']
    rw [this]; exact ratio2_le_one ha hb
  · rw [ratio2_zero hb, ratio2_zero le_rfl]

theorem msT_pair (n : Nat) (d : Nat → Nat → N) (m0 m1 : Nat) :
    msT L n d [m0, m1] = ((List.range n).map fun o => ratio2 L (d o m0) (d o m1)).sum := by
  unfold msT
  congr 1
  refine List.map_congr_left fun o _ => ?_
  rcases le_total (d o m0) (d o m1) with h | h
  · have : TwoMin ([m0, m1].map (d o)) (d o m0) (d o m1) := ⟨[], List.Perm.refl _, h, by simp⟩
    rw [ratio_of_twoMin this, ratio2_of_le h]
  · have : TwoMin ([m0, m1].map (d o)) (d o m1) (d o m0) := ⟨[], List.Perm.swap _ _ _, h, by simp⟩
    rw [ratio_of_twoMin this, ratio2_comm, ratio2_of_le h]

/-- Replacing one of two medoids by the other one or itself is never better. -/
theorem msT_mem_le {n : Nat} {d : Nat → Nat → N} (hd : Dissim n d) {m0 m1 : Nat} (h0 : m0 < n) (h1 : m1 < n)
    {b j : Nat} (hb : b < 2) (hj : j ∈ [m0, m1]) : msT L n d [m0, m1] ≤ msT L n d ([m0, m1].set b j) := by
  have key : ∀ x y, x < n → y < n → msT L n d [x, y] ≤ msT L n d [x, x] := by
    intro x y hx hy
    rw [msT_pair, msT_pair]
    refine List.sum_le_sum fun o ho => ?_
    have ho := List.mem_range.mp ho
    exact ratio2_dup (hd.nonneg o x ho hx) (hd.nonneg o y ho hy)
  have comm : ∀ x y, msT L n d [x, y] = msT L n d [y, x] := by
    intro x y
    rw [msT_pair, msT_pair]
    congr 1
    exact List.map_congr_left fun o _ => ratio2_comm _ _
  have hb : b = 0 ∨ b = 1 := by omega
  rcases hb with rfl | rfl
  · rcases List.mem_pair.mp hj with rfl | rfl
    · exact le_rfl
    · rw [comm]; exact key _ _ h1 h0
  · rcases List.mem_pair.mp hj with rfl | rfl
    · exact key _ _ h0 h1
    · exact le_rfl

/-! ## state -/

/-- Exact invariant of the k = 2 functions. -/
structure K2Ok (n : Nat) (d : Nat → Nat → N) (m0 m1 : Nat) (s : K2State N L) : Prop where
  med : s.med = [m0, m1]
  r0 : m0 < n
  r1 : m1 < n
  ne : m0 ≠ m1
  data : s.data = (List.range n).map fun o => (d o m0, d o m1)
  assiLen : s.assi.length = n
  nearest : ∀ o m : Nat, s.assi[o]? = some m → IsNearest d [m0, m1] o m
  loss : s.loss = msT L n d [m0, m1]

theorem isNearest_pair0 {d : Nat → Nat → N} {m0 m1 o : Nat} (h : d o m0 ≤ d o m1) :
    IsNearest d [m0, m1] o 0 := ⟨m0, rfl, by simp [h]⟩

theorem isNearest_pair1 {d : Nat → Nat → N} {m0 m1 o : Nat} (h : d o m1 ≤ d o m0) :
    IsNearest d [m0, m1] o 1 := ⟨m1, rfl, by simp [h]⟩

theorem IsNearest.lt {d : Nat → Nat → N} {med : List Nat} {o m : Nat} (h : IsNearest d med o m) :
    m < med.length := by
  obtain ⟨c, h, -⟩ := h
  exact (List.getElem?_eq_some_iff.mp h).1

theorem K2Ok.shape {n : Nat} {d : Nat → Nat → N} {m0 m1 : Nat} {s : K2State N L} (h : K2Ok n d m0 m1 s) :
    K2Shape n s := by
  refine ⟨by simp [h.med], by simp [h.med, h.r0, h.r1], h.assiLen, fun a ha => ?_, by simp [h.data]⟩
  obtain ⟨i, hi, e⟩ := List.mem_iff_getElem.mp ha
  exact (h.nearest i a (by rw [List.getElem?_eq_getElem hi, e])).lt

theorem k2InitP_ok {n : Nat} (d : Nat → Nat → N) {m0 m1 : Nat} (h0 : m0 < n) (h1 : m1 < n) (hne : m0 ≠ m1)
    (last : Nat) : K2Ok n d m0 m1 (k2InitP L d n m0 m1 last) := by
  refine ⟨rfl, h0, h1, hne, ?_, by simp [k2InitP], fun o m hm => ?_, ?_⟩
  · simp only [k2InitP, List.map_map]
    refine List.map_congr_left fun o _ => ?_
    simp only [Function.comp, k2InitRecP]
    split <;> rfl
  · simp only [k2InitP, List.map_map, List.getElem?_map, Option.map_eq_some_iff] at hm
    obtain ⟨o', ho', rfl⟩ := hm
    obtain ⟨rfl, -⟩ := range_get ho'
    simp only [Function.comp, k2InitRecP, rltN, decide_eq_true_eq]
    split
    · rename_i h; exact isNearest_pair0 h.le
    · rename_i h; exact isNearest_pair1 (not_lt.mp h)
  · simp only [k2InitP, sumP_eq, List.map_map, msT_pair]
    congr 1
    refine List.map_congr_left fun o _ => ?_
    simp only [Function.comp, k2InitRecP, rltN, decide_eq_true_eq, ratio2]
    split
    · exact mscLoss_eq _ _
    · exact mscLoss_eq _ _

/-! ## the candidate evaluation -/

theorem zipIdx_map_range {α : Type} (n : Nat) (f : Nat → α) :
    ((List.range n).map f).zipIdx = (List.range n).map fun o => (f o, o) := by
  apply List.ext_getElem?
  intro i
  simp only [List.getElem?_zipIdx, List.getElem?_map, Option.map_map, Nat.zero_add]
  cases h : (List.range n)[i]? with
  | none => rfl
  | some x => obtain ⟨rfl, -⟩ := range_get h; rfl

theorem k2Fbs_sums (n : Nat) (d : Nat → Nat → N) (m0 m1 j : Nat) :
    ((List.range n).map fun o => (d o m0, d o m1)).zipIdx.foldl (k2FindStepP d j)
      ((RLoss.zero : L), (RLoss.zero : L)) = (msT L n d [j, m1], msT L n d [m0, j]) := by
  rw [zipIdx_map_range]
  have hg : ∀ (xs : List Nat) (a b : L),
      (xs.map fun o => ((d o m0, d o m1), o)).foldl (k2FindStepP d j) (a, b) =
        (a + (xs.map fun o => ratio2 L (d o j) (d o m1)).sum,
         b + (xs.map fun o => ratio2 L (d o m0) (d o j)).sum) := by
    intro xs
    induction xs with
    | nil => intro a b; simp
    | cons x xs ih =>
      intro a b
      simp only [List.map_cons, List.foldl_cons, List.sum_cons]
      have : k2FindStepP d j (a, b) ((d x m0, d x m1), x) =
          (a + ratio2 L (d x j) (d x m1), b + ratio2 L (d x m0) (d x j)) := by
        rw [ratio2_comm (d x m0)]
        simp only [k2FindStepP, addL, rltN, decide_eq_true_eq, mscLoss_eq, ratio2]
      rw [this, ih, add_assoc, add_assoc]
  rw [hg, ← msT_pair, ← msT_pair, zeroL, zero_add, zero_add]

theorem k2FbsP_spec {n : Nat} {d : Nat → Nat → N} {m0 m1 : Nat} {s : K2State N L} (h : K2Ok n d m0 m1 s)
    (j : Nat) :
    (k2FbsP L d s.data j).1 = msT L n d ([m0, m1].set (k2FbsP L d s.data j).2 j) ∧
    (∀ m, m < 2 → (k2FbsP L d s.data j).1 ≤ msT L n d ([m0, m1].set m j)) ∧
    ∀ m, m < (k2FbsP L d s.data j).2 → (k2FbsP L d s.data j).1 < msT L n d ([m0, m1].set m j) := by
  have hlt := k2FbsP_lt (L := L) d s.data j
  unfold k2FbsP at hlt ⊢
  rw [h.data, k2Fbs_sums] at hlt ⊢
  obtain ⟨f1, f2, f3⟩ := findMinP_spec (l := [msT L n d [j, m1], msT L n d [m0, j]]) (List.cons_ne_nil _ _)
  have hget : ∀ m, m < 2 → [msT L n d [j, m1], msT L n d [m0, j]].getD m 0 = msT L n d ([m0, m1].set m j) := by
    intro m hm
    have : m = 0 ∨ m = 1 := by omega
    rcases this with rfl | rfl <;> rfl
  dsimp only at hlt ⊢
  refine ⟨by rw [f1, hget _ hlt], fun m hm => ?_, fun m hm => ?_⟩
  · have := f2 m hm; rwa [hget m hm] at this
  · have := f3 m hm; rwa [hget m (by omega)] at this

theorem k2OwnP_mem {med assi : List Nat} {j : Nat} (h : k2OwnP med assi j = true) : j ∈ med := by
  unfold k2OwnP at h
  split at h
  · exact List.mem_of_getElem? (beq_iff_eq.mp h)
  · cases h

/-! ## the exchange -/

/-- The medoids after an exchange. -/
def k2M0 (b j m0 : Nat) : Nat := if b = 0 then j else m0
def k2M1 (b j m1 : Nat) : Nat := if b = 0 then m1 else j

theorem k2_set {b j m0 m1 : Nat} (hb : b < 2) : [m0, m1].set b j = [k2M0 b j m0, k2M1 b j m1] := by
  have : b = 0 ∨ b = 1 := by omega
  rcases this with rfl | rfl <;> rfl

theorem k2SwapP_ok {n : Nat} {d : Nat → Nat → N} (hd : Dissim n d) {m0 m1 : Nat} {s : K2State N L}
    (h : K2Ok n d m0 m1 s) {b j : Nat} (hb : b < 2) (hj : j < n) (hjm : j ∉ s.med) (last : Nat) :
    K2Ok n d (k2M0 b j m0) (k2M1 b j m1) (k2SwapP d s b j last) := by
  have hb2 : b = 0 ∨ b = 1 := by omega
  rw [h.med] at hjm
  have hj0 : j ≠ m0 := fun e => hjm (by simp [e])
  have hj1 : j ≠ m1 := fun e => hjm (by simp [e])
  have hrec : ∀ o a, o < n → let r := k2SwapRecP L d b j ((a, (d o m0, d o m1)), o)
      r.2.1 = (d o (k2M0 b j m0), d o (k2M1 b j m1)) ∧
      r.2.2 = ratio2 L (d o (k2M0 b j m0)) (d o (k2M1 b j m1)) ∧
      IsNearest d [k2M0 b j m0, k2M1 b j m1] o r.1 := by
    intro o a ho
    have hdj := hd.diag j hj
    have g0 := hd.nonneg o m0 ho h.r0
    have g1 := hd.nonneg o m1 ho h.r1
    rcases hb2 with rfl | rfl
    · simp only [k2SwapRecP, k2M0, k2M1, if_true]
      by_cases hoj : o = j
      · subst hoj
        simp only [if_true, hdj, zeroN, zeroL, ratio2_zero g1]
        exact ⟨trivial, trivial, isNearest_pair0 (by rw [hdj]; exact g1)⟩
      · simp only [hoj, if_false, rltN, reqN, Bool.or_eq_true, decide_eq_true_eq, Bool.and_eq_true, beq_iff_eq]
        split
        · rename_i hc
          have hle : d o j ≤ d o m1 := by
            rcases hc with hc | hc
            · exact hc.le
            · exact hc.1.le
          exact ⟨rfl, by rw [mscLoss_eq, ratio2_of_le hle], isNearest_pair0 hle⟩
        · rename_i hc
          have hle : d o m1 ≤ d o j := not_lt.mp fun h => hc (Or.inl h)
          exact ⟨rfl, by rw [mscLoss_eq, ratio2_comm, ratio2_of_le hle], isNearest_pair1 hle⟩
    · simp only [k2SwapRecP, k2M0, k2M1, if_false, Nat.one_ne_zero]
      by_cases hoj : o = j
      · subst hoj
        rw [ratio2_comm]
        simp only [if_true, hdj, zeroN, zeroL, ratio2_zero g0]
        exact ⟨trivial, trivial, isNearest_pair1 (by rw [hdj]; exact g0)⟩
      · simp only [hoj, if_false, rltN, reqN, Bool.or_eq_true, decide_eq_true_eq, Bool.and_eq_true, beq_iff_eq]
        split
        · rename_i hc
          have hle : d o j ≤ d o m0 := by
            rcases hc with hc | hc
            · exact hc.le
            · exact hc.1.le
          exact ⟨rfl, by rw [mscLoss_eq, ratio2_comm, ratio2_of_le hle], isNearest_pair1 hle⟩
        · rename_i hc
          have hle : d o m0 ≤ d o j := not_lt.mp fun h => hc (Or.inl h)
          exact ⟨rfl, by rw [mscLoss_eq, ratio2_of_le hle], isNearest_pair0 hle⟩
  have hzip : (s.assi.zip s.data).zipIdx =
      (List.range n).map fun o => ((s.assi.getD o 0, (d o m0, d o m1)), o) := by
    rw [← zipIdx_map_range n (fun o => (s.assi.getD o 0, (d o m0, d o m1)))]
    congr 1
    rw [h.data]
    apply List.ext_getElem?
    intro i
    by_cases hi : i < n
    · rw [List.getElem?_eq_getElem (by simp [h.assiLen, hi]), List.getElem?_eq_getElem (by simp [hi])]
      simp [h.assiLen, hi]
    · rw [List.getElem?_eq_none (by simp [h.assiLen]; omega), List.getElem?_eq_none (by simp; omega)]
  refine ⟨?_, ?_, ?_, ?_, ?_, ?_, fun o m hm => ?_, ?_⟩
  · rw [← k2_set hb, ← h.med]; rfl
  · unfold k2M0; split
    · exact hj
    · exact h.r0
  · unfold k2M1; split
    · exact h.r1
    · exact hj
  · unfold k2M0 k2M1
    split
    · exact hj1
    · exact hj0.symm
  · simp only [k2SwapP, hzip, List.map_map]
    refine List.map_congr_left fun o ho => ?_
    exact (hrec o _ (List.mem_range.mp ho)).1
  · simp [k2SwapP, hzip]
  · simp only [k2SwapP, hzip, List.map_map, List.getElem?_map, Option.map_eq_some_iff] at hm
    obtain ⟨o', ho', rfl⟩ := hm
    obtain ⟨rfl, ho⟩ := range_get ho'
    exact (hrec o' _ ho).2.2
  · simp only [k2SwapP, hzip, List.map_map, sumP_eq, msT_pair]
    congr 1
    refine List.map_congr_left fun o ho => ?_
    exact (hrec o _ (List.mem_range.mp ho)).2.1

/-! ## FasterMSC -/

/-- Exact invariant, for some pair of medoids. -/
def K2Ex (n : Nat) (d : Nat → Nat → N) (s : K2State N L) : Prop := ∃ m0 m1, K2Ok n d m0 m1 s

theorem K2Ex.loss {n : Nat} {d : Nat → Nat → N} {s : K2State N L} (h : K2Ex n d s) :
    s.loss = msT L n d s.med := by
  obtain ⟨m0, m1, h⟩ := h
  rw [h.loss, h.med]

theorem K2Ex.fbs {n : Nat} {d : Nat → Nat → N} {s : K2State N L} (h : K2Ex n d s) (j : Nat) :
    (k2FbsP L d s.data j).1 = msT L n d (s.med.set (k2FbsP L d s.data j).2 j) ∧
    (∀ m, m < 2 → (k2FbsP L d s.data j).1 ≤ msT L n d (s.med.set m j)) ∧
    ∀ m, m < (k2FbsP L d s.data j).2 → (k2FbsP L d s.data j).1 < msT L n d (s.med.set m j) := by
  obtain ⟨m0, m1, h⟩ := h
  have := k2FbsP_spec h j
  rwa [← h.med] at this

theorem K2Ex.mem_le {n : Nat} {d : Nat → Nat → N} (hd : Dissim n d) {s : K2State N L} (h : K2Ex n d s)
    {b j : Nat} (hb : b < 2) (hj : j ∈ s.med) : s.loss ≤ msT L n d (s.med.set b j) := by
  obtain ⟨m0, m1, h⟩ := h
  rw [h.med] at hj
  rw [h.loss, h.med]
  exact msT_mem_le hd h.r0 h.r1 hb hj

theorem K2Ex.swap {n : Nat} {d : Nat → Nat → N} (hd : Dissim n d) {s : K2State N L} (h : K2Ex n d s)
    {b j : Nat} (hb : b < 2) (hj : j < n) (hjm : j ∉ s.med) (last : Nat) : K2Ex n d (k2SwapP d s b j last) := by
  obtain ⟨m0, m1, h⟩ := h
  exact ⟨_, _, k2SwapP_ok hd h hb hj hjm last⟩

theorem K2Ex.medLen {n : Nat} {d : Nat → Nat → N} {s : K2State N L} (h : K2Ex n d s) : s.med.length = 2 := by
  obtain ⟨m0, m1, h⟩ := h
  simp [h.med]

theorem k2_candSpec {n : Nat} {d : Nat → Nat → N} (hd : Dissim n d) :
    CandSpec (msT L n d) n (K2Ex n d) (fun s : K2State N L => s.med) (·.lastswap) (·.nSwaps) (·.loss)
      (k2CandP d) := by
  refine ⟨fun s j hs hj hc => ?_, fun s j s' hs hj hc => ?_, fun s hs => hs.loss⟩
  · unfold k2CandP at hc
    by_cases hown : k2OwnP s.med s.assi j = true
    · exact Or.inl (k2OwnP_mem hown)
    · simp only [hown, Bool.false_eq_true, if_false, rgeL, decide_eq_true_eq] at hc
      split at hc
      · rename_i hle
        right
        intro m hm
        rw [← hs.loss]
        exact le_trans hle ((hs.fbs j).2.1 m (hs.medLen ▸ hm))
      · cases hc
  · unfold k2CandP at hc
    by_cases hown : k2OwnP s.med s.assi j = true
    · simp [hown] at hc
    · simp only [hown, Bool.false_eq_true, if_false, rgeL, decide_eq_true_eq] at hc
      split at hc
      · cases hc
      · rename_i hle
        have hb := k2FbsP_lt (L := L) d s.data j
        rw [(hs.fbs j).1, not_le] at hle
        have hjm : j ∉ s.med := fun hjm => absurd hle (not_lt.mpr (hs.mem_le hd hb hjm))
        cases hc
        exact ⟨hs.swap hd hb hj hjm j, rfl, rfl, _, by rw [hs.medLen]; exact hb, hjm, rfl, hs.loss ▸ hle⟩

theorem k2_outcome {n : Nat} {d : Nat → Nat → N} {med : List Nat} {maxiter : Nat} {r : K2State N L × Nat}
    (hn : 0 < n) (hu : n ≤ u32Max) (h1 : K2Ex n d r.1) (h2 : SwapChain (msT L n d) n r.1.nSwaps med r.1.med)
    (h3 : r.2 ≤ r.1.nSwaps + 1) (h4 : r.2 ≤ maxiter)
    (h5 : r.2 < maxiter → ∀ x, x < n → Settled (msT L n d) x r.1.med) :
    MOutcome n d med maxiter (k2ResultP n r) := by
  refine ⟨?_, ?_, ?_, h2, h3, h4, h5⟩
  · show toSilhouette r.1.loss n = _
    rw [h1.loss, toSilhouette_eq hn hu]; rfl
  · obtain ⟨m0, m1, h⟩ := h1; exact h.assiLen
  · obtain ⟨m0, m1, h⟩ := h1
    intro o m hm
    show IsNearest d r.1.med o m
    rw [h.med]; exact h.nearest o m hm

theorem fastermscK2P_outcome {n : Nat} {d : Nat → Nat → N} (hd : Dissim n d) {m0 m1 : Nat} (h0 : m0 < n)
    (h1 : m1 < n) (hne : m0 ≠ m1) (hu : n ≤ u32Max) (maxiter : Nat) :
    MOutcome n d [m0, m1] maxiter (fastermscK2P L d n m0 m1 maxiter) := by
  have H := k2_candSpec (L := L) hd
  have hinit : K2Ex n d (k2InitP L d n m0 m1 n) := ⟨m0, m1, k2InitP_ok d h0 h1 hne n⟩
  have hseq : ∀ j ∈ List.range n, j < n := fun j hj => List.mem_range.mp hj
  obtain ⟨g1, c, g2, g3, g4⟩ := loopG_ex H hseq (fuel := maxiter) (iter := 0) hinit
  have g5 := loopG_converged H hseq List.nodup_range (fuel := maxiter) (iter := 0) hinit
    (Or.inl (by simp [k2InitP]))
  have g6 := (loopG_inv (L := L) (nSwaps := fun s : K2State N L => s.nSwaps) (loss := fun s => s.loss)
    (pass := k2PassP d (List.range n)) (fun _ => True) (fun _ _ => trivial) (fuel := maxiter) (iter := 0)
    (s := k2InitP L d n m0 m1 n) trivial).2
  have g2' : (k2LoopP d n maxiter 0 (k2InitP L d n m0 m1 n)).1.nSwaps = c := by
    have : (k2LoopP d n maxiter 0 (k2InitP L d n m0 m1 n)).1.nSwaps = (k2InitP L d n m0 m1 n).nSwaps + c := g2
    rw [this]; simp [k2InitP]
  have g4 : (k2LoopP d n maxiter 0 (k2InitP L d n m0 m1 n)).2 ≤ 0 + c + 1 := g4
  have g6 : (k2LoopP d n maxiter 0 (k2InitP L d n m0 m1 n)).2 ≤ 0 + maxiter := g6
  refine k2_outcome (by omega) hu g1 (by rw [g2']; exact g3) (by rw [g2']; omega) (by omega) fun hlt x hx => ?_
  exact g5 (by rw [Nat.zero_add]; exact hlt) x (List.mem_range.mpr hx)

/-! ## FastMSC -/

/-- Medoid number `b` replaced by object `j` is the first best exchange, in the order of the object
number and then the medoid number. -/
structure FirstBest (T : List Nat → L) (n : Nat) (med : List Nat) (b j : Nat) : Prop where
  hb : b < med.length
  hj : j < n
  hjm : j ∉ med
  lt : T (med.set b j) < T med
  best : ∀ b' j', b' < med.length → j' < n → j' ∉ med → T (med.set b j) ≤ T (med.set b' j')
  first : ∀ b' j', b' < med.length → j' ∉ med → (j' < j ∨ j' = j ∧ b' < b) →
    T (med.set b j) < T (med.set b' j')

theorem FirstBest.unique {T : List Nat → L} {n : Nat} {med : List Nat} {b j b' j' : Nat}
    (h : FirstBest T n med b j) (h' : FirstBest T n med b' j') : b = b' ∧ j = j' := by
  have e := le_antisymm (h.best b' j' h'.hb h'.hj h'.hjm) (h'.best b j h.hb h.hj h.hjm)
  have h1 : ¬ (j' < j ∨ j' = j ∧ b' < b) := fun hc => by
    have := h.first b' j' h'.hb h'.hjm hc
    rw [e] at this; exact lt_irrefl _ this
  have h2 : ¬ (j < j' ∨ j = j' ∧ b < b') := fun hc => by
    have := h'.first b j h.hb h.hjm hc
    rw [e] at this; exact lt_irrefl _ this
  omega

/-- What the scan of `fastmsc_k2` finds. -/
theorem fastmscK2ScanP_spec {n : Nat} {d : Nat → Nat → N} (hu : n ≤ u32Max) {s : K2State N L} :
    ((∀ j, j < n → k2OwnP s.med s.assi j = true) ∧ fastmscK2ScanP d n 2 s = (0, 2, usizeMax)) ∨
    ∃ j, j < n ∧ k2OwnP s.med s.assi j = false ∧
      fastmscK2ScanP d n 2 s = ((k2FbsP L d s.data j).1, (k2FbsP L d s.data j).2, j) ∧
      (∀ x, x < n → k2OwnP s.med s.assi x = false → (k2FbsP L d s.data j).1 ≤ (k2FbsP L d s.data x).1) ∧
      ∀ x, x < j → k2OwnP s.med s.assi x = false → (k2FbsP L d s.data j).1 < (k2FbsP L d s.data x).1 := by
  have hg : ∀ m, m ≤ n →
      let best := (List.range m).foldl (fun (best : L × Nat × Nat) (j : Nat) =>
        if k2OwnP s.med s.assi j then best
        else
          let r := k2FbsP L d s.data j
          if best.2.2 == usizeMax || rlt r.1 best.1 then (r.1, r.2, j) else best) (RLoss.zero, 2, usizeMax)
      ((∀ j, j < m → k2OwnP s.med s.assi j = true) ∧ best = (0, 2, usizeMax)) ∨
      ∃ j, j < m ∧ k2OwnP s.med s.assi j = false ∧
        best = ((k2FbsP L d s.data j).1, (k2FbsP L d s.data j).2, j) ∧
        (∀ x, x < m → k2OwnP s.med s.assi x = false → (k2FbsP L d s.data j).1 ≤ (k2FbsP L d s.data x).1) ∧
        ∀ x, x < j → k2OwnP s.med s.assi x = false → (k2FbsP L d s.data j).1 < (k2FbsP L d s.data x).1 := by
    intro m
    induction m with
    | zero => intro _; left; exact ⟨fun j hj => absurd hj (Nat.not_lt_zero j), by simp [zeroL]⟩
    | succ m ih =>
      intro hm
      have ih := ih (by omega)
      rw [List.range_succ, List.foldl_append, List.foldl_cons, List.foldl_nil]
      generalize (List.range m).foldl _ ((RLoss.zero : L), 2, usizeMax) = best at *
      dsimp only at *
      by_cases hown : k2OwnP s.med s.assi m = true
      · simp only [hown, if_true]
        rcases ih with ⟨i1, i2⟩ | ⟨j, i1, i2, i3, i4, i5⟩
        · left
          refine ⟨fun j hj => ?_, i2⟩
          rcases Nat.lt_succ_iff_lt_or_eq.mp hj with hj | rfl
          · exact i1 j hj
          · exact hown
        · right
          refine ⟨j, by omega, i2, i3, fun x hx hxo => ?_, i5⟩
          rcases Nat.lt_succ_iff_lt_or_eq.mp hx with hx | rfl
          · exact i4 x hx hxo
          · simp [hown] at hxo
      · have hown' : k2OwnP s.med s.assi m = false := by simpa using hown
        simp only [hown', Bool.false_eq_true, if_false]
        right
        rcases ih with ⟨i1, rfl⟩ | ⟨j, i1, i2, rfl, i4, i5⟩
        · simp only [beq_self_eq_true, Bool.true_or, if_true]
          refine ⟨m, by omega, hown', rfl, fun x hx hxo => ?_, fun x hx hxo => ?_⟩
          · rcases Nat.lt_succ_iff_lt_or_eq.mp hx with hx | rfl
            · simp [i1 x hx] at hxo
            · exact le_rfl
          · simp [i1 x hx] at hxo
        · have hju : (j == usizeMax) = false := by
            rw [beq_eq_false_iff_ne]; unfold u32Max at hu; unfold usizeMax; omega
          simp only [hju, Bool.false_or, rltL, decide_eq_true_eq]
          by_cases hlt : (k2FbsP L d s.data m).1 < (k2FbsP L d s.data j).1
          · simp only [hlt, if_true]
            refine ⟨m, by omega, hown', rfl, fun x hx hxo => ?_, fun x hx hxo => ?_⟩
            · rcases Nat.lt_succ_iff_lt_or_eq.mp hx with hx | rfl
              · exact le_trans hlt.le (i4 x hx hxo)
              · exact le_rfl
            · exact lt_of_lt_of_le hlt (i4 x hx hxo)
          · simp only [hlt, if_false]
            refine ⟨j, by omega, i2, rfl, fun x hx hxo => ?_, i5⟩
            rcases Nat.lt_succ_iff_lt_or_eq.mp hx with hx | rfl
            · exact i4 x hx hxo
            · exact not_lt.mp hlt
  exact hg n le_rfl

/-- If all objects are medoids, the objective is zero. -/
theorem msT_all_medoids {n : Nat} {d : Nat → Nat → N} (hd : Dissim n d) {m0 m1 : Nat} (h0 : m0 < n)
    (h1 : m1 < n) (h : ∀ j, j < n → j ∈ [m0, m1]) : msT L n d [m0, m1] = 0 := by
  rw [msT_pair]
  refine List.sum_eq_zero fun x hx => ?_
  obtain ⟨o, ho, rfl⟩ := List.mem_map.mp hx
  have ho := List.mem_range.mp ho
  rcases List.mem_pair.mp (h o ho) with rfl | rfl
  · rw [hd.diag o ho, ratio2_zero (hd.nonneg o _ ho h1)]
  · rw [ratio2_comm, hd.diag o ho, ratio2_zero (hd.nonneg o _ ho h0)]

theorem k2_stepOk {n : Nat} {d : Nat → Nat → N} (hd : Dissim n d) (hu : n ≤ u32Max) {s : K2State N L}
    (hs : K2Ex n d s) : K2StepOk n 2 d s := by
  intro hlt
  rcases fastmscK2ScanP_spec (d := d) hu (s := s) with ⟨h1, h2⟩ | ⟨j, h1, h2, -⟩
  · rw [h2] at hlt
    obtain ⟨m0, m1, hs⟩ := hs
    have : s.loss = 0 := by
      rw [hs.loss]
      refine msT_all_medoids hd hs.r0 hs.r1 fun j hj => ?_
      rw [← hs.med]; exact k2OwnP_mem (h1 j hj)
    simp [rltL, this] at hlt
  · exact fastmscK2ScanP_found d le_rfl hu ⟨j, h1, h2⟩

/-- A step of `fastmsc_k2` performs the first best exchange, or there is no improving one. -/
theorem fastmscK2StepP_spec {n : Nat} {d : Nat → Nat → N} (hd : Dissim n d) (hu : n ≤ u32Max)
    {s : K2State N L} (hs : K2Ex n d s) :
    (fastmscK2StepP d n 2 s = none ∧ ∀ x, x < n → Settled (msT L n d) x s.med) ∨
    ∃ b j, FirstBest (msT L n d) n s.med b j ∧
      fastmscK2StepP d n 2 s = some (k2SwapP d s b j s.lastswap, false) := by
  have hset : ∀ x, x < n → s.loss ≤ (k2FbsP L d s.data x).1 → Settled (msT L n d) x s.med := by
    intro x hx hle
    right
    intro m hm
    rw [← hs.loss]
    exact le_trans hle ((hs.fbs x).2.1 m (hs.medLen ▸ hm))
  rcases fastmscK2ScanP_spec (d := d) hu (s := s) with ⟨h1, h2⟩ | ⟨j, h1, h2, h3, h4, h5⟩
  · left
    have hnone : fastmscK2StepP d n 2 s = none := by
      have hok := k2_stepOk hd hu hs
      unfold fastmscK2StepP
      have hf : rlt (fastmscK2ScanP d n 2 s).1 s.loss = false := by
        by_contra hc
        have := (hok (by simpa using hc)).1
        rw [h2] at this
        exact absurd this (by simp)
      simp [hf]
    exact ⟨hnone, fun x hx => Or.inl (k2OwnP_mem (h1 x hx))⟩
  · by_cases hlt : (k2FbsP L d s.data j).1 < s.loss
    · right
      have hb := k2FbsP_lt (L := L) d s.data j
      have hfb := hs.fbs j
      have hown : ∀ x, x ∉ s.med → k2OwnP s.med s.assi x = false := fun x hx => by
        by_contra hc; exact hx (k2OwnP_mem (by simpa using hc))
      have hjm : j ∉ s.med := fun hjm => by
        have := hs.mem_le hd hb hjm
        rw [← hfb.1] at this
        exact absurd hlt (not_lt.mpr this)
      refine ⟨(k2FbsP L d s.data j).2, j, ⟨by rw [hs.medLen]; exact hb, h1, hjm, ?_, ?_, ?_⟩, ?_⟩
      · rw [← hfb.1, ← hs.loss]; exact hlt
      · intro b' j' hb' hj' hjm'
        rw [← hfb.1]
        exact le_trans (h4 j' hj' (hown j' hjm')) ((hs.fbs j').2.1 b' (hs.medLen ▸ hb'))
      · intro b' j' hb' hjm' hc
        rw [← hfb.1]
        rcases hc with hc | ⟨rfl, hc⟩
        · exact lt_of_lt_of_le (h5 j' hc (hown j' hjm')) ((hs.fbs j').2.1 b' (hs.medLen ▸ hb'))
        · exact hfb.2.2 b' hc
      · have hex := hs.swap hd hb h1 hjm s.lastswap
        have hl : (k2SwapP d s (k2FbsP L d s.data j).2 j s.lastswap).loss < s.loss := by
          rw [hex.loss]
          show msT L n d (s.med.set (k2FbsP L d s.data j).2 j) < s.loss
          rw [← hfb.1]; exact hlt
        unfold fastmscK2StepP
        simp only [h3, rltL, hlt, hl, decide_true, Bool.not_true, Bool.false_eq_true, if_false]
    · left
      refine ⟨?_, fun x hx => ?_⟩
      · unfold fastmscK2StepP
        simp [h3, rltL, hlt]
      · by_cases hxo : k2OwnP s.med s.assi x = true
        · exact Or.inl (k2OwnP_mem hxo)
        · exact hset x hx (le_trans (not_lt.mp hlt) (h4 x hx (by simpa using hxo)))

theorem FirstBest.better {T : List Nat → L} {n : Nat} {med : List Nat} {b j : Nat}
    (h : FirstBest T n med b j) : Better T j med (med.set b j) := ⟨b, h.hb, h.hjm, rfl, h.lt⟩

theorem fastmscK2_bestSpec {n : Nat} {d : Nat → Nat → N} (hd : Dissim n d) (hu : n ≤ u32Max) :
    BestSpec (msT L n d) n (K2Ex n d) (fun s : K2State N L => s.med) (·.nSwaps) (fastmscK2StepP d n 2) := by
  refine ⟨fun s hs hst => ?_, fun s s' b hs hst => ?_⟩
  · rcases fastmscK2StepP_spec hd hu hs with ⟨-, h⟩ | ⟨b, j, -, h⟩
    · exact h
    · rw [h] at hst; cases hst
  · rcases fastmscK2StepP_spec hd hu hs with ⟨h, -⟩ | ⟨b, j, hf, h⟩
    · rw [h] at hst; cases hst
    · rw [h] at hst; cases hst
      exact ⟨hs.swap hd (hs.medLen ▸ hf.hb) hf.hj hf.hjm _, rfl, rfl, j, hf.hj, hf.better⟩

theorem fastmscK2_eqE {mat : Mat N} {n m0 m1 : Nat} {d : Nat → Nat → N} (hm : IsMatrix mat n d)
    (hd : Dissim n d) (hu : n ≤ u32Max) (h0 : m0 < n) (h1 : m1 < n) (hne : m0 ≠ m1) (maxiter : Nat) :
    fastmscK2 L mat [m0, m1] maxiter = .ok (fastmscK2P L d n m0 m1 maxiter) :=
  fastmscK2_eq hm hu h0 h1 (K2Ex n d)
    (fun s hs => ⟨by obtain ⟨a, b, h⟩ := hs; exact h.shape, k2_stepOk hd hu hs⟩)
    (fun s s' hs h => ((fastmscK2_bestSpec hd hu).some s s' false hs h).1)
    ⟨m0, m1, k2InitP_ok d h0 h1 hne 0⟩ maxiter

theorem fastmscK2P_outcome {n : Nat} {d : Nat → Nat → N} (hd : Dissim n d) {m0 m1 : Nat} (h0 : m0 < n)
    (h1 : m1 < n) (hne : m0 ≠ m1) (hu : n ≤ u32Max) (maxiter : Nat) :
    MOutcome n d [m0, m1] maxiter (fastmscK2P L d n m0 m1 maxiter) := by
  have H := fastmscK2_bestSpec (L := L) hd hu
  have hinit : K2Ex n d (k2InitP L d n m0 m1 0) := ⟨m0, m1, k2InitP_ok d h0 h1 hne 0⟩
  obtain ⟨g1, ⟨c, g2, g3, g4⟩, g5⟩ := loopB_ex H (fuel := maxiter) (iter := 0) hinit
  have g6 := (loopB_inv (step := fastmscK2StepP (L := L) d n 2) (fun _ => True) (fun _ _ _ _ _ => trivial)
    (fuel := maxiter) (iter := 0) (s := k2InitP L d n m0 m1 0) trivial).2
  have g2' : (loopB (fastmscK2StepP d n 2) maxiter 0 (k2InitP L d n m0 m1 0)).1.nSwaps = c := by
    rw [g2]; simp [k2InitP]
  exact k2_outcome (by omega) hu g1 (by rw [g2']; exact g3) (by rw [g2']; omega) (by omega)
    fun hlt x hx => g5 (by omega) x hx

/-! ## FastMSC and PAMMEDSIL agree for k = 2 -/

theorem scanMax_first {k : Nat} {gain : Nat → Nat → L} {f : Nat → L × Nat} {own : Nat → Bool} {n : Nat}
    (hf : ∀ j, j < n → own j = false → FbsGain k gain f j) (b0 : Nat × Nat) :
    let a := (List.range n).foldl (scanMaxP f own) ((RLoss.zero : L), b0)
    0 ≤ a.1 ∧ (∀ m j, m < k → j < n → own j = false → gain m j ≤ a.1) ∧
    (0 < a.1 → a.2.1 < k ∧ a.2.2 < n ∧ own a.2.2 = false ∧ a.1 = gain a.2.1 a.2.2 ∧
      (∀ m j, m < k → own j = false → (j < a.2.2 ∨ j = a.2.2 ∧ m < a.2.1) → gain m j < a.1)) := by
  induction n with
  | zero => simp [zeroL]
  | succ n ih =>
    obtain ⟨i1, i2, i3⟩ := ih fun j hj => hf j (by omega)
    rw [List.range_succ, List.foldl_append, List.foldl_cons, List.foldl_nil]
    generalize (List.range n).foldl (scanMaxP f own) ((RLoss.zero : L), b0) = a at *
    unfold scanMaxP
    by_cases hown : own n = true
    · simp only [hown, if_true]
      refine ⟨i1, fun m j hm hj hjo => ?_, fun hp => ?_⟩
      · rcases Nat.lt_succ_iff_lt_or_eq.mp hj with hj | rfl
        · exact i2 m j hm hj hjo
        · simp [hown] at hjo
      · obtain ⟨p1, p2, p3⟩ := i3 hp
        exact ⟨p1, by omega, p3⟩
    · have hown' : own n = false := by simpa using hown
      obtain ⟨f1, f2⟩ := hf n (by omega) hown'
      simp only [hown', Bool.false_eq_true, if_false, rleL, decide_eq_true_eq]
      by_cases hle : (f n).1 ≤ a.1
      · simp only [hle, if_true]
        refine ⟨i1, fun m j hm hj hjo => ?_, fun hp => ?_⟩
        · rcases Nat.lt_succ_iff_lt_or_eq.mp hj with hj | rfl
          · exact i2 m j hm hj hjo
          · exact le_trans (f1 m hm) hle
        · obtain ⟨p1, p2, p3⟩ := i3 hp
          exact ⟨p1, by omega, p3⟩
      · simp only [hle, if_false]
        have hlt := not_le.mp hle
        have hpos := lt_of_le_of_lt i1 hlt
        obtain ⟨p1, p2, p3⟩ := f2 hpos
        refine ⟨hpos.le, fun m j hm hj hjo => ?_, fun _ => ⟨p1, by omega, hown', p2, fun m j hm hjo hc => ?_⟩⟩
        · rcases Nat.lt_succ_iff_lt_or_eq.mp hj with hj | rfl
          · exact le_trans (i2 m j hm hj hjo) hlt.le
          · exact f1 m hm
        · rcases hc with hc | ⟨rfl, hc⟩
          · exact lt_of_le_of_lt (i2 m j hm hc hjo) hlt
          · exact p3 m hc

/-- A step of PAMMEDSIL performs the first best exchange, or there is no improving one. -/
theorem pmsStep_spec {n k : Nat} {d : Nat → Nat → N} (hd : Dissim n d) (hk : 2 ≤ k) (hku : k < u32Max)
    {s : MPState N L} (hs : MPEx n k d s) :
    (mpStepP d (pmsScanP d n k) s = none ∧ ∀ x, x < n → Settled (msT L n d) x s.med) ∨
    ∃ b j s', FirstBest (msT L n d) n s.med b j ∧ s'.med = s.med.set b j ∧ s'.nSwaps = s.nSwaps + 1 ∧
      MPEx n k d s' ∧ mpStepP d (pmsScanP d n k) s = some (s', false) := by
  have H := mp_bestSpec (L := L) hd hku (pmsScanP_good hk hku hd)
  have hown : ∀ j, j < n → (mscOwnP s.med s.data j = false ↔ j ∉ s.med) := fun j hj => by
    rw [← hs.cache.ownP hj]; simp
  obtain ⟨a1, a2, a3⟩ := scanMax_first (L := L) (n := n) (k := k) (gain := gainP L d s.data)
    (f := pmsFbsP L d k s.data) (own := mscOwnP s.med s.data)
    (fun j hj _ => by
      have hl := hs.medLen
      have := pmsFbs_gain (L := L) hd hs.cache hs.medRange (by omega) (by omega) hj
      rwa [hl] at this) (k, usizeMax)
  have gain := fun (b j : Nat) (hb : b < s.med.length) =>
    hs.cache.gain_eq (L := L) (by rw [hs.medLen]; exact hku) hb j
  cases hst : mpStepP d (pmsScanP d n k) s with
  | none => left; exact ⟨rfl, H.none s hs hst⟩
  | some p =>
    right
    obtain ⟨s', b⟩ := p
    obtain ⟨h1, rfl, h3, -⟩ := H.some s s' b hs hst
    unfold mpStepP at hst
    dsimp only at hst
    split at hst
    · rename_i hpos
      simp only [rgtL, zeroL, decide_eq_true_eq] at hpos
      obtain ⟨p1, p2, p3, p4, p5⟩ := a3 hpos
      have p1' := lt_of_lt_of_eq p1 hs.medLen.symm
      have p3' := (hown _ p2).mp p3
      refine ⟨_, _, s', ⟨p1', p2, p3', ?_, ?_, ?_⟩, ?_, h3, h1, rfl⟩
      · have : 0 < gainP L d s.data _ _ := p4 ▸ hpos
        rw [gain _ _ p1'] at this
        exact sub_pos.mp this
      · intro b' j' hb' hj' hjm'
        have := a2 b' j' (hs.medLen ▸ hb') hj' ((hown j' hj').mpr hjm')
        rw [p4, gain _ _ p1', gain _ _ hb'] at this
        exact (sub_le_sub_iff_left _).mp this
      · intro b' j' hb' hjm' hc
        have hj' : j' < n := by
          rcases hc with hc | ⟨rfl, -⟩
          · exact lt_trans hc p2
          · exact p2
        have := p5 b' j' (hs.medLen ▸ hb') ((hown j' hj').mpr hjm') hc
        rw [p4, gain _ _ p1', gain _ _ hb'] at this
        exact (sub_lt_sub_iff_left _).mp this
      · split at hst
        · cases hst
        · cases hst; rfl
    · cases hst

theorem FirstBest.not_settled {T : List Nat → L} {n : Nat} {med : List Nat} {b j : Nat}
    (h : FirstBest T n med b j) : ¬ Settled T j med := by
  rintro (h' | h')
  · exact h.hjm h'
  · exact absurd h.lt (not_lt.mpr (h' b h.hb))

theorem k2Loop_agree {n : Nat} {d : Nat → Nat → N} (hd : Dissim n d) (hu : n ≤ u32Max) {fuel iter : Nat}
    {s : K2State N L} {t : MPState N L} (hs : K2Ex n d s) (ht : MPEx n 2 d t) (hmed : s.med = t.med)
    (hsw : s.nSwaps = t.nSwaps) :
    let a := loopB (fastmscK2StepP d n 2) fuel iter s
    let b := loopB (mpStepP d (pmsScanP d n 2)) fuel iter t
    a.1.med = b.1.med ∧ a.1.nSwaps = b.1.nSwaps ∧ a.1.loss = b.1.loss ∧ a.2 = b.2 := by
  induction fuel generalizing iter s t with
  | zero =>
    exact ⟨hmed, hsw, by show s.loss = t.loss; rw [hs.loss, MInv.loss ht, hmed], rfl⟩
  | succ fuel ih =>
    unfold loopB
    rcases fastmscK2StepP_spec hd hu hs with ⟨h1, h2⟩ | ⟨b, j, h1, h2⟩
    · rcases pmsStep_spec hd le_rfl (by decide) ht with ⟨g1, -⟩ | ⟨b', j', s', g1, -⟩
      · rw [h1, g1]
        exact ⟨hmed, hsw, by show s.loss = t.loss; rw [hs.loss, MInv.loss ht, hmed], rfl⟩
      · rw [← hmed] at g1
        exact absurd (h2 j' g1.hj) g1.not_settled
    · rcases pmsStep_spec hd le_rfl (by decide) ht with ⟨g1, g2⟩ | ⟨b', j', s', g1, g2, g3, g4, g5⟩
      · rw [← hmed] at g2
        exact absurd (g2 j h1.hj) h1.not_settled
      · rw [← hmed] at g1 g2
        obtain ⟨rfl, rfl⟩ := h1.unique g1
        rw [h2, g5]
        exact ih (hs.swap hd (hs.medLen ▸ h1.hb) h1.hj h1.hjm _) g4 g2.symm
          (by rw [g3, ← hsw]; rfl)

end KMedoids
