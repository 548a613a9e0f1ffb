import Verif.Proofs.BitMsc

/-!
# FasterMSC and FastMSC for two medoids: the medoids are distinct

The functions for two medoids recognise a medoid by its label. That fails for the first medoid if the second one
is at distance zero; then the two sums of the candidate evaluation decide whether the second medoid is replaced
by the first. They decide correctly if sums and quotients are monotone, as with rounding to nearest.
-/

set_option linter.unusedSectionVars false

namespace KMedoids

variable {N L : Type} [LinearOrder N] [Zero N] [RDist N] [LawfulDist N] [RLoss L] [RFrom N L]
open RFrom (conv)

/-- No object is at distance zero of another one. -/
def NoDuplicates (n : Nat) (d : Nat → Nat → N) : Prop := ∀ x y, x < n → y < n → x ≠ y → d x y ≠ 0

/-- Sums and quotients respect a relation that `<` does not contradict. NaN may be the largest element. -/
def MonoQuot (N L : Type) [LinearOrder N] [Zero N] [RLoss L] [RFrom N L] : Prop :=
  ∃ R : L → L → Prop,
    (∀ a b, R a b → rlt b a = false) ∧
    R RLoss.zero RLoss.zero ∧
    (∀ a a' b b', R a a' → R b b' → R (RLoss.add a b) (RLoss.add a' b')) ∧
    (∀ c : N, 0 < c → R RLoss.zero (RLoss.div (conv c) (conv c))) ∧
    ∀ a b c : N, 0 < a → a ≤ b → c = a ∨ c = b → R (RLoss.div (conv a) (conv b)) (RLoss.div (conv c) (conv c))

/-! ## candidate evaluation -/

/-- The relation between the contributions to the two sums, if the candidate is the first medoid. -/
theorem silTerm_dup {R : L → L → Prop} (hz : R RLoss.zero RLoss.zero)
    (hd0 : ∀ c : N, 0 < c → R RLoss.zero (RLoss.div (conv c) (conv c)))
    (hdiv : ∀ a b c : N, 0 < a → a ≤ b → c = a ∨ c = b →
      R (RLoss.div (conv a) (conv b)) (RLoss.div (conv c) (conv c)))
    {x y : N} (hx : 0 ≤ x) (hy : 0 ≤ y) :
    R (if rlt x y then mscLoss L x y else mscLoss L y x) (if rlt x x then mscLoss L x x else mscLoss L x x) := by
  have key : ∀ a b c : N, 0 ≤ a → a ≤ b → (c = a ∨ c = b) → R (mscLoss L a b) (mscLoss L c c) := by
    intro a b c ha hab hc
    have hc0 : 0 ≤ c := by rcases hc with rfl | rfl; exact ha; exact le_trans ha hab
    unfold mscLoss
    simp only [LawfulDist.isZero_eq, Bool.or_eq_true, decide_eq_true_eq, or_self]
    by_cases hcz : c = 0
    · have haz : a = 0 ∨ b = 0 := by rcases hc with rfl | rfl; exact Or.inl hcz; exact Or.inr hcz
      rw [if_pos haz, if_pos hcz]
      exact hz
    · have hcp : 0 < c := lt_of_le_of_ne hc0 (Ne.symm hcz)
      rw [if_neg hcz]
      split
      · exact hd0 c hcp
      · rename_i hn
        have hap : 0 < a := lt_of_le_of_ne ha (fun e => hn (Or.inl e.symm))
        exact hdiv a b c hap hab hc
  simp only [ite_self, rltN, decide_eq_true_eq]
  split
  · rename_i h; exact key _ _ _ hx h.le (Or.inl rfl)
  · rename_i h; exact key _ _ _ hy (not_lt.mp h) (Or.inr rfl)

theorem findMinP_pair (a b : L) : findMinP [a, b] = if rlt b a then (1, b) else (0, a) := rfl

/-- The first medoid is not offered as a replacement for the second one. -/
theorem k2FbsP_dup (hM : MonoQuot N L) {n : Nat} {d : Nat → Nat → N} (hd : Dissim n d) {m0 m1 : Nat}
    {s : K2State N L} (h : K2A n d m0 m1 s) : (k2FbsP L d s.data m0).2 = 0 := by
  obtain ⟨R, hR, hz, hadd, hd0, hdiv⟩ := hM
  have hg : R (s.data.zipIdx.foldl (k2FindStepP d m0) ((RLoss.zero : L), (RLoss.zero : L))).1
      (s.data.zipIdx.foldl (k2FindStepP d m0) ((RLoss.zero : L), (RLoss.zero : L))).2 := by
    rw [h.data, zipIdx_map_range]
    refine foldl_inv (fun pl : L × L => R pl.1 pl.2) (fun pl p hp hpl => ?_) hz
    obtain ⟨o, ho, rfl⟩ := List.mem_map.mp hp
    have ho := List.mem_range.mp ho
    exact hadd _ _ _ _ hpl (silTerm_dup hz hd0 hdiv (hd.nonneg o m0 ho h.r0) (hd.nonneg o m1 ho h.r1))
  unfold k2FbsP
  dsimp only
  rw [findMinP_pair, hR _ _ hg]
  rfl

/-! ## recognising medoids -/

/-- The second medoid is labelled with itself, the medoids are distinct. -/
structure K2Dist (n : Nat) (d : Nat → Nat → N) (m0 m1 : Nat) (s : K2State N L) : Prop extends K2A n d m0 m1 s where
  own1 : s.assi[m1]? = some 1
  ne : m0 ≠ m1

theorem k2InitP_dist {n : Nat} {d : Nat → Nat → N} (hd : Dissim n d) {m0 m1 : Nat} (h0 : m0 < n) (h1 : m1 < n)
    (hne : m0 ≠ m1) (last : Nat) : K2Dist n d m0 m1 (k2InitP L d n m0 m1 last) := by
  refine ⟨k2InitP_A hd h0 h1 last, ?_, hne⟩
  have hnl : ¬ d m1 m0 < d m1 m1 := by rw [hd.diag m1 h1]; exact not_lt.mpr (hd.nonneg m1 m0 h1 h0)
  simp [k2InitP, h1, k2InitRecP, rltN, hnl]

theorem k2SwapP_dist {n : Nat} {d : Nat → Nat → N} (hd : Dissim n d) {m0 m1 : Nat} {s : K2State N L}
    (h : K2Dist n d m0 m1 s) {b j : Nat} (hb : b < 2) (hj : j < n) (h1 : j ≠ m1) (h0 : b = 1 → j ≠ m0)
    (last : Nat) : K2Dist n d (k2M0 b j m0) (k2M1 b j m1) (k2SwapP d s b j last) := by
  have hb2 : b = 0 ∨ b = 1 := by omega
  refine ⟨k2SwapP_A hd h.toK2A hb hj last, ?_, ?_⟩
  · have hzip : ∀ o a, o < n → s.assi[o]? = some a →
        ((s.assi.zip s.data).zipIdx.map (k2SwapRecP L d b j))[o]? =
          some (k2SwapRecP L d b j ((a, (d o m0, d o m1)), o)) := by
      intro o a ho ha
      have : (s.assi.zip s.data)[o]? = some (a, (d o m0, d o m1)) := by
        rw [List.getElem?_zip_eq_some]
        exact ⟨ha, by rw [h.data]; simp [ho]⟩
      rw [List.getElem?_map, List.getElem?_zipIdx, this]
      simp
    rcases hb2 with rfl | rfl
    · have e := hzip m1 1 h.r1 h.own1
      show ((_ : List _).map _)[m1]? = _
      rw [List.getElem?_map, e]
      have hnl : ¬ d m1 j < 0 := not_lt.mpr (hd.nonneg m1 j h.r1 hj)
      simp [k2SwapRecP, Ne.symm h1, rltN, hd.diag m1 h.r1, hnl]
    · have hjl : j < s.assi.length := h.assiLen ▸ hj
      have e := hzip j _ hj (List.getElem?_eq_getElem hjl)
      show ((_ : List _).map _)[j]? = _
      rw [List.getElem?_map, e]
      simp [k2SwapRecP]
  · rcases hb2 with rfl | rfl
    · exact h1
    · exact fun e => h0 rfl e.symm

/-- The candidates that are not skipped, with the exchange that is offered for them, bring in a new object. -/
theorem K2Dist.offer {n : Nat} {d : Nat → Nat → N} (hd : Dissim n d) (hM : MonoQuot N L ∨ NoDuplicates n d)
    {m0 m1 : Nat} {s : K2State N L} (h : K2Dist n d m0 m1 s) {j : Nat}
    (hown : k2OwnP s.med s.assi j = false) :
    j ≠ m1 ∧ ((k2FbsP L d s.data j).2 = 1 → j ≠ m0) := by
  constructor
  · rintro rfl
    simp [k2OwnP, h.own1, h.med] at hown
  · rintro hb rfl
    rcases hM with hM | hp
    · rw [k2FbsP_dup hM hd h.toK2A] at hb; cases hb
    · have hjl : j < s.assi.length := h.assiLen ▸ h.r0
      obtain ⟨c, hc, hmin⟩ := h.nearest j s.assi[j] (List.getElem?_eq_getElem hjl)
      have hle : d j c ≤ 0 := by
        have := hmin j (by simp)
        rwa [hd.diag j h.r0] at this
      have hcm : c = j ∨ c = m1 := List.mem_pair.mp (List.mem_of_getElem? hc)
      have hcj : c = j := by
        rcases hcm with hcm | hcm
        · exact hcm
        · subst hcm
          exact absurd (le_antisymm hle (hd.nonneg j c h.r0 h.r1)) (hp j c h.r0 h.r1 h.ne)
      have : k2OwnP s.med s.assi j = true := by
        unfold k2OwnP
        rw [List.getElem?_eq_getElem hjl]
        show (s.med[s.assi[j]]? == some j) = true
        rw [h.med, hc, hcj, beq_self_eq_true]
      rw [this] at hown
      cases hown

/-! ## the loops -/

/-- `K2Dist` for some pair of medoids. -/
def K2DistAny (n : Nat) (d : Nat → Nat → N) (s : K2State N L) : Prop := ∃ m0 m1, K2Dist n d m0 m1 s

theorem K2DistAny.any {n : Nat} {d : Nat → Nat → N} {s : K2State N L} (h : K2DistAny n d s) : K2Any n d s := by
  obtain ⟨m0, m1, h⟩ := h
  exact ⟨m0, m1, h.toK2A⟩

theorem K2DistAny.nodup {n : Nat} {d : Nat → Nat → N} {s : K2State N L} (h : K2DistAny n d s) :
    s.med.Nodup := by
  obtain ⟨m0, m1, h⟩ := h
  rw [h.med]; simp [h.ne]

theorem K2DistAny.swap {n : Nat} {d : Nat → Nat → N} (hd : Dissim n d) (hM : MonoQuot N L ∨ NoDuplicates n d)
    {s : K2State N L} (h : K2DistAny n d s) {j : Nat} (hj : j < n) (hown : k2OwnP s.med s.assi j = false)
    (last : Nat) : K2DistAny n d (k2SwapP d s (k2FbsP L d s.data j).2 j last) := by
  obtain ⟨m0, m1, h⟩ := h
  obtain ⟨h1, h0⟩ := h.offer hd hM hown
  exact ⟨_, _, k2SwapP_dist hd h (k2FbsP_lt d s.data j) hj h1 h0 last⟩

theorem k2LoopP_distinct {n : Nat} {d : Nat → Nat → N} (hd : Dissim n d)
    (hM : MonoQuot N L ∨ NoDuplicates n d) {m0 m1 : Nat} (h0 : m0 < n) (h1 : m1 < n) (hne : m0 ≠ m1)
    (maxiter : Nat) : K2DistAny n d (k2LoopP d n maxiter 0 (k2InitP L d n m0 m1 n)).1 := by
  refine (loopG_inv (K2DistAny n d) (fun s hs => ?_) (fuel := maxiter) (iter := 0)
    (s := k2InitP L d n m0 m1 n) ⟨m0, m1, k2InitP_dist hd h0 h1 hne n⟩).1
  refine passG_inv (K2DistAny n d) (fun s j s' hj hs hc => ?_) hs
  unfold k2CandP at hc
  split at hc
  · cases hc
  · rename_i hown
    dsimp only at hc
    split at hc
    · cases hc
    · cases hc
      exact hs.swap hd hM (List.mem_range.mp hj) (by simpa using hown) j

/-- What the scan of FastMSC returns, if it found a candidate. -/
theorem fastmscK2ScanP_own {n k : Nat} {d : Nat → Nat → N} {s : K2State N L}
    (h : (fastmscK2ScanP d n k s).2.2 < n) (hn : n ≤ u32Max) :
    k2OwnP s.med s.assi (fastmscK2ScanP d n k s).2.2 = false ∧
      (fastmscK2ScanP d n k s).2.1 = (k2FbsP L d s.data (fastmscK2ScanP d n k s).2.2).2 := by
  have hg : (fastmscK2ScanP d n k s).2.2 = usizeMax ∨
      (k2OwnP s.med s.assi (fastmscK2ScanP d n k s).2.2 = false ∧
      (fastmscK2ScanP d n k s).2.1 = (k2FbsP L d s.data (fastmscK2ScanP d n k s).2.2).2) := by
    unfold fastmscK2ScanP
    refine foldl_inv (fun best : L × Nat × Nat => best.2.2 = usizeMax ∨
      (k2OwnP s.med s.assi best.2.2 = false ∧ best.2.1 = (k2FbsP L d s.data best.2.2).2))
      (fun best j _ hb => ?_) (Or.inl rfl)
    split
    · exact hb
    · rename_i hown
      dsimp only
      split
      · exact Or.inr ⟨by simpa using hown, rfl⟩
      · exact hb
  rcases hg with hg | hg
  · unfold u32Max at hn
    unfold usizeMax at hg
    omega
  · exact hg

theorem fastmscK2ScanP_val {n k : Nat} {d : Nat → Nat → N} {s : K2State N L}
    (h : (fastmscK2ScanP d n k s).2.2 < n) (hn : n ≤ u32Max) :
    (fastmscK2ScanP d n k s).1 = (k2FbsP L d s.data (fastmscK2ScanP d n k s).2.2).1 := by
  have hg : (fastmscK2ScanP d n k s).2.2 = usizeMax ∨
      (fastmscK2ScanP d n k s).1 = (k2FbsP L d s.data (fastmscK2ScanP d n k s).2.2).1 := by
    unfold fastmscK2ScanP
    refine foldl_inv (fun best : L × Nat × Nat => best.2.2 = usizeMax ∨
      best.1 = (k2FbsP L d s.data best.2.2).1) (fun best j _ hb => ?_) (Or.inl rfl)
    split
    · exact hb
    · dsimp only
      split
      · exact Or.inr rfl
      · exact hb
  rcases hg with hg | hg
  · unfold u32Max at hn
    unfold usizeMax at hg
    omega
  · exact hg

theorem fastmscK2Loop_distinct {n : Nat} {d : Nat → Nat → N} (hd : Dissim n d) (hn : n ≤ u32Max)
    (hok : ∀ s : K2State N L, K2Any n d s → K2StepOk n 2 d s)
    (hM : MonoQuot N L ∨ NoDuplicates n d) {m0 m1 : Nat} (h0 : m0 < n) (h1 : m1 < n) (hne : m0 ≠ m1)
    (maxiter : Nat) : (loopB (fastmscK2StepP d n 2) maxiter 0 (k2InitP L d n m0 m1 0)).1.med.Nodup := by
  have hstep : ∀ (s s' : K2State N L) b, K2DistAny n d s → fastmscK2StepP d n 2 s = some (s', b) →
      s'.med.Nodup ∧ (b = false → K2DistAny n d s') := by
    intro s s' b hs h
    unfold fastmscK2StepP at h
    dsimp only at h
    split at h
    · cases h
    · rename_i hlt
      have hf := hok s hs.any (by simpa using hlt)
      obtain ⟨ho, he⟩ := fastmscK2ScanP_own hf.2 hn
      have hsw := hs.swap hd hM hf.2 ho s.lastswap
      rw [← he] at hsw
      split at h
      · cases h
        exact ⟨hsw.nodup, fun h => by cases h⟩
      · cases h
        exact ⟨hsw.nodup, fun _ => hsw⟩
  exact loopB_inv2 (K2DistAny n d) (fun s => s.med.Nodup) (fun s hs => hs.nodup)
    (fun s s' hs h => (hstep s s' false hs h).2 rfl)
    (fun s s' b hs h => (hstep s s' b hs h).1)
    ⟨m0, m1, k2InitP_dist hd h0 h1 hne 0⟩

/-! ## the loss of FastMSC for two medoids is never stale -/

theorem silTerm_pair {d : Nat → Nat → N} {x y o : Nat} (hx : 0 ≤ d o x) (hy : 0 ≤ d o y) :
    silTerm L d [x, y] o = if rlt (d o x) (d o y) then mscLoss L (d o x) (d o y) else mscLoss L (d o y) (d o x) := by
  simp only [rltN, decide_eq_true_eq]
  split
  · rename_i h; exact (mscLoss_term (twoMin_pair h.le) hx).symm
  · rename_i h; exact (mscLoss_term (twoMin_pair' (not_lt.mp h)) hy).symm

theorem silTerm_comm {d : Nat → Nat → N} {x y o : Nat} (hx : 0 ≤ d o x) (hy : 0 ≤ d o y) :
    silTerm L d [x, y] o = silTerm L d [y, x] o := by
  rcases le_total (d o x) (d o y) with h | h
  · rw [← mscLoss_term (twoMin_pair h) hx, ← mscLoss_term (twoMin_pair' h) hx]
  · rw [← mscLoss_term (twoMin_pair h) hy, ← mscLoss_term (twoMin_pair' h) hy]

theorem foldl_leftSum (hz : ∀ x : L, RLoss.add RLoss.zero x = x) (xs : List L) :
    xs.foldl RLoss.add RLoss.zero = leftSum xs := by
  cases xs with
  | nil => rfl
  | cons x xs => rw [List.foldl_cons, hz]; rfl

theorem k2Fbs_leftSum (hz : ∀ x : L, RLoss.add RLoss.zero x = x) {n : Nat} {d : Nat → Nat → N}
    (hd : Dissim n d) {m0 m1 j : Nat} (h0 : m0 < n) (h1 : m1 < n) (hj : j < n) :
    ((List.range n).map fun o => (d o m0, d o m1)).zipIdx.foldl (k2FindStepP d j)
      ((RLoss.zero : L), (RLoss.zero : L)) =
      (leftSum (silTerms L n d [j, m1]), leftSum (silTerms L n d [m0, j])) := by
  rw [zipIdx_map_range, ← foldl_leftSum hz, ← foldl_leftSum hz]
  have hg : ∀ (xs : List Nat), (∀ o ∈ xs, o < n) → ∀ a b : L,
      (xs.map fun o => ((d o m0, d o m1), o)).foldl (k2FindStepP d j) (a, b) =
        ((xs.map (silTerm L d [j, m1])).foldl RLoss.add a, (xs.map (silTerm L d [m0, j])).foldl RLoss.add b) := by
    intro xs
    induction xs with
    | nil => intro _ a b; rfl
    | cons x xs ih =>
      intro hx a b
      have hxn := hx x (by simp)
      have g0 := hd.nonneg x m0 hxn h0
      have g1 := hd.nonneg x m1 hxn h1
      have gj := hd.nonneg x j hxn hj
      simp only [List.map_cons, List.foldl_cons]
      rw [show k2FindStepP d j (a, b) ((d x m0, d x m1), x) =
        (RLoss.add a (silTerm L d [j, m1] x), RLoss.add b (silTerm L d [m0, j] x)) by
          rw [silTerm_comm g0 gj, silTerm_pair gj g1, silTerm_pair gj g0]; rfl]
      exact ih (fun o ho => hx o (by simp [ho])) _ _
  exact hg _ (fun o ho => List.mem_range.mp ho) _ _

theorem K2Any.fbs_leftSum (hz : ∀ x : L, RLoss.add RLoss.zero x = x) {n : Nat} {d : Nat → Nat → N}
    (hd : Dissim n d) {s : K2State N L} (h : K2Any n d s) {j : Nat} (hj : j < n) :
    (k2FbsP L d s.data j).1 = leftSum (silTerms L n d (s.med.set (k2FbsP L d s.data j).2 j)) := by
  obtain ⟨m0, m1, h⟩ := h
  unfold k2FbsP
  rw [h.data, k2Fbs_leftSum hz hd h.r0 h.r1 hj, h.med]
  dsimp only
  rw [findMinP_pair]
  split <;> rfl

theorem fastmscK2Loop_loss (hz : ∀ x : L, RLoss.add RLoss.zero x = x) {n : Nat} {d : Nat → Nat → N}
    (hd : Dissim n d) (hn : n ≤ u32Max) (hok : ∀ s : K2State N L, K2Any n d s → K2StepOk n 2 d s)
    {m0 m1 : Nat} (h0 : m0 < n) (h1 : m1 < n) (maxiter : Nat) :
    K2Any n d (loopB (fastmscK2StepP d n 2) maxiter 0 (k2InitP L d n m0 m1 0)).1 := by
  refine (loopB_inv (K2Any n d) (fun s s' b hs h => ?_) ⟨m0, m1, k2InitP_A hd h0 h1 0⟩).1
  unfold fastmscK2StepP at h
  dsimp only at h
  split at h
  · cases h
  · rename_i hlt
    have hf := hok s hs (by simpa using hlt)
    obtain ⟨-, he⟩ := fastmscK2ScanP_own hf.2 hn
    have hsw := hs.swap hd hf.1 hf.2 s.lastswap
    have hbest : (fastmscK2ScanP d n 2 s).1 = leftSum (silTerms L n d
        (s.med.set (fastmscK2ScanP d n 2 s).2.1 (fastmscK2ScanP d n 2 s).2.2)) := by
      rw [fastmscK2ScanP_val hf.2 hn, he]
      exact hs.fbs_leftSum hz hd hf.2
    split at h
    · rename_i hge
      rw [hsw.loss] at hge
      have : (k2SwapP d s (fastmscK2ScanP d n 2 s).2.1 (fastmscK2ScanP d n 2 s).2.2 s.lastswap).med =
        s.med.set (fastmscK2ScanP d n 2 s).2.1 (fastmscK2ScanP d n 2 s).2.2 := rfl
      rw [this, ← hbest] at hge
      simp_all
    · cases h
      exact hsw

end KMedoids
