import Verif.Proofs.Descent
import Verif.Proofs.BitLoss
import Verif.Proofs.BitK2
import Verif.Proofs.PurePamSil
import Mathlib.Combinatorics.Enumerative.Catalan.Tree

/-!
# The optimisation loops end, whatever the rounding

A loop continues only after an iteration that lowered the computed loss, and the computed loss is a function of the
set of medoids (C58, C59). So no set of medoids is the starting point of two iterations.
-/

set_option linter.unusedSectionVars false

namespace KMedoids

variable {N L K : Type} [LinearOrder N] [Zero N] [RDist N] [LawfulDist N] [RLoss L] [RFrom N L] [LinearOrder K]
open RFrom (conv)

/-- On the values `good`, comparisons follow the linear order of `key`: the comparison `a >= b` fails only if `a`
is really smaller. Floating point: everything but NaN; integers: everything. -/
def OrdersBy (key : L → K) (good : L → Prop) : Prop :=
  ∀ a b : L, good a → good b → rge a b = false → key a < key b

/-- The same for `a <= b`, which fails only if `a` is really larger. -/
def OrdersByLe (key : L → K) (good : L → Prop) : Prop :=
  ∀ a b : L, good a → good b → rle a b = false → key b < key a

theorem rlt_not_rge {a b : L} (h : rlt a b = true) : rge a b = false := by
  unfold rge rlt at *
  cases hc : pcmp a b with
  | none => simp [hc] at h
  | some o => cases o <;> simp_all

variable {key : L → K} {good : L → Prop}

section generic
variable {α S : Type} {F : α → L} {V : α → Prop} {I : S → Prop} {med : S → α} {loss : S → L}

/-- First-improvement loops: all iterations but the last decrease the loss. -/
theorem loopG_descends (ho : OrdersBy key good) (hV : ∀ s, I s → V (med s))
    (hF : ∀ s, I s → loss s = F (med s)) (hg : ∀ a, V a → good (F a)) {pass : S → S} {nSwaps : S → Nat}
    (hpass : ∀ s, I s → I (pass s)) {fuel iter : Nat} {s : S} (hs : I s) :
    ∃ c e, Descent (fun a => key (F a)) V c (med s) e ∧ (loopG pass nSwaps loss fuel iter s).2 ≤ iter + c + 1 := by
  induction fuel generalizing iter s with
  | zero => exact ⟨0, _, .refl _, by simp only [loopG]; omega⟩
  | succ fuel ih =>
    have h := hpass s hs
    unfold loopG
    dsimp only
    split
    · exact ⟨0, _, .refl _, le_rfl⟩
    · rename_i hne
      simp only [Bool.or_eq_true, not_or, Bool.not_eq_true] at hne
      have hlt := ho _ _ (hF _ h ▸ hg _ (hV _ h)) (hF _ hs ▸ hg _ (hV _ hs)) hne.2
      rw [hF _ h, hF _ hs] at hlt
      obtain ⟨c, e, h1, h2⟩ := ih (iter := iter + 1) h
      exact ⟨1 + c, e, (Descent.step (.refl _) _ (hV _ h) hlt).trans h1, by omega⟩

/-- Best-improvement loops. -/
theorem loopB_descends (ho : OrdersBy key good) (hV : ∀ s, I s → V (med s))
    (hF : ∀ s, I s → loss s = F (med s)) (hg : ∀ a, V a → good (F a)) {step : S → Option (S × Bool)}
    (hstep : ∀ s s', I s → step s = some (s', false) → I s' ∧ rge (loss s') (loss s) = false)
    {fuel iter : Nat} {s : S} (hs : I s) :
    ∃ c e, Descent (fun a => key (F a)) V c (med s) e ∧ (loopB step fuel iter s).2 ≤ iter + c + 1 := by
  induction fuel generalizing iter s with
  | zero => exact ⟨0, _, .refl _, by simp only [loopB]; omega⟩
  | succ fuel ih =>
    unfold loopB
    cases hst : step s with
    | none => exact ⟨0, _, .refl _, le_rfl⟩
    | some p =>
      obtain ⟨s', b⟩ := p
      cases b with
      | true => exact ⟨0, _, .refl _, le_rfl⟩
      | false =>
        obtain ⟨h, hne⟩ := hstep s s' hs hst
        have hlt := ho _ _ (hF _ h ▸ hg _ (hV _ h)) (hF _ hs ▸ hg _ (hV _ hs)) hne
        rw [hF _ h, hF _ hs] at hlt
        obtain ⟨c, e, h1, h2⟩ := ih (iter := iter + 1) h
        exact ⟨1 + c, e, (Descent.step (.refl _) _ (hV _ h) hlt).trans h1, by dsimp only; omega⟩

end generic

theorem isSel_perm {n k : Nat} {x y : List Nat} (hx : IsSel n k x) (hy : IsSel n k y)
    (h : x.toFinset = y.toFinset) : x.Perm y :=
  (List.perm_ext_iff_of_nodup hx.2.1 hy.2.1).mpr fun a => by
    rw [← List.mem_toFinset, ← List.mem_toFinset (l := y), h]

theorem Descent.count_perm {T : List Nat → K} {n k c : Nat} {a b : List Nat}
    (hT : ∀ x y : List Nat, x.Perm y → T x = T y) (h : Descent T (IsSel n k) c a b) (ha : IsSel n k a) :
    c < Nat.choose n k := by
  have := h.count (key := List.toFinset) (F := Finset.powersetCard k (Finset.range n)) (fun a ha => by
    rw [Finset.mem_powersetCard]
    exact ⟨fun m hm => Finset.mem_range.mpr (ha.2.2 m (List.mem_toFinset.mp hm)),
      by rw [List.toFinset_card_of_nodup ha.2.1, ha.1]⟩) (fun x y hx hy e => hT x y (isSel_perm hx hy e)) ha
  rwa [Finset.card_powersetCard, Finset.card_range] at this

/-! ## FasterPAM -/

theorem fpLoopP_loopG (d : Nat → Nat → N) (seq : List Nat) (fuel iter : Nat) (s : FPState N L) :
    fpLoopP d seq fuel iter s = loopG (fpPassP d seq) (·.nSwaps) (·.loss) fuel iter s := by
  induction fuel generalizing iter s with
  | zero => rfl
  | succ fuel ih =>
    unfold fpLoopP loopG
    simp only [ih]

theorem FPOk.sel {n k : Nat} {d : Nat → Nat → N} {s : FPState N L} (h : FPOk n k d s) : IsSel n k s.med :=
  ⟨h.medLen, h.cache.nodup, h.cache.range⟩

theorem fpLoopP_rounds (ho : OrdersBy key good) (hz : (conv (0 : N) : L) = RLoss.zero) {n k : Nat}
    {d : Nat → Nat → N} (hd : Dissim n d) (hk : 1 ≤ k) {seq : List Nat} (hseq : ∀ j ∈ seq, j < n)
    (hg : ∀ a, IsSel n k a → good (leftSum (devs L n d a))) {fuel iter : Nat} {s : FPState N L}
    (hs : FPOk n k d s) (hl : s.loss = leftSum (devs L n d s.med)) :
    ∃ c e, Descent (fun a => key (leftSum (devs L n d a))) (IsSel n k) c s.med e ∧
      (fpLoopP d seq fuel iter s).2 ≤ iter + c + 1 := by
  rw [fpLoopP_loopG]
  exact loopG_descends (I := fun s : FPState N L => FPOk n k d s ∧ s.loss = leftSum (devs L n d s.med)) ho
    (fun s h => h.1.sel) (fun s h => h.2) hg
    (fun s h => ⟨fpPassP_ok hd hk hseq h.1, fpPassP_loss hz hd hk hseq h.1 h.2⟩) ⟨hs, hl⟩

theorem devs_perm {n : Nat} {d : Nat → Nat → N} {x y : List Nat} (h : x.Perm y) : devs L n d x = devs L n d y := by
  unfold devs
  exact List.map_congr_left fun o _ => by rw [minDist_toFinset (List.toFinset_eq_of_perm _ _ h)]

/-! ## PAM and FastPAM1 -/

theorem pLoopP_rounds (ho : OrdersBy key good) (hz : (conv (0 : N) : L) = RLoss.zero) {n k : Nat}
    {d : Nat → Nat → N} (hd : Dissim n d) {scan : List Nat → List (Rec N) → L × Nat × Nat}
    (hscan : ScanSound n k d scan) (hg : ∀ a, IsSel n k a → good (leftSum (devs L n d a))) {fuel iter : Nat}
    {s : PState N L} (hs : CacheOk n d s.med s.data) (hlen : s.med.length = k)
    (hl : s.loss = leftSum (devs L n d s.med)) :
    ∃ c e, Descent (fun a => key (leftSum (devs L n d a))) (IsSel n k) c s.med e ∧
      (pLoopP d scan fuel iter s).2 ≤ iter + c + 1 := by
  induction fuel generalizing iter s with
  | zero => exact ⟨0, _, .refl _, by simp only [pLoopP]; omega⟩
  | succ fuel ih =>
    unfold pLoopP
    dsimp only
    split
    · rename_i hlt
      obtain ⟨h1, h2, h3⟩ := hscan _ _ hs hlen hlt
      have h := swapDataP_ok hd hs (hlen ▸ h1) h2 h3
      have hsum : swapSumP L (scan s.med s.data).2.2
          (swapDataP d s.med s.data (scan s.med s.data).2.1 (scan s.med s.data).2.2) =
          leftSum (devs L n d (s.med.set (scan s.med s.data).2.1 (scan s.med s.data).2.2)) := by
        rw [swapSumP, sumP_leftSum]
        exact congrArg leftSum (swapMap_devs (L := L) hz hd h (mem_set_self (hlen ▸ h1) _))
      split
      · exact ⟨0, _, .refl _, le_rfl⟩
      · rename_i hge
        have hsel : IsSel n k s.med := ⟨hlen, hs.nodup, hs.range⟩
        have hsel' : IsSel n k (s.med.set (scan s.med s.data).2.1 (scan s.med s.data).2.2) :=
          ⟨by simp [hlen], h.nodup, h.range⟩
        rw [hsum, hl, Bool.not_eq_true] at hge
        have hlt := ho _ _ (hg _ hsel') (hg _ hsel) hge
        obtain ⟨c, e, i1, i2⟩ := ih (iter := iter + 1) (s := pSwapP d s _ _
          (swapSumP L (scan s.med s.data).2.2
            (swapDataP d s.med s.data (scan s.med s.data).2.1 (scan s.med s.data).2.2))) h (by simp [pSwapP, hlen]) hsum
        exact ⟨1 + c, e, (Descent.step (.refl _) _ hsel' hlt).trans i1, by omega⟩
    · exact ⟨0, _, .refl _, le_rfl⟩

/-! ## FasterMSC, FastMSC and PAMMEDSIL -/

theorem silTerms_perm {n : Nat} {d : Nat → Nat → N} {x y : List Nat} (h : x.Perm y) :
    silTerms L n d x = silTerms L n d y := by
  unfold silTerms silTerm
  refine List.map_congr_left fun o _ => ?_
  have : sortedDist d o x = sortedDist d o y := by
    unfold sortedDist
    exact List.Perm.eq_of_pairwise (fun a b _ _ => le_antisymm)
      (List.pairwise_insertionSort _ _) (List.pairwise_insertionSort _ _)
      (((List.perm_insertionSort _ _).trans (h.map _)).trans (List.perm_insertionSort _ _).symm)
  rw [this]

theorem mscLoopP_rounds (ho : OrdersBy key good) {n : Nat} {d : Nat → Nat → N} (hd : Dissim n d) {med : List Nat}
    (hv : ValidMeds n med) (hnd : med.Nodup) (hk : 2 ≤ med.length)
    (hg : ∀ a, IsSel n med.length a → good (leftSum (silTerms L n d a))) (maxiter : Nat) :
    ∃ c e, Descent (fun a => key (leftSum (silTerms L n d a))) (IsSel n med.length) c med e ∧
      (mscLoopP d n maxiter 0 (mscInitP L d n med)).2 ≤ 0 + c + 1 := by
  refine loopG_descends (I := MSCA n med.length d) (med := fun s : MSCState N L => s.med) ho
    (fun s h => ⟨h.inv.medLen, h.inv.nodup, h.inv.medRange⟩) (fun s h => h.inv.loss) hg (fun s hs => ?_)
    (s := mscInitP L d n med) ⟨MInvA.init hd hv hnd hk, mscRemP_length _ _⟩
  refine passG_inv (MSCA n med.length d) (fun s j s' hj hs hc => ?_) hs
  exact mscCandP_A hd (by omega) hv.sizes.k_lt (List.mem_range.mp hj) hs hc

theorem mpLoop_rounds (ho : OrdersBy key good) {n : Nat} {d : Nat → Nat → N} (hd : Dissim n d) {med : List Nat}
    (hv : ValidMeds n med) (hnd : med.Nodup) (hk : 2 ≤ med.length)
    {scan : List Nat → List (Reco N) → L × Nat × Nat} (hscan : ScanMaxSound n med.length d scan)
    (hg : ∀ a, IsSel n med.length a → good (leftSum (silTerms L n d a))) (maxiter : Nat) :
    ∃ c e, Descent (fun a => key (leftSum (silTerms L n d a))) (IsSel n med.length) c med e ∧
      (loopB (mpStepP d scan) maxiter 0 (mpInitP L d n med)).2 ≤ 0 + c + 1 := by
  refine loopB_descends (I := fun s : MPState N L => MInvA n med.length d s.med s.data s.loss)
    (med := fun s : MPState N L => s.med) (loss := fun s : MPState N L => s.loss) ho
    (fun s h => ⟨h.medLen, h.nodup, h.medRange⟩) (fun s h => h.loss) hg (fun s s' hs h => ?_)
    (s := mpInitP L d n med) (MInvA.init hd hv hnd hk)
  refine ⟨(mpStepP_A hd hv.sizes.k_lt hscan hs h).2 rfl, ?_⟩
  unfold mpStepP at h
  dsimp only at h
  split at h
  · split at h
    · cases h
    · rename_i hge
      cases h
      simpa using hge
  · cases h

theorem K2DistAny.sel {n : Nat} {d : Nat → Nat → N} {s : K2State N L} (h : K2DistAny n d s) : IsSel n 2 s.med :=
  ⟨h.any.shape.medLen, h.nodup, h.any.shape.medRange⟩

theorem k2LoopP_rounds (ho : OrdersBy key good) {n : Nat} {d : Nat → Nat → N} (hd : Dissim n d)
    (hM : MonoQuot N L ∨ NoDuplicates n d) {m0 m1 : Nat} (h0 : m0 < n) (h1 : m1 < n) (hne : m0 ≠ m1)
    (hg : ∀ a, IsSel n 2 a → good (leftSum (silTerms L n d a))) (maxiter : Nat) :
    ∃ c e, Descent (fun a => key (leftSum (silTerms L n d a))) (IsSel n 2) c [m0, m1] e ∧
      (k2LoopP d n maxiter 0 (k2InitP L d n m0 m1 n)).2 ≤ 0 + c + 1 := by
  refine loopG_descends (I := K2DistAny n d) (med := fun s : K2State N L => s.med) ho
    (fun s h => h.sel) (fun s h => h.any.loss) hg (fun s hs => ?_)
    (s := k2InitP L d n m0 m1 n) ⟨m0, m1, k2InitP_dist hd h0 h1 hne n⟩
  refine passG_inv (K2DistAny n d) (fun s j s' hj hs hc => ?_) hs
  unfold k2CandP at hc
  split at hc
  · cases hc
  · rename_i hown
    dsimp only at hc
    split at hc
    · cases hc
    · cases hc
      exact hs.swap hd hM (List.mem_range.mp hj) (by simpa using hown) j

theorem fastmscK2Loop_rounds (ho : OrdersBy key good) {n : Nat} {d : Nat → Nat → N} (hd : Dissim n d)
    (hn : n ≤ u32Max) (hok : ∀ s : K2State N L, K2Any n d s → K2StepOk n 2 d s)
    (hM : MonoQuot N L ∨ NoDuplicates n d) {m0 m1 : Nat} (h0 : m0 < n) (h1 : m1 < n) (hne : m0 ≠ m1)
    (hg : ∀ a, IsSel n 2 a → good (leftSum (silTerms L n d a))) (maxiter : Nat) :
    ∃ c e, Descent (fun a => key (leftSum (silTerms L n d a))) (IsSel n 2) c [m0, m1] e ∧
      (loopB (fastmscK2StepP d n 2) maxiter 0 (k2InitP L d n m0 m1 0)).2 ≤ 0 + c + 1 := by
  refine loopB_descends (I := K2DistAny n d) (med := fun s : K2State N L => s.med)
    (loss := fun s : K2State N L => s.loss) ho
    (fun s h => h.sel) (fun s h => h.any.loss) hg (fun s s' hs h => ?_)
    (s := k2InitP L d n m0 m1 0) ⟨m0, m1, k2InitP_dist hd h0 h1 hne 0⟩
  unfold fastmscK2StepP at h
  dsimp only at h
  split at h
  · cases h
  · rename_i hlt
    have hf := hok s hs.any (by simpa using hlt)
    obtain ⟨ho, he⟩ := fastmscK2ScanP_own hf.2 hn
    have hsw := hs.swap hd hM hf.2 ho s.lastswap
    rw [← he] at hsw
    split at h
    · cases h
    · rename_i hge
      cases h
      exact ⟨hsw, rlt_not_rge (by simpa [k2SwapP] using hge)⟩

/-! ## the parallel version -/

/-- The sum of `xs` bracketed as a binary tree. -/
def shapeSum : BinaryTree Unit → List L → L
  | .nil, xs => leftSum xs
  | .node _ l r, xs => RLoss.add (shapeSum l (xs.take l.numLeaves)) (shapeSum r (xs.drop l.numLeaves))

/-- A sum with some bracketing is one of `catalan (length - 1)` sums. -/
theorem bracketSum_shape {xs : List L} {v : L} (h : BracketSum xs v) :
    ∃ t : BinaryTree Unit, t.numLeaves = xs.length ∧ shapeSum t xs = v := by
  induction h with
  | one x => exact ⟨.nil, rfl, rfl⟩
  | @join xs ys a b _ _ ih ih' =>
    obtain ⟨t, h1, h2⟩ := ih
    obtain ⟨t', h1', h2'⟩ := ih'
    refine ⟨.node () t t', by simp [BinaryTree.numLeaves, h1, h1'], ?_⟩
    rw [shapeSum, h1, List.take_left, List.drop_left, h2, h2']

theorem shapeSum_bracket {xs : List L} {t : BinaryTree Unit} (h : t.numLeaves = xs.length) :
    BracketSum xs (shapeSum t xs) := by
  induction t generalizing xs with
  | nil =>
    obtain ⟨x, rfl⟩ := List.length_eq_one_iff.mp h.symm
    exact .one x
  | node _ l r ihl ihr =>
    simp only [BinaryTree.numLeaves] at h
    have := BracketSum.join (ihl (xs := xs.take l.numLeaves) (by simp; omega))
      (ihr (xs := xs.drop l.numLeaves) (by simp; omega))
    rwa [List.take_append_drop] at this

theorem parLoopP_rounds (ho : OrdersBy key good) (hz : (conv (0 : N) : L) = RLoss.zero)
    (scF scS : Nat → Nat → Sched) {n k : Nat} {d : Nat → Nat → N} (hd : Dissim n d) (hk : 1 ≤ k) {seq : List Nat}
    (hseq : ∀ j ∈ seq, j < n) (hg : ∀ a, IsSel n k a → ∀ v, BracketSum (devs L n d a) v → good v) {fuel iter : Nat}
    {s : FPState N L} (hs : ParOk n k d s) {t : BinaryTree Unit} (ht : t.numLeaves = n)
    (hl : s.loss = shapeSum t (devs L n d s.med)) :
    ∃ c e, Descent (fun p : BinaryTree Unit × List Nat => key (shapeSum p.1 (devs L n d p.2)))
      (fun p => p.1.numLeaves = n ∧ IsSel n k p.2) c (t, s.med) e ∧
      (parLoopP scF scS d n seq fuel iter s).2 ≤ iter + c + 1 := by
  have hlen : ∀ a, (devs L n d a).length = n := fun a => by simp [devs]
  induction fuel generalizing iter s t with
  | zero => exact ⟨0, _, .refl _, by simp only [parLoopP]; omega⟩
  | succ fuel ih =>
    have h := parPassP_any (scF iter) (scS iter) hd hk hseq hs
    obtain ⟨t', ht', hl'⟩ := bracketSum_shape (h.loss hz)
    rw [hlen] at ht'
    unfold parLoopP
    dsimp only
    split
    · exact ⟨0, _, .refl _, le_rfl⟩
    · rename_i hne
      simp only [Bool.or_eq_true, not_or, Bool.not_eq_true] at hne
      have hge := hne.2
      rw [← hl', hl] at hge
      have hlt := ho _ _ (hg _ h.toFPOk.sel _ (shapeSum_bracket (by rw [ht', hlen])))
        (hg _ hs.toFPOk.sel _ (shapeSum_bracket (by rw [ht, hlen]))) hge
      obtain ⟨c, e, i1, i2⟩ := ih (iter := iter + 1) h ht' hl'.symm
      exact ⟨1 + c, e, (Descent.step (.refl _) (t', _) ⟨ht', h.toFPOk.sel⟩ hlt).trans i1, by omega⟩

theorem Descent.count_shape {T : BinaryTree Unit → List Nat → K} {n k c : Nat} {a b : BinaryTree Unit × List Nat}
    (hT : ∀ t, ∀ x y : List Nat, x.Perm y → T t x = T t y)
    (h : Descent (fun p : BinaryTree Unit × List Nat => T p.1 p.2) (fun p => p.1.numLeaves = n ∧ IsSel n k p.2) c a b)
    (ha : a.1.numLeaves = n ∧ IsSel n k a.2) : c < catalan (n - 1) * Nat.choose n k := by
  classical
  have := h.count (key := fun p => (p.1, p.2.toFinset))
    (F := BinaryTree.treesOfNumNodesEq (n - 1) ×ˢ Finset.powersetCard k (Finset.range n))
    (fun a ha => by
      rw [Finset.mem_product, Finset.mem_powersetCard, BinaryTree.mem_treesOfNumNodesEq]
      have := BinaryTree.numLeaves_eq_numNodes_succ a.1
      exact ⟨by dsimp only; omega, fun m hm => Finset.mem_range.mpr (ha.2.2.2 m (List.mem_toFinset.mp hm)),
        by rw [List.toFinset_card_of_nodup ha.2.2.1, ha.2.1]⟩)
    (fun x y hx hy e => by
      obtain ⟨e1, e2⟩ := Prod.mk.injEq .. ▸ e
      rw [e1]; exact hT _ _ _ (isSel_perm hx.2 hy.2 e2)) ha
  rwa [Finset.card_product, Finset.card_powersetCard, Finset.card_range,
    BinaryTree.treesOfNumNodesEq_card_eq_catalan] at this

/-! ## PAMSIL -/

theorem psLoopP_rounds (ho : OrdersByLe key good) {d : Nat → Nat → N} {n k : Nat}
    (hg : ∀ a : List Nat, a.length = k → (∀ m ∈ a, m < n) → good (silM L d n a)) {med assi : List Nat}
    (hv : ValidMeds n med) (hk : med.length = k) {fuel iter : Nat} {sil : L} {nSwaps : Nat}
    {r : L × List Nat × Nat × Nat} (hs : sil = silM L d n med)
    (hr : psLoopP d n k fuel iter sil med assi nSwaps = .ok r) :
    ∃ c, Descent (fun m => OrderDual.toDual (key (silM L d n m))) (fun a => a.length = k ∧ ∀ m ∈ a, m < n) c med
        r.2.1 ∧ r.2.2.2 = nSwaps + c ∧ r.2.2.1 ≤ iter + c + 1 := by
  induction fuel generalizing iter sil med assi nSwaps with
  | zero => cases hr; exact ⟨0, .refl _, rfl, by simp⟩
  | succ fuel ih =>
    unfold psLoopP at hr
    dsimp only at hr
    split at hr
    · cases hr; exact ⟨0, .refl _, rfl, by simp⟩
    · rename_i hle
      obtain ⟨-, h6⟩ := psScanP_spec (L := L) (d := d) (n := n) hk assi
      rcases h6 with e | ⟨b1, b2, b3⟩
      · rw [e] at hr
        have : setIdx med k usizeMax = .error .index := by simp [setIdx, hk]
        rw [this] at hr; cases hr
      · rw [setIdx_lt (hk ▸ b1), ok_bind] at hr
        obtain ⟨c, i1, i2, i3⟩ := ih (hv.set _ b2) (by simp [hk]) b3 hr
        rw [b3, hs, Bool.not_eq_true] at hle
        have hv' := hv.set (psScanP (L := L) d n k med assi).best.2.1 b2
        have hlt := ho _ _ (hg _ (by simp [hk]) hv'.range) (hg _ hk hv.range) hle
        have hst : Descent (fun m => OrderDual.toDual (key (silM L d n m)))
            (fun a => a.length = k ∧ ∀ m ∈ a, m < n) 1 med
            (med.set (psScanP (L := L) d n k med assi).best.2.1 (psScanP (L := L) d n k med assi).best.2.2) :=
          .step (.refl med) _ ⟨by simp [hk], hv'.range⟩ (OrderDual.toDual_lt_toDual.mpr hlt)
        exact ⟨1 + c, hst.trans i1, by omega, by omega⟩

/-- Whatever the silhouette at the start. -/
theorem psLoopP_rounds' (ho : OrdersByLe key good) {d : Nat → Nat → N} {n k : Nat}
    (hg : ∀ a : List Nat, a.length = k → (∀ m ∈ a, m < n) → good (silM L d n a)) {med assi : List Nat}
    (hv : ValidMeds n med) (hk : med.length = k) {fuel iter : Nat} {sil : L} {nSwaps : Nat}
    {r : L × List Nat × Nat × Nat} (hr : psLoopP d n k fuel iter sil med assi nSwaps = .ok r) :
    r.2.2.2 ≤ nSwaps + n ^ k ∧ r.2.2.1 ≤ iter + n ^ k + 1 := by
  cases fuel with
  | zero => cases hr; exact ⟨by simp, by dsimp only; omega⟩
  | succ fuel =>
    unfold psLoopP at hr
    dsimp only at hr
    split at hr
    · cases hr; exact ⟨by simp, by dsimp only; omega⟩
    · obtain ⟨-, h6⟩ := psScanP_spec (L := L) (d := d) (n := n) hk assi
      rcases h6 with e | ⟨b1, b2, b3⟩
      · rw [e] at hr
        have : setIdx med k usizeMax = .error .index := by simp [setIdx, hk]
        rw [this] at hr; cases hr
      · rw [setIdx_lt (hk ▸ b1), ok_bind] at hr
        obtain ⟨c, i1, i2, i3⟩ := psLoopP_rounds ho hg (hv.set _ b2) (by simp [hk]) b3 hr
        have hc := i1.count_list ⟨by simp [hk], (hv.set _ b2).range⟩
        omega

end KMedoids
