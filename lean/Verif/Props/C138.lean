import Verif.Props.C61
import Verif.Props.C97
import Verif.Props.C29_C35
import Verif.Props.C36_C38
import Verif.Props.C18_C23
import Verif.Props.C17

/-!
# C138: continuing with more medoids

To try one number of clusters after the other, one can add medoids to the last result. For the PAM family the loss then
decreases, for the medoid silhouette it can become worse with every choice of the object added.
-/

set_option linter.unusedSectionVars false

namespace KMedoids

open RFrom (conv)

section exact
variable {N L : Type} [LinearOrder N] [Zero N] [RDist N] [LawfulDist N]
variable [AddCommGroup L] [LinearOrder L] [IsOrderedAddMonoid L] [RLoss L] [LawfulLoss L]
variable [RFrom N L] [LawfulFrom N L]
variable {n : Nat} {d : Nat → Nat → N} {A B : List Nat}

theorem minDist_more (hA : A ≠ []) (o : Nat) : minDist d o (A ++ B) ≤ minDist d o A := by
  obtain ⟨⟨c, hc, e⟩, -⟩ := minDist_spec d o A hA
  rw [e]
  exact (minDist_spec d o (A ++ B) (by simp [hA])).2 c (List.mem_append.mpr (.inl hc))

theorem totalDev_more (hA : A ≠ []) : totalDev (conv : N → L) n d (A ++ B) ≤ totalDev (conv : N → L) n d A := by
  rw [totalDev_eq_sum, totalDev_eq_sum]
  exact Finset.sum_le_sum fun o _ => (LawfulFrom.strictMono (N := N) (L := L)).monotone (minDist_more hA o)

/-- An added medoid that is not a copy of an old one. -/
theorem totalDev_more_lt (hd : Dissim n d) (hA : A ≠ []) (hr : ∀ m ∈ A, m < n) {c : Nat} (hc : c ∈ B) (hcn : c < n) (hc0 : ∀ m ∈ A, d c m ≠ 0) :
    totalDev (conv : N → L) n d (A ++ B) < totalDev (conv : N → L) n d A := by
  rw [totalDev_eq_sum, totalDev_eq_sum]
  refine Finset.sum_lt_sum (fun o _ => (LawfulFrom.strictMono (N := N) (L := L)).monotone (minDist_more hA o))
    ⟨c, Finset.mem_range.mpr hcn, LawfulFrom.strictMono ?_⟩
  obtain ⟨⟨m, hm, e⟩, -⟩ := minDist_spec d c A hA
  rw [e]
  refine lt_of_le_of_lt ((minDist_spec d c (A ++ B) (by simp [hA])).2 c (List.mem_append.mpr (.inr hc))) ?_
  rw [hd.diag c hcn]
  exact lt_of_le_of_ne (hd.nonneg c m hcn (hr m hm)) (hc0 m hm).symm

/-- **C138.** Medoids are added to the result of a method of the PAM family, and any method of the family is run on. The loss is
not larger, and if one of the added objects has no copy among the medoids, it is smaller. -/
theorem C138_more_medoids {mat : Mat N} (hm : IsMatrix mat n d) (hd : Dissim n d) {med : List Nat} (hv : ValidMeds n med) (hnd : med.Nodup)
    (hsym : med.length = 1 → Symm n d) {maxiter maxiter' : Nat} {r r' : SwapResult L} (hr : IsPamRun mat n med maxiter r)
    {more : List Nat} (hv' : ValidMeds n (r.med ++ more)) (hnd' : (r.med ++ more).Nodup) (hr' : IsPamRun mat n (r.med ++ more) maxiter' r') :
    r'.loss ≤ r.loss ∧ ((∃ c ∈ more, ∀ m ∈ r.med, d c m ≠ 0) → r'.loss < r.loss) := by
  have h := hr.outcome hm hd hv hnd hsym
  have hl : r.med.length = med.length := h.chain.length
  have hne : r.med ≠ [] := List.ne_nil_of_length_pos (by have := hv.sizes.pos; omega)
  have h' := hr'.outcome hm hd hv' hnd' fun q => hsym (by
    have := hv.sizes.pos
    rw [List.length_append] at q
    omega)
  have hle := h'.chain.le
  rw [h.loss, h'.loss]
  refine ⟨hle.trans (totalDev_more hne), ?_⟩
  rintro ⟨c, hc, h0⟩
  exact lt_of_le_of_lt hle (totalDev_more_lt hd hne (fun m hm => hv'.range m (List.mem_append.mpr (.inl hm))) hc
    (hv'.range c (List.mem_append.mpr (.inr hc))) h0)

/-- A run of one of the methods that minimise the total deviation from given medoids: loss and medoids returned. -/
inductive IsDevRun (mat : Mat N) (n : Nat) (med : List Nat) : L → List Nat → Prop
  | pam {maxiter : Nat} {r : SwapResult L} : IsPamRun mat n med maxiter r → IsDevRun mat n med r.loss r.med
  | par {maxiter : Nat} {r : SwapResult L} {seq : List Nat} (sc0 : Sched) {scF scS : Nat → Nat → Sched} :
      (∀ i j, (scF i j).Ok) → seq.Perm (List.range n) → parFasterpam L sc0 scF scS mat med maxiter seq = .ok r →
      IsDevRun mat n med r.loss r.med
  | alternating {maxiter : Nat} {r : AltResult L} : alternating L mat med maxiter = .ok r → IsDevRun mat n med r.loss r.med

theorem IsDevRun.spec {mat : Mat N} (hm : IsMatrix mat n d) (hd : Dissim n d) (hsym : Symm n d) {med : List Nat} (hv : ValidMeds n med)
    (hnd : med.Nodup) {loss : L} {out : List Nat} (h : IsDevRun mat n med loss out) :
    loss = totalDev (conv : N → L) n d out ∧ loss ≤ totalDev (conv : N → L) n d med ∧ out.length = med.length := by
  cases h with
  | pam h =>
    have h := h.outcome hm hd hv hnd fun _ => hsym
    exact ⟨h.loss, by rw [h.loss]; exact h.chain.le, h.chain.length⟩
  | par sc0 hF hs h =>
    rw [(C17_par_fasterpam sc0 hF hm hd hv hnd _ fun j hj => List.mem_range.mp (hs.mem_iff.mp hj)).1] at h
    have h := IsPamRun.outcome hm hd hv hnd (fun _ => hsym) (.inr (.inl ⟨_, hs, h⟩))
    exact ⟨h.loss, by rw [h.loss]; exact h.chain.le, h.chain.length⟩
  | alternating h =>
    obtain ⟨r', h', hw⟩ := C04_alternating (L := L) hm hv _
    rw [h] at h'
    cases h'
    exact ⟨C08_alternating hm hd hv hnd _ h, ((C23_alternating hm hd hv hnd _ h).1 hsym).1, hw.medLen⟩

/-- **C138, any method, symmetric distances.** Also with `par_fasterpam` (any schedule) and `alternating`, in any combination. -/
theorem C138_any_method {mat : Mat N} (hm : IsMatrix mat n d) (hd : Dissim n d) (hsym : Symm n d) {med : List Nat} (hv : ValidMeds n med)
    (hnd : med.Nodup) {loss loss' : L} {out out' : List Nat} (h : IsDevRun mat n med loss out)
    {more : List Nat} (hv' : ValidMeds n (out ++ more)) (hnd' : (out ++ more).Nodup) (h' : IsDevRun mat n (out ++ more) loss' out') :
    loss' ≤ loss ∧ ((∃ c ∈ more, ∀ m ∈ out, d c m ≠ 0) → loss' < loss) := by
  obtain ⟨e, -, hl⟩ := h.spec hm hd hsym hv hnd
  obtain ⟨-, hle, -⟩ := h'.spec hm hd hsym hv' hnd'
  have hne : out ≠ [] := List.ne_nil_of_length_pos (by have := hv.sizes.pos; omega)
  rw [e]
  refine ⟨hle.trans (totalDev_more hne), ?_⟩
  rintro ⟨c, hc, h0⟩
  exact lt_of_le_of_lt hle (totalDev_more_lt hd hne (fun m hm => hv'.range m (List.mem_append.mpr (.inl hm))) hc
    (hv'.range c (List.mem_append.mpr (.inr hc))) h0)

end exact

/-! ## not so for the medoid silhouette -/

/-- Two groups of four objects. -/
def twoGroups : List ℕ := [0, 1, 2, 1, 100, 101, 102, 101]

/-- `fastermsc` finds two medoids, and whatever object is added, with three medoids its result is worse. -/
theorem C138_msc_negation :
    (fastermsc ℚ (fnMat 8 (lineD twoGroups)) [0, 1] 9).map (fun r => (r.loss, r.med)) = .ok (9949 / 9999, [5, 1]) ∧
    (∀ c < 8, (fastermsc ℚ (fnMat 8 (lineD twoGroups)) [5, 1, c] 9).map (·.loss) = .ok (149585 / 159984)) ∧
    (149585 / 159984 : ℚ) < 9949 / 9999 := by
  decide +kernel

/-- The same with `fasterpam`: all hypotheses of `C138_more_medoids` hold, with `more = [4]`. -/
example : (fasterpam ℚ (fnMat 8 (lineD twoGroups)) [0, 1] 9).map (fun r => (r.loss, r.med)) = .ok (4, [5, 1]) ∧
    (fasterpam ℚ (fnMat 8 (lineD twoGroups)) [5, 1, 4] 9).map (fun r => (r.loss, r.med)) = .ok (3, [5, 1, 4]) ∧
    (∃ c ∈ [4], ∀ m ∈ [5, 1], lineD twoGroups c m ≠ 0) := by
  decide +kernel

/-- `fasterpam`, then `alternating`. -/
example : (alternating ℚ (fnMat 8 (lineD twoGroups)) [5, 1, 4] 9).map (fun r => (r.loss, r.med)) = .ok (3, [5, 1, 4]) := by
  decide +kernel

end KMedoids
