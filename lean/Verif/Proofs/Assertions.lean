import Verif.Model.Assertions
import Verif.Proofs.Build
import Verif.Proofs.ParAny
import Verif.Proofs.MscK2
import Verif.Proofs.PmsBuild

/-!
# The checks of the feature `assertions` pass

Level 2: distances are linearly ordered, nothing (or only that zero equals itself) is assumed about the
loss type. The medoids need not be distinct.
-/

set_option linter.unusedSectionVars false

namespace KMedoids

variable {N : Type} [LinearOrder N] [Zero N] [RDist N] [LawfulDist N]

theorem rleN (a b : N) : rle a b = decide (a ≤ b) := by
  rw [Bool.eq_iff_iff]
  simp [rle, LawfulDist.pcmp_eq, compare_lt_iff_lt, le_iff_lt_or_eq]

/-- `f m` is the distance to medoid number `m`; what is checked of a record, among the first `p` medoids. -/
structure CheckedRec (p : Nat) (f : Nat → N) (r : Rec N) : Prop where
  near_lt : r.near.i < p
  near_d : f r.near.i = r.near.d
  seco_lt : r.seco.i < p
  seco_d : f r.seco.i = r.seco.d
  le : r.near.d ≤ r.seco.d

theorem initRecP_checked {n : Nat} {d : Nat → Nat → N} (hd : Dissim n d) {med : List Nat}
    (hv : ValidMeds n med) (hk : 2 ≤ med.length) {o : Nat} (ho : o < n) :
    CheckedRec med.length (medDist d med o) (initRecP d med o) := by
  have := foldl_zipIdx_prefix (fun p r => (p = 1 ∧ r.near.i = 0 ∧ medDist d med o 0 = r.near.d ∧
      r.seco.i = u32Max) ∨ CheckedRec p (medDist d med o) r) (g := initStepP d o)
    (xs := med) (s := ⟨⟨0, d o (med.headD 0)⟩, ⟨u32Max, RDist.zero⟩⟩) 1
    (fun i x s hi hx hI => ?_) (by omega) (Or.inl ⟨rfl, rfl, ?_, rfl⟩)
  · rcases this with ⟨h, _⟩ | h
    · omega
    · exact h
  · right
    have hlt := (List.getElem?_eq_some_iff.mp hx).1
    have hu : i < u32Max := lt_trans hlt hv.sizes.k_lt
    have hnear : s.near.i < i ∧ medDist d med o s.near.i = s.near.d := by
      rcases hI with ⟨h1, h2, h3, h4⟩ | h
      · exact ⟨by omega, by rw [h2]; exact h3⟩
      · exact ⟨h.near_lt, h.near_d⟩
    have hnn : 0 ≤ s.near.d := by
      rw [← hnear.2]; exact medDist_nonneg hd hv.range ho (by omega)
    unfold initStepP
    simp only [rltN]
    by_cases h1 : d o x < s.near.d ∨ o = x
    · rw [if_pos (by simpa using h1)]
      refine ⟨by dsimp only; omega, medDist_get hx, by dsimp only; omega, hnear.2, ?_⟩
      dsimp only
      rcases h1 with h1 | h1
      · exact le_of_lt h1
      · rw [← h1, hd.diag o ho]; exact hnn
    · rw [if_neg (by simpa using h1)]
      rw [not_or, not_lt] at h1
      by_cases h2 : s.seco.i = u32Max ∨ d o x < s.seco.d
      · rw [if_pos (by simpa using h2)]
        exact ⟨by dsimp only; omega, hnear.2, by dsimp only; omega, medDist_get hx, h1.1⟩
      · rw [if_neg (by simpa using h2)]
        rcases hI with ⟨-, -, -, h4⟩ | h
        · exact absurd (.inl h4) h2
        · exact ⟨by have := h.near_lt; omega, h.near_d, by have := h.seco_lt; omega, h.seco_d, h.le⟩
  · cases med with
    | nil => simp at hk
    | cons a t => simp [medDist]

theorem foldRes_unit {α : Type} {f : α → Res Unit} {xs : List α} (h : ∀ x ∈ xs, f x = .ok ()) :
    foldRes (fun (_ : Unit) x => f x) () xs = .ok () :=
  foldRes_eq' (f := fun (_ : Unit) x => f x) (g := fun _ _ => ()) (fun _ x hx => h x hx) ()

theorem medLookup {mat : Mat N} {n : Nat} {d : Nat → Nat → N} (hm : IsMatrix mat n d) {med : List Nat}
    (hr : ∀ m ∈ med, m < n) {o : Nat} (ho : o < n) {m : Nat} (hlt : m < med.length) {x : N}
    (hx : medDist d med o m = x) : ∃ c, idx med m = .ok c ∧ mat.get o c = .ok x := by
  refine ⟨med[m], idx_lt hlt, ?_⟩
  rw [hm.get _ _ ho (hr _ (List.getElem_mem hlt)), ← hx, medDist_get (List.getElem?_eq_getElem hlt)]

/-- The check passes on the cache made by `initial_assignment`. -/
theorem debugAssertAssignment_ok {mat : Mat N} {n : Nat} {d : Nat → Nat → N} (hm : IsMatrix mat n d)
    (hd : Dissim n d) {med : List Nat} (hv : ValidMeds n med) (hk : 2 ≤ med.length) :
    debugAssertAssignment mat med (initDataP d n med) = .ok () := by
  refine foldRes_unit fun o ho => ?_
  rw [hm.len, List.mem_range] at ho
  have h := initRecP_checked hd hv hk ho
  obtain ⟨c1, a1, b1⟩ := medLookup hm hv.range ho h.near_lt h.near_d
  obtain ⟨c2, a2, b2⟩ := medLookup hm hv.range ho h.seco_lt h.seco_d
  have hi : idx (initDataP d n med) o = .ok (initRecP d med o) := idx_of_get (by simp [initDataP, ho])
  unfold debugAssertRec
  simp only [hi, ok_bind, a1, b1, a2, b2, reqN, rleN, decide_true, rassert_true, h.le]

/-- The check passes on the cache of the medoid silhouette functions with at least three medoids. -/
theorem debugAssertAssignmentTh_ok {mat : Mat N} {n : Nat} {d : Nat → Nat → N} (hm : IsMatrix mat n d)
    (hd : Dissim n d) {med : List Nat} (hv : ValidMeds n med) (hk : 3 ≤ med.length) :
    debugAssertAssignmentTh mat med (mscInitDataP d n med) = .ok () := by
  refine foldRes_unit fun o ho => ?_
  rw [hm.len, List.mem_range] at ho
  have h := mscInitRecP_top3 hd hv (by omega) ho
  obtain ⟨t1, t2, -, -, t3, -⟩ : _ := h.third.resolve_right (by omega)
  obtain ⟨c1, a1, b1⟩ := medLookup hm hv.range ho h.near_lt h.near_d
  obtain ⟨c2, a2, b2⟩ := medLookup hm hv.range ho h.seco_lt h.seco_d
  obtain ⟨c3, a3, b3⟩ := medLookup hm hv.range ho t1 t2
  have hi : idx (mscInitDataP d n med) o = .ok (mscInitRecP d med o) :=
    idx_of_get (by simp [mscInitDataP, ho])
  unfold debugAssertRecTh
  simp only [hi, ok_bind, a1, b1, a2, b2, a3, b3, reqN, rleN, decide_true, rassert_true, h.le, t3]

/-- With two medoids the check reads past the end of the medoids: the third nearest is marked
`u32::MAX`. -/
theorem debugAssertAssignmentTh_two {mat : Mat N} {n : Nat} {d : Nat → Nat → N} (hm : IsMatrix mat n d)
    (hd : Dissim n d) {med : List Nat} (hv : ValidMeds n med) (hk : med.length = 2) :
    debugAssertAssignmentTh mat med (mscInitDataP d n med) = .error .index := by
  have hn : 0 < n := by have := hv.sizes.le; omega
  have h := mscInitRecP_top3 hd hv (by omega) hn
  have ht : (mscInitRecP d med 0).third.i = u32Max := by
    rcases h.third with t | t
    · have := h.near_lt; have := h.seco_lt; have := h.ne; omega
    · exact t.2
  obtain ⟨c1, a1, b1⟩ := medLookup hm hv.range hn h.near_lt h.near_d
  obtain ⟨c2, a2, b2⟩ := medLookup hm hv.range hn h.seco_lt h.seco_d
  have hi : idx (mscInitDataP d n med) 0 = .ok (mscInitRecP d med 0) :=
    idx_of_get (by simp [mscInitDataP, hn])
  have hx : idx med u32Max = .error .index := by
    have : med[u32Max]? = none := List.getElem?_eq_none (by rw [hk]; decide)
    simp [idx, this]
  have hr : debugAssertRecTh mat med (mscInitDataP d n med) 0 = .error .index := by
    unfold debugAssertRecTh
    simp only [hi, ok_bind, a1, b1, a2, b2, reqN, decide_true, rassert_true, ht, hx]
    rfl
  obtain ⟨m, rfl⟩ : ∃ m, n = m + 1 := ⟨n - 1, by omega⟩
  unfold debugAssertAssignmentTh
  rw [hm.len, List.range_succ_eq_map]
  simp only [foldRes, hr]
  rfl

/-! ## BUILD -/

variable {L : Type} [RLoss L] [RFrom N L]

theorem buildLoopP_data {n k : Nat} {d : Nat → Nat → N} (hd : Dissim n d) {cnt : Nat}
    {meds : List Nat} (hne : meds ≠ []) (hn : 0 < n) (loss : L) :
    let r := buildLoopP d n k (List.range' meds.length cnt) meds (initDataP d n meds) loss
    r.2.1 = initDataP d n r.1 := by
  induction cnt generalizing meds loss with
  | zero => rfl
  | succ cnt ih =>
    rw [List.range'_succ]
    unfold buildLoopP
    dsimp only
    split
    · rfl
    · rw [buildData_eq hd hne (argminP_lt _ k hn)]
      have := ih (meds := meds ++ [(argminP (buildSumP L d ((initDataP d n meds).map (·.near.d))) n k).2])
        (by simp) (buildLoss L (argminP (buildSumP L d ((initDataP d n meds).map (·.near.d))) n k).2
          (initDataP d n (meds ++ [(argminP (buildSumP L d ((initDataP d n meds).map (·.near.d))) n k).2])))
      simpa only [List.length_append, List.length_singleton] using this

theorem buildP_data {n k : Nat} {d : Nat → Nat → N} (hd : Dissim n d) (hs : Sizes n k) :
    (buildP L d n k).2.1 = initDataP d n (buildP L d n k).1 := by
  have hn : 0 < n := by have := hs.pos; have := hs.le; omega
  exact buildLoopP_data (k := k) hd (cnt := k - 1) (meds := [(argminP (buildFirstSumP L d n) n k).2]) (by simp) hn
    (argminP (buildFirstSumP L d n) n k).1

theorem pmsBuildLoopP_data [SaneZero L] {n k : Nat} {d : Nat → Nat → N} (hd : Dissim n d) {cnt : Nat}
    {meds : List Nat} (hne : meds ≠ []) (loss : L) :
    let r := pmsBuildLoopP d n k (List.range' meds.length cnt) meds (mscInitDataP d n meds) loss
    r.2.1 = mscInitDataP d n r.1 := by
  induction cnt generalizing meds loss with
  | zero => rfl
  | succ cnt ih =>
    rw [List.range'_succ]
    unfold pmsBuildLoopP
    dsimp only
    split
    · rfl
    · rename_i hge
      have hc : (argmin1P (buildSumP L d ((mscInitDataP d n meds).map (·.near.d))) n k).2 < n := by
        rcases argmin1P_lt (buildSumP L d ((mscInitDataP d n meds).map (·.near.d))) n k with e | h
        · exfalso; apply hge; rw [e]; simp [rge, SaneZero.pcmp_zero]
        · exact h.2
      rw [pmsBuildData_eq hd hne hc]
      have := ih (meds := meds ++ [(argmin1P (buildSumP L d ((mscInitDataP d n meds).map (·.near.d))) n k).2])
        (by simp) (pmsBuildLoss L
          (mscInitDataP d n (meds ++ [(argmin1P (buildSumP L d ((mscInitDataP d n meds).map (·.near.d))) n k).2])))
      simpa only [List.length_append, List.length_singleton] using this

theorem pmsBuildP_data [SaneZero L] {n k : Nat} {d : Nat → Nat → N} (hd : Dissim n d) :
    (pmsBuildP L d n k).2.1 = mscInitDataP d n (pmsBuildP L d n k).1 :=
  pmsBuildLoopP_data (k := k) hd (cnt := k - 1) (meds := [(argminP (buildFirstSumP L d n) n k).2]) (by simp)
    (argminP (buildFirstSumP L d n) n k).1

end KMedoids
