import Verif.Proofs.SilExact

/-! # The medoid silhouette -/

set_option linter.unusedSectionVars false

namespace KMedoids

open RFrom (conv)

section any
variable {N L : Type} [RDist N] [RLoss L] [RFrom N L]

/-- `twoNearest` without panics. -/
def twoNearestP (d : Nat → Nat → N) (meds : List Nat) (i : Nat) : N × N :=
  let d1 := d i (meds.getD 0 0)
  let d2 := d i (meds.getD 1 0)
  (meds.drop 2).foldl (fun (best : N × N) (m : Nat) =>
    if rlt (d i m) best.1 then (d i m, best.1) else if rlt (d i m) best.2 then (best.1, d i m) else best)
    (if rlt d1 d2 then (d1, d2) else (d2, d1))

theorem twoNearest_eq {mat : Mat N} {n : Nat} {d : Nat → Nat → N} (hm : IsMatrix mat n d) {meds : List Nat}
    (hk : 2 ≤ meds.length) (hr : ∀ m ∈ meds, m < n) {i : Nat} (hi : i < n) :
    twoNearest mat meds i = .ok (twoNearestP d meds i) := by
  match meds, hk with
  | m0 :: m1 :: ms, _ =>
    have h0 : m0 < n := hr _ (by simp)
    have h1 : m1 < n := hr _ (by simp)
    simp only [twoNearest, twoNearestP, idx, List.getElem?_cons_zero, List.getElem?_cons_succ, ok_bind,
      hm.get _ _ hi h0, hm.get _ _ hi h1, List.getD_eq_getElem?_getD, Option.getD_some]
    refine foldRes_eq' (fun s x hx => ?_) _
    have : x < n := hr _ (List.mem_of_mem_drop hx)
    simp only [hm.get _ _ hi this, ok_bind]

/-- The summand of an object. -/
def medRatioP (L : Type) [RLoss L] [RFrom N L] (b : N × N) : Option L :=
  if !RDist.isZero b.1 then some (RLoss.div (conv b.1) (conv b.2)) else none

/-- The sample of an object. -/
def medSampleP (L : Type) [RLoss L] [RFrom N L] (b : N × N) : L :=
  match medRatioP L b with
  | some s => RLoss.sub RLoss.one s
  | none => RLoss.one

/-- The sum over all objects. -/
def medSumP (L : Type) [RLoss L] [RFrom N L] (d : Nat → Nat → N) (n : Nat) (meds : List Nat) : L :=
  (List.range n).foldl (fun acc i => match medRatioP L (twoNearestP d meds i) with
    | some s => RLoss.add acc s
    | none => acc) RLoss.zero

/-- `medoid_silhouette` without panics. -/
def medoidSilhouetteP (L : Type) [RLoss L] [RFrom N L] (d : Nat → Nat → N) (n : Nat) (meds : List Nat)
    (samples : Bool) : L × List L :=
  if meds.length = 1 then (RLoss.one, List.replicate (if samples then n else 0) RLoss.one)
  else (RLoss.sub RLoss.one (RLoss.div (medSumP L d n meds) (RLoss.ofU32 (asU32 n))),
    if samples then (List.range n).map fun i => medSampleP L (twoNearestP d meds i) else [])

theorem medoidSil_fold {mat : Mat N} {n : Nat} {d : Nat → Nat → N} (hm : IsMatrix mat n d) {meds : List Nat}
    (hk : 2 ≤ meds.length) (hr : ∀ m ∈ meds, m < n) (samples : Bool) {m : Nat} (hmn : m ≤ n) :
    foldRes (medoidSilStep (L := L) mat meds samples)
      (RLoss.zero, List.replicate (if samples then n else 0) (RLoss.one : L)) (List.range m) =
    .ok (medSumP L d m meds, if samples then
      ((List.range m).map fun i => medSampleP L (twoNearestP d meds i)) ++ List.replicate (n - m) RLoss.one
      else []) := by
  have happ : ∀ {σ α : Type} (f : σ → α → Res σ) (s : σ) (xs ys : List α),
      foldRes f s (xs ++ ys) = (foldRes f s xs >>= fun s' => foldRes f s' ys) := by
    intro σ α f s xs
    induction xs generalizing s with
    | nil => intro ys; rfl
    | cons x xs ih =>
      intro ys
      simp only [List.cons_append, foldRes_cons]
      cases f s x with
      | error e => rfl
      | ok s' => simp only [ok_bind, ih]
  induction m with
  | zero => cases samples <;> simp [medSumP]
  | succ m ih =>
    rw [List.range_succ, happ, ih (by omega)]
    simp only [ok_bind, foldRes_cons, foldRes_nil, medoidSilStep, twoNearest_eq hm hk hr (show m < n by omega)]
    have hsum : medSumP L d (m + 1) meds = (match medRatioP L (twoNearestP d meds m) with
      | some s => RLoss.add (medSumP L d m meds) s
      | none => medSumP L d m meds) := by
      unfold medSumP
      rw [List.range_succ, List.foldl_append]; rfl
    rw [hsum]
    obtain ⟨e, he⟩ : ∃ e, n - m = e + 1 := ⟨n - m - 1, by omega⟩
    have he' : n - (m + 1) = e := by omega
    have hset : ∀ x : L, (((List.range m).map fun i => medSampleP L (twoNearestP d meds i)) ++
        List.replicate (n - m) RLoss.one).set m x =
        ((List.range m).map fun i => medSampleP L (twoNearestP d meds i)) ++ x :: List.replicate e RLoss.one := by
      intro x
      rw [List.set_append_right _ _ (by simp), he, List.replicate_succ]
      simp
    by_cases hz : RDist.isZero (twoNearestP d meds m).1 = true
    · cases samples
      · simp [medRatioP, hz]
      · simp [medRatioP, medSampleP, hz, he, he', List.replicate_succ]
    · cases samples
      · simp [medRatioP, hz]
      · have hlt : m < (((List.range m).map fun i => medSampleP L (twoNearestP d meds i)) ++
          List.replicate (n - m) RLoss.one).length := by simp; omega
        have hrat : medRatioP L (twoNearestP d meds m) =
            some (RLoss.div (conv (twoNearestP d meds m).1) (conv (twoNearestP d meds m).2)) := by
          simp [medRatioP, hz]
        have hsam : medSampleP L (twoNearestP d meds m) = RLoss.sub RLoss.one
            (RLoss.div (conv (twoNearestP d meds m).1) (conv (twoNearestP d meds m).2)) := by
          simp [medSampleP, hrat]
        simp only [hz, Bool.not_false, if_true, setIdx_lt hlt, ok_bind, hset, hrat, he', List.map_append,
          List.map_cons, List.map_nil, hsam, List.append_assoc, List.singleton_append]

theorem medoidSilhouette_eq {mat : Mat N} {n : Nat} {d : Nat → Nat → N} (hm : IsMatrix mat n d)
    {meds : List Nat} (hv : ValidMeds n meds) (samples : Bool) :
    medoidSilhouette L mat meds samples = .ok (medoidSilhouetteP L d n meds samples) := by
  unfold medoidSilhouette medoidSilhouetteP assertSquare
  have h1 : decide (n ≤ u32Max) = true := by simpa using hv.sizes.n_le
  have h2 : decide (meds.length ≤ n) = true := by simpa using hv.sizes.le
  simp only [hm.square, ok_bind, rassert_true, hm.len, h1, h2]
  by_cases hk1 : meds.length = 1
  · rw [if_pos hk1, if_pos hk1]
  · have hk : 2 ≤ meds.length := by have := hv.sizes.pos; omega
    rw [if_neg hk1, if_neg hk1, medoidSil_fold hm hk hv.range samples le_rfl]
    cases samples <;> simp

end any

/-! ## the two smallest -/

section two
variable {N : Type} [LinearOrder N]

/-- `a ≤ b` are the two smallest elements of `l`. -/
def TwoMin (l : List N) (a b : N) : Prop :=
  ∃ rest, l.Perm (a :: b :: rest) ∧ a ≤ b ∧ ∀ x ∈ rest, b ≤ x

theorem TwoMin.sorted {l : List N} {a b : N} (h : TwoMin l a b) :
    ∃ rest, l.insertionSort (· ≤ ·) = a :: b :: rest := by
  obtain ⟨rest, hp, hab, hr⟩ := h
  refine ⟨rest.insertionSort (· ≤ ·), ?_⟩
  refine ((List.perm_insertionSort _ _).trans (hp.trans ?_)).eq_of_pairwise' (r := (· ≤ ·))
    (List.pairwise_insertionSort _ _) ?_
  · exact (((List.perm_insertionSort (· ≤ ·) rest).symm.cons b).cons a)
  · have hmem : ∀ x ∈ rest.insertionSort (· ≤ ·), b ≤ x := fun x hx =>
      hr x ((List.perm_insertionSort (· ≤ ·) rest).mem_iff.mp hx)
    refine List.pairwise_cons.mpr ⟨fun x hx => ?_, List.pairwise_cons.mpr ⟨hmem, List.pairwise_insertionSort _ _⟩⟩
    rcases List.mem_cons.mp hx with rfl | hx
    · exact hab
    · exact le_trans hab (hmem x hx)

variable [Zero N] [RDist N] [LawfulDist N]

theorem twoNearestP_twoMin (d : Nat → Nat → N) {meds : List Nat} (hk : 2 ≤ meds.length) (i : Nat) :
    TwoMin (meds.map (d i)) (twoNearestP d meds i).1 (twoNearestP d meds i).2 := by
  match meds, hk with
  | m0 :: m1 :: ms, _ =>
    simp only [twoNearestP, List.getD_cons_zero, List.getD_cons_succ, List.drop_succ_cons, List.drop_zero]
    have := foldl_prefix (fun (pre : List Nat) (s : N × N) => TwoMin ((m0 :: m1 :: pre).map (d i)) s.1 s.2)
      (g := fun (best : N × N) (m : Nat) =>
        if rlt (d i m) best.1 then (d i m, best.1) else if rlt (d i m) best.2 then (best.1, d i m) else best)
      (xs := ms) (s := if rlt (d i m0) (d i m1) then (d i m0, d i m1) else (d i m1, d i m0)) ?_ ?_
    · exact this
    · intro pre x post s _ ⟨rest, hp, hab, hr⟩
      have hperm : ((m0 :: m1 :: (pre ++ [x])).map (d i)).Perm (d i x :: s.1 :: s.2 :: rest) := by
        have : (m0 :: m1 :: (pre ++ [x])).map (d i) = (m0 :: m1 :: pre).map (d i) ++ [d i x] := by simp
        rw [this]
        exact List.perm_append_singleton _ _ |>.trans (hp.cons _)
      simp only [rltN, decide_eq_true_eq]
      split
      · rename_i h
        refine ⟨s.2 :: rest, hperm, le_of_lt h, fun y hy => ?_⟩
        rcases List.mem_cons.mp hy with rfl | hy
        · exact hab
        · exact le_trans hab (hr y hy)
      · split
        · rename_i h1 h2
          refine ⟨s.2 :: rest, hperm.trans (List.Perm.swap _ _ _), not_lt.mp h1, fun y hy => ?_⟩
          rcases List.mem_cons.mp hy with rfl | hy
          · exact le_of_lt h2
          · exact le_trans (le_of_lt h2) (hr y hy)
        · rename_i h1 h2
          refine ⟨d i x :: rest, hperm.trans ?_, hab, fun y hy => ?_⟩
          · exact (List.Perm.swap _ _ _).trans ((List.Perm.swap _ _ _).cons _)
          · rcases List.mem_cons.mp hy with rfl | hy
            · exact not_lt.mp h2
            · exact hr y hy
    · simp only [rltN, decide_eq_true_eq]
      split
      · rename_i h; exact ⟨[], by simp, le_of_lt h, by simp⟩
      · rename_i h; exact ⟨[], by simpa using List.Perm.swap _ _ _, not_lt.mp h, by simp⟩

theorem TwoMin.unique {l : List N} {a b a' b' : N} (h : TwoMin l a b) (h' : TwoMin l a' b') :
    a = a' ∧ b = b' := by
  obtain ⟨r, hr⟩ := h.sorted
  obtain ⟨r', hr'⟩ := h'.sorted
  rw [hr] at hr'
  simp at hr'
  exact ⟨hr'.1, hr'.2.1⟩

theorem TwoMin.mem {l : List N} {a b : N} (h : TwoMin l a b) : a ∈ l ∧ b ∈ l ∧ a ≤ b := by
  obtain ⟨rest, hp, hab, -⟩ := h
  exact ⟨hp.mem_iff.mpr (by simp), hp.mem_iff.mpr (by simp), hab⟩

end two

section exact
variable {N L : Type} [LinearOrder N] [Zero N] [RDist N] [LawfulDist N]
variable [Field L] [LinearOrder L] [IsStrictOrderedRing L] [RLoss L] [LawfulField L] [RFrom N L]

/-- The medoid silhouette of an object from its two smallest distances. -/
theorem medSil1_of {d : Nat → Nat → N} {med : List Nat} {o : Nat} {a b : N}
    (h : TwoMin (med.map (d o)) a b) :
    medSil1 (conv : N → L) d med o = if a = 0 then 1 else 1 - conv a / conv b := by
  obtain ⟨r, hr⟩ := h.sorted
  rw [medSil1, sortedDist, hr]

theorem isZeroN (a : N) : RDist.isZero a = decide (a = 0) := LawfulDist.isZero_eq a

theorem conv_ne_zero [LawfulFrom N L] {a : N} (h : a ≠ 0) : (conv a : L) ≠ 0 := by
  rw [← LawfulFrom.map_zero (N := N)]
  exact fun e => h ((LawfulFrom.strictMono (N := N) (L := L)).injective e)

variable [LawfulFrom N L]

theorem medSampleP_eq {d : Nat → Nat → N} {meds : List Nat} (hk : 2 ≤ meds.length) {i : Nat}
    (hnn : ∀ m ∈ meds, 0 ≤ d i m) :
    medSampleP L (twoNearestP d meds i) = medSil1 (conv : N → L) d meds i := by
  have ht := twoNearestP_twoMin d hk i
  rw [medSil1_of ht, medSampleP, medRatioP, isZeroN]
  by_cases h : (twoNearestP d meds i).1 = 0
  · simp [h, oneL]
  · obtain ⟨ha, -, hab⟩ := ht.mem
    obtain ⟨m, hm, e⟩ := List.mem_map.mp ha
    have h0 : 0 < (twoNearestP d meds i).2 :=
      lt_of_lt_of_le (lt_of_le_of_ne (e ▸ hnn m hm) (Ne.symm h)) hab
    simp [h, subL, oneL, divL _ (conv_ne_zero (L := L) h0.ne')]

theorem medSumP_eq {n : Nat} {d : Nat → Nat → N} {meds : List Nat} (hk : 2 ≤ meds.length)
    (hnn : ∀ i, i < n → ∀ m ∈ meds, 0 ≤ d i m) :
    medSumP L d n meds = ((List.range n).map fun i => 1 - medSil1 (conv : N → L) d meds i).sum := by
  rw [medSumP, foldl_add_sum (f := fun i => 1 - medSil1 (conv : N → L) d meds i), zeroL, zero_add]
  intro acc i hi
  rw [← medSampleP_eq hk (hnn i (List.mem_range.mp hi))]
  unfold medSampleP
  cases medRatioP L (twoNearestP d meds i) with
  | none => simp [oneL]
  | some s => simp [oneL, addL, subL]

theorem mean_one_sub {n : Nat} (hn : 0 < n) (f : Nat → L) :
    1 - ((List.range n).map fun i => 1 - f i).sum / (n : L) = mean ((List.range n).map f) := by
  have h0 : (n : L) ≠ 0 := by exact_mod_cast (by omega : n ≠ 0)
  rw [mean, sum_map_sub, List.length_map, List.length_range]
  have : ((List.range n).map fun _ => (1 : L)).sum = n := by simp
  rw [this, sub_div, div_self h0]; abel

theorem medoidSilhouetteP_eq {n : Nat} {d : Nat → Nat → N} {meds : List Nat} (hk : 2 ≤ meds.length)
    (hn : 0 < n) (hu : n ≤ u32Max) (hnn : ∀ i, i < n → ∀ m ∈ meds, 0 ≤ d i m) (samples : Bool) :
    medoidSilhouetteP L d n meds samples = (medSil (conv : N → L) n d meds,
      if samples then (List.range n).map (medSil1 (conv : N → L) d meds) else []) := by
  rw [medoidSilhouetteP, if_neg (by omega), medSumP_eq hk hnn, subL, oneL, ofU32L, asU32_le hu,
    divL _ (by exact_mod_cast hn.ne'), mean_one_sub hn, medSil]
  congr 1
  cases samples
  · rfl
  · simp only [if_true]
    exact List.map_congr_left fun i hi => medSampleP_eq hk (hnn i (List.mem_range.mp hi))

theorem medSil1_range {d : Nat → Nat → N} {meds : List Nat} (hk : 2 ≤ meds.length) {o : Nat}
    (hnn : ∀ m ∈ meds, 0 ≤ d o m) :
    0 ≤ medSil1 (conv : N → L) d meds o ∧ medSil1 (conv : N → L) d meds o ≤ 1 := by
  have h := twoNearestP_twoMin d hk o
  rw [medSil1_of h]
  obtain ⟨ha, hb, hab⟩ := h.mem
  generalize (twoNearestP d meds o).1 = a at *
  generalize (twoNearestP d meds o).2 = b at *
  obtain ⟨m, hm, rfl⟩ := List.mem_map.mp ha
  split
  · constructor <;> norm_num
  · rename_i h0
    have ha0 : 0 < d o m := lt_of_le_of_ne (hnn m hm) (Ne.symm h0)
    have h1 : (0 : L) < conv (d o m) := by
      rw [← LawfulFrom.map_zero (N := N)]; exact LawfulFrom.strictMono ha0
    have h2 : (conv (d o m) : L) ≤ conv b := (LawfulFrom.strictMono (N := N) (L := L)).monotone hab
    have h3 : (0 : L) < conv b := lt_of_lt_of_le h1 h2
    have h4 : (conv (d o m) : L) / conv b ≤ 1 := by rw [div_le_iff₀ h3]; linarith
    have h5 : 0 ≤ (conv (d o m) : L) / conv b := div_nonneg h1.le h3.le
    constructor <;> linarith

end exact

end KMedoids
