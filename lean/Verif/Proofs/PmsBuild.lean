import Verif.Proofs.PureMsc2
import Verif.Proofs.Build
import Verif.Proofs.MscLoops
import Verif.Proofs.PamSilExact

/-! # BUILD of PAMMEDSIL -/

set_option linter.unusedSectionVars false

namespace KMedoids

open RFrom (conv)

section any
variable {N L : Type} [RDist N] [RLoss L] [RFrom N L]

/-- Argmin over the objects `1, …, n-1` (object 0 is skipped), starting from `(0, k)`. -/
def argmin1P (f : Nat → L) (n k : Nat) : L × Nat :=
  ((List.range n).drop 1).foldl (fun (best : L × Nat) (i : Nat) =>
    if i == 0 || rlt (f i) best.1 then (f i, i) else best) (RLoss.zero, k)

theorem argmin1P_lt (f : Nat → L) (n k : Nat) :
    argmin1P f n k = (RLoss.zero, k) ∨ (1 ≤ (argmin1P f n k).2 ∧ (argmin1P f n k).2 < n) := by
  refine foldl_inv (fun b : L × Nat => b = (RLoss.zero, k) ∨ 1 ≤ b.2 ∧ b.2 < n) (fun b i hi hb => ?_) (.inl rfl)
  rw [drop_one_range, List.mem_range'_1] at hi
  split
  · right; dsimp only; omega
  · exact hb

theorem buildSum_eq {mat : Mat N} {n : Nat} {d : Nat → Nat → N} (hm : IsMatrix mat n d)
    {near : List N} (hl : near.length = n) {i : Nat} (hi : i < n) :
    buildSum L mat near i = .ok (buildSumP L d near i) := by
  have hil : i < near.length := hl ▸ hi
  have hd : near.getD i RDist.zero = near[i] := by simp [hil]
  unfold buildSum buildSumP
  simp only [idx_lt hil, ok_bind, hd]
  refine foldRes_eq' (fun s p hp => ?_) _
  by_cases h : p.2 ≠ i
  · simp only [if_pos h, hm.get p.2 i (hl ▸ mem_zipIdx_lt hp) hi, ok_bind]
  · simp only [if_neg h]

theorem pmsBuildNext_eq {mat : Mat N} {n : Nat} {d : Nat → Nat → N} (hm : IsMatrix mat n d)
    {near : List N} (hl : near.length = n) (k : Nat) :
    pmsBuildNext L mat near k = .ok (argmin1P (buildSumP L d near) n k) := by
  unfold pmsBuildNext argmin1P
  rw [hl]
  refine foldRes_eq' (fun b i hi => ?_) _
  have hi := List.mem_range.mp (List.mem_of_mem_drop hi)
  simp only [buildSum_eq hm hl hi, ok_bind]

/-- pure `pmsBuildUpdateRec` -/
def pmsBuildRecP (d : Nat → Nat → N) (l c : Nat) (p : Reco N × Nat) : Reco N :=
  if p.2 = c then { near := ⟨l, RDist.zero⟩, seco := p.1.near, third := p.1.seco }
  else if rlt (d p.2 c) p.1.near.d then { near := ⟨l, d p.2 c⟩, seco := p.1.near, third := p.1.seco }
  else if p.1.seco.i == u32Max || rlt (d p.2 c) p.1.seco.d then
    { p.1 with seco := ⟨l, d p.2 c⟩, third := p.1.seco }
  else if p.1.third.i == u32Max || rlt (d p.2 c) p.1.third.d then { p.1 with third := ⟨l, d p.2 c⟩ }
  else p.1

theorem pmsBuildUpdate_eq {mat : Mat N} {n : Nat} {d : Nat → Nat → N} (hm : IsMatrix mat n d)
    {data : List (Reco N)} (hl : data.length = n) {l c : Nat} (hlu : l < u32Max) (hc : c < n) :
    mapRes (pmsBuildUpdateRec mat l c) data.zipIdx = .ok (data.zipIdx.map (pmsBuildRecP d l c)) := by
  refine mapRes_eq fun p hp => ?_
  unfold pmsBuildUpdateRec pmsBuildRecP
  simp only [DistancePair.new, asU32_lt hlu]
  by_cases h : p.2 = c
  · simp [h]
  · simp only [h, if_false, hm.get _ _ (hl ▸ mem_zipIdx_lt hp) hc, ok_bind]
    split
    · rfl
    · split
      · rfl
      · split <;> rfl

/-- pure `pmsBuildLoop` -/
def pmsBuildLoopP (d : Nat → Nat → N) (n k : Nat) :
    List Nat → List Nat → List (Reco N) → L → List Nat × List (Reco N) × L
  | [], meds, data, loss => (meds, data, loss)
  | l :: ls, meds, data, loss =>
    let best := argmin1P (buildSumP L d (data.map (·.near.d))) n k
    if rge best.1 RLoss.zero then (meds, data, loss)
    else
      let data := data.zipIdx.map (pmsBuildRecP d l best.2)
      pmsBuildLoopP d n k ls (meds ++ [best.2]) data (pmsBuildLoss L data)

/-- Sizes and indexes during BUILD. -/
structure MBShape (n : Nat) (meds : List Nat) (data : List (Reco N)) : Prop where
  medRange : ∀ m ∈ meds, m < n
  pos : 0 < meds.length
  dataLen : data.length = n
  near : ∀ r ∈ data, r.near.i < meds.length
  seco : ∀ r ∈ data, r.seco.i < meds.length ∨ r.seco.i = u32Max ∧ meds.length = 1
  third : ∀ r ∈ data, r.third.i < meds.length ∨ r.third.i = u32Max

theorem MBShape.shape {n : Nat} {meds : List Nat} {data : List (Reco N)} (h : MBShape n meds data)
    (hk : 2 ≤ meds.length) : MShape n meds.length meds data := by
  refine ⟨rfl, h.medRange, h.dataLen, fun r hr => ⟨h.near r hr, ?_, h.third r hr⟩⟩
  rcases h.seco r hr with h | h
  · exact h
  · omega

theorem pmsBuildRecP_shape {n : Nat} {d : Nat → Nat → N} {meds : List Nat} {data : List (Reco N)}
    (hs : MBShape n meds data) {c : Nat} (hc : c < n) :
    MBShape n (meds ++ [c]) (data.zipIdx.map (pmsBuildRecP d meds.length c)) := by
  have key : ∀ r ∈ data.zipIdx.map (pmsBuildRecP d meds.length c), r.near.i < meds.length + 1 ∧
      r.seco.i < meds.length + 1 ∧ (r.third.i < meds.length + 1 ∨ r.third.i = u32Max) := by
    intro r hr
    obtain ⟨p, hp, rfl⟩ := List.mem_map.mp hr
    have hp := mem_zipIdx_mem hp
    have h1 := hs.near _ hp
    have h2 := hs.seco _ hp
    have h3 := hs.third _ hp
    have h2' : p.1.seco.i < meds.length + 1 ∨ p.1.seco.i = u32Max := by omega
    unfold pmsBuildRecP
    split
    · exact ⟨by simp, by dsimp only; omega, by dsimp only; omega⟩
    · split
      · exact ⟨by simp, by dsimp only; omega, by dsimp only; omega⟩
      · split
        · exact ⟨by dsimp only; omega, by simp, by dsimp only; omega⟩
        · rename_i hn
          have hne : p.1.seco.i ≠ u32Max := fun e => hn (by simp [e])
          split
          · exact ⟨by dsimp only; omega, by dsimp only; omega, by simp⟩
          · exact ⟨by omega, by omega, by omega⟩
  refine ⟨?_, by simp, by simp [hs.dataLen], ?_, ?_, ?_⟩
  · intro m hm
    rcases List.mem_append.mp hm with h | h
    · exact hs.medRange m h
    · rw [List.mem_singleton.mp h]; exact hc
  · intro r hr; simpa using (key r hr).1
  · intro r hr; left; simpa using (key r hr).2.1
  · intro r hr; simpa using (key r hr).2.2

theorem pmsBuildLoop_eq [SaneZero L] {mat : Mat N} {n k : Nat} {d : Nat → Nat → N} (hm : IsMatrix mat n d)
    (hk : k < u32Max) {cnt : Nat} {meds : List Nat} {data : List (Reco N)} {loss : L}
    (hs : MBShape n meds data) (hcnt : meds.length + cnt ≤ k) :
    pmsBuildLoop mat k (List.range' meds.length cnt) meds data loss =
      .ok (pmsBuildLoopP d n k (List.range' meds.length cnt) meds data loss) ∧
    MBShape n (pmsBuildLoopP d n k (List.range' meds.length cnt) meds data loss).1
      (pmsBuildLoopP d n k (List.range' meds.length cnt) meds data loss).2.1 ∧
    (pmsBuildLoopP d n k (List.range' meds.length cnt) meds data loss).1.length ≤ meds.length + cnt := by
  induction cnt generalizing meds data loss with
  | zero => exact ⟨rfl, hs, by simp [pmsBuildLoopP]⟩
  | succ cnt ih =>
    have hmap : (data.map (·.near.d)).length = n := by simp [hs.dataLen]
    rw [List.range'_succ]
    unfold pmsBuildLoop pmsBuildLoopP
    simp only [pmsBuildNext_eq (L := L) hm hmap k, ok_bind]
    split
    · exact ⟨rfl, hs, by dsimp only; omega⟩
    · rename_i hge
      have hc : (argmin1P (buildSumP L d (data.map (·.near.d))) n k).2 < n := by
        rcases argmin1P_lt (buildSumP L d (data.map (·.near.d))) n k with e | h
        · exfalso; apply hge; rw [e]; simp [rge, SaneZero.pcmp_zero]
        · exact h.2
      rw [pmsBuildUpdate_eq hm hs.dataLen (by omega) hc]
      simp only [ok_bind]
      have := ih (loss := pmsBuildLoss L
        (data.zipIdx.map (pmsBuildRecP d meds.length
          (argmin1P (buildSumP L d (data.map (·.near.d))) n k).2)))
        (pmsBuildRecP_shape (d := d) hs hc) (by simp; omega)
      simp only [List.length_append, List.length_singleton] at this
      refine ⟨this.1, this.2.1, by omega⟩

/-- pure first records -/
def pmsBuildInitP (d : Nat → Nat → N) (n c : Nat) : List (Reco N) :=
  (List.range n).map fun j => ⟨⟨0, d j c⟩, ⟨u32Max, RDist.zero⟩, ⟨u32Max, RDist.zero⟩⟩

/-- pure `pammedsilBuildInitialize` -/
def pmsBuildP (L : Type) [RLoss L] [RFrom N L] (d : Nat → Nat → N) (n k : Nat) :
    List Nat × List (Reco N) × L :=
  let best := argminP (buildFirstSumP L d n) n k
  pmsBuildLoopP d n k (List.range' 1 (k - 1)) [best.2] (pmsBuildInitP d n best.2) best.1

theorem pmsBuildInitP_shape {n : Nat} (d : Nat → Nat → N) {c : Nat} (hc : c < n) :
    MBShape n [c] (pmsBuildInitP d n c) := by
  refine ⟨by simp [hc], by simp, by simp [pmsBuildInitP], ?_, ?_, ?_⟩ <;>
  · intro r hr
    obtain ⟨j, -, rfl⟩ := List.mem_map.mp hr; simp

theorem pmsBuild_eq [SaneZero L] {mat : Mat N} {n k : Nat} {d : Nat → Nat → N} (hm : IsMatrix mat n d)
    (hs : Sizes n k) :
    pammedsilBuildInitialize L mat k = .ok (pmsBuildP L d n k) ∧
      MBShape n (pmsBuildP L d n k).1 (pmsBuildP L d n k).2.1 ∧ (pmsBuildP L d n k).1.length ≤ k := by
  have hn : 0 < n := by have := hs.pos; have := hs.le; omega
  have hc := argminP_lt (buildFirstSumP L d n) k hn
  have hmap : mapRes (fun j => do
      let x ← mat.get j (argminP (buildFirstSumP L d n) n k).2
      .ok (⟨⟨0, x⟩, ⟨u32Max, RDist.zero⟩, ⟨u32Max, RDist.zero⟩⟩ : Reco N)) (List.range n) =
      .ok (pmsBuildInitP d n (argminP (buildFirstSumP L d n) n k).2) :=
    mapRes_eq fun j hj => by simp only [hm.get j _ (List.mem_range.mp hj) hc, ok_bind]
  have h := pmsBuildLoop_eq (L := L) hm hs.k_lt (cnt := k - 1)
    (loss := (argminP (buildFirstSumP L d n) n k).1) (pmsBuildInitP_shape d hc)
    (by simp; have := hs.pos; omega)
  simp only [List.length_singleton] at h
  refine ⟨?_, h.2.1, ?_⟩
  · simp only [pammedsilBuildInitialize, ok_bind, buildFirst_eq hm,
      hm.len, hmap, drop_one_range, h.1, pmsBuildP]
  · have := h.2.2; have := hs.pos; simp only [pmsBuildP]; omega

theorem pmsBuildP_valid [SaneZero L] {mat : Mat N} {n k : Nat} {d : Nat → Nat → N} (hm : IsMatrix mat n d)
    (hs : Sizes n k) : ValidMeds n (pmsBuildP L d n k).1 := by
  obtain ⟨-, h2, h3⟩ := pmsBuild_eq (L := L) hm hs
  exact ⟨⟨h2.pos, le_trans h3 hs.le, hs.n_le, lt_of_le_of_lt h3 hs.k_lt⟩, h2.medRange⟩

/-- pure `pammedsil` -/
def pammedsilP (L : Type) [RLoss L] [RFrom N L] (d : Nat → Nat → N) (n k maxiter : Nat) : SwapResult L :=
  pmsOptP d n ⟨(pmsBuildP L d n k).1, (pmsBuildP L d n k).2.1, (pmsBuildP L d n k).2.2, 0⟩ maxiter

theorem pammedsil_eq [SaneZero L] {mat : Mat N} {n k : Nat} {d : Nat → Nat → N} (hm : IsMatrix mat n d)
    (hs : Sizes n k) (maxiter : Nat) : pammedsil L mat k maxiter = .ok (pammedsilP L d n k maxiter) := by
  obtain ⟨h1, h2, h3⟩ := pmsBuild_eq (L := L) hm hs
  simp only [pammedsil, assertSizes_ok hm hs, ok_bind, h1]
  exact pammedsilOptimize_eq hm (pmsBuildP_valid hm hs) h2.shape maxiter _

end any

/-! ## exact arithmetic -/

section exact
variable {N L : Type} [LinearOrder N] [Zero N] [RDist N] [LawfulDist N]
variable [Field L] [LinearOrder L] [IsStrictOrderedRing L] [RLoss L] [LawfulField L]
variable [RFrom N L] [LawfulFrom N L]

theorem argmin1P_spec (f : Nat → L) (n k : Nat) :
    (argmin1P f n k = (0, k) ∧ ∀ x, 1 ≤ x → x < n → 0 ≤ f x) ∨
    (1 ≤ (argmin1P f n k).2 ∧ (argmin1P f n k).2 < n ∧ (argmin1P f n k).1 = f (argmin1P f n k).2 ∧
      (argmin1P f n k).1 < 0 ∧ ∀ x, 1 ≤ x → x < n → (argmin1P f n k).1 ≤ f x) := by
  unfold argmin1P
  rw [drop_one_range, zeroL]
  have h := foldl_prefix (fun (pre : List Nat) (b : L × Nat) =>
      (b = (0, k) ∧ ∀ x ∈ pre, 0 ≤ f x) ∨
      (1 ≤ b.2 ∧ b.2 < n ∧ b.1 = f b.2 ∧ b.1 < 0 ∧ ∀ x ∈ pre, b.1 ≤ f x))
    (g := fun (best : L × Nat) (i : Nat) => if i == 0 || rlt (f i) best.1 then (f i, i) else best)
    (xs := List.range' 1 (n - 1)) (fun pre x post b he hb => by
      have hx : x ∈ List.range' 1 (n - 1) := by rw [he]; simp
      rw [List.mem_range'_1] at hx
      have hx0 : (x == 0) = false := by simp; omega
      simp only [hx0, Bool.false_or, rltL, decide_eq_true_eq]
      split
      · rename_i hlt
        right
        refine ⟨by omega, by dsimp only; omega, rfl, ?_, fun y hy => ?_⟩
        · rcases hb with ⟨rfl, -⟩ | ⟨-, -, -, h, -⟩
          · exact hlt
          · exact lt_trans hlt h
        · rcases List.mem_append.mp hy with hy | hy
          · rcases hb with ⟨rfl, h⟩ | ⟨-, -, -, -, h⟩
            · exact le_trans (le_of_lt hlt) (h y hy)
            · exact le_trans (le_of_lt hlt) (h y hy)
          · rw [List.mem_singleton.mp hy]
      · rename_i hlt
        rcases hb with ⟨rfl, h⟩ | ⟨h1, h2, h3, h4, h⟩
        · left
          refine ⟨rfl, fun y hy => ?_⟩
          rcases List.mem_append.mp hy with hy | hy
          · exact h y hy
          · rw [List.mem_singleton.mp hy]; exact not_lt.mp hlt
        · right
          refine ⟨h1, h2, h3, h4, fun y hy => ?_⟩
          rcases List.mem_append.mp hy with hy | hy
          · exact h y hy
          · rw [List.mem_singleton.mp hy]; exact not_lt.mp hlt) (s := ((0 : L), k)) (.inl ⟨rfl, by simp⟩)
  have hmem : ∀ x, 1 ≤ x → x < n → x ∈ List.range' 1 (n - 1) := fun x h1 h2 => by
    rw [List.mem_range'_1]; omega
  rcases h with ⟨e, h⟩ | ⟨h1, h2, h3, h4, h⟩
  · exact .inl ⟨e, fun x hx hx' => h x (hmem x hx hx')⟩
  · exact .inr ⟨h1, h2, h3, h4, fun x hx hx' => h x (hmem x hx hx')⟩

theorem mscInitRecP_append (d : Nat → Nat → N) {med : List Nat} (hm : med ≠ []) (c o : Nat) :
    mscInitRecP d (med ++ [c]) o = mscInitStepP d o (mscInitRecP d med o) (c, med.length) := by
  obtain ⟨a, t, rfl⟩ := List.exists_cons_of_ne_nil hm
  simp only [mscInitRecP, List.cons_append, List.zipIdx_cons, List.drop_one, List.tail_cons, List.headD_cons]
  rw [List.zipIdx_append, List.foldl_append]
  simp [Nat.add_comm]

theorem pmsBuildRecP_eq {n : Nat} {d : Nat → Nat → N} (hd : Dissim n d) (l : Nat) {c o : Nat} (hc : c < n)
    (r : Reco N) : pmsBuildRecP d l c (r, o) = mscInitStepP d o r (c, l) := by
  unfold pmsBuildRecP mscInitStepP
  by_cases h : o = c
  · subst h; simp [hd.diag o hc, zeroN]
  · simp [h]

theorem pmsBuildData_eq {n : Nat} {d : Nat → Nat → N} (hd : Dissim n d) {meds : List Nat}
    (hne : meds ≠ []) {c : Nat} (hc : c < n) :
    (mscInitDataP d n meds).zipIdx.map (pmsBuildRecP d meds.length c) = mscInitDataP d n (meds ++ [c]) := by
  apply List.ext_getElem?
  intro o
  by_cases ho : o < n
  · simp only [mscInitDataP, List.getElem?_map, List.getElem?_zipIdx, List.getElem?_range ho,
      Option.map_some, Nat.zero_add]
    rw [mscInitRecP_append d hne, pmsBuildRecP_eq hd _ hc]
  · rw [List.getElem?_eq_none (by simp [mscInitDataP]; omega),
      List.getElem?_eq_none (by simp [mscInitDataP]; omega)]

/-- The nearest entry of the record is that of `nearRecP`. -/
theorem mscInitRecP_near (d : Nat → Nat → N) (med : List Nat) (i : Nat) :
    ((mscInitRecP d med i).near.i, (mscInitRecP d med i).near.d) = nearRecP d med i := by
  have h : ∀ (xs : List (Nat × Nat)) (r : Reco N),
      ((xs.foldl (mscInitStepP d i) r).near.i, (xs.foldl (mscInitStepP d i) r).near.d) =
      xs.foldl (fun (best : Nat × N) (p : Nat × Nat) =>
        if rlt (d i p.1) best.2 || i == p.1 then (p.2, d i p.1) else best) (r.near.i, r.near.d) := by
    intro xs
    induction xs with
    | nil => intro r; rfl
    | cons p xs ih =>
      intro r
      simp only [List.foldl_cons, ih]
      congr 1
      unfold mscInitStepP
      by_cases h1 : (rlt (d i p.1) r.near.d || i == p.1) = true
      · rw [if_pos h1, if_pos h1]
      · rw [if_neg h1, if_neg h1]
        split
        · rfl
        · split <;> rfl
  exact h _ _

theorem nearRecP_minDist {n : Nat} {d : Nat → Nat → N} (hd : Dissim n d) {o : Nat} (ho : o < n)
    {med : List Nat} (hne : med ≠ []) (hr : ∀ m ∈ med, m < n) (hlen : med.length ≤ u32Max) :
    (mscInitRecP d med o).near.d = minDist d o med := by
  induction med using List.reverseRecOn with
  | nil => exact absurd rfl hne
  | append_singleton med c ih =>
    by_cases hne' : med = []
    · subst hne'; rfl
    · have hl : med.length ≤ u32Max := by simp at hlen; omega
      have ih := ih hne' (fun m hm => hr m (by simp [hm])) hl
      rw [mscInitRecP_append d hne', minDist_append d o hne', ← ih]
      unfold mscInitStepP
      by_cases h1 : (rlt (d o c) (mscInitRecP d med o).near.d || o == c) = true
      · rw [if_pos h1]
        simp only [rltN, Bool.or_eq_true, decide_eq_true_eq, beq_iff_eq] at h1
        dsimp only
        rw [min_eq_right]
        rcases h1 with h1 | h1
        · exact le_of_lt h1
        · rw [← h1, hd.diag o ho, ih]
          obtain ⟨⟨c', hc', e⟩, -⟩ := minDist_spec d o med hne'
          rw [e]; exact hd.nonneg o c' ho (hr c' (by simp [hc']))
      · rw [if_neg h1]
        simp only [rltN, Bool.or_eq_true, decide_eq_true_eq, beq_iff_eq, not_or] at h1
        rw [min_eq_left (not_lt.mp h1.1)]
        split
        · rfl
        · split <;> rfl

theorem pmsBuildLoss_eq (data : List (Reco N)) : pmsBuildLoss L data = mscLossP L data := by
  unfold pmsBuildLoss mscLossP
  rw [sumP_eq, foldl_add_sum (f := fun r => mscLoss L r.near.d r.seco.d), zeroL, zero_add]
  intro acc r _; rw [addL]

/-- Every further element is a best choice among the objects `1, …, n-1` and not object 0. -/
def Greedy1 (T : List Nat → L) (n : Nat) (meds : List Nat) : Prop :=
  ∀ l c : Nat, 1 ≤ l → meds[l]? = some c → 1 ≤ c ∧
    ∀ x, 1 ≤ x → x < n → T (meds.take l ++ [c]) ≤ T (meds.take l ++ [x])

/-- Invariant of BUILD. -/
structure MBuildInv (n : Nat) (d : Nat → Nat → N) (meds : List Nat) (data : List (Reco N)) (loss : L) :
    Prop where
  ne : meds ≠ []
  nodup : meds.Nodup
  range : ∀ m ∈ meds, m < n
  len : meds.length ≤ u32Max
  recs : data = mscInitDataP d n meds
  lossEq : 2 ≤ meds.length → loss = mscLossP L data
  greedy : Greedy1 (totalDev (conv : N → L) n d) n meds

theorem MBuildInv.near {n : Nat} {d : Nat → Nat → N} (hd : Dissim n d) {meds : List Nat}
    {data : List (Reco N)} {loss : L} (h : MBuildInv n d meds data loss) :
    data.map (·.near.d) = (List.range n).map fun o => minDist d o meds := by
  rw [h.recs, mscInitDataP, List.map_map]
  exact List.map_congr_left fun o ho =>
    nearRecP_minDist hd (List.mem_range.mp ho) h.ne h.range h.len

theorem pmsBuildLoopP_ex {n k : Nat} {d : Nat → Nat → N} (hd : Dissim n d) (hk : k < u32Max) {cnt : Nat}
    {meds : List Nat} {data : List (Reco N)} {loss : L} (h : MBuildInv n d meds data loss)
    (hcnt : meds.length + cnt ≤ k) :
    let r := pmsBuildLoopP d n k (List.range' meds.length cnt) meds data loss
    MBuildInv n d r.1 r.2.1 r.2.2 ∧ (∃ ext, r.1 = meds ++ ext) ∧
    (r.1.length < meds.length + cnt → ∀ x, 1 ≤ x → x < n →
      totalDev (conv : N → L) n d r.1 ≤ totalDev (conv : N → L) n d (r.1 ++ [x])) ∧
    r.1.length ≤ meds.length + cnt := by
  induction cnt generalizing meds data loss with
  | zero => exact ⟨h, ⟨[], by simp [pmsBuildLoopP]⟩, by simp [pmsBuildLoopP], by simp [pmsBuildLoopP]⟩
  | succ cnt ih =>
    have hspec := argmin1P_spec (buildSumP L d (data.map (·.near.d))) n k
    rw [h.near hd] at hspec
    have hsum : ∀ x, x < n → buildSumP L d ((List.range n).map fun o => minDist d o meds) x =
        totalDev (conv : N → L) n d (meds ++ [x]) - totalDev (conv : N → L) n d meds :=
      fun x hx => buildSumP_eq hd h.ne h.range hx
    rw [List.range'_succ]
    unfold pmsBuildLoopP
    rw [h.near hd]
    generalize argmin1P (buildSumP L d ((List.range n).map fun o => minDist d o meds)) n k = best at *
    dsimp only
    rcases hspec with ⟨rfl, hs⟩ | ⟨b0, b1, b2, b3, b4⟩
    · rw [if_pos (by rw [rgeL, zeroL]; simp)]
      refine ⟨h, ⟨[], by simp⟩, fun _ x hx0 hx => ?_, by dsimp only; omega⟩
      exact sub_nonneg.mp (hsum x hx ▸ hs x hx0 hx)
    · rw [if_neg (by rw [rgeL, zeroL, decide_eq_true_eq]; exact not_le.mpr b3)]
      rw [b2, hsum _ b1] at b3
      have hlt := sub_neg.mp b3
      have hnm : best.2 ∉ meds := fun hm => by
        rw [totalDev_append_mem hm] at hlt; exact lt_irrefl _ hlt
      have hnd : (meds ++ [best.2]).Nodup := by
        rw [List.nodup_append]
        exact ⟨h.nodup, by simp, fun a ha b hb => by
          rw [List.mem_singleton.mp hb]; rintro rfl; exact hnm ha⟩
      have hr : ∀ m ∈ meds ++ [best.2], m < n := by
        intro m hm
        rcases List.mem_append.mp hm with hm | hm
        · exact h.range m hm
        · rw [List.mem_singleton.mp hm]; exact b1
      have hdata : data.zipIdx.map (pmsBuildRecP d meds.length best.2) = mscInitDataP d n (meds ++ [best.2]) := by
        rw [h.recs, pmsBuildData_eq hd h.ne b1]
      rw [hdata]
      have hg : Greedy1 (totalDev (conv : N → L) n d) n (meds ++ [best.2]) := by
        intro l c hl1 hl
        rw [getElem?_append_singleton] at hl
        split at hl
        · rename_i e; subst e; cases hl
          refine ⟨b0, fun x hx0 hx => ?_⟩
          have := b4 x hx0 hx
          rw [b2, hsum _ b1, hsum _ hx] at this
          simpa using (sub_le_sub_iff_right _).mp this
        · have hlt : l < meds.length := (List.getElem?_eq_some_iff.mp hl).1
          rw [List.take_append_of_le_length (le_of_lt hlt)]
          exact h.greedy l c hl1 hl
      have hinv : MBuildInv n d (meds ++ [best.2]) (mscInitDataP d n (meds ++ [best.2]))
          (pmsBuildLoss L (mscInitDataP d n (meds ++ [best.2]))) :=
        ⟨by simp, hnd, hr, by simp; omega, rfl, fun _ => pmsBuildLoss_eq _, hg⟩
      have := ih hinv (by simp; omega)
      simp only [List.length_append, List.length_singleton] at this
      obtain ⟨i1, ⟨ext, i3⟩, i4, i5⟩ := this
      exact ⟨i1, ⟨best.2 :: ext, by rw [i3]; simp⟩, fun hl => i4 (by omega), by omega⟩

/-- BUILD of PAMMEDSIL, exactly. -/
theorem pmsBuildP_ex {n k : Nat} {d : Nat → Nat → N} (hd : Dissim n d) (hs : Sizes n k) :
    MBuildInv n d (pmsBuildP L d n k).1 (pmsBuildP L d n k).2.1 (pmsBuildP L d n k).2.2 ∧
    (∃ c, (pmsBuildP L d n k).1.head? = some c ∧
      ∀ x, x < n → totalDev (conv : N → L) n d [c] ≤ totalDev (conv : N → L) n d [x]) ∧
    ((pmsBuildP L d n k).1.length < k → ∀ x, 1 ≤ x → x < n →
      totalDev (conv : N → L) n d (pmsBuildP L d n k).1 ≤
        totalDev (conv : N → L) n d ((pmsBuildP L d n k).1 ++ [x])) ∧
    (pmsBuildP L d n k).1.length ≤ k := by
  have hn : 0 < n := by have := hs.pos; have := hs.le; omega
  obtain ⟨a1, a2, a3⟩ := argminP_spec (buildFirstSumP L d n) k hn
  have hinv : MBuildInv n d [(argminP (buildFirstSumP L d n) n k).2]
      (pmsBuildInitP d n (argminP (buildFirstSumP L d n) n k).2) (argminP (buildFirstSumP L d n) n k).1 :=
    ⟨by simp, by simp, by simpa using a1, by simp [u32Max], rfl, by simp, by
      intro l c hl1 hl
      rw [List.getElem?_eq_none (by simpa using hl1)] at hl; cases hl⟩
  obtain ⟨b1, ⟨ext, b2⟩, b4, b5⟩ := pmsBuildLoopP_ex hd hs.k_lt (cnt := k - 1) hinv
    (by simp; have := hs.pos; omega)
  have hk : 1 + (k - 1) = k := by have := hs.pos; omega
  simp only [List.length_singleton, hk] at b1 b2 b4 b5
  refine ⟨b1, ⟨(argminP (buildFirstSumP L d n) n k).2, ?_, fun x hx => ?_⟩, b4, b5⟩
  · show (pmsBuildLoopP d n k (List.range' 1 (k - 1)) _ _ _).1.head? = _
    rw [b2]; rfl
  · rw [← buildFirstSumP_eq hd a1, ← buildFirstSumP_eq hd hx, ← a2]
    exact a3 x hx

/-- PAMMEDSIL is BUILD followed by SWAP. -/
theorem pammedsilP_eq {n k : Nat} {d : Nat → Nat → N} (hd : Dissim n d) (hs : Sizes n k) (maxiter : Nat) :
    pammedsilP L d n k maxiter = pammedsilSwapP L d n (pmsBuildP L d n k).1 maxiter := by
  obtain ⟨h1, -, -, h4⟩ := pmsBuildP_ex (L := L) hd hs
  unfold pammedsilP pammedsilSwapP
  rw [h1.recs]
  by_cases hl : (pmsBuildP L d n k).1.length = 1
  · obtain ⟨c, hc⟩ := List.length_eq_one_iff.mp hl
    rw [hc]; rfl
  · have hk : 2 ≤ (pmsBuildP L d n k).1.length := by
      have := List.length_pos_iff.mpr h1.ne; omega
    rw [h1.lossEq hk, h1.recs]
    rfl

end exact

end KMedoids
