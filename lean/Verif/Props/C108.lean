import Verif.Proofs.RowOrderBuild
import Verif.Props.C107
import Verif.Props.C39_C43

/-!
# C108: undefined distances (NaN) and BUILD

C105 and C107 start from given medoids. Here `pam_build`, `pam` and `pammedsil`, which choose the first medoids
themselves. If the distance of each object to itself is zero, they return distinct medoids, and no object has a closer
medoid than that of its label, whatever other distances are incomparable. A NaN on the diagonal is enough to break this:
`pam_build` then takes object 0 twice, and `pamsil` panics.
-/

set_option linter.unusedSectionVars false

namespace KMedoids

open RFrom (conv)

section general

variable {N L : Type} [RDist N] [RLoss L] [RFrom N L]
variable {n k : Nat} {d : Nat → Nat → N}

/-- **C108, pam_build.** `hneg` says that `-L::from(N::zero()) >= L::zero()`. -/
theorem C108_pam_build (hneg : rge (RLoss.neg (conv (RDist.zero : N)) : L) RLoss.zero = true) {mat : Mat N}
    (hm : IsMatrix mat n d) (he : ∀ o, o < n → RowOrder n d o) (hz : ∀ o, o < n → d o o = RDist.zero)
    (hs : Sizes n k) {r : BuildResult L} (hr : pamBuild L mat k = .ok r) :
    r.med.Nodup ∧ ∀ o, o < n →
      ∃ m c : Nat, r.assi[o]? = some m ∧ r.med[m]? = some c ∧ (∀ c' ∈ r.med, rlt (d o c') (d o c) = false) ∧
        ∀ m' : Nat, r.med[m']? = some o → m' = m := by
  rw [pamBuild_eq hm hs] at hr; cases hr
  obtain ⟨h1, h2⟩ := buildP_row (L := L) hneg he hz hs
  have hv := buildP_valid (L := L) hm hs
  have hc : ∀ o, (buildP L d n k).1.count o ≤ 1 := List.nodup_iff_count.mp h1
  refine ⟨h1, fun o ho => ?_⟩
  show ObjBest d o (buildP L d n k).1 ((buildP L d n k).2.1.map (·.near.i))
  have hne : (buildP L d n k).1 ≠ [] := by intro h; have := hv.sizes.pos; simp [h] at this
  rw [h2]
  have := nearAssiP_best (he o ho) ho hv (hc o)
  have e : (initDataP d n (buildP L d n k).1).map (·.near.i) = nearAssiP d n (buildP L d n k).1 := by
    simp only [initDataP, nearAssiP, List.map_map]
    exact List.map_congr_left fun i _ => by simp [nearRecP_eq]
  rw [e]; exact this

/-- **C108, pam.** -/
theorem C108_pam [SaneZero L] (hneg : rge (RLoss.neg (conv (RDist.zero : N)) : L) RLoss.zero = true) {mat : Mat N}
    (hm : IsMatrix mat n d) (he : ∀ o, o < n → RowOrder n d o) (hz : ∀ o, o < n → d o o = RDist.zero)
    (hs : Sizes n k) {maxiter : Nat} {r : SwapResult L} (hr : pam L mat k maxiter = .ok r) :
    r.med.Nodup ∧ ∀ o, o < n →
      ∃ m c : Nat, r.assi[o]? = some m ∧ r.med[m]? = some c ∧ (∀ c' ∈ r.med, rlt (d o c') (d o c) = false) ∧
        ∀ m' : Nat, r.med[m']? = some o → m' = m := by
  have hwf : ∀ m ∈ r.med, m < n := by
    obtain ⟨r', hr', hw⟩ := C04_pam (L := L) hm hs maxiter
    rw [hr'] at hr; cases hr; exact hw.2.2.medRange
  rw [pam_eq hm hs] at hr; cases hr
  obtain ⟨h1, h2⟩ := buildP_row (L := L) hneg he hz hs
  have hv := buildP_valid (L := L) hm hs
  have hc : ∀ o, (buildP L d n k).1.count o ≤ 1 := List.nodup_iff_count.mp h1
  have key : ∀ o, o < n → ObjBest d o (pamP L d n k maxiter).med (pamP L d n k maxiter).assi := by
    intro o ho
    unfold pamP
    rw [h2]
    exact pOptP_best hm (he o ho) ho hv (hc o) _ (pamScanP_fine _ _ _) _ _
      (fun hk => (pamLoop_eq hm hv.sizes.k_lt (initDataP_shape d hv hk)).2)
  exact ⟨nodup_of_best hwf key, key⟩

/-- **C108, pammedsil.** -/
theorem C108_pammedsil [SaneZero L] (hneg : rge (RLoss.neg (conv (RDist.zero : N)) : L) RLoss.zero = true) {mat : Mat N}
    (hm : IsMatrix mat n d) (he : ∀ o, o < n → RowOrder n d o) (hz : ∀ o, o < n → d o o = RDist.zero)
    (hs : Sizes n k) {maxiter : Nat} {r : SwapResult L} (hr : pammedsil L mat k maxiter = .ok r) :
    r.med.Nodup ∧ ∀ o, o < n →
      ∃ m c : Nat, r.assi[o]? = some m ∧ r.med[m]? = some c ∧ (∀ c' ∈ r.med, rlt (d o c') (d o c) = false) ∧
        ∀ m' : Nat, r.med[m']? = some o → m' = m := by
  rw [pammedsil_eq hm hs] at hr; cases hr
  obtain ⟨h1, h2⟩ := pmsBuildP_row (L := L) hneg he hz hs
  have hv := pmsBuildP_valid (L := L) hm hs
  have hc : ∀ o, (pmsBuildP L d n k).1.count o ≤ 1 := List.nodup_iff_count.mp h1
  have key : (∀ o, o < n → ObjBest d o (pammedsilP L d n k maxiter).med (pammedsilP L d n k maxiter).assi) ∧
      ∀ m ∈ (pammedsilP L d n k maxiter).med, m < n := by
    unfold pammedsilP
    rw [h2]
    by_cases hk1 : (pmsBuildP L d n k).1.length = 1
    · obtain ⟨c, hcc⟩ := List.length_eq_one_iff.mp hk1
      rw [hcc] at hv ⊢
      refine ⟨fun o ho => singleP_best (L := L) hm (he o ho) ho (hv.range c (by simp)), ?_⟩
      have := (singleCluster_eq (L := L) hm (hv.range c (by simp))).2
      intro m hm'
      have e : m ∈ (singleP L d n c).med := hm'
      simp only [singleP, List.mem_singleton] at e this
      omega
    · have hk : 2 ≤ (pmsBuildP L d n k).1.length := by have := hv.sizes.pos; omega
      rw [pmsOptP_many d n (s := ⟨(pmsBuildP L d n k).1, mscInitDataP d n (pmsBuildP L d n k).1,
        (pmsBuildP L d n k).2.2, 0⟩) hk]
      have q : ∀ o, o < n → _ := fun o ho => mpLoopP_row (L := L) hm (he o ho) hv.sizes.k_lt
        (pmsScanP_fine n (pmsBuildP L d n k).1.length d) (fuel := maxiter) (iter := 0)
        (s := ⟨(pmsBuildP L d n k).1, mscInitDataP d n (pmsBuildP L d n k).1, (pmsBuildP L d n k).2.2, 0⟩)
        (mscInitDataP_shape d hv hk) (mscInitDataP_row (he o ho) ho hk hv (hc o))
      have hn : 0 < n := by have := hs.pos; have := hs.le; omega
      exact ⟨fun o ho => (q o ho).2.best (he o ho) (q o ho).1.medRange, (q 0 hn).1.medRange⟩
  exact ⟨nodup_of_best key.2 key.1, key.1⟩

/-- The label of any object, also of one that is several times among the medoids. -/
theorem nearRecP_row {o : Nat} (he : RowOrder n d o) (med : List Nat) (hne : med ≠ []) (hr : ∀ m ∈ med, m < n) :
    ∃ c, med[(nearRecP d med o).1]? = some c ∧ (nearRecP d med o).2 = d o c ∧
      ∀ c' ∈ med, rlt (d o c') (d o c) = false := by
  induction med using List.reverseRecOn with
  | nil => exact absurd rfl hne
  | append_singleton med c ih =>
    by_cases h : med = []
    · subst h
      exact ⟨c, rfl, rfl, by simp [he.irrefl c (hr c (by simp))]⟩
    · have hc := hr c (by simp)
      have hrm : ∀ m ∈ med, m < n := fun m hm => hr m (by simp [hm])
      obtain ⟨e, h1, h2, h3⟩ := ih h hrm
      have hen : e < n := hrm e (List.mem_of_getElem? h1)
      have hstep : nearRecP d (med ++ [c]) o =
          if rlt (d o c) (nearRecP d med o).2 || o == c then (med.length, d o c) else nearRecP d med o := by
        obtain ⟨a, t, rfl⟩ := List.exists_cons_of_ne_nil h
        simp only [nearRecP, List.cons_append, List.zipIdx_cons, List.drop_one, List.tail_cons, List.headD_cons]
        rw [List.zipIdx_append, List.foldl_append]
        simp [Nat.add_comm]
      rw [hstep]
      split
      · rename_i hb
        refine ⟨c, by simp, rfl, fun c' hc' => ?_⟩
        rcases Bool.or_eq_true _ _ ▸ hb with hb | hb
        · rw [h2] at hb
          rcases List.mem_append.mp hc' with hc' | hc'
          · exact he.below (hrm c' hc') hc hen (h3 c' hc') hb
          · rw [List.mem_singleton.mp hc']; exact he.irrefl c hc
        · have : o = c := by simpa using hb
          subst this
          exact he.self c' (hr c' hc')
      · rename_i hb
        have hlt : (nearRecP d med o).1 < med.length := (List.getElem?_eq_some_iff.mp h1).1
        refine ⟨e, by rw [List.getElem?_append_left hlt]; exact h1, h2, fun c' hc' => ?_⟩
        rcases List.mem_append.mp hc' with hc' | hc'
        · exact h3 c' hc'
        · rw [List.mem_singleton.mp hc', ← h2]
          simp only [Bool.or_eq_true, not_or, Bool.not_eq_true] at hb
          exact hb.1

/-- **C108, pamsil_swap and pamsil**, labels: no medoid is closer than that of the label. (Medoids can be repeated, see
C42; nothing is assumed about repetitions here.) -/
theorem C108_pamsil_labels {mat : Mat N} (hm : IsMatrix mat n d) {o : Nat} (he : RowOrder n d o) (ho : o < n)
    {maxiter : Nat} {r : SwapResult L}
    (hr : (∃ med, ValidMeds n med ∧ pamsilSwap L mat med maxiter = .ok r) ∨
      Sizes n k ∧ pamsil L mat k maxiter = .ok r) :
    ∃ m c : Nat, r.assi[o]? = some m ∧ r.med[m]? = some c ∧ ∀ c' ∈ r.med, rlt (d o c') (d o c) = false := by
  obtain ⟨med, assi, hv, h0, hopt⟩ : ∃ med assi, ValidMeds n med ∧
      (med.length = 1 → assi = List.replicate n 0) ∧ pamsilOptP L d n med assi maxiter = .ok r := by
    rcases hr with ⟨med, hv, hr⟩ | ⟨hs, hr⟩
    · rw [pamsilSwap_eq hm hv] at hr
      refine ⟨med, _, hv, fun h1 => ?_, hr⟩
      obtain ⟨c, rfl⟩ := List.length_eq_one_iff.mp h1
      refine List.eq_replicate_iff.mpr ⟨nearAssiP_length _ _ _, fun a ha => ?_⟩
      have := nearAssiP_label d (n := n) (med := [c]) (by simp) a ha
      simpa using this
    · rw [pamsil_eq hm hs] at hr
      cases hb : psBuildP L d n k with
      | error e => rw [hb] at hr; cases hr
      | ok med =>
        rw [hb] at hr
        exact ⟨med, _, (psBuildP_valid hs hb).1, fun _ => rfl, hr⟩
  by_cases h1 : med.length = 1
  · obtain ⟨c, rfl⟩ := List.length_eq_one_iff.mp h1
    have ha := h0 rfl
    subst ha
    have hch := (chooseMedoid_eq (L := L) hm (assi := List.replicate n 0) (by simp) (med := [c]) (m := 0)
      (c := c) rfl (hv.range c (by simp))).2
    unfold pamsilOptP at hopt
    rw [if_pos (show [c].length = 1 from rfl)] at hopt
    cases hopt
    exact ⟨0, _, by simp [ho], rfl, by simpa using he.irrefl _ hch⟩
  · have hk : 2 ≤ med.length := by have := hv.sizes.pos; omega
    obtain ⟨g1, g2⟩ := pamsilOptP_loop hk hopt
    obtain ⟨i1, -⟩ := psLoopP_ok hv rfl g1
    have i1 : ValidMeds n r.med := i1
    have hne : r.med ≠ [] := by intro h; have := i1.sizes.pos; simp [h] at this
    obtain ⟨c, q1, -, q3⟩ := nearRecP_row he r.med hne i1.range
    exact ⟨_, c, by rw [g2]; simp [nearAssiP, ho], q1, q3⟩

end general

/-! ## `f64` -/

theorem f64_negZero :
    rge (RLoss.neg (conv (RDist.zero : Ieee binary64)) : Ieee binary64) RLoss.zero = true := by decide +kernel

/-- **C108, f64**: `pam_build`, `pam` and `pammedsil` on a matrix with NaN entries, but zeros on the diagonal, return
distinct medoids. -/
theorem C108_f64_distinct {mat : Mat (Ieee binary64)} {n k : Nat} {d : Nat → Nat → Ieee binary64}
    (hm : IsMatrix mat n d) (h : ∀ o, o < n → F64Row n d o) (hz : ∀ o, o < n → d o o = .num 0) (hs : Sizes n k)
    (maxiter : Nat) :
    (∀ r, pamBuild (Ieee binary64) mat k = .ok r → r.med.Nodup) ∧
    (∀ r, pam (Ieee binary64) mat k maxiter = .ok r → r.med.Nodup) ∧
    (∀ r, pammedsil (Ieee binary64) mat k maxiter = .ok r → r.med.Nodup) :=
  ⟨fun _ hr => (C108_pam_build f64_negZero hm (fun o ho => (h o ho).rowOrder) hz hs hr).1,
    fun _ hr => (C108_pam f64_negZero hm (fun o ho => (h o ho).rowOrder) hz hs hr).1,
    fun _ hr => (C108_pammedsil f64_negZero hm (fun o ho => (h o ho).rowOrder) hz hs hr).1⟩

/-- Not positive, and not NaN. -/
def Ieee.Neg {F : Fmt} : Ieee F → Prop
  | .num q => q ≤ 0
  | .negInf => True
  | _ => False

theorem ofExact_neg (F : Fmt) {x : ℚ} (h : x ≤ 0) : (Ieee.ofExact F x).Neg := by
  have h1 : F.rnd x ≤ 0 := by
    have := F.rnd_mono h
    rwa [F.rnd_zero] at this
  have hp : (0 : ℚ) < 2 ^ F.emax := zpow_pos two_pos _
  unfold Ieee.ofExact
  rw [if_neg (by linarith)]
  split
  · trivial
  · exact h1

theorem ieee_add_neg {F : Fmt} {a b : Ieee F} (ha : a.Neg) (hb : b.Neg) : (RLoss.add a b).Neg := by
  cases a <;> cases b <;> try trivial
  exact ofExact_neg F (add_nonpos ha hb)

theorem ieee_neg_pos {F : Fmt} {a : Ieee F} (ha : a.Pos) : (RLoss.neg a).Neg := by
  cases a <;> try trivial
  exact neg_nonpos.mpr ha

theorem Ieee.Neg.rle {F : Fmt} {a : Ieee F} (h : a.Neg) : rle a (RLoss.zero : Ieee F) = true := by
  cases a with
  | num q =>
    have : compare q 0 ≠ .gt := by rw [ne_eq, compare_gt_iff_gt]; exact not_lt.mpr h
    have e : pcmp (.num q : Ieee F) RLoss.zero = some (compare q 0) := rfl
    unfold KMedoids.rle
    rw [e]
    revert this
    cases compare q 0 <;> simp
  | negInf => rfl
  | inf => exact h.elim
  | nan => exact h.elim

theorem Ieee.Neg.of_lt {a b : Ieee binary64} (hb : b.Neg) (h : rlt a b = true) : a.Neg := by
  obtain ⟨h1, -, h3⟩ := (f64_rlt a b).mp h
  cases a with
  | num q =>
    cases b with
    | num p =>
      have : q < p := WithTop.coe_lt_coe.mp (WithBot.coe_lt_coe.mp h3)
      exact le_trans this.le hb
    | negInf => exact absurd h3 (by simp [Ieee.rank])
    | inf => exact hb.elim
    | nan => exact hb.elim
  | negInf => trivial
  | inf => exact absurd h3 (not_lt.mpr (Ieee.rank_le_inf _))
  | nan => exact absurd rfl h1

/-- If the value of object 0 is not positive, neither is the smallest. -/
theorem argminP_neg (f : Nat → Ieee binary64) (h0 : (f 0).Neg) {n : Nat} (k : Nat) (hn : 0 < n) :
    (argminP f n k).1.Neg := by
  induction n with
  | zero => omega
  | succ n ih =>
    have hstep : argminP f (n + 1) k = if (n == 0 || rlt (f n) (argminP f n k).1) = true then (f n, n)
        else argminP f n k := by
      unfold argminP
      rw [List.range_succ, List.foldl_append, List.foldl_cons, List.foldl_nil]
    rw [hstep]
    by_cases hz : n = 0
    · subst hz; simpa using h0
    · have := ih (by omega)
      split
      · rename_i h
        simp only [beq_iff_eq, hz, Bool.or_eq_true, false_or] at h
        exact this.of_lt h
      · exact this

/-- The chosen object is object 0 or has a value that is not NaN. -/
theorem argminP_notNan (f : Nat → Ieee binary64) {n : Nat} (k : Nat) (hn : 0 < n) :
    (argminP f n k).2 = 0 ∨ f (argminP f n k).2 ≠ .nan := by
  induction n with
  | zero => omega
  | succ n ih =>
    have hstep : argminP f (n + 1) k = if (n == 0 || rlt (f n) (argminP f n k).1) = true then (f n, n)
        else argminP f n k := by
      unfold argminP
      rw [List.range_succ, List.foldl_append, List.foldl_cons, List.foldl_nil]
    rw [hstep]
    by_cases hz : n = 0
    · subst hz; left; simp
    · split
      · rename_i h
        simp only [beq_iff_eq, hz, Bool.or_eq_true, false_or] at h
        exact Or.inr ((f64_rlt _ _).mp h).1
      · exact ih (by omega)

theorem add_nan_left (a : Ieee binary64) : RLoss.add (.nan : Ieee binary64) a = .nan := by cases a <;> rfl
theorem add_nan_right (a : Ieee binary64) : RLoss.add a (.nan : Ieee binary64) = .nan := by cases a <;> rfl

theorem buildFirstSumP_nan {d : Nat → Nat → Ieee binary64} {n i j : Nat} (hj : j < n) (hji : j ≠ i)
    (hn : d j i = .nan) : buildFirstSumP (Ieee binary64) d n i = .nan := by
  unfold buildFirstSumP
  obtain ⟨pre, post, he⟩ := List.append_of_mem (List.mem_range.mpr hj)
  rw [he, List.foldl_append, List.foldl_cons]
  refine foldl_inv (fun s : Ieee binary64 => s = .nan) (fun s x _ hs => ?_) ?_
  · split
    · rw [hs]; exact add_nan_left _
    · exact hs
  · rw [if_pos hji]
    show RLoss.add _ (d j i) = _
    rw [hn]; exact add_nan_right _

/-- NaN, or not negative. -/
def NanPos (x : Ieee binary64) : Prop := x = .nan ∨ x.Pos

theorem F64Row.nanPos {n : Nat} {d : Nat → Nat → Ieee binary64} {o : Nat} (h : F64Row n d o) {x : Nat} (hx : x < n) :
    NanPos (d o x) := by
  rcases h.nonneg x hx with h | h | ⟨q, h, hq⟩
  · exact Or.inl h
  · rw [h]; exact Or.inr trivial
  · rw [h]; exact Or.inr hq

/-- The gain of object 0 is not NaN. -/
theorem buildSumP_zero_neg {d : Nat → Nat → Ieee binary64} {n : Nat} (hn : 0 < n) (h : ∀ o, o < n → F64Row n d o)
    {near : List (Ieee binary64)} (hl : near.length = n) (h0 : (near.getD 0 RDist.zero).Pos)
    (hp : ∀ x ∈ near, NanPos x) : (buildSumP (Ieee binary64) d near 0).Neg := by
  unfold buildSumP
  refine foldl_inv (fun s : Ieee binary64 => s.Neg) (fun s p hpm hs => ?_) (ieee_neg_pos h0)
  split
  · split
    · rename_i _ hlt
      refine ieee_add_neg hs ?_
      have hpn : p.2 < n := hl ▸ mem_zipIdx_lt hpm
      obtain ⟨e1, e2, e3⟩ := (f64_rlt _ _).mp hlt
      have hp1 : p.1.Pos := (hp _ (mem_zipIdx_mem hpm)).resolve_left e2
      have hd1 : (d p.2 0).Pos := ((h _ hpn).nanPos hn).resolve_left e1
      show (Ieee.add (d p.2 0) (Ieee.neg p.1)).Neg
      generalize d p.2 0 = a at *
      generalize p.1 = b at *
      cases a with
      | num q =>
        cases b with
        | num r =>
          have : q < r := WithTop.coe_lt_coe.mp (WithBot.coe_lt_coe.mp e3)
          exact ofExact_neg _ (by linarith)
        | inf => trivial
        | negInf => exact hp1.elim
        | nan => exact hp1.elim
      | inf => exact absurd e3 (not_lt.mpr (Ieee.rank_le_inf _))
      | negInf => exact hd1.elim
      | nan => exact hd1.elim
    · exact hs
  · exact hs

theorem psBuildLoopP_nan {d : Nat → Nat → Ieee binary64} {n k : Nat} (hn : 0 < n) (h : ∀ o, o < n → F64Row n d o)
    (fuel : Nat) (meds : List Nat) {near : List (Ieee binary64)} (hl : near.length = n)
    (h0 : (near.getD 0 RDist.zero).Pos) (hp : ∀ x ∈ near, NanPos x) :
    ∃ r, psBuildLoopP (Ieee binary64) d n k fuel meds near = .ok r := by
  induction fuel generalizing meds near with
  | zero => exact ⟨_, rfl⟩
  | succ fuel ih =>
    have hb := argminP_lt (buildSumP (Ieee binary64) d near) k hn
    have hneg := argminP_neg (buildSumP (Ieee binary64) d near) (buildSumP_zero_neg hn h hl h0 hp) k hn
    unfold psBuildLoopP
    dsimp only
    rw [hneg.rle, rassert_true, ok_bind]
    refine ih _ (by simp [hl]) ?_ ?_
    · obtain ⟨a, t, rfl⟩ := List.exists_cons_of_ne_nil (List.ne_nil_of_length_pos (hl ▸ hn))
      simp only [List.zipIdx_cons, List.map_cons, List.getD_cons_zero] at h0 ⊢
      unfold psBuildUpdateP
      split
      · exact le_refl (0 : ℚ)
      · split
        · rename_i _ hlt
          exact ((h 0 hn).nanPos hb).resolve_left ((f64_rlt _ _).mp hlt).1
        · exact h0
    · intro x hx
      obtain ⟨p, hpm, rfl⟩ := List.mem_map.mp hx
      unfold psBuildUpdateP
      split
      · exact Or.inr (le_refl (0 : ℚ))
      · split
        · exact (h _ (hl ▸ mem_zipIdx_lt hpm)).nanPos hb
        · exact hp _ (mem_zipIdx_mem hpm)

/-- **C108, pamsil.** With NaN entries, but zeros on the diagonal, the assertion in the BUILD phase of `pamsil` never
fails: the gain of object 0 is always defined. -/
theorem C108_pamsil_build {mat : Mat (Ieee binary64)} {n k : Nat} {d : Nat → Nat → Ieee binary64}
    (hm : IsMatrix mat n d) (h : ∀ o, o < n → F64Row n d o) (hz : d 0 0 = .num 0) (hs : Sizes n k) :
    ∃ meds, pamsilBuildInitialize (Ieee binary64) mat k = .ok meds ∧ ValidMeds n meds ∧ meds.length = k := by
  have hn : 0 < n := by have := hs.pos; have := hs.le; omega
  have hb := argminP_lt (buildFirstSumP (Ieee binary64) d n) k hn
  have h0 : (d 0 (argminP (buildFirstSumP (Ieee binary64) d n) n k).2).Pos := by
    rcases argminP_notNan (buildFirstSumP (Ieee binary64) d n) k hn with e | e
    · rw [e, hz]; exact le_refl (0 : ℚ)
    · refine ((h 0 hn).nanPos hb).resolve_left fun hnan => ?_
      by_cases hc : 0 = (argminP (buildFirstSumP (Ieee binary64) d n) n k).2
      · rw [← hc, hz] at hnan; cases hnan
      · exact e (buildFirstSumP_nan hn hc hnan)
  obtain ⟨r, hr⟩ := psBuildLoopP_nan (k := k) hn h (k - 1) [(argminP (buildFirstSumP (Ieee binary64) d n) n k).2]
    (near := (List.range n).map fun j => d j (argminP (buildFirstSumP (Ieee binary64) d n) n k).2) (by simp)
    (by rw [List.getD_eq_getElem?_getD]; simpa [hn] using h0)
    (fun x hx => by
      obtain ⟨j, hj, rfl⟩ := List.mem_map.mp hx
      exact (h j (List.mem_range.mp hj)).nanPos hb)
  obtain ⟨hv, hk⟩ := psBuildP_valid hs (L := Ieee binary64) (r := r) hr
  exact ⟨r, (psBuild_eq hm hn).trans hr, hv, hk⟩

/-! ## NaN on the diagonal -/

/-- Two objects at distance 1; the distance of object 0 to itself is NaN. -/
def nanDiagD (x y : Nat) : Ieee binary64 := if x = y then (if x = 0 then .nan else .num 0) else .num 1

def nanDiagMat : Mat (Ieee binary64) := Array2.toMat ⟨2, 2, nanDiagD⟩

theorem nanDiag_isMatrix : IsMatrix nanDiagMat 2 nanDiagD :=
  ⟨rfl, rfl, fun x y hx hy => by simp [nanDiagMat, Array2.toMat]; omega⟩

theorem nanDiag_row (o : Nat) : F64Row 2 nanDiagD o := by
  refine ⟨fun x _ => ?_, ?_⟩ <;> unfold nanDiagD
  · split
    · split
      · exact Or.inl rfl
      · exact Or.inr (Or.inr ⟨0, rfl, le_refl _⟩)
    · exact Or.inr (Or.inr ⟨1, rfl, by norm_num⟩)
  · simp only [if_true]
    split
    · exact Or.inl rfl
    · exact Or.inr rfl

/-- **C108, limit**: with NaN on the diagonal `pam_build` can choose an object twice, and `pamsil` can panic. So the
condition on the diagonal in `C108_pam_build` and `C108_pamsil_build` cannot be dropped. -/
theorem C108_nan_diagonal :
    (¬ ∀ (mat : Mat (Ieee binary64)) (n k : Nat) (d : Nat → Nat → Ieee binary64), IsMatrix mat n d →
      (∀ o, o < n → F64Row n d o) → Sizes n k → ∀ r, pamBuild (Ieee binary64) mat k = .ok r → r.med.Nodup) ∧
    (¬ ∀ (mat : Mat (Ieee binary64)) (n k : Nat) (d : Nat → Nat → Ieee binary64), IsMatrix mat n d →
      (∀ o, o < n → F64Row n d o) → Sizes n k → ∃ meds, pamsilBuildInitialize (Ieee binary64) mat k = .ok meds) := by
  have hs : Sizes 2 2 := ⟨by decide, by decide, by decide, by decide⟩
  constructor
  · intro h
    have e : pamBuild (Ieee binary64) nanDiagMat 2 = .ok ⟨.num 1, [1, 0], [0, 0]⟩ := by decide +kernel
    exact absurd (h nanDiagMat 2 2 nanDiagD nanDiag_isMatrix (fun o _ => nanDiag_row o) hs _ e) (by decide)
  · intro h
    obtain ⟨meds, e⟩ := h nanDiagMat 2 2 nanDiagD nanDiag_isMatrix (fun o _ => nanDiag_row o) hs
    have : pamsilBuildInitialize (Ieee binary64) nanDiagMat 2 =
        .error (.assertion "assertion failed: best.0 <= L::zero()") := by decide +kernel
    rw [this] at e; cases e

/-! ## examples -/

theorem nanD5_diag : ∀ o, o < 5 → nanD5 o o = .num 0 := by decide

example := C108_f64_distinct nanMat5_isMatrix (fun o _ => nanD5_row o) nanD5_diag
  (k := 3) ⟨by decide, by decide, by decide, by decide⟩ 9

example := C108_pamsil_build nanMat5_isMatrix (fun o _ => nanD5_row o) (nanD5_diag 0 (by decide))
  (k := 3) ⟨by decide, by decide, by decide, by decide⟩

example := fun r h => C108_pamsil_labels (L := Ieee binary64) (k := 3) nanMat5_isMatrix (nanD5_row 2).rowOrder
  (by decide) (maxiter := 4) (r := r) (Or.inr ⟨⟨by decide, by decide, by decide, by decide⟩, h⟩)

end KMedoids
