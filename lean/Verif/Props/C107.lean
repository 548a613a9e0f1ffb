import Verif.Proofs.RowOrderMsc
import Verif.Props.C105

/-!
# C107: undefined distances (NaN) and the medoid silhouette

As C105, for FasterMSC, FastMSC and PAMMEDSIL: whatever is incomparable, no object has a closer medoid than that of its
label. With one or at least three medoids (for `pammedsil_swap` any number), medoids are labelled with themselves and stay
distinct. The functions for exactly two medoids do not look for the object itself; there only the first part holds.
-/

set_option linter.unusedSectionVars false

namespace KMedoids

section general

variable {N L : Type} [RDist N] [RLoss L] [RFrom N L]
variable {n : Nat} {d : Nat → Nat → N} {o : Nat}

/-- **C107, fastermsc**, one medoid or at least three. -/
theorem C107_fastermsc {mat : Mat N} (hm : IsMatrix mat n d) (he : RowOrder n d o) (ho : o < n)
    {med : List Nat} (hv : ValidMeds n med) (hc : med.count o ≤ 1) (h2 : med.length ≠ 2) (maxiter : Nat)
    {r : SwapResult L} (hr : fastermsc L mat med maxiter = .ok r) :
    ∃ m c : Nat, r.assi[o]? = some m ∧ r.med[m]? = some c ∧ (∀ c' ∈ r.med, rlt (d o c') (d o c) = false) ∧
      ∀ m' : Nat, r.med[m']? = some o → m' = m := by
  rw [fastermsc_eq hm hv maxiter] at hr; cases hr
  by_cases h1 : med.length = 1
  · obtain ⟨c, rfl⟩ := List.length_eq_one_iff.mp h1
    exact singleP_best (L := L) hm he ho (hv.range c (by simp))
  · have hk : 3 ≤ med.length := by have := hv.sizes.pos; omega
    rw [fastermscP_many d n hk]
    obtain ⟨h1, h2⟩ := mscLoopP_row hm he hv.sizes.k_lt (show 1 ≤ med.length by omega) (fuel := maxiter) (iter := 0)
      (mscInitP_shape (L := L) d hv (show 2 ≤ med.length by omega)) (mscInitDataP_row he ho (show 2 ≤ med.length by omega) hv hc)
    exact h2.best he h1.shape.medRange

/-- **C107, fastmsc**, one medoid or at least three. -/
theorem C107_fastmsc [SaneZero L] {mat : Mat N} (hm : IsMatrix mat n d) (he : RowOrder n d o) (ho : o < n)
    {med : List Nat} (hv : ValidMeds n med) (hc : med.count o ≤ 1) (h2 : med.length ≠ 2) (maxiter : Nat)
    {r : SwapResult L} (hr : fastmsc L mat med maxiter = .ok r) :
    ∃ m c : Nat, r.assi[o]? = some m ∧ r.med[m]? = some c ∧ (∀ c' ∈ r.med, rlt (d o c') (d o c) = false) ∧
      ∀ m' : Nat, r.med[m']? = some o → m' = m := by
  rw [fastmsc_eq_ne2 hm hv h2 maxiter] at hr; cases hr
  by_cases h1 : med.length = 1
  · obtain ⟨c, rfl⟩ := List.length_eq_one_iff.mp h1
    exact singleP_best (L := L) hm he ho (hv.range c (by simp))
  · have hk : 3 ≤ med.length := by have := hv.sizes.pos; omega
    rw [fastmscP_many d n hk]
    obtain ⟨h1, h2⟩ := mpLoopP_row (L := L) hm he hv.sizes.k_lt (fastmscScanP_fine n (k := med.length) (show 1 ≤ med.length by omega) d)
      (fuel := maxiter) (iter := 0) (s := mpInitP L d n med) (mscInitDataP_shape d hv (show 2 ≤ med.length by omega))
      (mscInitDataP_row he ho (show 2 ≤ med.length by omega) hv hc)
    exact h2.best he h1.medRange

/-- **C107, pammedsil_swap**, any number of medoids. -/
theorem C107_pammedsil_swap [SaneZero L] {mat : Mat N} (hm : IsMatrix mat n d) (he : RowOrder n d o) (ho : o < n)
    {med : List Nat} (hv : ValidMeds n med) (hc : med.count o ≤ 1) (maxiter : Nat)
    {r : SwapResult L} (hr : pammedsilSwap L mat med maxiter = .ok r) :
    ∃ m c : Nat, r.assi[o]? = some m ∧ r.med[m]? = some c ∧ (∀ c' ∈ r.med, rlt (d o c') (d o c) = false) ∧
      ∀ m' : Nat, r.med[m']? = some o → m' = m := by
  rw [pammedsilSwap_eq hm hv maxiter] at hr; cases hr
  by_cases h1 : med.length = 1
  · obtain ⟨c, rfl⟩ := List.length_eq_one_iff.mp h1
    exact singleP_best (L := L) hm he ho (hv.range c (by simp))
  · have hk : 2 ≤ med.length := by have := hv.sizes.pos; omega
    rw [pammedsilSwapP, pmsOptP_many d n (s := mpInitP L d n med) hk]
    obtain ⟨h1, h2⟩ := mpLoopP_row (L := L) hm he hv.sizes.k_lt (pmsScanP_fine n med.length d)
      (fuel := maxiter) (iter := 0) (s := mpInitP L d n med) (mscInitDataP_shape d hv hk)
      (mscInitDataP_row he ho hk hv hc)
    exact h2.best he h1.medRange

/-- **C107, fastermsc with two medoids**: no medoid is closer than that of the label. -/
theorem C107_fastermsc_two {mat : Mat N} (hm : IsMatrix mat n d) (he : RowOrder n d o) (hq : RowEq n d o) (ho : o < n)
    {med : List Nat} (hv : ValidMeds n med) (h2 : med.length = 2) (maxiter : Nat)
    {r : SwapResult L} (hr : fastermsc L mat med maxiter = .ok r) :
    ∃ m c : Nat, r.assi[o]? = some m ∧ r.med[m]? = some c ∧ ∀ c' ∈ r.med, rlt (d o c') (d o c) = false := by
  rw [fastermsc_eq hm hv maxiter] at hr; cases hr
  obtain ⟨m0, m1, rfl⟩ := List.length_eq_two.mp h2
  have h0 : m0 < n := hv.range m0 (by simp)
  have h1 : m1 < n := hv.range m1 (by simp)
  obtain ⟨a, b⟩ := k2LoopP_row (L := L) hm he hq (fuel := maxiter) (iter := 0) (k2InitP_shape d h0 h1 n)
    (k2InitP_row he ho h0 h1 n)
  exact b.best he a

/-- **C107, fastmsc with two medoids**, at least three objects. -/
theorem C107_fastmsc_two {mat : Mat N} (hm : IsMatrix mat n d) (he : RowOrder n d o) (hq : RowEq n d o) (ho : o < n)
    {med : List Nat} (hv : ValidMeds n med) (h2 : med.length = 2) (h3 : 3 ≤ n) (maxiter : Nat)
    {r : SwapResult L} (hr : fastmsc L mat med maxiter = .ok r) :
    ∃ m c : Nat, r.assi[o]? = some m ∧ r.med[m]? = some c ∧ ∀ c' ∈ r.med, rlt (d o c') (d o c) = false := by
  obtain ⟨m0, m1, rfl⟩ := List.length_eq_two.mp h2
  have h0 : m0 < n := hv.range m0 (by simp)
  have h1 : m1 < n := hv.range m1 (by simp)
  have hn := hv.sizes.n_le
  rw [fastmsc_eq_2 (fastmscK2_eq3 (L := L) hm hn h3 h0 h1 maxiter).1] at hr; cases hr
  obtain ⟨a, b⟩ := fastmscK2_row (L := L) hm he hq hn h3 (fuel := maxiter) (iter := 0) (k2InitP_shape d h0 h1 0)
    (k2InitP_row he ho h0 h1 0)
  exact b.best he a

/-- **C107, distinct medoids.** -/
theorem C107_distinct [SaneZero L] {mat : Mat N} (hm : IsMatrix mat n d) (he : ∀ o, o < n → RowOrder n d o)
    {med : List Nat} (hv : ValidMeds n med) (hnd : med.Nodup) (maxiter : Nat) :
    (∀ r, med.length ≠ 2 → fastermsc L mat med maxiter = .ok r → r.med.Nodup) ∧
    (∀ r, med.length ≠ 2 → fastmsc L mat med maxiter = .ok r → r.med.Nodup) ∧
    (∀ r, pammedsilSwap L mat med maxiter = .ok r → r.med.Nodup) := by
  have hc : ∀ o, med.count o ≤ 1 := List.nodup_iff_count.mp hnd
  have fin : ∀ (m' a' : List Nat), (∀ o, o < n → ObjBest d o m' a') → (∀ m ∈ m', m < n) → m'.Nodup :=
    fun m' a' h1 h2 => nodup_of_best h2 h1
  have hsingle : ∀ c, c < n → ∀ m ∈ (singleP L d n c).med, m < n := by
    intro c hcn m hm'
    have := (singleCluster_eq (L := L) hm hcn).2
    simp only [singleP, List.mem_singleton] at hm' this
    omega
  refine ⟨fun r h2 hr => fin _ r.assi (fun o ho => C107_fastermsc hm (he o ho) ho hv (hc o) h2 maxiter hr) ?_,
    fun r h2 hr => fin _ r.assi (fun o ho => C107_fastmsc hm (he o ho) ho hv (hc o) h2 maxiter hr) ?_,
    fun r hr => fin _ r.assi (fun o ho => C107_pammedsil_swap hm (he o ho) ho hv (hc o) maxiter hr) ?_⟩
  · rw [fastermsc_eq hm hv maxiter] at hr; cases hr
    by_cases h1 : med.length = 1
    · obtain ⟨c, rfl⟩ := List.length_eq_one_iff.mp h1
      exact hsingle c (hv.range c (by simp))
    · have hk : 3 ≤ med.length := by have := hv.sizes.pos; omega
      rw [fastermscP_many d n hk]
      exact (mscLoop_eq (L := L) hm hv.sizes.k_lt (show 1 ≤ med.length by omega) (fuel := maxiter) (iter := 0)
        (mscInitP_shape d hv (show 2 ≤ med.length by omega))).2.1.shape.medRange
  · rw [fastmsc_eq_ne2 hm hv h2 maxiter] at hr; cases hr
    by_cases h1 : med.length = 1
    · obtain ⟨c, rfl⟩ := List.length_eq_one_iff.mp h1
      exact hsingle c (hv.range c (by simp))
    · have hk : 3 ≤ med.length := by have := hv.sizes.pos; omega
      have hn : 0 < n := by have := hv.sizes.le; omega
      rw [fastmscP_many d n hk]
      exact (mpLoopP_row (L := L) hm (he 0 hn) hv.sizes.k_lt (fastmscScanP_fine n (k := med.length) (show 1 ≤ med.length by omega) d)
        (fuel := maxiter) (iter := 0) (s := mpInitP L d n med) (mscInitDataP_shape d hv (show 2 ≤ med.length by omega))
        (mscInitDataP_row (he 0 hn) hn (show 2 ≤ med.length by omega) hv (hc 0))).1.medRange
  · rw [pammedsilSwap_eq hm hv maxiter] at hr; cases hr
    by_cases h1 : med.length = 1
    · obtain ⟨c, rfl⟩ := List.length_eq_one_iff.mp h1
      exact hsingle c (hv.range c (by simp))
    · have hk : 2 ≤ med.length := by have := hv.sizes.pos; omega
      have hn : 0 < n := by have := hv.sizes.le; omega
      rw [pammedsilSwapP, pmsOptP_many d n (s := mpInitP L d n med) hk]
      exact (mpLoopP_row (L := L) hm (he 0 hn) hv.sizes.k_lt (pmsScanP_fine n med.length d)
        (fuel := maxiter) (iter := 0) (s := mpInitP L d n med) (mscInitDataP_shape d hv hk)
        (mscInitDataP_row (he 0 hn) hn hk hv (hc 0))).1.medRange

end general

/-! ## `f64` -/

theorem F64Row.rowEq {n : Nat} {d : Nat → Nat → Ieee binary64} {o : Nat} (h : F64Row n d o) : RowEq n d o := by
  have key : ∀ a b : Ieee binary64, req a b = true → rlt b a = false := by
    intro a b hab
    by_contra hc
    obtain ⟨-, -, hlt⟩ := (f64_rlt _ _).mp (by simpa using hc : rlt b a = true)
    revert hab hlt
    cases a <;> cases b <;>
      simp [req, pcmp, RPartialOrd.pcmp, Ieee.cmp, Ieee.rank, WithBot.coe_lt_coe]
    rintro rfl; exact le_refl _
  refine ⟨fun x y _ _ hxy => key _ _ hxy, fun x _ hx => ?_⟩
  rcases h.diag with h1 | h1
  · by_contra hc
    exact ((f64_rlt _ _).mp (by simpa using hc)).1 h1
  · rw [h1]; exact key _ _ hx

/-- What "no medoid is closer" means in `f64`. -/
theorem f64_closest {d : Nat → Nat → Ieee binary64} {o c : Nat} {med : List Nat}
    (h3 : ∀ c' ∈ med, rlt (d o c') (d o c) = false) :
    d o c = .nan ∨ ∀ c' ∈ med, d o c' = .nan ∨ Ieee.rank (d o c) ≤ Ieee.rank (d o c') := by
  by_cases hn : d o c = .nan
  · exact Or.inl hn
  · right
    intro c' hc'
    by_cases hn' : d o c' = .nan
    · exact Or.inl hn'
    · right
      have := h3 c' hc'
      by_contra hcon
      rw [(f64_rlt _ _).mpr ⟨hn', hn, not_le.mp hcon⟩] at this
      cases this

/-- **C107, f64**: after `fastermsc` (any number of medoids), `pammedsil_swap`, or `fastmsc` (at least three objects) on a
matrix with NaN entries, the distance of an object to the medoid of its cluster is NaN or minimal among the distances to the
medoids that are not NaN. -/
theorem C107_f64 {mat : Mat (Ieee binary64)} {n : Nat} {d : Nat → Nat → Ieee binary64}
    (hm : IsMatrix mat n d) {o : Nat} (ho : o < n) (h : F64Row n d o) {med : List Nat} (hv : ValidMeds n med)
    (hc : med.count o ≤ 1) (h3 : 3 ≤ n) (maxiter : Nat) {r : SwapResult (Ieee binary64)}
    (hr : fastermsc (Ieee binary64) mat med maxiter = .ok r ∨ fastmsc (Ieee binary64) mat med maxiter = .ok r ∨
      pammedsilSwap (Ieee binary64) mat med maxiter = .ok r) :
    ∃ m c : Nat, r.assi[o]? = some m ∧ r.med[m]? = some c ∧
      (d o c = .nan ∨ ∀ c' ∈ r.med, d o c' = .nan ∨ Ieee.rank (d o c) ≤ Ieee.rank (d o c')) := by
  have key : ∃ m c : Nat, r.assi[o]? = some m ∧ r.med[m]? = some c ∧ ∀ c' ∈ r.med, rlt (d o c') (d o c) = false := by
    rcases hr with hr | hr | hr
    · by_cases h2 : med.length = 2
      · exact C107_fastermsc_two hm h.rowOrder h.rowEq ho hv h2 maxiter hr
      · obtain ⟨m, c, a1, a2, a3, -⟩ := C107_fastermsc hm h.rowOrder ho hv hc h2 maxiter hr
        exact ⟨m, c, a1, a2, a3⟩
    · by_cases h2 : med.length = 2
      · exact C107_fastmsc_two hm h.rowOrder h.rowEq ho hv h2 h3 maxiter hr
      · obtain ⟨m, c, a1, a2, a3, -⟩ := C107_fastmsc hm h.rowOrder ho hv hc h2 maxiter hr
        exact ⟨m, c, a1, a2, a3⟩
    · obtain ⟨m, c, a1, a2, a3, -⟩ := C107_pammedsil_swap hm h.rowOrder ho hv hc maxiter hr
      exact ⟨m, c, a1, a2, a3⟩
  obtain ⟨m, c, a1, a2, a3⟩ := key
  exact ⟨m, c, a1, a2, f64_closest a3⟩

/-! ## With two medoids, a medoid can have the label of the other one -/

theorem nanMat_fastmsc : fastmsc (Ieee binary64) nanMat [0, 1] 9 = .ok ⟨.nan, [1, 1, 1], 1, 0, [0, 1]⟩ := by
  decide +kernel

/-- **C107, limit**: with two medoids, a medoid is not always labelled with itself, although its distance to itself is zero
and that to the other medoid is NaN. In the result of this run the first cluster is empty. -/
theorem C107_own_two_negation :
    ¬ ∀ (mat : Mat (Ieee binary64)) (n : Nat) (d : Nat → Nat → Ieee binary64), IsMatrix mat n d →
      (∀ o, o < n → F64Row n d o) → ∀ med : List Nat, ValidMeds n med → med.Nodup → ∀ maxiter r,
      fastmsc (Ieee binary64) mat med maxiter = .ok r → ∀ o m : Nat, r.med[m]? = some o → r.assi[o]? = some m := by
  intro h
  have := h nanMat 3 nanD nanMat_isMatrix (fun o _ => nanD_row o) [0, 1]
    ⟨⟨by decide, by decide, by decide, by decide⟩, by decide⟩ (by decide) 9 _ nanMat_fastmsc 0 0 rfl
  simp at this

/-! ## examples -/

/-- Five objects; object 1 has no distances. -/
def nanD5 (x y : Nat) : Ieee binary64 :=
  if x = y then .num 0 else if x = 1 ∨ y = 1 then .nan else .num (x + y)

def nanMat5 : Mat (Ieee binary64) := Array2.toMat ⟨5, 5, nanD5⟩

theorem nanMat5_isMatrix : IsMatrix nanMat5 5 nanD5 :=
  ⟨rfl, rfl, fun x y hx hy => by simp [nanMat5, Array2.toMat, hx, hy]⟩

theorem nanD5_row (o : Nat) : F64Row 5 nanD5 o := by
  refine ⟨fun x _ => ?_, by simp [nanD5]⟩
  unfold nanD5
  split
  · exact Or.inr (Or.inr ⟨0, rfl, le_refl _⟩)
  · split
    · exact Or.inl rfl
    · exact Or.inr (Or.inr ⟨_, rfl, by positivity⟩)

theorem exV5_042 : ValidMeds 5 [0, 4, 2] := ⟨⟨by decide, by decide, by decide, by decide⟩, by decide⟩

/-- Three exchanges are made here. -/
theorem nanMat5_run : fastermsc (Ieee binary64) nanMat5 [0, 4, 2] 9 = .ok ⟨.nan, [0, 1, 2, 0, 1], 3, 3, [0, 4, 2]⟩ := by
  decide +kernel

example : ∃ m c : Nat, ([0, 1, 2, 0, 1] : List Nat)[3]? = some m ∧ ([0, 4, 2] : List Nat)[m]? = some c ∧
    (∀ c' ∈ [0, 4, 2], rlt (nanD5 3 c') (nanD5 3 c) = false) ∧ ∀ m' : Nat, ([0, 4, 2] : List Nat)[m']? = some 3 → m' = m :=
  C107_fastermsc nanMat5_isMatrix (nanD5_row 3).rowOrder (by decide) exV5_042 (by decide) (by decide) 9 nanMat5_run

example := C107_f64 nanMat5_isMatrix (o := 3) (by decide) (nanD5_row 3) exV5_042 (by decide) (by decide) 9 (Or.inl nanMat5_run)
example := (C107_distinct (L := Ieee binary64) nanMat5_isMatrix (fun o _ => (nanD5_row o).rowOrder) exV5_042 (by decide) 9).1 _
  (by decide) nanMat5_run
example (r : SwapResult (Ieee binary64)) (hr : fastmsc (Ieee binary64) nanMat5 [0, 4, 2] 9 = .ok r) :=
  C107_fastmsc nanMat5_isMatrix (nanD5_row 3).rowOrder (by decide) exV5_042 (by decide) (by decide) 9 hr
example (r : SwapResult (Ieee binary64)) (hr : pammedsilSwap (Ieee binary64) nanMat5 [0, 4, 2] 9 = .ok r) :=
  C107_pammedsil_swap nanMat5_isMatrix (nanD5_row 3).rowOrder (by decide) exV5_042 (by decide) 9 hr
example := C107_fastmsc_two nanMat_isMatrix (o := 0) (nanD_row 0).rowOrder (nanD_row 0).rowEq (by decide)
  ⟨⟨by decide, by decide, by decide, by decide⟩, by decide⟩ rfl (by decide) 9 nanMat_fastmsc
example (r : SwapResult (Ieee binary64)) (hr : fastermsc (Ieee binary64) nanMat [0, 1] 9 = .ok r) :=
  C107_fastermsc_two nanMat_isMatrix (o := 0) (nanD_row 0).rowOrder (nanD_row 0).rowEq (by decide)
  ⟨⟨by decide, by decide, by decide, by decide⟩, by decide⟩ rfl 9 hr

end KMedoids
