import Verif.Props.C01_C03
import Verif.Props.C36_C38
import Verif.Props.C39_C43
import Verif.Props.C52

/-!
# C84: Calls are accepted exactly if they are valid

C04, C29, C41, C47 and C52 say that valid calls do not panic; C05 lists three kinds of invalid calls that do. Here both
directions are put together, and the converse is complete: if a call returns, then the matrix is square, `1 ≤ k ≤ n`,
`n ≤ u32::MAX`, `k < u32::MAX`, and every medoid given by the caller is an index below `n`. This depends on the storage: a
read outside of the matrix must not succeed silently. For `LowerTriangle` that is not obvious, since its cells are numbered
consecutively, and a read with two equal indexes never fails.

Exceptions: with one medoid, the functions which test for `k == 1` first do not check anything (C05), and what they accept is
exactly what they read. FasterMSC with two medoids has its own initialisation, without the check `k <= n`.
-/

set_option linter.unusedSectionVars false

namespace KMedoids

/-! ## Storage -/

/-- A matrix storage with bounds checks: if it claims to be square, then it answers all reads inside, and refuses reads with
exactly one of the two indexes outside. (`LowerTriangle` answers zero if the indexes are equal, also outside.) -/
structure Storage {N : Type} (mat : Mat N) : Prop where
  inside : mat.isSquare = .ok true → ∀ x y, x < mat.len → y < mat.len → ∃ v, mat.get x y = .ok v
  outsideY : mat.isSquare = .ok true → ∀ x y, x < mat.len → mat.len ≤ y → Panics (mat.get x y)
  outsideX : mat.isSquare = .ok true → ∀ x y, mat.len ≤ x → y < mat.len → Panics (mat.get x y)

theorem Panics.not_ok {α : Type} {r : Res α} (h : Panics r) : ¬ ∃ v, r = .ok v := by
  rintro ⟨v, hv⟩
  obtain ⟨e, he⟩ := h
  rw [he] at hv
  cases hv

theorem C84_storage_array2 {N : Type} (a : Array2 N) : Storage a.toMat := by
  refine ⟨fun h x y hx hy => ?_, fun h x y hx hy => ?_, fun h x y hx hy => ?_⟩ <;>
  · have hs : a.rows = a.cols := by simpa [Array2.toMat] using h
    simp only [Array2.toMat] at *
    first
    | exact ⟨a.val x y, if_pos ⟨hx, hs ▸ hy⟩⟩
    | exact ⟨.index, if_neg (by omega)⟩

theorem C84_storage_lower {N : Type} [RDist N] (t : LowerTriangle N) : Storage t.toMat := by
  have hlen : t.isSquare = .ok true → t.data.length = t.n * (t.n - 1) / 2 := by
    intro h
    unfold LowerTriangle.isSquare at h
    split at h
    · cases h
    · simpa [Nat.shiftRight_eq_div_pow] using h
  have hout : t.isSquare = .ok true → ∀ x y, x ≠ y → t.n ≤ max x y → Panics (t.get x y) := by
    intro h x y hne hxy
    refine ⟨.index, ?_⟩
    rw [t.get_ne hne]
    have h1 := hlen h
    have h2 := tri_mono hxy
    unfold idx
    rw [List.getElem?_eq_none (by unfold triCell; omega)]
  exact ⟨fun h x y hx hy => C01_get_in_bounds t h x y hx hy,
    fun h x y hx hy => hout h x y (by simp only [LowerTriangle.toMat] at *; omega)
      (by simp only [LowerTriangle.toMat] at *; omega),
    fun h x y hx hy => hout h x y (by simp only [LowerTriangle.toMat] at *; omega)
      (by simp only [LowerTriangle.toMat] at *; omega)⟩

section
variable {N : Type}

/-- A square storage is a matrix. -/
theorem Storage.isMatrix {mat : Mat N} (hst : Storage mat) (hsq : mat.isSquare = .ok true) (h0 : 0 < mat.len) :
    ∃ d, IsMatrix mat mat.len d := by
  obtain ⟨v0, -⟩ := hst.inside hsq 0 0 h0 h0
  have : ∀ x y, ∃ v, x < mat.len → y < mat.len → mat.get x y = .ok v := by
    intro x y
    by_cases hx : x < mat.len
    · by_cases hy : y < mat.len
      · obtain ⟨v, hv⟩ := hst.inside hsq x y hx hy
        exact ⟨v, fun _ _ => hv⟩
      · exact ⟨v0, fun _ h => absurd h hy⟩
    · exact ⟨v0, fun h => absurd h hx⟩
  choose d hd using this
  exact ⟨d, rfl, hsq, fun x y hx hy => hd x y hx hy⟩

/-- Reads in the first row succeed only inside of the matrix. -/
theorem Storage.lt_of_read {mat : Mat N} (hst : Storage mat) (hsq : mat.isSquare = .ok true) (h0 : 0 < mat.len) {m : Nat}
    (h : ∃ v, mat.get 0 m = .ok v) : m < mat.len :=
  Nat.lt_of_not_le fun hm => (hst.outsideY hsq 0 m h0 hm).not_ok h

end

/-! ## Valid calls -/

/-- A valid call with given medoids. -/
structure ValidCall {N : Type} (mat : Mat N) (med : List Nat) : Prop where
  square : mat.isSquare = .ok true
  nLe : mat.len ≤ u32Max
  kPos : 1 ≤ med.length
  kLt : med.length < u32Max
  kLe : med.length ≤ mat.len
  range : ∀ m ∈ med, m < mat.len

/-- A valid call of a function which chooses the medoids itself. -/
structure ValidSizes {N : Type} (mat : Mat N) (k : Nat) : Prop where
  square : mat.isSquare = .ok true
  nLe : mat.len ≤ u32Max
  kPos : 1 ≤ k
  kLt : k < u32Max
  kLe : k ≤ mat.len

theorem ValidSizes.sizes {N : Type} {mat : Mat N} {k : Nat} (h : ValidSizes mat k) : Sizes mat.len k :=
  ⟨h.kPos, h.kLe, h.nLe, h.kLt⟩

theorem ValidCall.valid {N : Type} {mat : Mat N} {med : List Nat} (h : ValidCall mat med) : ValidMeds mat.len med :=
  ⟨⟨h.kPos, h.kLe, h.nLe, h.kLt⟩, h.range⟩

/-! ## Loops succeed iff their steps do -/

theorem foldRes_ok_iff {α σ : Type} {f : σ → α → Res σ} {P : α → Prop} (h : ∀ s x, (∃ s', f s x = .ok s') ↔ P x)
    (xs : List α) (s : σ) : (∃ s', foldRes f s xs = .ok s') ↔ ∀ x ∈ xs, P x := by
  induction xs generalizing s with
  | nil => simp
  | cons x xs ih =>
    rw [foldRes_cons, List.forall_mem_cons]
    constructor
    · rintro ⟨s', hs⟩
      obtain ⟨s1, h1, h2⟩ := bind_eq_ok.mp hs
      exact ⟨(h s x).mp ⟨s1, h1⟩, (ih s1).mp ⟨s', h2⟩⟩
    · rintro ⟨hx, hxs⟩
      obtain ⟨s1, h1⟩ := (h s x).mpr hx
      obtain ⟨s', h2⟩ := (ih s1).mpr hxs
      exact ⟨s', bind_eq_ok.mpr ⟨s1, h1, h2⟩⟩

theorem mapRes_ok_mem {α β : Type} {f : α → Res β} {xs : List α} {ys : List β} (h : mapRes f xs = .ok ys) :
    ∀ x ∈ xs, ∃ y, f x = .ok y := by
  induction xs generalizing ys with
  | nil => simp
  | cons x xs ih =>
    rw [mapRes_cons] at h
    obtain ⟨y, hy, h⟩ := bind_eq_ok.mp h
    obtain ⟨ys', hys, -⟩ := bind_eq_ok.mp h
    exact List.forall_mem_cons.mpr ⟨⟨y, hy⟩, ih hys⟩

section any
variable {N L : Type} [RDist N] [RLoss L] [RFrom N L]

theorem assertSizes_accepts {mat : Mat N} {k : Nat} : (∃ u, assertSizes mat k = .ok u) ↔ ValidSizes mat k := by
  constructor
  · rintro ⟨u, h⟩
    unfold assertSizes assertSquare at h
    obtain ⟨u1, h1, h⟩ := bind_eq_ok.mp h
    obtain ⟨b, hb, h1⟩ := bind_eq_ok.mp h1
    obtain ⟨u2, h2, h⟩ := bind_eq_ok.mp h
    obtain ⟨u3, h3, h4⟩ := bind_eq_ok.mp h
    have aux : ∀ {b : Bool} {s : String} {u : Unit}, rassert b s = .ok u → b = true := by
      intro b s u h; cases b
      · cases h
      · rfl
    have g1 := aux h1
    have g2 := aux h2
    have g3 := aux h3
    have g4 := aux h4
    subst g1
    simp only [decide_eq_true_eq, Bool.and_eq_true] at g2 g3 g4
    exact ⟨hb, g2, g3.1, g3.2, g4⟩
  · intro h
    refine ⟨(), ?_⟩
    have h1 := h.nLe
    have h2 : 0 < k := h.kPos
    have h3 := h.kLt
    have h4 := h.kLe
    simp [assertSizes, assertSquare, h.square, h1, h2, h3, h4]

/-- An initialisation which asserts the sizes and computes, for each object, a record by reading its distances to all
medoids. -/
theorem init_valid {R : Type} {mat : Mat N} {med : List Nat} (hst : Storage mat) {u : Unit} {c : Nat} {rs : List R}
    (hs : assertSizes mat med.length = .ok u) (hc : idx med 0 = .ok c)
    {st : Nat → R → Nat × Nat → Res R} (hstep : ∀ i s p, (∃ s', st i s p = .ok s') → ∃ v, mat.get i p.1 = .ok v)
    {r0 : N → R}
    (hr : mapRes (fun i => mat.get i c >>= fun d => foldRes (st i) (r0 d) (med.zipIdx.drop 1)) (List.range mat.len) = .ok rs) :
    ValidCall mat med := by
  have hv := assertSizes_accepts.mp ⟨u, hs⟩
  have h0 : 0 < mat.len := lt_of_lt_of_le hv.kPos hv.kLe
  refine ⟨hv.square, hv.nLe, hv.kPos, hv.kLt, hv.kLe, ?_⟩
  obtain ⟨r, h⟩ := mapRes_ok_mem hr 0 (List.mem_range.mpr h0)
  obtain ⟨d, hd, h⟩ := bind_eq_ok.mp h
  have hfold : ∀ (xs : List (Nat × Nat)) (s r : R), foldRes (st 0) s xs = .ok r → ∀ p ∈ xs, ∃ v, mat.get 0 p.1 = .ok v := by
    intro xs
    induction xs with
    | nil => simp
    | cons x xs ih =>
      intro s r h
      rw [foldRes_cons] at h
      obtain ⟨s1, h1, h2⟩ := bind_eq_ok.mp h
      exact List.forall_mem_cons.mpr ⟨hstep 0 s x ⟨s1, h1⟩, ih s1 r h2⟩
  have hall := hfold _ _ _ h
  cases med with
  | nil => simp
  | cons m0 ms =>
    have : c = m0 := by
      have := idx_ok.mp hc
      simpa using this.symm
    subst this
    refine List.forall_mem_cons.mpr ⟨hst.lt_of_read hv.square h0 ⟨d, hd⟩, fun m hm => ?_⟩
    refine hst.lt_of_read hv.square h0 ?_
    obtain ⟨i, hi, rfl⟩ := List.mem_iff_getElem.mp hm
    exact hall (ms[i], i + 1) (by
      rw [List.zipIdx_cons, List.drop_one, List.tail_cons]
      exact List.mem_iff_getElem.mpr ⟨i, by simpa using hi, by simp [Nat.add_comm]⟩)

theorem initAssignStep_read {mat : Mat N} (i : Nat) (s : Rec N) (p : Nat × Nat) :
    (∃ s', initAssignStep mat i s p = .ok s') → ∃ v, mat.get i p.1 = .ok v := by
  rintro ⟨s', h⟩
  obtain ⟨v, hv, -⟩ := bind_eq_ok.mp h
  exact ⟨v, hv⟩

theorem initialAssignment_valid {mat : Mat N} (hst : Storage mat) {med : List Nat}
    (h : ∃ r, initialAssignment L mat med = .ok r) : ValidCall mat med := by
  obtain ⟨r, h⟩ := h
  unfold initialAssignment at h
  obtain ⟨u, h1, h⟩ := bind_eq_ok.mp h
  obtain ⟨c, h2, h⟩ := bind_eq_ok.mp h
  obtain ⟨rs, h3, -⟩ := bind_eq_ok.mp h
  exact init_valid hst h1 h2 (st := initAssignStep mat) (fun i s p => initAssignStep_read i s p) h3

theorem parInitialAssignment_valid {sc : Sched} {mat : Mat N} (hst : Storage mat) {med : List Nat}
    (h : ∃ r, parInitialAssignment L sc mat med = .ok r) : ValidCall mat med := by
  obtain ⟨r, h⟩ := h
  unfold parInitialAssignment at h
  obtain ⟨u, h1, h⟩ := bind_eq_ok.mp h
  obtain ⟨c, h2, h⟩ := bind_eq_ok.mp h
  obtain ⟨rs, h3, -⟩ := bind_eq_ok.mp h
  exact init_valid hst h1 h2 (st := initAssignStep mat) (fun i s p => initAssignStep_read i s p) h3

theorem mscInitialAssignment_valid {mat : Mat N} (hst : Storage mat) {med : List Nat}
    (h : ∃ r, mscInitialAssignment L mat med = .ok r) : ValidCall mat med := by
  obtain ⟨r, h⟩ := h
  unfold mscInitialAssignment at h
  obtain ⟨u, h1, h⟩ := bind_eq_ok.mp h
  obtain ⟨c, h2, h⟩ := bind_eq_ok.mp h
  obtain ⟨rs, h3, -⟩ := bind_eq_ok.mp h
  refine init_valid hst h1 h2 (st := mscInitStep mat) ?_ h3
  rintro i s p ⟨s', h⟩
  obtain ⟨v, hv, -⟩ := bind_eq_ok.mp h
  exact ⟨v, hv⟩

theorem assignNearest_valid {mat : Mat N} (hst : Storage mat) {med : List Nat}
    (h : ∃ r, assignNearest L mat med = .ok r) : ValidCall mat med := by
  obtain ⟨r, h⟩ := h
  unfold assignNearest at h
  obtain ⟨u, h1, h⟩ := bind_eq_ok.mp h
  obtain ⟨c, h2, h⟩ := bind_eq_ok.mp h
  obtain ⟨rs, h3, -⟩ := bind_eq_ok.mp h
  refine init_valid hst h1 h2 (st := fun i (best : Nat × N) (p : Nat × Nat) => do
    let dm ← mat.get i p.1
    .ok (if rlt dm best.2 || i == p.1 then (p.2, dm) else best)) ?_ h3
  rintro i s p ⟨s', h⟩
  obtain ⟨v, hv, -⟩ := bind_eq_ok.mp h
  exact ⟨v, hv⟩

/-- The first part of a sequence succeeds. -/
theorem ok_of_bind {α β : Type} {x : Res α} {f : α → Res β} (h : ∃ b, (x >>= f) = .ok b) : ∃ a, x = .ok a := by
  obtain ⟨b, h⟩ := h
  obtain ⟨a, ha, -⟩ := bind_eq_ok.mp h
  exact ⟨a, ha⟩

theorem ValidCall.matrix {mat : Mat N} (hst : Storage mat) {med : List Nat} (h : ValidCall mat med) :
    ∃ d, IsMatrix mat mat.len d := hst.isMatrix h.square (lt_of_lt_of_le h.kPos h.kLe)

theorem ValidSizes.matrix {mat : Mat N} (hst : Storage mat) {k : Nat} (h : ValidSizes mat k) :
    ∃ d, IsMatrix mat mat.len d := hst.isMatrix h.square (lt_of_lt_of_le h.kPos h.kLe)

/-! ## The PAM family -/

/-- **C84, rand_fasterpam.** With other than one medoid, a call returns exactly if it is valid. -/
theorem C84_rand_fasterpam {mat : Mat N} (hst : Storage mat) {med : List Nat} (hk : med.length ≠ 1) (maxiter : Nat)
    {seq : List Nat} (hseq : ∀ j ∈ seq, j < mat.len) :
    (∃ r, randFasterpam L mat med maxiter seq = .ok r) ↔ ValidCall mat med := by
  constructor
  · intro h
    rw [randFasterpam, if_neg hk] at h
    exact initialAssignment_valid hst (ok_of_bind h)
  · intro h
    obtain ⟨d, hm⟩ := h.matrix hst
    obtain ⟨r, hr, -⟩ := C04_rand_fasterpam (L := L) hm h.valid maxiter hseq
    exact ⟨r, hr⟩

theorem C84_fasterpam {mat : Mat N} (hst : Storage mat) {med : List Nat} (hk : med.length ≠ 1) (maxiter : Nat) :
    (∃ r, fasterpam L mat med maxiter = .ok r) ↔ ValidCall mat med := by
  rw [fasterpam_eq_rand]
  exact C84_rand_fasterpam hst hk maxiter (fun j hj => List.mem_range.mp hj)

/-- **C84, par_fasterpam**, for every resolution of the scheduling. -/
theorem C84_par_fasterpam (sc0 : Sched) (scF scS : Nat → Nat → Sched) {mat : Mat N} (hst : Storage mat) {med : List Nat}
    (hk : med.length ≠ 1) (maxiter : Nat) {seq : List Nat} (hseq : ∀ j ∈ seq, j < mat.len) :
    (∃ r, parFasterpam L sc0 scF scS mat med maxiter seq = .ok r) ↔ ValidCall mat med := by
  constructor
  · intro h
    rw [parFasterpam, if_neg hk] at h
    exact parInitialAssignment_valid hst (ok_of_bind h)
  · intro h
    obtain ⟨d, hm⟩ := h.matrix hst
    obtain ⟨r, hr, -⟩ := C52_no_panic (L := L) sc0 scF scS hm h.valid maxiter hseq
    exact ⟨r, hr⟩

theorem C84_fastpam1 [SaneZero L] {mat : Mat N} (hst : Storage mat) {med : List Nat} (hk : med.length ≠ 1)
    (maxiter : Nat) : (∃ r, fastpam1 L mat med maxiter = .ok r) ↔ ValidCall mat med := by
  constructor
  · intro h
    rw [fastpam1, if_neg hk] at h
    exact initialAssignment_valid hst (ok_of_bind h)
  · intro h
    obtain ⟨d, hm⟩ := h.matrix hst
    obtain ⟨r, hr, -⟩ := C04_fastpam1 (L := L) hm h.valid maxiter
    exact ⟨r, hr⟩

/-- **C84, pam_swap**, for any number of medoids. -/
theorem C84_pam_swap [SaneZero L] {mat : Mat N} (hst : Storage mat) {med : List Nat} (maxiter : Nat) :
    (∃ r, pamSwap L mat med maxiter = .ok r) ↔ ValidCall mat med := by
  constructor
  · intro h
    exact initialAssignment_valid hst (ok_of_bind h)
  · intro h
    obtain ⟨d, hm⟩ := h.matrix hst
    obtain ⟨r, hr, -⟩ := C04_pam_swap (L := L) hm h.valid maxiter
    exact ⟨r, hr⟩

theorem C84_alternating {mat : Mat N} (hst : Storage mat) {med : List Nat} (maxiter : Nat) :
    (∃ r, alternating L mat med maxiter = .ok r) ↔ ValidCall mat med := by
  constructor
  · intro h
    exact assignNearest_valid hst (ok_of_bind h)
  · intro h
    obtain ⟨d, hm⟩ := h.matrix hst
    obtain ⟨r, hr, -⟩ := C04_alternating (L := L) hm h.valid maxiter
    exact ⟨r, hr⟩

theorem C84_pam_build {mat : Mat N} (hst : Storage mat) {k : Nat} :
    (∃ r, pamBuild L mat k = .ok r) ↔ ValidSizes mat k := by
  constructor
  · intro h
    exact assertSizes_accepts.mp (ok_of_bind h)
  · intro h
    obtain ⟨d, hm⟩ := h.matrix hst
    obtain ⟨r, hr, -⟩ := C04_pam_build (L := L) hm h.sizes
    exact ⟨r, hr⟩

theorem C84_pam [SaneZero L] {mat : Mat N} (hst : Storage mat) {k : Nat} (maxiter : Nat) :
    (∃ r, pam L mat k maxiter = .ok r) ↔ ValidSizes mat k := by
  constructor
  · intro h
    exact assertSizes_accepts.mp (ok_of_bind h)
  · intro h
    obtain ⟨d, hm⟩ := h.matrix hst
    obtain ⟨r, hr, -⟩ := C04_pam (L := L) hm h.sizes maxiter
    exact ⟨r, hr⟩

/-! ## The silhouette family -/

/-- **C84, fastermsc.** With three medoids or more (or none), a call returns exactly if it is valid. -/
theorem C84_fastermsc {mat : Mat N} (hst : Storage mat) {med : List Nat} (h1 : med.length ≠ 1) (h2 : med.length ≠ 2)
    (maxiter : Nat) : (∃ r, fastermsc L mat med maxiter = .ok r) ↔ ValidCall mat med := by
  constructor
  · intro h
    rw [fastermsc, if_neg h1, if_neg h2] at h
    exact mscInitialAssignment_valid hst (ok_of_bind h)
  · intro h
    obtain ⟨d, hm⟩ := h.matrix hst
    exact ⟨_, fastermsc_eq hm h.valid maxiter⟩

theorem C84_fastmsc [SaneZero L] {mat : Mat N} (hst : Storage mat) {med : List Nat} (h1 : med.length ≠ 1)
    (h2 : med.length ≠ 2) (maxiter : Nat) : (∃ r, fastmsc L mat med maxiter = .ok r) ↔ ValidCall mat med := by
  constructor
  · intro h
    rw [fastmsc, if_neg h1, if_neg h2] at h
    exact mscInitialAssignment_valid hst (ok_of_bind h)
  · intro h
    obtain ⟨d, hm⟩ := h.matrix hst
    exact ⟨_, fastmsc_eq_ne2 hm h.valid h2 maxiter⟩

/-- The initialisation for two medoids succeeds only if the matrix is square, not too large and the medoids are objects. -/
theorem k2InitialAssignment_valid {mat : Mat N} (hst : Storage mat) {m0 m1 : Nat}
    (h : ∃ r, k2InitialAssignment L mat [m0, m1] = .ok r) :
    mat.isSquare = .ok true ∧ mat.len ≤ u32Max ∧ m0 < mat.len ∧ m1 < mat.len := by
  obtain ⟨r, h⟩ := h
  unfold k2InitialAssignment assertSquare at h
  obtain ⟨u1, h1, h⟩ := bind_eq_ok.mp h
  obtain ⟨b, hb, h1⟩ := bind_eq_ok.mp h1
  obtain ⟨u2, h2, h⟩ := bind_eq_ok.mp h
  obtain ⟨u3, -, h⟩ := bind_eq_ok.mp h
  obtain ⟨rs, h4, h⟩ := bind_eq_ok.mp h
  obtain ⟨l, h5, h⟩ := bind_eq_ok.mp h
  have g1 : b = true := by
    cases b
    · cases h1
    · rfl
  subst g1
  have g2 : mat.len ≤ u32Max := by
    by_contra hc
    rw [decide_eq_false hc] at h2
    cases h2
  have h0 : 0 < mat.len := by
    rcases Nat.eq_zero_or_pos mat.len with h0 | h0
    · rw [h0] at h4
      cases h4
      cases h5
    · exact h0
  obtain ⟨r0, h⟩ := mapRes_ok_mem h4 0 (List.mem_range.mpr h0)
  unfold k2InitRec at h
  obtain ⟨c0, hc0, h⟩ := bind_eq_ok.mp h
  obtain ⟨d0, hd0, h⟩ := bind_eq_ok.mp h
  obtain ⟨c1, hc1, h⟩ := bind_eq_ok.mp h
  obtain ⟨d1, hd1, h⟩ := bind_eq_ok.mp h
  cases hc0
  cases hc1
  exact ⟨hb, g2, hst.lt_of_read hb h0 ⟨d0, hd0⟩, hst.lt_of_read hb h0 ⟨d1, hd1⟩⟩

/-- **C84, fastermsc with two medoids.** Accepted are the square matrices and medoids which are objects. There is no check
that `2 ≤ n`. -/
theorem C84_fastermsc_two {mat : Mat N} (hst : Storage mat) (m0 m1 maxiter : Nat) :
    (∃ r, fastermsc L mat [m0, m1] maxiter = .ok r) ↔
      mat.isSquare = .ok true ∧ mat.len ≤ u32Max ∧ m0 < mat.len ∧ m1 < mat.len := by
  have he : fastermsc L mat [m0, m1] maxiter = fastermscK2 L mat [m0, m1] maxiter := rfl
  rw [he]
  constructor
  · rintro ⟨r, h⟩
    unfold fastermscK2 at h
    obtain ⟨u, -, h⟩ := bind_eq_ok.mp h
    exact k2InitialAssignment_valid hst (ok_of_bind ⟨r, h⟩)
  · rintro ⟨h1, h2, h3, h4⟩
    obtain ⟨d, hm⟩ := hst.isMatrix h1 (by omega)
    exact ⟨_, fastermscK2_eq hm h2 h3 h4 maxiter⟩

/-- Valid calls are accepted also with two medoids, and except for a single object only they are. -/
theorem C84_fastermsc_two_valid {mat : Mat N} (hst : Storage mat) (h1 : mat.len ≠ 1) (m0 m1 maxiter : Nat) :
    (∃ r, fastermsc L mat [m0, m1] maxiter = .ok r) ↔ ValidCall mat [m0, m1] := by
  rw [C84_fastermsc_two hst]
  constructor
  · rintro ⟨a, b, c, e⟩
    refine ⟨a, b, by simp, by show 2 < u32Max; decide, ?_, ?_⟩
    · simp only [List.length_cons, List.length_nil]; omega
    · simp only [List.forall_mem_cons]; exact ⟨c, e, by simp⟩
  · intro h
    exact ⟨h.square, h.nLe, h.range m0 (by simp), h.range m1 (by simp)⟩

/-- `fastmsc` with two medoids accepts nothing else. It does not accept all of it (C29). -/
theorem C84_fastmsc_two {mat : Mat N} (hst : Storage mat) (m0 m1 maxiter : Nat)
    (h : ∃ r, fastmsc L mat [m0, m1] maxiter = .ok r) :
    mat.isSquare = .ok true ∧ mat.len ≤ u32Max ∧ m0 < mat.len ∧ m1 < mat.len := by
  have he : fastmsc L mat [m0, m1] maxiter = fastmscK2 L mat [m0, m1] maxiter := rfl
  rw [he] at h
  obtain ⟨r, h⟩ := h
  unfold fastmscK2 at h
  obtain ⟨u, -, h⟩ := bind_eq_ok.mp h
  exact k2InitialAssignment_valid hst (ok_of_bind ⟨r, h⟩)

theorem C84_fastmsc_two_valid [SaneZero L] {mat : Mat N} (hst : Storage mat) (h3 : 3 ≤ mat.len) (m0 m1 maxiter : Nat) :
    (∃ r, fastmsc L mat [m0, m1] maxiter = .ok r) ↔ ValidCall mat [m0, m1] := by
  constructor
  · intro h
    obtain ⟨a, b, c, e⟩ := C84_fastmsc_two hst m0 m1 maxiter h
    refine ⟨a, b, by simp, by show 2 < u32Max; decide, ?_, ?_⟩
    · simp only [List.length_cons, List.length_nil]; omega
    · simp only [List.forall_mem_cons]; exact ⟨c, e, by simp⟩
  · intro h
    obtain ⟨d, hm⟩ := h.matrix hst
    obtain ⟨r, hr, -⟩ := C29_fastmsc_partial (L := L) hm h.valid (by simp) (by omega) maxiter
    exact ⟨r, hr⟩

theorem C84_pammedsil_swap [SaneZero L] {mat : Mat N} (hst : Storage mat) {med : List Nat} (maxiter : Nat) :
    (∃ r, pammedsilSwap L mat med maxiter = .ok r) ↔ ValidCall mat med := by
  constructor
  · intro h
    exact mscInitialAssignment_valid hst (ok_of_bind h)
  · intro h
    obtain ⟨d, hm⟩ := h.matrix hst
    exact ⟨_, pammedsilSwap_eq hm h.valid maxiter⟩

theorem C84_pammedsil [SaneZero L] {mat : Mat N} (hst : Storage mat) {k : Nat} (maxiter : Nat) :
    (∃ r, pammedsil L mat k maxiter = .ok r) ↔ ValidSizes mat k := by
  constructor
  · intro h
    exact assertSizes_accepts.mp (ok_of_bind h)
  · intro h
    obtain ⟨d, hm⟩ := h.matrix hst
    exact ⟨_, pammedsil_eq hm h.sizes maxiter⟩

/-- **C84, dynmsc.** -/
theorem C84_dynmsc {mat : Mat N} (hst : Storage mat) {med : List Nat} (hk : med.length ≠ 1) (mink maxiter : Nat) :
    (∃ r, dynmsc L mat med mink maxiter = .ok r) ↔ ValidCall mat med := by
  constructor
  · intro h
    rw [dynmsc, if_neg hk] at h
    exact mscInitialAssignment_valid hst (ok_of_bind h)
  · intro h
    obtain ⟨d, hm⟩ := h.matrix hst
    have := h.kPos
    exact ⟨_, dynmsc_eq hm h.valid (by omega) mink maxiter⟩

/-- **C84, pamsil_swap and pamsil**: only valid calls return. (Not all valid calls do, C41.) -/
theorem C84_pamsil_swap {mat : Mat N} (hst : Storage mat) {med : List Nat} (maxiter : Nat)
    (h : ∃ r, pamsilSwap L mat med maxiter = .ok r) : ValidCall mat med :=
  assignNearest_valid hst (ok_of_bind h)

theorem C84_pamsil {mat : Mat N} {k : Nat} (maxiter : Nat)
    (h : ∃ r, pamsil L mat k maxiter = .ok r) : ValidSizes mat k :=
  assertSizes_accepts.mp (ok_of_bind h)

/-! ## One medoid -/

theorem partitionSum_ok_iff {mat : Mat N} {n c : Nat} :
    (∃ s, partitionSum L mat (List.replicate n 0) 0 c = .ok s) ↔ ∀ i, i < n → i ≠ c → ∃ v, mat.get c i = .ok v := by
  unfold partitionSum
  rw [foldRes_ok_iff (P := fun p : Nat × Nat => p.2 ≠ c → p.1 = 0 → ∃ v, mat.get c p.2 = .ok v)]
  · constructor
    · intro h i hi hne
      exact h (0, i) (List.mem_iff_getElem.mpr ⟨i, by simpa using hi, by simp⟩) hne rfl
    · rintro h ⟨a, i⟩ hp hne -
      obtain ⟨j, hj, he⟩ := List.mem_iff_getElem.mp hp
      simp only [List.getElem_zipIdx, Prod.mk.injEq] at he
      exact h i (by simp at hj; omega) hne
  · intro s p
    by_cases hp : p.2 ≠ c ∧ p.1 = 0
    · rw [if_pos hp]
      constructor
      · intro h _ _
        exact ok_of_bind h
      · intro h
        obtain ⟨v, hv⟩ := h hp.1 hp.2
        exact ⟨_, by rw [hv]; rfl⟩
    · rw [if_neg hp]
      exact ⟨fun _ h1 h2 => absurd ⟨h1, h2⟩ hp, fun _ => ⟨s, rfl⟩⟩

/-- **C84, one medoid.** The special treatment of `k == 1` accepts exactly the calls for which the reads it makes succeed:
from the given medoid to all others, and between all pairs. -/
theorem C84_single {mat : Mat N} (c : Nat) :
    (∃ r, singleCluster L mat [c] = .ok r) ↔
      (∀ i, i < mat.len → i ≠ c → ∃ v, mat.get c i = .ok v) ∧
      ∀ i j, i < mat.len → j < mat.len → i ≠ j → ∃ v, mat.get i j = .ok v := by
  have hstep : ∀ (st : Nat × L) (p : Nat × Nat),
      (∃ s', chooseMedoidStep mat (List.replicate mat.len 0) 0 c st p = .ok s') ↔
        (p.2 ≠ c → p.1 = 0 → ∀ i, i < mat.len → i ≠ p.2 → ∃ v, mat.get p.2 i = .ok v) := by
    intro st p
    unfold chooseMedoidStep
    by_cases hp : p.2 ≠ c ∧ p.1 = 0
    · rw [if_pos hp]
      constructor
      · intro h _ _
        exact (partitionSum_ok_iff (L := L)).mp (ok_of_bind h)
      · intro h
        obtain ⟨s, hs⟩ := (partitionSum_ok_iff (L := L)).mpr (h hp.1 hp.2)
        exact ⟨_, by rw [hs]; rfl⟩
    · rw [if_neg hp]
      exact ⟨fun _ h1 h2 => absurd ⟨h1, h2⟩ hp, fun _ => ⟨st, rfl⟩⟩
  constructor
  · rintro ⟨r, h⟩
    unfold singleCluster chooseMedoidWithinPartition at h
    obtain ⟨r1, h, -⟩ := bind_eq_ok.mp h
    obtain ⟨first, hf, h⟩ := bind_eq_ok.mp h
    cases hf
    obtain ⟨sumb, hs, h⟩ := bind_eq_ok.mp h
    obtain ⟨r2, h, -⟩ := bind_eq_ok.mp h
    have h1 := (partitionSum_ok_iff (L := L)).mp ⟨sumb, hs⟩
    have h2 := (foldRes_ok_iff hstep _ _).mp ⟨r2, h⟩
    refine ⟨h1, fun i j hi hj hne => ?_⟩
    by_cases hic : i = c
    · subst hic; exact h1 j hj (Ne.symm hne)
    · exact h2 (0, i) (List.mem_iff_getElem.mpr ⟨i, by simpa using hi, by simp⟩) hic rfl j hj (Ne.symm hne)
  · rintro ⟨h1, h2⟩
    obtain ⟨sumb, hs⟩ := (partitionSum_ok_iff (L := L)).mpr h1
    obtain ⟨r2, hr⟩ := (foldRes_ok_iff hstep (List.replicate mat.len 0).zipIdx (c, sumb)).mpr (by
      rintro ⟨a, i⟩ hp - - j hj hne
      obtain ⟨l, hl, he⟩ := List.mem_iff_getElem.mp hp
      simp only [List.getElem_zipIdx, Prod.mk.injEq] at he
      exact h2 i j (by simp at hl; omega) hj (Ne.symm hne))
    unfold singleCluster chooseMedoidWithinPartition
    have hi : idx [c] 0 = .ok c := rfl
    simp only [hi, ok_bind, hs, hr]
    exact ⟨_, rfl⟩

/-- With `ndarray`, one medoid: a matrix without rows, a matrix with one row, or at least as many columns as rows; and the
medoid a row. -/
theorem C84_single_array2 (a : Array2 N) (c : Nat) :
    (∃ r, singleCluster L a.toMat [c] = .ok r) ↔ a.rows = 0 ∨ (c < a.rows ∧ (a.rows = 1 ∨ a.rows ≤ a.cols)) := by
  have hg : ∀ x y, (∃ v, a.toMat.get x y = .ok v) ↔ x < a.rows ∧ y < a.cols := by
    intro x y
    simp only [Array2.toMat]
    split
    · rename_i h; exact ⟨fun _ => h, fun _ => ⟨_, rfl⟩⟩
    · rename_i h; exact ⟨(by rintro ⟨v, hv⟩; cases hv), fun h' => absurd h' h⟩
  rw [C84_single]
  simp only [hg]
  have hl : a.toMat.len = a.rows := rfl
  rw [hl]
  constructor
  · rintro ⟨h1, h2⟩
    rcases Nat.eq_zero_or_pos a.rows with h0 | h0
    · exact .inl h0
    · right
      have hc : c < a.rows := by
        by_contra hc
        exact hc (h1 0 h0 (by omega)).1
      refine ⟨hc, ?_⟩
      by_cases hr : a.rows = 1
      · exact .inl hr
      · right
        have := (h2 0 (a.rows - 1) h0 (by omega) (by omega)).2
        omega
  · rintro (h | ⟨hc, h⟩)
    · exact ⟨fun i hi => by omega, fun i j hi => by omega⟩
    · exact ⟨fun i hi hne => ⟨hc, by omega⟩, fun i j hi hj hne => ⟨hi, by omega⟩⟩

/-- With `LowerTriangle`, one medoid: no objects, or enough data (more is not noticed) and the medoid an object. -/
theorem C84_single_lower (t : LowerTriangle N) (c : Nat) :
    (∃ r, singleCluster L t.toMat [c] = .ok r) ↔
      t.n = 0 ∨ (t.n * (t.n - 1) / 2 ≤ t.data.length ∧ (∀ i, i < t.n → i ≠ c → triCell c i < t.data.length)) := by
  have hg : ∀ x y, x ≠ y → ((∃ v, t.toMat.get x y = .ok v) ↔ triCell x y < t.data.length) := by
    intro x y hne
    show (∃ v, t.get x y = .ok v) ↔ _
    rw [t.get_ne hne]
    constructor
    · rintro ⟨v, hv⟩
      exact (List.getElem?_eq_some_iff.mp (idx_ok.mp hv)).1
    · intro h
      exact ⟨_, idx_lt h⟩
  rw [C84_single]
  have hl : t.toMat.len = t.n := rfl
  rw [hl]
  constructor
  · rintro ⟨h1, h2⟩
    rcases Nat.eq_zero_or_pos t.n with h0 | h0
    · exact .inl h0
    · refine .inr ⟨?_, fun i hi hne => (hg c i (Ne.symm hne)).mp (h1 i hi hne)⟩
      by_cases hn : t.n = 1
      · rw [hn]; simp
      · have := (hg (t.n - 1) (t.n - 2) (by omega)).mp (h2 _ _ (by omega) (by omega) (by omega))
        unfold triCell at this
        rw [max_eq_left (by omega), min_eq_right (by omega)] at this
        have ht := tri_succ (t.n - 1)
        rw [Nat.sub_add_cancel h0] at ht
        rw [ht]; omega
  · rintro (h | ⟨hd, h⟩)
    · exact ⟨fun i hi => by omega, fun i j hi => by omega⟩
    · exact ⟨fun i hi hne => (hg c i (Ne.symm hne)).mpr (h i hi hne),
        fun i j hi hj hne => (hg i j hne).mpr (lt_of_lt_of_le (triCell_lt hi hj hne) hd)⟩

/-- With one medoid, a square matrix that is not empty: accepted exactly if valid, up to the size limits. -/
theorem C84_single_square {mat : Mat N} (hst : Storage mat) (hsq : mat.isSquare = .ok true) (h0 : 0 < mat.len) (c : Nat) :
    (∃ r, singleCluster L mat [c] = .ok r) ↔ c < mat.len := by
  rw [C84_single]
  constructor
  · rintro ⟨h1, -⟩
    by_contra hc
    exact (hst.outsideX hsq c 0 (by omega) h0).not_ok (h1 0 h0 (by omega))
  · intro hc
    exact ⟨fun i hi _ => hst.inside hsq c i hc hi, fun i j hi hj _ => hst.inside hsq i j hi hj⟩

/-- The functions that treat one medoid specially. -/
theorem C84_single_functions (mat : Mat N) (c maxiter : Nat) (seq : List Nat) (sc0 : Sched) (scF scS : Nat → Nat → Sched) :
    fasterpam L mat [c] maxiter = singleCluster L mat [c] ∧
    randFasterpam L mat [c] maxiter seq = singleCluster L mat [c] ∧
    parFasterpam L sc0 scF scS mat [c] maxiter seq = singleCluster L mat [c] ∧
    fastpam1 L mat [c] maxiter = singleCluster L mat [c] ∧
    fastermsc L mat [c] maxiter = singleCluster L mat [c] ∧
    fastmsc L mat [c] maxiter = singleCluster L mat [c] ∧
    ∀ mink, (∃ r, dynmsc L mat [c] mink maxiter = .ok r) ↔ ∃ r, singleCluster L mat [c] = .ok r := by
  refine ⟨rfl, rfl, rfl, rfl, rfl, rfl, fun mink => ?_⟩
  have he : dynmsc L mat [c] mink maxiter =
      (chooseMedoidWithinPartition L mat (List.replicate mat.len 0) [c] 0 >>= fun r =>
        .ok ⟨r.1.2, List.replicate mat.len 0, 1, if r.1.1 then 1 else 0, r.2, [r.1.2]⟩) := rfl
  rw [he]
  constructor
  · intro h
    obtain ⟨r, hr⟩ := ok_of_bind h
    exact ⟨_, by simp only [singleCluster, hr, ok_bind]; rfl⟩
  · intro h
    obtain ⟨r, hr⟩ := ok_of_bind h
    exact ⟨_, by rw [hr]; rfl⟩

end any

/-! ## The check that is missing -/

/-- The full claim for FasterMSC. -/
def C84_fastermsc_full : Prop := ∀ (t : LowerTriangle ℕ) (med : List Nat) (maxiter : Nat), 2 ≤ med.length →
  ((∃ r, fastermsc ℚ t.toMat med maxiter = .ok r) ↔ ValidCall t.toMat med)

/-- It is false: two medoids and one object are accepted, although `k > n`. -/
theorem C84_fastermsc_negation : ¬ C84_fastermsc_full := by
  intro h
  have := (h ⟨1, []⟩ [0, 0] 5 (by decide)).mp
    ((C84_fastermsc_two (C84_storage_lower _) 0 0 5).mpr ⟨rfl, by decide, by decide, by decide⟩)
  have := this.kLe
  exact absurd this (by decide)

/-- With one medoid and a triangle with too much data, an object that does not exist is accepted as medoid, and returned as the
best one. (`is_square` would have said no.) -/
theorem C84_single_outside : (⟨2, [5, 0, 0]⟩ : LowerTriangle ℕ).toMat.isSquare = .ok false ∧
    fasterpam ℤ (⟨2, [5, 0, 0]⟩ : LowerTriangle ℕ).toMat [2] 5 = .ok ⟨0, [0, 0], 1, 0, [2]⟩ := by
  decide +kernel

/-- Hypotheses: both storages, valid and invalid calls. -/
example : Storage (⟨3, [1, 2, 3]⟩ : LowerTriangle ℕ).toMat ∧ ValidCall (⟨3, [1, 2, 3]⟩ : LowerTriangle ℕ).toMat [2, 0] ∧
    ¬ ValidCall (⟨3, [1, 2, 3]⟩ : LowerTriangle ℕ).toMat [0, 3] ∧
    ¬ ValidCall (⟨3, [1, 2]⟩ : LowerTriangle ℕ).toMat [0, 1] ∧
    ¬ ValidCall (⟨3, 2, fun _ _ => 1⟩ : Array2 ℕ).toMat [0, 1] :=
  ⟨C84_storage_lower _, ⟨rfl, by decide, by decide, by decide, by decide, by decide⟩,
    fun h => absurd (h.range 3 (by simp)) (by decide), (fun h => by cases h.square), (fun h => by cases h.square)⟩

/-- An index outside of a lower triangle panics, also where the cell number would be that of another pair: object 3 of a matrix
with 3 objects. -/
example : ¬ ∃ r, fasterpam ℤ (⟨3, [1, 2, 3]⟩ : LowerTriangle ℕ).toMat [0, 3] 5 = .ok r := by
  rw [C84_fasterpam (C84_storage_lower _) (by decide)]
  exact fun h => absurd (h.range 3 (by simp)) (by decide)

/-- One medoid: a wide array is accepted, a tall one not. -/
example : (∃ r, singleCluster ℤ (⟨2, 3, fun _ _ => (1 : ℕ)⟩ : Array2 ℕ).toMat [1] = .ok r) ∧
    ¬ ∃ r, singleCluster ℤ (⟨3, 2, fun _ _ => (1 : ℕ)⟩ : Array2 ℕ).toMat [1] = .ok r := by
  rw [C84_single_array2, C84_single_array2]; decide

end KMedoids
