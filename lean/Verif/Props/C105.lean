import Verif.Proofs.RowOrder
import Verif.Props.C72
import Verif.Props.C102
import Verif.Props.C52

/-!
# C105: undefined distances (NaN)

The crate only asks for `PartialOrd`: two distances may be incomparable, as with NaN in `f64`. The algorithms of the PAM
family never give an object a label such that another medoid is closer: the distance to the medoid of its cluster is
minimal, or not comparable. Objects that are medoids are labelled with themselves, and occur once. This concerns one
object at a time: it depends only on the comparisons within its own row of the matrix. Nothing is assumed about the rows
of the other objects, nor about the losses, which will usually be NaN in this case.
-/

set_option linter.unusedSectionVars false

namespace KMedoids

section general

variable {N L : Type} [RDist N] [RLoss L] [RFrom N L]
variable {n : Nat} {d : Nat → Nat → N} {o : Nat}

theorem singleP_best {mat : Mat N} (hm : IsMatrix mat n d) (he : RowOrder n d o) (ho : o < n) {c : Nat}
    (hc : c < n) : ObjBest d o (singleP L d n c).med (singleP L d n c).assi :=
  single_best he ho (singleCluster_eq (L := L) hm hc).2

/-- **C105, rand_fasterpam.** -/
theorem C105_rand_fasterpam {mat : Mat N} (hm : IsMatrix mat n d) (he : RowOrder n d o) (ho : o < n)
    {med : List Nat} (hv : ValidMeds n med) (hc : med.count o ≤ 1) (maxiter : Nat) {seq : List Nat}
    (hseq : ∀ j ∈ seq, j < n) {r : SwapResult L} (hr : randFasterpam L mat med maxiter seq = .ok r) :
    ∃ m c : Nat, r.assi[o]? = some m ∧ r.med[m]? = some c ∧ (∀ c' ∈ r.med, rlt (d o c') (d o c) = false) ∧
      ∀ m' : Nat, r.med[m']? = some o → m' = m := by
  rw [randFasterpam_eq hm hv maxiter hseq] at hr; cases hr
  show ObjBest d o _ _
  by_cases h1 : med.length = 1
  · obtain ⟨c, rfl⟩ := List.length_eq_one_iff.mp h1
    exact singleP_best hm he ho (hv.range c (by simp))
  · have hk : 2 ≤ med.length := by have := hv.sizes.pos; omega
    rw [fpP_many d n hk]
    have hs := fpInitP_shape (L := L) d hv hk
    exact (fpLoopP_row hm he hv.sizes.k_lt (by omega) hseq hs (initDataP_row he ho hk hv hc)).best he
      (fpLoop_eq hm hv.sizes.k_lt (by omega) hseq hs).2.shape.medRange

/-- **C105, fasterpam.** -/
theorem C105_fasterpam {mat : Mat N} (hm : IsMatrix mat n d) (he : RowOrder n d o) (ho : o < n)
    {med : List Nat} (hv : ValidMeds n med) (hc : med.count o ≤ 1) (maxiter : Nat) {r : SwapResult L}
    (hr : fasterpam L mat med maxiter = .ok r) :
    ∃ m c : Nat, r.assi[o]? = some m ∧ r.med[m]? = some c ∧ (∀ c' ∈ r.med, rlt (d o c') (d o c) = false) ∧
      ∀ m' : Nat, r.med[m']? = some o → m' = m := by
  rw [fasterpam_eq_rand, hm.len] at hr
  exact C105_rand_fasterpam hm he ho hv hc maxiter (fun j hj => List.mem_range.mp hj) hr

/-- **C105, par_fasterpam**, for every division of the work and every order of the sums. -/
theorem C105_par_fasterpam (sc0 : Sched) (scF scS : Nat → Nat → Sched) {mat : Mat N} (hm : IsMatrix mat n d)
    (he : RowOrder n d o) (ho : o < n) {med : List Nat} (hv : ValidMeds n med) (hc : med.count o ≤ 1)
    (maxiter : Nat) {seq : List Nat} (hseq : ∀ j ∈ seq, j < n) {r : SwapResult L}
    (hr : parFasterpam L sc0 scF scS mat med maxiter seq = .ok r) :
    ∃ m c : Nat, r.assi[o]? = some m ∧ r.med[m]? = some c ∧ (∀ c' ∈ r.med, rlt (d o c') (d o c) = false) ∧
      ∀ m' : Nat, r.med[m']? = some o → m' = m := by
  obtain ⟨h0, h1, h2⟩ := parFasterpam_any (L := L) sc0 scF scS hm hv maxiter hseq
  rw [h0] at hr; cases hr
  show ObjBest d o _ _
  by_cases hk1 : med.length = 1
  · obtain ⟨c, rfl⟩ := List.length_eq_one_iff.mp hk1
    exact singleP_best hm he ho (hv.range c (by simp))
  · have hk : 2 ≤ med.length := by have := hv.sizes.pos; omega
    rw [h2 hk]
    have hs : FPShape n med.length (parInitP L sc0 d n med) :=
      ⟨initDataP_shape d hv hk, (updateRemovalLoss_eq (initDataP_shape d hv hk).recIdx).2⟩
    exact (parLoopP_row scF scS hm he hv.sizes.k_lt (by omega) hseq hs (initDataP_row he ho hk hv hc)).best he
      (h1 hk).shape.medRange

theorem pOptP_best {mat : Mat N} (hm : IsMatrix mat n d) (he : RowOrder n d o) (ho : o < n)
    {med : List Nat} (hv : ValidMeds n med) (hc : med.count o ≤ 1)
    (scan : Nat → Nat → List Nat → List (Rec N) → L × Nat × Nat)
    (hscan : ScanFine n med.length (scan n med.length)) (maxiter : Nat) (loss : L)
    (hshape : 2 ≤ med.length → Shape n med.length
      (pLoopP d (scan n med.length) maxiter 0 ⟨med, initDataP d n med, loss, 0⟩).1.med
      (pLoopP d (scan n med.length) maxiter 0 ⟨med, initDataP d n med, loss, 0⟩).1.data) :
    ObjBest d o (pOptP d n scan med (initDataP d n med) maxiter loss).med
      (pOptP d n scan med (initDataP d n med) maxiter loss).assi := by
  by_cases h1 : med.length = 1
  · obtain ⟨c, rfl⟩ := List.length_eq_one_iff.mp h1
    exact singleP_best hm he ho (hv.range c (by simp))
  · have hk : 2 ≤ med.length := by have := hv.sizes.pos; omega
    rw [pOptP_many d n _ hk]
    exact (pLoopP_row hm he hv.sizes.k_lt hscan (initDataP_shape d hv hk)
      (initDataP_row he ho hk hv hc)).best he (hshape hk).medRange

/-- **C105, pam_swap.** -/
theorem C105_pam_swap [SaneZero L] {mat : Mat N} (hm : IsMatrix mat n d) (he : RowOrder n d o) (ho : o < n)
    {med : List Nat} (hv : ValidMeds n med) (hc : med.count o ≤ 1) (maxiter : Nat) {r : SwapResult L}
    (hr : pamSwap L mat med maxiter = .ok r) :
    ∃ m c : Nat, r.assi[o]? = some m ∧ r.med[m]? = some c ∧ (∀ c' ∈ r.med, rlt (d o c') (d o c) = false) ∧
      ∀ m' : Nat, r.med[m']? = some o → m' = m := by
  rw [pamSwap_eq hm hv maxiter] at hr; cases hr
  exact pOptP_best hm he ho hv hc _ (pamScanP_fine _ _ _) _ _
    (fun hk => (pamLoop_eq hm hv.sizes.k_lt (initDataP_shape d hv hk)).2)

/-- **C105, fastpam1.** -/
theorem C105_fastpam1 [SaneZero L] {mat : Mat N} (hm : IsMatrix mat n d) (he : RowOrder n d o) (ho : o < n)
    {med : List Nat} (hv : ValidMeds n med) (hc : med.count o ≤ 1) (maxiter : Nat) {r : SwapResult L}
    (hr : fastpam1 L mat med maxiter = .ok r) :
    ∃ m c : Nat, r.assi[o]? = some m ∧ r.med[m]? = some c ∧ (∀ c' ∈ r.med, rlt (d o c') (d o c) = false) ∧
      ∀ m' : Nat, r.med[m']? = some o → m' = m := by
  rw [fastpam1_eq hm hv maxiter] at hr; cases hr
  exact pOptP_best hm he ho hv hc _ (fastScanP_fine hv.sizes.pos _) _ _
    (fun hk => (fastpam1Loop_eq hm hv.sizes.k_lt hv.sizes.pos (initDataP_shape d hv hk)).2)

/-- **C105, alternating.** -/
theorem C105_alternating {mat : Mat N} (hm : IsMatrix mat n d) (he : RowOrder n d o) (ho : o < n)
    {med : List Nat} (hv : ValidMeds n med) (hc : med.count o ≤ 1) (maxiter : Nat) {r : AltResult L}
    (hr : alternating L mat med maxiter = .ok r) :
    ∃ m c : Nat, r.assi[o]? = some m ∧ r.med[m]? = some c ∧ (∀ c' ∈ r.med, rlt (d o c') (d o c) = false) ∧
      ∀ m' : Nat, r.med[m']? = some o → m' = m := by
  rw [(alternating_eq hm hv maxiter).1] at hr; cases hr
  exact altLoopP_best he ho hv (by simp [nearAssiP]) (nearAssiP_best he ho hv hc)

/-- If this holds for all objects, the medoids are distinct. -/
theorem nodup_of_best {med assi : List Nat} (hr : ∀ m ∈ med, m < n) (h : ∀ o, o < n → ObjBest d o med assi) :
    med.Nodup := by
  rw [List.nodup_iff_count]
  intro a
  by_cases ha : a ∈ med
  · obtain ⟨m, -, -, -, -, hown⟩ := h a (hr a ha)
    exact count_le_one_of_pos hown
  · simp [List.count_eq_zero.mpr ha]

/-- **C105, distinct medoids**: with incomparable distances the five algorithms keep distinct medoids distinct. -/
theorem C105_distinct [SaneZero L] {mat : Mat N} (hm : IsMatrix mat n d) (he : ∀ o, o < n → RowOrder n d o)
    {med : List Nat} (hv : ValidMeds n med) (hnd : med.Nodup) (maxiter : Nat) {seq : List Nat}
    (hseq : ∀ j ∈ seq, j < n) (sc0 : Sched) (scF scS : Nat → Nat → Sched) :
    (∀ r, randFasterpam L mat med maxiter seq = .ok r → r.med.Nodup) ∧
    (∀ r, parFasterpam L sc0 scF scS mat med maxiter seq = .ok r → r.med.Nodup) ∧
    (∀ r, pamSwap L mat med maxiter = .ok r → r.med.Nodup) ∧
    (∀ r, fastpam1 L mat med maxiter = .ok r → r.med.Nodup) ∧
    (∀ r, alternating L mat med maxiter = .ok r → r.med.Nodup) := by
  have hc : ∀ o, med.count o ≤ 1 := List.nodup_iff_count.mp hnd
  have fin : ∀ (m' a' : List Nat), (∀ o, o < n → ObjBest d o m' a') → (∀ m ∈ m', m < n) → m'.Nodup :=
    fun m' a' h1 h2 => nodup_of_best h2 h1
  refine ⟨fun r hr => fin _ r.assi (fun o ho => C105_rand_fasterpam hm (he o ho) ho hv (hc o) maxiter hseq hr) ?_,
    fun r hr => fin _ r.assi
      (fun o ho => C105_par_fasterpam sc0 scF scS hm (he o ho) ho hv (hc o) maxiter hseq hr) ?_,
    fun r hr => fin _ r.assi (fun o ho => C105_pam_swap hm (he o ho) ho hv (hc o) maxiter hr) ?_,
    fun r hr => fin _ r.assi (fun o ho => C105_fastpam1 hm (he o ho) ho hv (hc o) maxiter hr) ?_,
    fun r hr => fin _ r.assi (fun o ho => C105_alternating hm (he o ho) ho hv (hc o) maxiter hr) ?_⟩
  · obtain ⟨r', hr', hw⟩ := C04_rand_fasterpam (L := L) hm hv maxiter hseq
    rw [hr'] at hr; cases hr; exact hw.medRange
  · obtain ⟨r', hr', hw⟩ := C52_no_panic (L := L) sc0 scF scS hm hv maxiter hseq
    rw [hr'] at hr; cases hr; exact hw.medRange
  · obtain ⟨r', hr', hw⟩ := C04_pam_swap (L := L) hm hv maxiter
    rw [hr'] at hr; cases hr; exact hw.medRange
  · obtain ⟨r', hr', hw⟩ := C04_fastpam1 (L := L) hm hv maxiter
    rw [hr'] at hr; cases hr; exact hw.medRange
  · obtain ⟨r', hr', hw⟩ := C04_alternating (L := L) hm hv maxiter
    rw [hr'] at hr; cases hr; exact hw.medRange

end general

/-! ## `f64` -/

/-- The row of object `o` in an `f64` matrix: NaN, or not negative; zero (or NaN) on the diagonal. -/
structure F64Row (n : Nat) (d : Nat → Nat → Ieee binary64) (o : Nat) : Prop where
  nonneg : ∀ x, x < n → d o x = .nan ∨ d o x = .inf ∨ ∃ q, d o x = .num q ∧ 0 ≤ q
  diag : d o o = .nan ∨ d o o = .num 0

theorem f64_rlt (a b : Ieee binary64) :
    rlt a b = true ↔ a ≠ .nan ∧ b ≠ .nan ∧ Ieee.rank a < Ieee.rank b := by
  cases a <;> cases b <;>
    simp [rlt, pcmp, RPartialOrd.pcmp, Ieee.cmp, Ieee.rank, WithBot.coe_lt_coe,
      compare_lt_iff_lt]
  exact WithBot.coe_lt_coe.mpr (WithTop.coe_lt_top _)

theorem F64Row.rowOrder {n : Nat} {d : Nat → Nat → Ieee binary64} {o : Nat} (h : F64Row n d o) :
    RowOrder n d o := by
  have hneg : ∀ x, x < n → rlt (d o x) (.num 0 : Ieee binary64) = false := by
    intro x hx
    by_contra hc
    have hc : rlt (d o x) (.num 0 : Ieee binary64) = true := by simpa using hc
    obtain ⟨h1, -, h2⟩ := (f64_rlt _ _).mp hc
    rcases h.nonneg x hx with h3 | h3 | ⟨q, h3, h4⟩
    · exact h1 h3
    · rw [h3] at h2; simp [Ieee.rank] at h2
    · rw [h3] at h2
      simp [Ieee.rank] at h2
      exact absurd h4 (not_le.mpr h2)
  refine ⟨fun x _ => ?_, fun x y z _ _ _ h1 h2 => ?_, fun x hx => ?_, hneg⟩
  · by_contra hc
    have hc : rlt (d o x) (d o x) = true := by simpa using hc
    exact lt_irrefl _ ((f64_rlt _ _).mp hc).2.2
  · have h1 := (f64_rlt _ _).mp h1
    have h2 := (f64_rlt _ _).mp h2
    exact (f64_rlt _ _).mpr ⟨h1.1, h2.2.1, lt_trans h1.2.2 h2.2.2⟩
  · rcases h.diag with h1 | h1
    · by_contra hc
      have hc : rlt (d o x) (d o o) = true := by simpa using hc
      exact ((f64_rlt _ _).mp hc).2.1 h1
    · rw [h1]; exact hneg x hx

/-- **C105, f64**: after `fasterpam` on a matrix with NaN entries, the distance of an object to the medoid of its cluster
is NaN or minimal among the distances to the medoids that are not NaN. -/
theorem C105_f64_fasterpam {mat : Mat (Ieee binary64)} {n : Nat} {d : Nat → Nat → Ieee binary64}
    (hm : IsMatrix mat n d) {o : Nat} (ho : o < n) (h : F64Row n d o) {med : List Nat} (hv : ValidMeds n med)
    (hc : med.count o ≤ 1) (maxiter : Nat) {r : SwapResult (Ieee binary64)}
    (hr : fasterpam (Ieee binary64) mat med maxiter = .ok r) :
    ∃ m c : Nat, r.assi[o]? = some m ∧ r.med[m]? = some c ∧
      (d o c = .nan ∨ ∀ c' ∈ r.med, d o c' = .nan ∨ Ieee.rank (d o c) ≤ Ieee.rank (d o c')) ∧
      ∀ m' : Nat, r.med[m']? = some o → m' = m := by
  obtain ⟨m, c, h1, h2, h3, h4⟩ := C105_fasterpam hm h.rowOrder ho hv hc maxiter hr
  refine ⟨m, c, h1, h2, ?_, h4⟩
  by_cases hn : d o c = .nan
  · exact Or.inl hn
  · right
    intro c' hc'
    by_cases hn' : d o c' = .nan
    · exact Or.inl hn'
    · right
      have := h3 c' hc'
      by_contra hcon
      rw [(f64_rlt _ _).mpr ⟨hn', hn, not_le.mp hcon⟩] at this
      cases this

/-! ## An object can be labelled with a medoid at distance NaN -/

/-- Object 1 has no distances. -/
def nanD (x y : Nat) : Ieee binary64 :=
  if x = y then .num 0 else if x = 1 ∨ y = 1 then .nan else .num 2

def nanMat : Mat (Ieee binary64) := Array2.toMat ⟨3, 3, nanD⟩

theorem nanMat_isMatrix : IsMatrix nanMat 3 nanD :=
  ⟨rfl, rfl, fun x y hx hy => by simp [nanMat, Array2.toMat, hx, hy]⟩

theorem nanD_row (o : Nat) : F64Row 3 nanD o := by
  refine ⟨fun x _ => ?_, by simp [nanD]⟩
  unfold nanD
  split
  · exact Or.inr (Or.inr ⟨0, rfl, le_refl _⟩)
  · split
    · exact Or.inl rfl
    · exact Or.inr (Or.inr ⟨2, rfl, by norm_num⟩)

theorem nanMat_run : fasterpam (Ieee binary64) nanMat [0, 1] 9 = .ok ⟨.nan, [1, 1, 0], 9, 17, [2, 1]⟩ := by
  decide +kernel

/-- **C105, limit**: the label is not always that of the nearest medoid with a defined distance. In the result of this run
object 0 is labelled with medoid 1 at distance NaN, although medoid 2 is at distance 2. -/
theorem C105_not_nearest_defined :
    ¬ ∀ (mat : Mat (Ieee binary64)) (n : Nat) (d : Nat → Nat → Ieee binary64), IsMatrix mat n d →
      (∀ o, o < n → F64Row n d o) → ∀ med : List Nat, ValidMeds n med → med.Nodup → ∀ maxiter r,
      fasterpam (Ieee binary64) mat med maxiter = .ok r → ∀ o m c : Nat, o < n → r.assi[o]? = some m →
      r.med[m]? = some c → (∃ c' ∈ r.med, d o c' ≠ .nan) → d o c ≠ .nan := by
  intro h
  exact h nanMat 3 nanD nanMat_isMatrix (fun o _ => nanD_row o) [0, 1]
    ⟨⟨by decide, by decide, by decide, by decide⟩, by decide⟩ (by decide) 9 _ nanMat_run 0 1 1 (by decide) rfl rfl
    ⟨2, by simp, by simp [nanD]⟩ (by simp [nanD])

section runs_on

variable {N L : Type} [RDist N] [RLoss L] [RFrom N L]

/-- `n_swaps` is only counted. -/
theorem fpPassP_addSwaps (d : Nat → Nat → N) (js : List Nat) (s : FPState N L) (c : Nat) :
    fpPassP d js { s with nSwaps := s.nSwaps + c } =
      { fpPassP d js s with nSwaps := (fpPassP d js s).nSwaps + c } := by
  induction js generalizing s with
  | nil => rfl
  | cons j js ih =>
    unfold fpPassP
    split
    · rfl
    · split
      · exact ih s
      · dsimp only
        split
        · exact ih s
        · have := ih (fpSwapP d s (fbsP d s.rem s.data j).2 j)
          rw [← this]
          congr 1
          simp only [fpSwapP]
          congr 1
          omega

/-- A pass that comes back to the same state, and a loss that does not compare with itself: the loop does not end. -/
theorem fpLoopP_runs_on (d : Nat → Nat → N) (seq : List Nat) {s : FPState N L} {e : Nat} (he : 1 ≤ e)
    (hp : fpPassP d seq s = { s with nSwaps := s.nSwaps + e }) (hl : rge s.loss s.loss = false) (fuel iter c : Nat) :
    (fpLoopP d seq fuel iter { s with nSwaps := s.nSwaps + c }).2 = iter + fuel := by
  induction fuel generalizing iter c with
  | zero => rfl
  | succ fuel ih =>
    unfold fpLoopP
    rw [fpPassP_addSwaps, hp]
    have hne : (s.nSwaps + e + c == s.nSwaps + c) = false := by simp; omega
    dsimp only
    rw [hne, hl]
    simp only [Bool.or_self, Bool.false_eq_true, if_false]
    have := ih (iter + 1) (e + c)
    rw [← Nat.add_assoc] at this
    rw [this]; omega

end runs_on

/-- The state after the first pass. -/
def nanState : FPState (Ieee binary64) (Ieee binary64) := fpPassP nanD [0, 1, 2] (fpInitP _ nanD 3 [0, 1])

theorem nanState_again : fpPassP nanD [0, 1, 2] nanState = { nanState with nSwaps := nanState.nSwaps + 2 } := by
  have h1 : (fpPassP nanD [0, 1, 2] nanState).med = nanState.med := by decide +kernel
  have h2 : (fpPassP nanD [0, 1, 2] nanState).data = nanState.data := by decide +kernel
  have h3 : (fpPassP nanD [0, 1, 2] nanState).rem = nanState.rem := by decide +kernel
  have h4 : (fpPassP nanD [0, 1, 2] nanState).loss = nanState.loss := by decide +kernel
  have h5 : (fpPassP nanD [0, 1, 2] nanState).lastswap = nanState.lastswap := by decide +kernel
  have h6 : (fpPassP nanD [0, 1, 2] nanState).nSwaps = nanState.nSwaps + 2 := by decide +kernel
  generalize fpPassP nanD [0, 1, 2] nanState = t at *
  cases t
  simp only at h1 h2 h3 h4 h5 h6
  subst h1 h2 h3 h4 h5 h6
  rfl

/-- **C105, limit**: with NaN distances `fasterpam` need not stop before `max_iter`, whatever that is: the test for a
smaller loss is false for NaN. -/
theorem C105_nan_runs_on (maxiter : Nat) :
    ∃ r, fasterpam (Ieee binary64) nanMat [0, 1] maxiter = .ok r ∧ r.nIter = maxiter := by
  have hv : ValidMeds 3 [0, 1] := ⟨⟨by decide, by decide, by decide, by decide⟩, by decide⟩
  have h0 := randFasterpam_eq (L := Ieee binary64) nanMat_isMatrix hv maxiter (seq := [0, 1, 2]) (by decide)
  refine ⟨_, h0, ?_⟩
  rw [fpP_many nanD 3 (by decide)]
  show (fpLoopP nanD [0, 1, 2] maxiter 0 (fpInitP _ nanD 3 [0, 1])).2 = maxiter
  cases maxiter with
  | zero => rfl
  | succ f =>
    unfold fpLoopP
    dsimp only
    have h1 : ((fpPassP nanD [0, 1, 2] (fpInitP (Ieee binary64) nanD 3 [0, 1])).nSwaps ==
        (fpInitP (Ieee binary64) nanD 3 [0, 1]).nSwaps ||
        rge (fpPassP nanD [0, 1, 2] (fpInitP (Ieee binary64) nanD 3 [0, 1])).loss
          (fpInitP (Ieee binary64) nanD 3 [0, 1]).loss) = false := by decide +kernel
    rw [h1]
    simp only [Bool.false_eq_true, if_false]
    have := fpLoopP_runs_on nanD [0, 1, 2] (by omega) nanState_again (by decide +kernel) f (0 + 1) 0
    show (fpLoopP nanD [0, 1, 2] f (0 + 1) nanState).2 = f + 1
    rw [Nat.add_comm f 1]
    exact this

/-- The theorems apply to this run, in which all distances to object 1 are NaN. -/
example : ∃ r, fasterpam (Ieee binary64) nanMat [0, 1] 9 = .ok r ∧ r.med.Nodup ∧
    ∀ o, o < 3 → ∃ m c : Nat, r.assi[o]? = some m ∧ r.med[m]? = some c ∧
      (nanD o c = .nan ∨ ∀ c' ∈ r.med, nanD o c' = .nan ∨ Ieee.rank (nanD o c) ≤ Ieee.rank (nanD o c')) :=
  have hv : ValidMeds 3 [0, 1] := ⟨⟨by decide, by decide, by decide, by decide⟩, by decide⟩
  ⟨_, nanMat_run, by decide, fun o ho => by
    obtain ⟨m, c, h1, h2, h3, -⟩ := C105_f64_fasterpam nanMat_isMatrix ho (nanD_row o) hv
      (List.nodup_iff_count.mp (by decide) o) 9 nanMat_run
    exact ⟨m, c, h1, h2, h3⟩⟩

/-- Runs with exchanges on a matrix with one undefined distance, in arithmetic without any law. -/
example :
    let mat : Mat Toy := ofRows [[some 0, some 5, none, some 3], [some 5, some 0, some 1, some 1],
      [none, some 1, some 0, some 2], [some 3, some 1, some 2, some 0]]
    (∃ r, fasterpam Toy mat [0, 1] 9 = .ok r ∧ 1 ≤ r.nSwap) ∧
    (∃ r, alternating Toy mat [0, 2] 9 = .ok r ∧ r.med ≠ [0, 2]) := by
  exact ⟨⟨_, rfl, by decide +kernel⟩, ⟨_, rfl, by decide +kernel⟩⟩

/-- The condition on the row holds for every matrix over a linear order. -/
theorem rowOrder_of_dissim {N : Type} [LinearOrder N] [Zero N] [RDist N] [LawfulDist N] {n : Nat}
    {d : Nat → Nat → N} (hd : Dissim n d) {o : Nat} (ho : o < n) : RowOrder n d o := by
  refine ⟨fun x _ => ?_, fun x y z _ _ _ h1 h2 => ?_, fun x hx => ?_, fun x hx => ?_⟩
  · simp [rltN]
  · simp only [rltN, decide_eq_true_eq] at *; exact lt_trans h1 h2
  · simp only [rltN, hd.diag o ho, decide_eq_false_iff_not, not_lt]; exact hd.nonneg o x ho hx
  · simp only [rltN, zeroN, decide_eq_false_iff_not, not_lt]; exact hd.nonneg o x ho hx

end KMedoids
