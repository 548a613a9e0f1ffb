import Verif.Proofs.Grid
import Verif.Proofs.FloatLoss
import Verif.Props.C46
import Verif.Props.C08_C16
import Verif.Props.C17
import Verif.Props.C18_C23
import Verif.Props.C44
import Mathlib.Algebra.BigOperators.Ring.List

/-!
# C68: floating point runs on a grid are exact

If all distances are multiples `z * 2 ^ e` of a power of two with `z ≤ U` (integers, or numbers with a fixed number of binary
digits), and `3 (n + 1) U ≤ 2 ^ p` for a floating point format of precision `p`, then the PAM family makes no rounding error
at all: the results are those of integer arithmetic, so that all exact properties hold. For `u32` distances and
`f64` losses this holds up to 699049 objects.
-/

set_option linter.unusedSectionVars false

namespace KMedoids

open RFrom (conv)

variable {F : Fmt} {e : ℤ} {U : ℕ}

/-- The grid fits the format, and the bounds are small enough for `n` objects. -/
structure GridFits (F : Fmt) (e : ℤ) (U n : ℕ) : Prop where
  lo : F.emin ≤ e
  hi : e + F.p < F.emax
  fits : 3 * (n + 1) * U ≤ 2 ^ F.p

namespace GridFits
variable {n : ℕ}

theorem le (h : GridFits F e U n) : U ≤ 2 ^ F.p := by
  have := h.fits; nlinarith

theorem bhom (h : GridFits F e U n) : BHom (N := Steps U) (gridDist F e) (gridNum F e) U (2 ^ F.p) :=
  grid_bhom h.lo h.hi h.le

theorem bound (h : GridFits F e U n) : 3 * ((n : ℤ) + 1) * (U : ℤ) ≤ 2 ^ F.p := by exact_mod_cast h.fits

end GridFits

/-! ## Equal results, panics included -/

theorem C68_fasterpam (mat : Mat (Steps U)) (h : GridFits F e U mat.len) (med : List Nat) (maxiter : Nat) :
    SameSwap (gridNum F e) (fasterpam ℤ mat med maxiter) (fasterpam (Ieee F) (mat.map (gridDist F e)) med maxiter) :=
  C46_fasterpam h.bhom mat h.bound med maxiter

theorem C68_rand_fasterpam (mat : Mat (Steps U)) (h : GridFits F e U mat.len) (med : List Nat) (maxiter : Nat)
    (seq : List Nat) : SameSwap (gridNum F e) (randFasterpam ℤ mat med maxiter seq)
      (randFasterpam (Ieee F) (mat.map (gridDist F e)) med maxiter seq) :=
  C46_rand_fasterpam h.bhom mat h.bound med maxiter seq

/-- For every schedule and every shape of the reductions. -/
theorem C68_par_fasterpam (sc0 : Sched) {scF scS : Nat → Nat → Sched} (hF : ∀ i j, (scF i j).Ok) (mat : Mat (Steps U))
    (h : GridFits F e U mat.len) (med : List Nat) (maxiter : Nat) (seq : List Nat) :
    SameSwap (gridNum F e) (parFasterpam ℤ sc0 scF scS mat med maxiter seq)
      (parFasterpam (Ieee F) sc0 scF scS (mat.map (gridDist F e)) med maxiter seq) :=
  C46_par_fasterpam h.bhom sc0 hF mat h.bound med maxiter seq

theorem C68_fastpam1 (mat : Mat (Steps U)) (h : GridFits F e U mat.len) (med : List Nat) (maxiter : Nat) :
    SameSwap (gridNum F e) (fastpam1 ℤ mat med maxiter) (fastpam1 (Ieee F) (mat.map (gridDist F e)) med maxiter) :=
  C46_fastpam1 h.bhom mat h.bound med maxiter

theorem C68_pam_swap (mat : Mat (Steps U)) (h : GridFits F e U mat.len) (med : List Nat) (maxiter : Nat) :
    SameSwap (gridNum F e) (pamSwap ℤ mat med maxiter) (pamSwap (Ieee F) (mat.map (gridDist F e)) med maxiter) :=
  C46_pam_swap h.bhom mat h.bound med maxiter

theorem C68_pam (mat : Mat (Steps U)) (h : GridFits F e U mat.len) (k maxiter : Nat) :
    SameSwap (gridNum F e) (pam ℤ mat k maxiter) (pam (Ieee F) (mat.map (gridDist F e)) k maxiter) :=
  C46_pam h.bhom mat h.bound k maxiter

theorem C68_pam_build (mat : Mat (Steps U)) (h : GridFits F e U mat.len) (k : Nat) :
    SameBuild (gridNum F e) (pamBuild ℤ mat k) (pamBuild (Ieee F) (mat.map (gridDist F e)) k) :=
  C46_pam_build h.bhom mat h.bound k

theorem C68_alternating (mat : Mat (Steps U)) (h : GridFits F e U mat.len) (med : List Nat) (maxiter : Nat) :
    SameAlt (gridNum F e) (alternating ℤ mat med maxiter) (alternating (Ieee F) (mat.map (gridDist F e)) med maxiter) :=
  C46_alternating h.bhom mat h.bound med maxiter

/-! ## `u32` distances, `f64` losses -/

/-- `f64::from(u32)` is exact. -/
instance : RFrom UInt32 (Ieee binary64) := ⟨fun x => .num x.toNat⟩

theorem u32_f64 : BHom (N := UInt32) id (gridNum binary64 0) (2 ^ 32 - 1) (2 ^ 53) := by
  obtain ⟨h1, h2, h3, h4, h5⟩ := grid_loss (F := binary64) (e := 0) (by decide) (by decide)
  exact ⟨fun _ _ => rfl, rfl, fun x y _ _ => h1 x y, h2, fun x y _ _ => h3 x y, fun x y _ _ => h4 x y, fun x _ _ => h5 x,
    fun x => show Ieee.num _ = Ieee.num _ by simp [conv],
    fun x => Int.natCast_nonneg _, fun x => by have := x.toNat_lt; show (x.toNat : ℤ) ≤ _; omega⟩

/-- FasterPAM with `u32` distances and an `f64` loss gives the exact result. -/
theorem C68_u32_f64 (mat : Mat UInt32) (hn : mat.len ≤ 699049) (med : List Nat) (maxiter : Nat) :
    SameSwap (fun z => .num z) (fasterpam ℤ mat med maxiter) (fasterpam (Ieee binary64) mat med maxiter) := by
  have := C46_fasterpam u32_f64 mat (by omega) med maxiter
  rw [Mat.map_id'] at this
  have hg : gridNum binary64 0 = fun z : ℤ => .num z := by funext z; simp [gridNum]
  rwa [hg] at this

/-! ## What follows for a floating point matrix -/

/-- The distances are multiples `z * 2 ^ e`, `z ≤ U`. -/
def OnGrid (e : ℤ) (U n : ℕ) (d : Nat → Nat → Finite F) : Prop :=
  ∀ x y, x < n → y < n → ∃ z : ℕ, z ≤ U ∧ (d x y).q = z * 2 ^ e

/-- The exact total deviation. -/
abbrev devQ (n : Nat) (d : Nat → Nat → Finite F) (med : List Nat) : ℚ := totalDev Finite.q n d med

/-- The result has the properties C08, C09 and C11/C12: the loss is the exact total deviation, every exchange improved it, and a
run that ended before the limit ended in a local optimum. -/
structure ExactRun (n : Nat) (d : Nat → Nat → Finite F) (med : List Nat) (maxiter : Nat) (r : SwapResult (Ieee F)) :
    Prop where
  loss : r.loss = .num (devQ n d r.med)
  chain : SwapChain (devQ n d) n r.nSwap med r.med
  opt : r.nIter < maxiter → SwapOptimal Finite.q n d r.med

theorem SwapChain.transfer {L L' : Type} [LT L] [LT L'] {T : List Nat → L} {T' : List Nat → L'} {n c : Nat} {a b : List Nat}
    (h : SwapChain T n c a b) (ha : ∀ x ∈ a, x < n)
    (hT : ∀ x y : List Nat, (∀ m ∈ x, m < n) → (∀ m ∈ y, m < n) → x.length = a.length → y.length = a.length →
      T x < T y → T' x < T' y) :
    SwapChain T' n c a b ∧ (∀ x ∈ b, x < n) ∧ b.length = a.length := by
  induction h with
  | refl => exact ⟨.refl _, ha, rfl⟩
  | step h b j hb hj hjm hlt ih =>
    obtain ⟨i1, i2, i3⟩ := ih ha hT
    have h2 : ∀ x ∈ List.set _ b j, x < n := fun x hx => (List.mem_or_eq_of_mem_set hx).elim (i2 x) (· ▸ hj)
    exact ⟨.step i1 b j hb hj hjm (hT _ _ h2 i2 (by simpa using i3) i3 hlt), h2, by simpa using i3⟩

section
variable {n : Nat} {d : Nat → Nat → Finite F}

/-- The multiples. -/
noncomputable def gridInt (hg : OnGrid e U n d) (x y : Nat) : Steps U :=
  if h : x < n ∧ y < n then ⟨(hg x y h.1 h.2).choose, (hg x y h.1 h.2).choose_spec.1⟩ else 0

theorem gridInt_spec (hU : GridFits F e U n) (hg : OnGrid e U n d) {x y : Nat} (hx : x < n) (hy : y < n) :
    d x y = gridDist F e (gridInt hg x y) ∧ (d x y).q = (gridInt hg x y).z * 2 ^ e := by
  have h : (d x y).q = (gridInt hg x y).z * 2 ^ e := by
    rw [gridInt, dif_pos ⟨hx, hy⟩]; exact (hg x y hx hy).choose_spec.2
  exact ⟨Finite.q_inj (by rw [h, gridDist_q hU.lo hU.le]), h⟩

theorem gridInt_le (hU : GridFits F e U n) (hg : OnGrid e U n d) {x y x' y' : Nat} (hx : x < n) (hy : y < n) (hx' : x' < n)
    (hy' : y' < n) : gridInt hg x y ≤ gridInt hg x' y' ↔ d x y ≤ d x' y' := by
  have hpos : (0 : ℚ) < 2 ^ e := zpow_pos two_pos e
  show (gridInt hg x y).z ≤ (gridInt hg x' y').z ↔ (d x y).q ≤ (d x' y').q
  rw [(gridInt_spec hU hg hx hy).2, (gridInt_spec hU hg hx' hy').2, mul_le_mul_iff_left₀ hpos, Nat.cast_le]

/-- The integer matrix. -/
noncomputable def gridMat (hg : OnGrid e U n d) : Mat (Steps U) := ⟨n, .ok true, fun x y => .ok (gridInt hg x y)⟩

theorem gridMat_isMatrix (hg : OnGrid e U n d) : IsMatrix (gridMat hg) n (gridInt hg) :=
  ⟨rfl, rfl, fun _ _ _ _ => rfl⟩

theorem gridMat_map (hU : GridFits F e U n) (hg : OnGrid e U n d) : IsMatrix ((gridMat hg).map (gridDist F e)) n d :=
  ⟨rfl, rfl, fun x y hx hy => by
    show Except.ok (gridDist F e (gridInt hg x y)) = _
    rw [(gridInt_spec hU hg hx hy).1]⟩

theorem gridInt_dissim (hU : GridFits F e U n) (hg : OnGrid e U n d) (hd : Dissim n d) : Dissim n (gridInt hg) := by
  refine ⟨fun x hx => ?_, fun x y _ _ => Nat.zero_le _⟩
  have h : (d x x).q = 0 := by rw [hd.diag x hx]; rfl
  rw [(gridInt_spec hU hg hx hx).2] at h
  have hpos : (0 : ℚ) < 2 ^ e := zpow_pos two_pos e
  have h0 : ((gridInt hg x x).z : ℚ) = 0 := (mul_eq_zero.mp h).resolve_right hpos.ne'
  exact Steps.z_inj (by exact_mod_cast h0)

theorem gridInt_symm (hU : GridFits F e U n) (hg : OnGrid e U n d) (hs : Symm n d) : Symm n (gridInt hg) := fun x y hx hy =>
  le_antisymm ((gridInt_le hU hg hx hy hy hx).mpr (hs x y hx hy).le) ((gridInt_le hU hg hy hx hx hy).mpr (hs x y hx hy).ge)

theorem devQ_grid (hU : GridFits F e U n) (hg : OnGrid e U n d) {med : List Nat} (hm : med ≠ []) (hv : ∀ m ∈ med, m < n) :
    devQ n d med = (totalDev (conv : Steps U → ℤ) n (gridInt hg) med : ℤ) * 2 ^ e := by
  rw [devQ, totalDev, totalDev]
  show _ = Int.castAddHom ℚ (List.sum _) * _
  rw [map_list_sum, List.map_map, ← List.sum_map_mul_right]
  refine congrArg List.sum (List.map_congr_left fun o ho => ?_)
  have ho : o < n := List.mem_range.mp ho
  obtain ⟨⟨c, hc, h1⟩, h2⟩ := minDist_spec (gridInt hg) o med hm
  rw [minDist_eq hc fun c' hc' => (gridInt_le hU hg ho (hv c hc) ho (hv c' hc')).mp (h1 ▸ h2 c' hc'),
    (gridInt_spec hU hg ho (hv c hc)).2, Function.comp_apply, h1]
  show _ = (((gridInt hg o c).z : ℤ) : ℚ) * _
  push_cast; rfl

theorem ExactRun.of (hU : GridFits F e U n) (hg : OnGrid e U n d) {med : List Nat} (hv : ValidMeds n med) {maxiter : Nat}
    {r0 : SwapResult ℤ} {r : SwapResult (Ieee F)} (h0 : Outcome n (gridInt hg) med maxiter r0)
    (hr : SameSwap (gridNum F e) (.ok r0) (.ok r)) : ExactRun n d med maxiter r := by
  obtain ⟨e1, e2, e3, e4, e5⟩ := hr
  have hpos : (0 : ℚ) < 2 ^ e := zpow_pos two_pos e
  have hne : ∀ {x : List Nat}, x.length = med.length → x ≠ [] := fun h h' => by
    have := hv.sizes.pos; rw [h'] at h; simp at h; omega
  obtain ⟨c1, c2, c3⟩ := h0.chain.transfer (T' := devQ n d) hv.range fun x y hx hy lx ly h => by
    rw [devQ_grid hU hg (hne lx) hx, devQ_grid hU hg (hne ly) hy]
    exact mul_lt_mul_of_pos_right (by exact_mod_cast h) hpos
  refine ⟨?_, ?_, fun h m j hm hj hjm => ?_⟩
  · rw [e5, h0.loss, gridNum, e1, devQ_grid hU hg (hne c3) c2]
  · rw [e1, e4]; exact c1
  · rw [e1] at hm hjm ⊢
    have := h0.opt (e3 ▸ h) m j hm hj hjm
    show devQ n d _ ≤ devQ n d _
    rw [devQ_grid hU hg (hne c3) c2, devQ_grid hU hg (hne (by simpa using c3)) fun x hx =>
      (List.mem_or_eq_of_mem_set hx).elim (c2 x) (· ▸ hj)]
    exact mul_le_mul_of_nonneg_right (by exact_mod_cast this) hpos.le

/-- **C68, rand_fasterpam.** -/
theorem C68_rand_fasterpam_exact {mat : Mat (Finite F)} (hm : IsMatrix mat n d) (hd : Dissim n d) (hU : GridFits F e U n)
    (hg : OnGrid e U n d) {med : List Nat} (hv : ValidMeds n med) (hnd : med.Nodup) (hsym : med.length = 1 → Symm n d)
    (maxiter : Nat) {seq : List Nat} (hseq : seq.Perm (List.range n)) {r : SwapResult (Ieee F)}
    (hr : randFasterpam (Ieee F) mat med maxiter seq = .ok r) : ExactRun n d med maxiter r := by
  have hs : ∀ j ∈ seq, j < n := fun j hj => List.mem_range.mp (hseq.mem_iff.mp hj)
  have h := C68_rand_fasterpam (F := F) (e := e) (gridMat hg) hU med maxiter seq
  rw [randFasterpam_eq (gridMat_map hU hg) hv maxiter hs, ← randFasterpam_eq hm hv maxiter hs, hr,
    randFasterpam_eq (gridMat_isMatrix hg) hv maxiter hs] at h
  exact .of hU hg hv (rand_fasterpam_outcome (gridMat_isMatrix hg) (gridInt_dissim hU hg hd) hv hnd
    (fun h1 => gridInt_symm hU hg (hsym h1)) maxiter hseq (randFasterpam_eq (gridMat_isMatrix hg) hv maxiter hs)) h

/-- **C68, fasterpam.** -/
theorem C68_fasterpam_exact {mat : Mat (Finite F)} (hm : IsMatrix mat n d) (hd : Dissim n d) (hU : GridFits F e U n)
    (hg : OnGrid e U n d) {med : List Nat} (hv : ValidMeds n med) (hnd : med.Nodup) (hsym : med.length = 1 → Symm n d)
    (maxiter : Nat) {r : SwapResult (Ieee F)} (hr : fasterpam (Ieee F) mat med maxiter = .ok r) :
    ExactRun n d med maxiter r := by
  rw [fasterpam_eq_rand, hm.len] at hr
  exact C68_rand_fasterpam_exact hm hd hU hg hv hnd hsym maxiter (List.Perm.refl _) hr

/-- **C68, pam_swap.** -/
theorem C68_pam_swap_exact {mat : Mat (Finite F)} (hm : IsMatrix mat n d) (hd : Dissim n d) (hU : GridFits F e U n)
    (hg : OnGrid e U n d) {med : List Nat} (hv : ValidMeds n med) (hnd : med.Nodup) (hsym : med.length = 1 → Symm n d)
    (maxiter : Nat) {r : SwapResult (Ieee F)} (hr : pamSwap (Ieee F) mat med maxiter = .ok r) :
    ExactRun n d med maxiter r := by
  have h := C68_pam_swap (F := F) (e := e) (gridMat hg) hU med maxiter
  rw [pamSwap_eq (gridMat_map hU hg) hv maxiter, ← pamSwap_eq hm hv maxiter, hr,
    pamSwap_eq (gridMat_isMatrix hg) hv maxiter] at h
  exact .of hU hg hv (pam_swap_outcome (gridMat_isMatrix hg) (gridInt_dissim hU hg hd) hv hnd
    (fun h1 => gridInt_symm hU hg (hsym h1)) maxiter (pamSwap_eq (gridMat_isMatrix hg) hv maxiter)) h

/-- **C68, fastpam1**, which gives the same result as `pam_swap`. -/
theorem C68_fastpam1_exact {mat : Mat (Finite F)} (hm : IsMatrix mat n d) (hd : Dissim n d) (hU : GridFits F e U n)
    (hg : OnGrid e U n d) {med : List Nat} (hv : ValidMeds n med) (hnd : med.Nodup) (maxiter : Nat) :
    fastpam1 (Ieee F) mat med maxiter = pamSwap (Ieee F) mat med maxiter := by
  have h := C68_pam_swap (F := F) (e := e) (gridMat hg) hU med maxiter
  have h' := C68_fastpam1 (F := F) (e := e) (gridMat hg) hU med maxiter
  rw [(C14_fastpam1_eq_pam_swap (gridMat_isMatrix hg) (gridInt_dissim hU hg hd) hv hnd maxiter).1] at h'
  rw [pamSwap_eq (gridMat_map hU hg) hv maxiter, ← pamSwap_eq hm hv maxiter,
    pamSwap_eq (gridMat_isMatrix hg) hv maxiter, pamSwap_eq hm hv maxiter] at h
  rw [fastpam1_eq (gridMat_map hU hg) hv maxiter, ← fastpam1_eq hm hv maxiter,
    pamSwap_eq (gridMat_isMatrix hg) hv maxiter, fastpam1_eq hm hv maxiter] at h'
  rw [pamSwap_eq hm hv maxiter, fastpam1_eq hm hv maxiter]
  obtain ⟨a1, a2, a3, a4, a5⟩ := h
  obtain ⟨b1, b2, b3, b4, b5⟩ := h'
  refine congrArg Except.ok ?_
  generalize fastpam1P (Ieee F) d n med maxiter = x at *
  generalize pamSwapP (Ieee F) d n med maxiter = y at *
  cases x; cases y; simp_all

/-- **C68, par_fasterpam** gives the result of `rand_fasterpam` for every schedule, number of threads and shape of the
reductions, bit for bit. -/
theorem C68_par_deterministic (sc0 : Sched) {scF scS : Nat → Nat → Sched} (hF : ∀ i j, (scF i j).Ok)
    {mat : Mat (Finite F)} (hm : IsMatrix mat n d) (hd : Dissim n d) (hU : GridFits F e U n)
    (hg : OnGrid e U n d) {med : List Nat} (hv : ValidMeds n med) (hnd : med.Nodup) (maxiter : Nat) {seq : List Nat}
    (hseq : ∀ j ∈ seq, j < n) :
    parFasterpam (Ieee F) sc0 scF scS mat med maxiter seq = randFasterpam (Ieee F) mat med maxiter seq := by
  have h := C68_par_fasterpam (F := F) (e := e) sc0 (scS := scS) hF (gridMat hg) hU med maxiter seq
  have h' := C68_rand_fasterpam (F := F) (e := e) (gridMat hg) hU med maxiter seq
  rw [(C17_par_fasterpam sc0 (scS := scS) hF (gridMat_isMatrix hg) (gridInt_dissim hU hg hd) hv hnd maxiter hseq).1,
    ← C44_par_fasterpam hm (gridMat_map hU hg) hv sc0 scF scS maxiter hseq] at h
  rw [← C44_rand_fasterpam hm (gridMat_map hU hg) hv maxiter hseq] at h'
  revert h h'
  generalize parFasterpam (Ieee F) sc0 scF scS mat med maxiter seq = x
  generalize randFasterpam (Ieee F) mat med maxiter seq = y
  generalize randFasterpam ℤ (gridMat hg) med maxiter seq = z
  intro h h'
  cases x <;> cases y <;> cases z <;> simp only [SameSwap] at h h'
  · rw [← h, ← h']
  · rename_i x y z
    cases x; cases y; simp_all

/-- **C68, pam**: an exact run from the medoids chosen by BUILD. -/
theorem C68_pam_exact {mat : Mat (Finite F)} {k : Nat} (hm : IsMatrix mat n d) (hd : Dissim n d) (hU : GridFits F e U n)
    (hg : OnGrid e U n d) (hs : Sizes n k) (hsym : Symm n d) (maxiter : Nat) {r : SwapResult (Ieee F)}
    (hr : pam (Ieee F) mat k maxiter = .ok r) :
    ∃ b : BuildResult (Ieee F), pamBuild (Ieee F) mat k = .ok b ∧ ValidMeds n b.med ∧ b.med.Nodup ∧
      b.loss = .num (devQ n d b.med) ∧ ExactRun n d b.med maxiter r := by
  have hm0 := gridMat_isMatrix hg
  have hd0 := gridInt_dissim hU hg hd
  obtain ⟨hv, hnd, -⟩ := buildP_cache (L := ℤ) hd0 hs
  have h := C68_pam (F := F) (e := e) (gridMat hg) hU k maxiter
  have hb := C68_pam_build (F := F) (e := e) (gridMat hg) hU k
  have hb0 := pamBuild_eq (L := ℤ) hm0 hs
  obtain ⟨-, -, -, -, -, hl⟩ := C19_pam_build hm0 hd0 hs hb0
  rw [pam_eq (gridMat_map hU hg) hs, ← pam_eq hm hs, hr, pam_eq hm0 hs, pamP_eq hd0 hs] at h
  rw [pamBuild_eq (gridMat_map hU hg) hs, ← pamBuild_eq hm hs, pamBuild_eq hm hs, hb0] at hb
  obtain ⟨e1, e2, e3⟩ := hb
  have e1' : (pamBuildP (Ieee F) d n k).med = (buildP ℤ (gridInt hg) n k).1 := e1
  refine ⟨_, pamBuild_eq hm hs, e1' ▸ hv, e1' ▸ hnd, ?_, ?_⟩
  · rw [e3, hl, e1, gridNum]
    have := devQ_grid hU hg (med := (buildP ℤ (gridInt hg) n k).1)
      (fun h => by have := hv.sizes.pos; rw [h] at this; simp at this) hv.range
    exact congrArg Ieee.num this.symm
  · rw [e1']
    exact .of hU hg hv (pam_swap_outcome hm0 hd0 hv hnd (fun _ => gridInt_symm hU hg hsym) maxiter (pamSwap_eq hm0 hv maxiter)) h

end

/-! ## Examples -/

/-- Distances that are multiples of 1/4. -/
def quarters : List (List ℕ) := [[0, 3, 9, 9, 10], [3, 0, 9, 9, 10], [9, 9, 0, 1, 6], [9, 9, 1, 0, 5], [10, 10, 6, 5, 0]]

def quarterD (x y : Nat) : Finite binary64 := .ofRat binary64 ((quarters.getD x []).getD y 0 / 4)

def quarterMat : Mat (Finite binary64) := ⟨5, .ok true, fun x y => .ok (quarterD x y)⟩

/-- Hypotheses met, and the run makes exchanges and stops before the limit. -/
example : IsMatrix quarterMat 5 quarterD ∧ Dissim 5 quarterD ∧ Symm 5 quarterD ∧ GridFits binary64 (-2) 10 5 ∧
    OnGrid (-2) 10 5 quarterD ∧ ValidMeds 5 [0, 1] ∧ [0, 1].Nodup ∧
    ∃ r, fasterpam (Ieee binary64) quarterMat [0, 1] 100 = .ok r ∧ r.nIter < 100 ∧ 0 < r.nSwap := by
  have h1 : ∀ x < 5, quarterD x x = 0 := by decide +kernel
  have h2 : ∀ x < 5, ∀ y < 5, 0 ≤ quarterD x y := by decide +kernel
  have h3 : ∀ x < 5, ∀ y < 5, quarterD x y = quarterD y x := by decide +kernel
  have h4 : ∀ x < 5, ∀ y < 5, ∃ z ≤ 10, (quarterD x y).q = (z : ℕ) * 2 ^ (-2 : ℤ) := by decide +kernel
  refine ⟨⟨rfl, rfl, fun _ _ _ _ => rfl⟩, ⟨h1, fun x y hx hy => h2 x hx y hy⟩, fun x y hx hy => h3 x hx y hy,
    ⟨by decide, by decide, by decide⟩, fun x y hx hy => h4 x hx y hy,
    ⟨⟨by decide, by decide, by decide, by decide⟩, by decide⟩, by decide, ⟨.num (9 / 4), [1, 1, 0, 0, 0], 2, 2, [3, 1]⟩, ?_⟩
  decide +kernel

/-- `u32` and `f64`. -/
example : exBig.len ≤ 699049 ∧ fasterpam (Ieee binary64) exBig [0, 3] 10 = .ok ⟨.num 12, [1, 0, 0, 1], 2, 1, [1, 3]⟩ := by
  decide +kernel

/-- Four objects, distances that are integers and `f32` numbers. -/
def largeInts : List (List ℕ) := [[0, 2 ^ 24, 1, 1], [2 ^ 24, 0, 1, 0], [1, 1, 0, 2 ^ 24], [1, 0, 2 ^ 24, 0]]

def largeD (x y : Nat) : Finite binary32 := .ofRat binary32 ((largeInts.getD x []).getD y 0)

/-- The bound is needed: it does not suffice that all distances are exact. With `f32` and integers up to `2 ^ 24`
FasterPAM returns a medoid which is not optimal, with a wrong loss. -/
theorem C68_bound_needed : ∃ (mat : Mat (Finite binary32)) (d : Nat → Nat → Finite binary32) (med : List Nat)
    (r : SwapResult (Ieee binary32)), IsMatrix mat 4 d ∧ Dissim 4 d ∧ Symm 4 d ∧ OnGrid 0 (2 ^ 24) 4 d ∧ ValidMeds 4 med ∧
    fasterpam (Ieee binary32) mat med 100 = .ok r ∧ r.nIter < 100 ∧ r.loss ≠ .num (devQ 4 d r.med) ∧
    ¬ SwapOptimal Finite.q 4 d r.med := by
  have h1 : ∀ x < 4, largeD x x = 0 := by decide +kernel
  have h2 : ∀ x < 4, ∀ y < 4, 0 ≤ largeD x y := by decide +kernel
  have h3 : ∀ x < 4, ∀ y < 4, largeD x y = largeD y x := by decide +kernel
  have h4 : ∀ x < 4, ∀ y < 4, ∃ z ∈ [0, 1, 2 ^ 24], (largeD x y).q = (z : ℕ) * 2 ^ (0 : ℤ) := by decide +kernel
  refine ⟨⟨4, .ok true, fun x y => .ok (largeD x y)⟩, largeD, [0], ⟨.num (2 ^ 24), [0, 0, 0, 0], 1, 0, [0]⟩,
    ⟨rfl, rfl, fun _ _ _ _ => rfl⟩, ⟨h1, fun x y hx hy => h2 x hx y hy⟩, fun x y hx hy => h3 x hx y hy,
    fun x y hx hy => ?_, ⟨⟨by decide, by decide, by decide, by decide⟩, by decide⟩, by decide +kernel, by decide,
    by decide +kernel, fun h => ?_⟩
  · obtain ⟨z, hz, e⟩ := h4 x hx y hy
    have hz' : ∀ z ∈ [0, 1, 2 ^ 24], z ≤ 2 ^ 24 := by decide
    exact ⟨z, hz' z hz, e⟩
  · exact absurd (h 0 1 (by decide) (by decide) (by decide)) (by decide +kernel)

def raceRows : List (List ℕ) := [[0, 6, 5, 1, 1, 4], [6, 0, 6, 3, 2, 1], [5, 6, 0, 2, 1, 1], [1, 3, 2, 0, 2, 6],
  [1, 2, 1, 2, 0, 1], [4, 1, 1, 6, 1, 0]]

/-- Distances that are multiples of 0.1, rounded. -/
def raceD (x y : Nat) : Finite binary64 := .ofRat binary64 ((raceRows.getD x []).getD y 0 / 10)

/-- **Finding.** Without a grid the result of `par_fasterpam` in `f64` depends on which of two threads enters the critical
section first: with the same data, start, visiting order and number of threads, one run ends with a total deviation of 0.5,
the other with 0.4. Both stop before the limit. -/
theorem C68_par_race : ∃ (mat : Mat (Finite binary64)) (n : Nat) (d : Nat → Nat → Finite binary64) (med : List Nat)
    (sc sc' : Sched) (r r' : SwapResult (Ieee binary64)), IsMatrix mat n d ∧ Dissim n d ∧ Symm n d ∧ ValidMeds n med ∧ med.Nodup ∧
    sc.Ok ∧ sc'.Ok ∧ sc.parts = 2 ∧ sc'.parts = 2 ∧
    parFasterpam (Ieee binary64) sc (fun _ _ => sc) (fun _ _ => sc) mat med 100 (List.range n) = .ok r ∧
    parFasterpam (Ieee binary64) sc (fun _ _ => sc') (fun _ _ => sc) mat med 100 (List.range n) = .ok r' ∧
    r.nIter < 100 ∧ r'.nIter < 100 ∧ 6 / 5 * devQ n d r'.med < devQ n d r.med := by
  have h1 : ∀ x < 6, raceD x x = 0 := by decide +kernel
  have h2 : ∀ x < 6, ∀ y < 6, 0 ≤ raceD x y := by decide +kernel
  have h3 : ∀ x < 6, ∀ y < 6, raceD x y = raceD y x := by decide +kernel
  exact ⟨⟨6, .ok true, fun x y => .ok (raceD x y)⟩, 6, raceD, [0, 1], ⟨2, [0, 1], .leaf⟩, ⟨2, [1, 0], .leaf⟩,
    ⟨.num (1 / 2), [0, 1, 0, 0, 0, 1], 2, 2, [4, 1]⟩,
    ⟨.num (3602879701896397 / 9007199254740992), [0, 1, 1, 0, 1, 1], 2, 5, [3, 5]⟩,
    ⟨rfl, rfl, fun _ _ _ _ => rfl⟩, ⟨h1, fun x y hx hy => h2 x hx y hy⟩, fun x y hx hy => h3 x hx y hy,
    ⟨⟨by decide, by decide, by decide, by decide⟩, by decide⟩, by decide, ⟨by decide, by decide⟩, ⟨by decide, by decide⟩,
    rfl, rfl, by decide +kernel, by decide +kernel, by decide, by decide, by decide +kernel⟩

end KMedoids
