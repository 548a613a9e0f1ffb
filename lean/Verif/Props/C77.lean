import Verif.Props.C39_C43
import Verif.Props.C71
import Verif.Props.C76
import Verif.Proofs.PamSilFloat

/-!
# C77: PAMSIL under rounding

PAMSIL compares computed silhouettes of whole clusterings, so the errors do not add up over the exchanges: the result is
within twice the error of one silhouette, for any number of exchanges.
-/

set_option linter.unusedSectionVars false
set_option exponentiation.threshold 2000

namespace KMedoids

open RFrom (conv)

section general
variable {N L K : Type} [RDist N] [RLoss L] [RFrom N L] [Field K] [LinearOrder K] [IsStrictOrderedRing K]
variable {fin : L → Prop} {val : L → K} {u B eta w W : K} {C n : Nat} {d : Nat → Nat → N}

theorem silM_near (M : DivModel fin val u B eta C) (hs : Spread fin val w W n d) (hf : SilFits u B eta w W C n)
    {med : List Nat} (hv : ValidMeds n med) : fin (silM L d n med) ∧
      |val (silM L d n med) - silExact (fun x : N => val (conv x : L)) d (nearAssiP d n med)| ≤ silErr u n := by
  have hl := nearAssiP_length d n med
  have hn : 0 < n := lt_of_lt_of_le hv.sizes.pos hv.sizes.le
  have h := silhouetteP_near (assi := nearAssiP d n med) M (by rw [hl]; exact hs) (by rw [hl]; exact hf)
    (List.ne_nil_of_length_pos (by omega)) (by rw [hl]; exact hv.sizes.n_le) false
  rw [hl] at h
  exact h

theorem silFin_of (M : DivModel fin val u B eta C) (hs : Spread fin val w W n d) (hf : SilFits u B eta w W C n) :
    SilFin fin n d := fun _ hv => (silM_near M hs hf hv).1

/-- **C77**: `pamsil_swap`. Its loss is accurate, the silhouette is not worse than that of the given medoids, and before the
iteration limit no exchange has a larger one, up to twice the rounding error of one silhouette. `silExact` is the rule of the
code if medoids are repeated (C42), and the textbook silhouette otherwise (`C77_textbook`). -/
theorem C77_pamsil_swap (M : DivModel fin val u B eta C) {mat : Mat N} (hm : IsMatrix mat n d) {med : List Nat}
    (hv : ValidMeds n med) (hk : 2 ≤ med.length) (hs : Spread fin val w W n d) (hf : SilFits u B eta w W C n)
    {maxiter : Nat} {r : SwapResult L} (hr : pamsilSwap L mat med maxiter = .ok r) :
    (fin r.loss ∧ |val r.loss - silExact (fun x : N => val (conv x : L)) d r.assi| ≤ silErr u n) ∧
    (∀ l a, assignNearest L mat med = .ok (l, a) → silExact (fun x : N => val (conv x : L)) d a ≤
      silExact (fun x : N => val (conv x : L)) d r.assi + 2 * silErr u n) ∧
    (r.nIter < maxiter → ∀ m j l a, m < med.length → j < n → j ∉ r.med →
      assignNearest L mat (r.med.set m j) = .ok (l, a) → silExact (fun x : N => val (conv x : L)) d a ≤
        silExact (fun x : N => val (conv x : L)) d r.assi + 2 * silErr u n) := by
  rw [pamsilSwap_eq hm hv] at hr
  obtain ⟨h1, h2⟩ := pamsilOptP_loop hk hr
  obtain ⟨g1, g2, -, -, g5, -, g7⟩ := psLoopP_ok hv rfl h1
  dsimp only at g1 g2 g5 g7
  have hloss : r.loss = silM L d n r.med := by
    rcases g7 with ⟨-, e1, e2⟩ | ⟨-, e⟩
    · rw [e1, e2]; rfl
    · exact e
  have hfin := silFin_of M hs hf
  obtain ⟨f1, -, f3⟩ := psLoopP_float M.std hfin hv rfl (nearAssiP_length d n med) (nearAssiP_label d hv.sizes.pos)
    (hfin med hv) h1
  dsimp only at f1 f3
  obtain ⟨n1, n2⟩ := silM_near M hs hf g1
  rw [h2]
  refine ⟨by rw [hloss]; exact ⟨n1, n2⟩, fun l a ha => ?_, fun hlt m j l a hml hj hjm ha => ?_⟩
  · rw [assignNearest_eq hm hv] at ha
    cases ha
    have h3 := (abs_le.mp (silM_near M hs hf hv).2).1
    have h4 := (abs_le.mp n2).2
    have f1' : val (silM L d n med) ≤ val r.loss := f1
    rw [hloss] at f1'
    linarith
  · rw [assignNearest_eq hm (g1.set m hj)] at ha
    cases ha
    have h3 := (abs_le.mp (silM_near M hs hf (g1.set m hj)).2).1
    have h4 := (abs_le.mp n2).2
    have f3' := f3 (by omega) m j hml hj hjm
    rw [hloss] at f3'
    linarith

end general

section dist
variable {N L K : Type} [LinearOrder N] [Zero N] [RDist N] [LawfulDist N] [RLoss L] [RFrom N L]
variable [Field K] [LinearOrder K] [IsStrictOrderedRing K]
variable {fin : L → Prop} {val : L → K} {u B eta w W : K} {C n : Nat} {d : Nat → Nat → N}

/-- For distinct medoids the labels have no gaps and `silExact` is the average silhouette. -/
theorem C77_textbook (hd : Dissim n d) {mat : Mat N} (hm : IsMatrix mat n d) {med : List Nat} (hv : ValidMeds n med)
    (hnd : med.Nodup) {l : L} {a : List Nat} (ha : assignNearest L mat med = .ok (l, a)) (f : N → K) :
    silExact f d a = mean (silList f d a) := by
  rw [assignNearest_eq hm hv] at ha
  cases ha
  exact silExact_eq f d (nearAssiP_noGap hd hv hnd)

theorem build_nonpos (M : FloatLoss N fin val u B) (hd : Dissim n d) (hn : 0 < n) {meds : List Nat} (hne : meds ≠ [])
    (hr : ∀ m ∈ meds, m < n) (hB : (1 + u) ^ (n + 1) * exactDev N val n d meds ≤ B) (k : Nat) :
    rle (argminP (buildSumP L d ((List.range n).map fun o => minDist d o meds)) n k).1 RLoss.zero = true := by
  have happ := fun i (hi : i < n) => appr_buildSum (val := val) (i := i) M hd hne hr hi hB
  obtain ⟨hf, hmin⟩ := argminP_float (val := val) M.std _ k hn fun x hx => (happ x hx).1.fin
  rw [M.std.rle_iff hf M.std.zero_fin, M.std.zero]
  by_cases h : ∃ o, o < n ∧ 0 < val (conv (minDist d o meds) : L)
  · obtain ⟨o, ho, hpos⟩ := h
    exact (hmin o ho).trans ((happ o ho).2 hpos).le
  · have hz : exactDev N val n d meds = 0 := by
      unfold exactDev totalDev
      refine List.sum_eq_zero fun y hy => ?_
      obtain ⟨o, ho, rfl⟩ := List.mem_map.mp hy
      have ho := List.mem_range.mp ho
      exact le_antisymm (not_lt.mp fun hpos => h ⟨o, ho, hpos⟩) (M.val_nonneg (minDist_nonneg hd hne hr ho))
    have h0 := (happ 0 hn).1
    rw [hz] at h0
    have hS := h0.abs_le
    have hE := h0.err
    rw [mul_zero] at hE
    have e1 := abs_eq_zero.mp (le_antisymm hE (abs_nonneg _))
    have e2 := abs_eq_zero.mp (le_antisymm hS (abs_nonneg _))
    rw [e2, sub_zero] at e1
    exact (hmin 0 hn).trans e1.le

theorem psBuildLoopP_float (M : FloatLoss N fin val u B) (hd : Dissim n d) (hn : 0 < n)
    (hB : ∀ meds : List Nat, meds ≠ [] → (∀ m ∈ meds, m < n) → (1 + u) ^ (n + 1) * exactDev N val n d meds ≤ B) (k : Nat)
    {fuel : Nat} {meds : List Nat} (hne : meds ≠ []) (hr : ∀ m ∈ meds, m < n) :
    ∃ r, psBuildLoopP L d n k fuel meds ((List.range n).map fun o => minDist d o meds) = .ok r := by
  induction fuel generalizing meds with
  | zero => exact ⟨_, rfl⟩
  | succ fuel ih =>
    have hlt := argminP_lt (buildSumP L d ((List.range n).map fun o => minDist d o meds)) k hn
    unfold psBuildLoopP
    dsimp only
    have hb := build_nonpos M hd hn hne hr (hB meds hne hr) k
    have hnear : ((List.range n).map fun o => minDist d o meds).zipIdx.map
        (psBuildUpdateP d (argminP (buildSumP L d ((List.range n).map fun o => minDist d o meds)) n k).2) =
        (List.range n).map fun o => minDist d o
          (meds ++ [(argminP (buildSumP L d ((List.range n).map fun o => minDist d o meds)) n k).2]) :=
      psBuildNear hd hne hr hlt
    rw [hb, hnear]
    exact ih (by simp) fun m hm => by
      rcases List.mem_append.mp hm with h | h
      · exact hr m h
      · rw [List.mem_singleton.mp h]; exact hlt

theorem silhouetteP_zeros_any (d : Nat → Nat → N) {n : Nat} (hn : 0 < n) :
    (silhouetteP L d (List.replicate n 0) false).1 = RLoss.zero := by
  have hb : bufLen (List.replicate n 0) = 1 := by
    obtain ⟨m, rfl⟩ := Nat.exists_eq_succ_of_ne_zero (by omega : n ≠ 0)
    unfold bufLen
    rw [List.replicate_succ, List.foldl_cons]
    exact foldl_inv (fun b : Nat => b = 1) (fun b a ha hb => by
      rw [List.eq_of_mem_replicate ha, hb]; rfl) rfl
  unfold silhouetteP
  rw [if_pos hb]

/-- **C77**: `pamsil` (BUILD and SWAP) returns, and if a swap was made, its loss is positive and accurate. Before the
iteration limit no exchange has a silhouette larger than the loss by more than the rounding error of one silhouette. (If no
swap was made the loss is 0, whatever the silhouette: C49.) -/
theorem C77_pamsil (M : FloatLoss N fin val u B) (D : DivModel fin val u B eta C) {mat : Mat N} (hm : IsMatrix mat n d)
    (hd : Dissim n d) {k : Nat} (hsz : Sizes n k) (hk : 2 ≤ k) (hs : Spread fin val w W n d) (hf : SilFits u B eta w W C n)
    (hB : (1 + u) ^ (n + 1) * (n * W) ≤ B) (maxiter : Nat) :
    ∃ r : SwapResult L, pamsil L mat k maxiter = .ok r ∧ WellFormed n k r.med r.assi ∧
      (∃ l, assignNearest L mat r.med = .ok (l, r.assi)) ∧ fin r.loss ∧ (r.nSwap = 0 → val r.loss = 0) ∧
      (0 < r.nSwap → 0 < val r.loss ∧ |val r.loss - silExact (fun x : N => val (conv x : L)) d r.assi| ≤ silErr u n) ∧
      (r.nIter < maxiter → ∀ m j l a, m < k → j < n → j ∉ r.med →
        assignNearest L mat (r.med.set m j) = .ok (l, a) →
          silExact (fun x : N => val (conv x : L)) d a ≤ val r.loss + silErr u n) := by
  have hn : 0 < n := by have := hsz.pos; have := hsz.le; omega
  have hfin := silFin_of D hs hf
  have hfit : ∀ meds : List Nat, meds ≠ [] → (∀ m ∈ meds, m < n) → (1 + u) ^ (n + 1) * exactDev N val n d meds ≤ B :=
    fun meds hne hr => le_trans (mul_le_mul_of_nonneg_left (exactDev_le hs.high hne hr)
      (by linarith [M.std.one_le_pow (n + 1)])) hB
  have hc := argminP_lt (buildFirstSumP L d n) k hn
  have hfirst : ((List.range n).map fun j => d j (argminP (buildFirstSumP L d n) n k).2) =
      (List.range n).map fun o => minDist d o [(argminP (buildFirstSumP L d n) n k).2] := rfl
  obtain ⟨meds, hb⟩ : ∃ meds, psBuildP L d n k = .ok meds := by
    unfold psBuildP
    dsimp only
    rw [hfirst]
    exact psBuildLoopP_float M hd hn hfit k (by simp) (by simpa using hc)
  obtain ⟨hv, hl⟩ := psBuildP_valid hsz hb
  have hz := silhouetteP_zeros_any (L := L) d hn
  have hlab : ∀ a ∈ List.replicate n 0, a < meds.length := fun a ha => by
    rw [List.eq_of_mem_replicate ha]; omega
  obtain ⟨q, hq⟩ := psLoopP_totalF M.std hfin hv rfl (assi := List.replicate n 0) (by simp) hlab
    (fuel := maxiter) (iter := 0) (sil := (silhouetteP L d (List.replicate n 0) false).1) (nSwaps := 0)
    (hz ▸ M.std.zero_fin) (.inl (by rw [hz, M.std.zero]))
  obtain ⟨g1, g2, -, -, g5, -, g7⟩ := psLoopP_ok hv rfl hq
  obtain ⟨f1, f2, f3⟩ := psLoopP_float M.std hfin hv rfl (by simp) hlab (hz ▸ M.std.zero_fin) hq
  rw [hz] at g7 f2
  rw [M.std.zero] at f2
  have hr : pamsil L mat k maxiter = .ok ⟨q.1, nearAssiP d n q.2.1, q.2.2.1, q.2.2.2, q.2.1⟩ := by
    rw [pamsil_eq hm hsz, hb, ok_bind]
    unfold pamsilOptP
    rw [if_neg (by omega), hq]
    rfl
  refine ⟨_, hr, ⟨nearAssiP_length _ _ _, ?_, g2.trans hl, g1.range⟩, ⟨_, assignNearest_eq hm g1⟩, ?_, fun h0 => ?_,
    fun h0 => ⟨f2 h0, ?_⟩, fun hlt m j l a hmk hj hjm ha => ?_⟩
  · rw [← hl, ← g2]
    exact nearAssiP_label d g1.sizes.pos
  · dsimp only
    rcases g7 with ⟨-, -, e⟩ | ⟨-, e⟩
    · rw [e]; exact M.std.zero_fin
    · rw [e]; exact hfin _ g1
  · dsimp only at h0 ⊢
    rcases g7 with ⟨-, -, e⟩ | ⟨h, -⟩
    · rw [e]; exact M.std.zero
    · omega
  · dsimp only at h0 ⊢
    rcases g7 with ⟨h, -⟩ | ⟨-, e⟩
    · omega
    · rw [e]; exact (silM_near D hs hf g1).2
  · dsimp only at hlt hjm ha ⊢
    rw [assignNearest_eq hm (g1.set m hj)] at ha
    cases ha
    have h3 := (abs_le.mp (silM_near D hs hf (g1.set m hj)).2).1
    have := f3 (by omega) m j (by omega) hj hjm
    linarith

end dist

/-! ## `f64` -/

/-- What `pamsil_swap` and `pamsil` need. -/
theorem fits64_build {n : Nat} (hn : n ≤ u32Max) : (1 + 1 / 2 ^ 53 : ℚ) ^ (n + 1) * ((n : ℚ) * 2 ^ 128) ≤ 2 ^ 1023 := by
  have h1 := pow_f64 (e := n + 1) (by have : u32Max + 1 ≤ 2 ^ 53 := by decide
                                      omega)
  have hn' : (n : ℚ) ≤ 2 ^ 32 := by
    exact_mod_cast hn.trans (by decide : u32Max ≤ 2 ^ 32)
  have h2 : (1 + 1 / 2 ^ 53 : ℚ) ^ (n + 1) ≤ 2 := by
    have : ((n + 1 : ℕ) : ℚ) / 2 ^ 52 ≤ 1 := by
      rw [div_le_one (by norm_num)]
      push_cast
      linarith [show (2 : ℚ) ^ 32 + 1 ≤ 2 ^ 52 by norm_num]
    linarith
  calc (1 + 1 / 2 ^ 53 : ℚ) ^ (n + 1) * ((n : ℚ) * 2 ^ 128) ≤ 2 * (2 ^ 32 * 2 ^ 128) :=
        mul_le_mul h2 (mul_le_mul_of_nonneg_right hn' (by norm_num)) (by positivity) (by norm_num)
    _ ≤ 2 ^ 200 := by norm_num
    _ ≤ 2 ^ 1023 := pow_le_pow_right₀ (by norm_num) (by norm_num)

section f64
variable {N : Type} [LinearOrder N] [Zero N] [RDist N] [LawfulDist N] [RFrom N (Ieee binary64)] {n : Nat}
  {d : Nat → Nat → N} {w : ℚ}

/-- **C77, `f64`**: `pamsil_swap`, distinct medoids. `Spread` holds for all `u32` distances (`spread_u32`) and all `f32`
distances in range (`spread_f32`). -/
theorem C77_pamsil_swap_f64 (hw : 2 ^ (-149 : ℤ) ≤ w) (hs : Spread (Ieee.Fin (F := binary64)) Ieee.val w (2 ^ 128) n d)
    {mat : Mat N} (hm : IsMatrix mat n d) (hd : Dissim n d) {med : List Nat} (hv : ValidMeds n med) (hnd : med.Nodup)
    (hk : 2 ≤ med.length) {maxiter : Nat} {r : SwapResult (Ieee binary64)}
    (hr : pamsilSwap (Ieee binary64) mat med maxiter = .ok r) (hrd : r.med.Nodup) :
    let S := fun a => mean (silList (fun x : N => Ieee.val (conv x : Ieee binary64)) d a)
    (∃ q, r.loss = .num q ∧ |q - S r.assi| ≤ (5 * n + 3) / 2 ^ 52) ∧
    (∀ l a, assignNearest (Ieee binary64) mat med = .ok (l, a) → S a ≤ S r.assi + (10 * n + 6) / 2 ^ 52) ∧
    (r.nIter < maxiter → ∀ m j l a, m < med.length → j < n → j ∉ r.med →
      assignNearest (Ieee binary64) mat (r.med.set m j) = .ok (l, a) → S a ≤ S r.assi + (10 * n + 6) / 2 ^ 52) := by
  intro S
  have hu := hv.sizes.n_le
  have he := silErr_f64 hu
  have he2 : 2 * silErr (1 / 2 ^ 53 : ℚ) n ≤ (10 * n + 6) / 2 ^ 52 := by
    calc 2 * silErr (1 / 2 ^ 53 : ℚ) n ≤ 2 * ((5 * n + 3) / 2 ^ 52) := by linarith
      _ = _ := by ring
  obtain ⟨⟨l0, e0⟩, -, hwf, -⟩ := C39_pamsil_swap hm hv hk hr
  have hvr : ValidMeds n r.med := ⟨hwf.medLen ▸ hv.sizes, hwf.medRange⟩
  obtain ⟨⟨⟨q, hq, -⟩, h1⟩, h2, h3⟩ := C77_pamsil_swap divModel64 hm hv hk hs (silFits64 hw hu) hr
  rw [C77_textbook hd hm hvr hrd e0] at h1 h2 h3
  refine ⟨⟨q, hq, ?_⟩, fun l a ha => ?_, fun hlt m j l a hml hj hjm ha => ?_⟩
  · rw [hq] at h1
    exact h1.trans he
  · have := h2 l a ha
    rw [C77_textbook hd hm hv hnd ha] at this
    exact this.trans (by simp only [S]; linarith)
  · have := h3 hlt m j l a hml hj hjm ha
    rw [C77_textbook hd hm (hvr.set m hj) (nodup_set hrd hjm) ha] at this
    exact this.trans (by simp only [S]; linarith)

/-- **C77, `f64`**: `pamsil`, for `u32` distances (`floatLoss_u32_f64`) and `f32` distances (`floatLoss_f32_f64`). -/
theorem C77_pamsil_f64 (M : FloatLoss N (Ieee.Fin (F := binary64)) Ieee.val (1 / 2 ^ 53 : ℚ) (2 ^ 1023))
    (hw : 2 ^ (-149 : ℤ) ≤ w) (hs : Spread (Ieee.Fin (F := binary64)) Ieee.val w (2 ^ 128) n d) {mat : Mat N}
    (hm : IsMatrix mat n d) (hd : Dissim n d) {k : Nat} (hsz : Sizes n k) (hk : 2 ≤ k) (maxiter : Nat) :
    ∃ (r : SwapResult (Ieee binary64)) (q : ℚ), pamsil (Ieee binary64) mat k maxiter = .ok r ∧
      WellFormed n k r.med r.assi ∧ r.loss = .num q ∧ (r.nSwap = 0 → q = 0) ∧
      (0 < r.nSwap → 0 < q ∧ (r.med.Nodup →
        |q - mean (silList (fun x : N => Ieee.val (conv x : Ieee binary64)) d r.assi)| ≤ (5 * n + 3) / 2 ^ 52)) ∧
      (r.nIter < maxiter → r.med.Nodup → ∀ m j l a, m < k → j < n → j ∉ r.med →
        assignNearest (Ieee binary64) mat (r.med.set m j) = .ok (l, a) →
          mean (silList (fun x : N => Ieee.val (conv x : Ieee binary64)) d a) ≤ q + (5 * n + 3) / 2 ^ 52) := by
  have hu := hsz.n_le
  have he := silErr_f64 hu
  obtain ⟨r, h1, h2, ⟨l0, e0⟩, ⟨q, hq, -⟩, h4, h5, h6⟩ :=
    C77_pamsil M divModel64 hm hd hsz hk hs (silFits64 hw hu) (fits64_build hu) maxiter
  have hvr : ValidMeds n r.med := ⟨h2.medLen.symm ▸ hsz, h2.medRange⟩
  rw [hq] at h4 h5 h6
  refine ⟨r, q, h1, h2, hq, h4, fun h0 => ⟨(h5 h0).1, fun hnd => ?_⟩, fun hlt hnd m j l a hmk hj hjm ha => ?_⟩
  · rw [← C77_textbook hd hm hvr hnd e0]
    exact (h5 h0).2.trans he
  · rw [← C77_textbook hd hm (hvr.set m hj) (nodup_set hnd hjm) ha]
    have := h6 hlt m j l a hmk hj hjm ha
    exact this.trans (by show q + _ ≤ q + _; linarith)

end f64

/-! ## Concrete cases -/

theorem silU_dissim : Dissim 5 silU :=
  ⟨by decide +kernel, fun x y hx hy => (by decide +kernel : ∀ x < 5, ∀ y < 5, 0 ≤ silU x y) x hx y hy⟩

theorem silU_valid : ValidMeds 5 [0, 1] := ⟨⟨by decide, by decide, by decide, by decide⟩, by decide⟩

/-- One exchange, and the loss is not exact. -/
example : ∃ q, (.num (3430924079760433 / 4503599627370496) : Ieee binary64) = .num q ∧
    |q - mean (silList (fun x : UInt32 => (x.toNat : ℚ)) silU [1, 1, 1, 0, 0])| ≤ (5 * (5 : ℕ) + 3) / 2 ^ 52 :=
  (C77_pamsil_swap_f64 (by norm_num) (spread_u32 5 silU) silU_isMatrix silU_dissim silU_valid (by decide) (by decide)
    (maxiter := 100) (r := ⟨.num (3430924079760433 / 4503599627370496), [1, 1, 1, 0, 0], 2, 1, [3, 1]⟩) (by decide +kernel)
    (by decide)).1

example : ∃ (r : SwapResult (Ieee binary64)) (q : ℚ), pamsil (Ieee binary64) silUMat 2 100 = .ok r ∧ r.loss = .num q ∧
    0 < q ∧ |q - mean (silList (fun x : UInt32 => (x.toNat : ℚ)) silU r.assi)| ≤ (5 * (5 : ℕ) + 3) / 2 ^ 52 := by
  have hrun : pamsil (Ieee binary64) silUMat 2 100 =
      .ok ⟨.num (3430924079760433 / 4503599627370496), [0, 0, 0, 1, 1], 2, 1, [0, 3]⟩ := by decide +kernel
  obtain ⟨r, q, h1, -, h3, -, h5, -⟩ := C77_pamsil_f64 floatLoss_u32_f64 (w := 1) (by norm_num) (spread_u32 5 silU)
    silU_isMatrix silU_dissim (k := 2) silU_valid.sizes (by decide) 100
  rw [hrun] at h1
  cases h1
  exact ⟨_, q, hrun, h3, (h5 (by decide)).1, (h5 (by decide)).2 (by decide)⟩

/-- Four objects, distances close to `2^30` and `2^31`. -/
def edgeRows : List (List ℕ) :=
  [[0, 1073741825, 2147483648, 2147483648], [1073741825, 0, 1073741824, 1073741824],
    [2147483648, 1073741824, 0, 2147483650], [2147483648, 1073741824, 2147483650, 0]]

def edge (x y : Nat) : UInt32 := ((edgeRows.getD x []).getD y 0).toUInt32

def edgeMat : Mat UInt32 := ofRows ((List.range 4).map fun x => (List.range 4).map (edge x))

/-- **C77, not exact**: a result of `pamsil_swap` before the iteration limit that is not a local optimum of the exact
silhouette; so the error term cannot be dropped. -/
theorem C77_not_exact : IsMatrix edgeMat 4 edge ∧ Dissim 4 edge ∧ Symm 4 edge ∧
    pamsilSwap (Ieee binary64) edgeMat [0, 1] 100 = .ok ⟨.num (1 / 8), [0, 1, 1, 1], 1, 0, [0, 1]⟩ ∧
    assignNearest (Ieee binary64) edgeMat [2, 1] = .ok (.num 2147483649, [1, 1, 0, 1]) ∧
    mean (silList (fun x : UInt32 => (x.toNat : ℚ)) edge [0, 1, 1, 1]) <
      mean (silList (fun x : UInt32 => (x.toNat : ℚ)) edge [1, 1, 0, 1]) := by
  refine ⟨⟨rfl, rfl, fun x y hx hy => ?_⟩, ⟨by decide +kernel, ?_⟩, ?_, by decide +kernel, by decide +kernel, by decide +kernel⟩
  · exact (by decide +kernel : ∀ x < 4, ∀ y < 4, edgeMat.get x y = .ok (edge x y)) x hx y hy
  · exact fun x y hx hy => (by decide +kernel : ∀ x < 4, ∀ y < 4, 0 ≤ edge x y) x hx y hy
  · exact fun x y hx hy => (by decide +kernel : ∀ x < 4, ∀ y < 4, edge x y = edge y x) x hx y hy

end KMedoids
