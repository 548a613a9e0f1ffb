import Verif.Proofs.MscErr
import Verif.Props.C59
import Verif.Props.C77

/-!
# C78: medoid silhouettes under rounding

In floating point arithmetic the average medoid silhouette computed by `medoid_silhouette` and the one returned by
FasterMSC differ from the exact average medoid silhouette of the (converted) distances by at most `(1 + u) ^ (n + 3) - 1`,
about `n + 3` units in the last place of 1. No assumption on the size of the distances is needed: quotients `d₁ / d₂` of the
two smallest distances are at most 1, and where they underflow the error is far below the unit roundoff.
-/

set_option linter.unusedSectionVars false
set_option linter.overlappingInstances false

namespace KMedoids

variable {N L K : Type} [LinearOrder N] [Zero N] [RDist N] [LawfulDist N] [RLoss L] [RFrom N L]
  [Field K] [LinearOrder K] [IsStrictOrderedRing K]
open RFrom (conv)

variable {fin : L → Prop} {val : L → K} {u B eta : K} {C : Nat}

/-- The error of an average medoid silhouette of `n` objects. -/
def medErr (u : K) (n : Nat) : K := (1 + u) ^ (n + 3) - 1

/-- The integers up to `n` are exact, sums of `n` quotients do not overflow. -/
structure MedFits (u B : K) (C n : Nat) : Prop where
  pos : 0 < n
  exact : n ≤ C
  big : (1 + u) ^ (n + 2) * n ≤ B

namespace MedFits

theorem one_le_n {n : Nat} (h : MedFits u B C n) : (1 : K) ≤ n := by exact_mod_cast h.pos

theorem pow_le (M : StdModel fin val u B) {n e : Nat} (h : MedFits u B C n) (he : e ≤ n + 2) : (1 + u) ^ e * n ≤ B :=
  (mul_le_mul_of_nonneg_right (M.pow_mono he) (by linarith [h.one_le_n])).trans h.big

theorem pow_le' (M : StdModel fin val u B) {n e : Nat} (h : MedFits u B C n) (he : e ≤ n + 2) : (1 + u) ^ e ≤ B :=
  (le_mul_of_one_le_right (by linarith [M.one_le_pow e]) h.one_le_n).trans (h.pow_le M he)

theorem one_le_B (M : StdModel fin val u B) {n : Nat} (h : MedFits u B C n) : 1 ≤ B := by
  simpa using h.pow_le' M (e := 0) (by omega)

end MedFits

/-- The average as one recomputes it from the medoids. -/
theorem recomputedSil_near (Q : QuotLoss N fin val u B eta C) {n : Nat} (hf : MedFits u B C n) {d : Nat → Nat → N}
    (hd : Dissim n d) {med : List Nat} (hk : 2 ≤ med.length) (hr : ∀ m ∈ med, m < n) :
    fin (recomputedSil L n d med) ∧
      |val (recomputedSil L n d med) - exactMedSil N val n d med| ≤ medErr u n := by
  have M := Q.loss.std
  obtain ⟨r0, r1⟩ := exactRatios_range Q hd hk hr
  have hs : Appr fin val u n (exactRatios N val n d med) n (leftSum (silTerms L n d med)) :=
    leftSum_appr M hf.pos (fun o ho => Q.term (hf.one_le_B M) hd hk hr ho) (hf.pow_le M (by omega))
  obtain ⟨h1, h2⟩ := toSil_appr Q.div hf.pos hf.exact r0 r1 hs (hf.pow_le' M (by omega))
  rw [exactMedSil_eq hf.pos]
  refine ⟨h1, h2.trans ?_⟩
  exact sub_le_sub_right (M.pow_mono (by omega)) 1

/-- **C78, medoid_silhouette.** The average, and the values of the objects. -/
theorem C78_medoid_silhouette (Q : QuotLoss N fin val u B eta C) {mat : Mat N} {n : Nat} {d : Nat → Nat → N}
    (hm : IsMatrix mat n d) (hd : Dissim n d) {med : List Nat} (hv : ValidMeds n med) (hk : 2 ≤ med.length)
    (hf : MedFits u B C n) (samples : Bool) {avg : L} {sil : List L}
    (hr : medoidSilhouette L mat med samples = .ok (avg, sil)) :
    (fin avg ∧ |val avg - exactMedSil N val n d med| ≤ medErr u n) ∧
      (samples = true → List.Forall₂ (fun s e => fin s ∧ |val s - e| ≤ (1 + u) ^ 2 - 1) sil
        ((List.range n).map (medSil1 (fun x : N => val (conv x : L)) d med))) := by
  have M := Q.loss.std
  have hB := hf.one_le_B M
  rw [medoidSilhouette_eq hm hv, medoidSilhouetteP, if_neg (by omega)] at hr
  have hr := Except.ok.inj hr
  rw [Prod.mk.injEq] at hr
  obtain ⟨rfl, rfl⟩ := hr
  -- one object
  have hone : ∀ o < n, (medRatioP L (twoNearestP d med o) = none ∧ medSil1 (fun x : N => val (conv x : L)) d med o = 1) ∨
      ∃ t, medRatioP L (twoNearestP d med o) = some t ∧
        Appr fin val u 1 (1 - medSil1 (fun x : N => val (conv x : L)) d med o) 1 t := by
    intro o ho
    have ht := twoNearestP_twoMin d hk o
    obtain ⟨h1, h2⟩ := QuotLoss.twoMin_range hd hv.range ho ht
    have hq := Q.ratio_of ht
    have ha := Q.quot hB h1 h2
    rw [← hq] at ha
    unfold medRatioP
    rw [LawfulDist.isZero_eq]
    by_cases h0 : (twoNearestP d med o).1 = 0
    · left
      rw [h0, Q.val_zero, zero_div] at hq
      refine ⟨by simp [h0], by linarith⟩
    · right
      have hb : (twoNearestP d med o).2 ≠ 0 := (lt_of_lt_of_le (lt_of_le_of_ne h1 (Ne.symm h0)) h2).ne'
      refine ⟨_, by simp [h0]; rfl, ?_⟩
      have : mscLoss L (twoNearestP d med o).1 (twoNearestP d med o).2 =
          RLoss.div (conv (twoNearestP d med o).1) (conv (twoNearestP d med o).2) := by
        unfold mscLoss
        simp [LawfulDist.isZero_eq, h0, hb]
      rwa [this] at ha
  refine ⟨?_, fun hsam => ?_⟩
  · obtain ⟨r0, r1⟩ := exactRatios_range Q hd hk hv.range
    have hsum : Appr fin val u (1 + n) (exactRatios N val n d med) n (medSumP L d n med) := by
      have h : Appr fin val u (1 + (List.range n).length)
          (0 + ((List.range n).map fun o => 1 - medSil1 (fun x : N => val (conv x : L)) d med o).sum)
          (0 + ((List.range n).map fun _ => (1 : K)).sum) (medSumP L d n med) := by
        unfold medSumP
        refine Appr.foldl M (fun o ho => ⟨zero_le_one, ?_⟩) le_rfl ((Appr.zero M).mono M (Nat.zero_le 1) le_rfl) ?_
        · rcases hone o (List.mem_range.mp ho) with ⟨h1, h2⟩ | ⟨t, h1, h2⟩
          · exact .inl ⟨by rw [h2, sub_self], fun acc => by rw [h1]⟩
          · exact .inr ⟨t, h2, fun acc => by rw [h1]⟩
        · have := hf.pow_le M (e := 1 + n) (by omega)
          simpa using this
      simpa [exactRatios] using h
    obtain ⟨h1, h2⟩ := toSil_appr Q.div hf.pos hf.exact r0 r1 hsum (hf.pow_le' M (by omega))
    rw [asU32_le hv.sizes.n_le, exactMedSil_eq hf.pos]
    refine ⟨h1, h2.trans ?_⟩
    exact sub_le_sub_right (M.pow_mono (by omega)) 1
  · subst hsam
    simp only [if_true]
    rw [List.forall₂_map_left_iff, List.forall₂_map_right_iff]
    refine List.forall₂_same.mpr fun o ho => ?_
    have ho := List.mem_range.mp ho
    have hp2 := M.one_le_pow 2
    unfold medSampleP
    rcases hone o ho with ⟨h1, h2⟩ | ⟨t, h1, h2⟩
    · rw [h1, h2]
      refine ⟨Q.div.one_fin, ?_⟩
      dsimp only
      rw [Q.div.one, sub_self, abs_zero]
      linarith
    · rw [h1]
      dsimp only
      obtain ⟨s0, s1⟩ := Q.medSil1_unit hd hk hv.range ho
      generalize medSil1 (fun x : N => val (conv x : L)) d med o = s at h2 s0 s1 ⊢
      have he := h2.err
      rw [pow_one, mul_one, add_sub_cancel_left] at he
      have he' := abs_le.mp he
      have hu := M.u_nonneg
      have hsub : |val (RLoss.one : L) - val t| ≤ 1 + u := by
        rw [Q.div.one, abs_le]
        constructor <;> linarith [he'.1, he'.2]
      have h1u : (1 : K) + u ≤ B := by simpa using hf.pow_le' M (e := 1) (by omega)
      obtain ⟨f1, f2⟩ := M.sub _ _ Q.div.one_fin h2.fin (hsub.trans h1u)
      refine ⟨f1, ?_⟩
      have h3 := mul_le_mul_of_nonneg_left hsub hu
      have h4 := abs_add_le (val (RLoss.sub RLoss.one t) - (val (RLoss.one : L) - val t)) ((val (RLoss.one : L) - val t) - s)
      rw [sub_add_sub_cancel] at h4
      have h5 : |(val (RLoss.one : L) - val t) - s| ≤ u := by
        rw [Q.div.one, show (1 - val t) - s = -(val t - (1 - s)) by ring, abs_neg]; exact he
      calc _ ≤ _ := h4
        _ ≤ u * (1 + u) + u := add_le_add (f2.trans h3) h5
        _ = _ := by ring

/-- **C78, fastermsc.** The returned value. -/
theorem C78_fastermsc (Q : QuotLoss N fin val u B eta C) {mat : Mat N} {n : Nat} {d : Nat → Nat → N}
    (hm : IsMatrix mat n d) (hd : Dissim n d) {med : List Nat} (hv : ValidMeds n med) (hnd : med.Nodup)
    (hk : 2 ≤ med.length) (hf : MedFits u B C n) (maxiter : Nat) {r : SwapResult L}
    (hr : fastermsc L mat med maxiter = .ok r) :
    fin r.loss ∧ |val r.loss - exactMedSil N val n d r.med| ≤ medErr u n := by
  have h := C59_fastermsc_nearest hm hd hv hnd hk maxiter hr
  rw [C59_fastermsc hm hd hv hnd hk maxiter hr]
  exact recomputedSil_near Q hf hd (by rw [h.medLen]; exact hk) h.medRange

/-! ## IEEE 754 -/

/-- Distances and losses of the same format. -/
theorem quotLoss_ieee (F : Fmt) {C : Nat} (hC : C ≤ 2 ^ F.p) (hC' : (C : ℚ) ≤ 2 ^ (F.emax - 1)) :
    QuotLoss (Finite F) (Ieee.Fin (F := F)) Ieee.val (1 / 2 ^ F.p) (2 ^ (F.emax - 1)) (2 ^ (F.emin - 1)) C :=
  ⟨ieee_floatLoss F, Ieee.divModel F hC hC', fun _ h => h⟩

theorem quotLoss_f32_f64 : QuotLoss (Finite binary32) (Ieee.Fin (F := binary64)) Ieee.val (1 / 2 ^ 53) (2 ^ 1023)
    (2 ^ (-1075 : ℤ)) u32Max :=
  ⟨floatLoss_f32_f64, divModel64, fun _ h => h⟩

theorem quotLoss_f64 : QuotLoss (Finite binary64) (Ieee.Fin (F := binary64)) Ieee.val (1 / 2 ^ 53) (2 ^ 1023)
    (2 ^ (-1075 : ℤ)) u32Max :=
  ⟨ieee_floatLoss binary64, divModel64, fun _ h => h⟩

theorem quotLoss_u32_f64 : QuotLoss UInt32 (Ieee.Fin (F := binary64)) Ieee.val (1 / 2 ^ 53) (2 ^ 1023)
    (2 ^ (-1075 : ℤ)) u32Max :=
  ⟨floatLoss_u32_f64, divModel64, fun x h => by
    have h : (0 : UInt32).toNat < x.toNat := UInt32.lt_iff_toNat_lt.mp h
    show (0 : ℚ) < (x.toNat : ℚ)
    exact_mod_cast h⟩

theorem medErr_f64 {n : Nat} (hn : n ≤ u32Max) : medErr (1 / 2 ^ 53 : ℚ) n ≤ (n + 3) / 2 ^ 52 := by
  have := pow_f64 (e := n + 3) (le_trans (Nat.add_le_add_right hn 3) (by decide))
  push_cast at this
  exact this

theorem medFits64 {n : Nat} (h0 : 0 < n) (hn : n ≤ u32Max) : MedFits (1 / 2 ^ 53 : ℚ) (2 ^ 1023) u32Max n := by
  refine ⟨h0, hn, ?_⟩
  have h1 := pow_f64 (e := n + 2) (le_trans (Nat.add_le_add_right hn 2) (by decide))
  have hn' : (n : ℚ) ≤ 2 ^ 32 := by
    have h : n ≤ 2 ^ 32 := hn.trans (by decide)
    exact_mod_cast h
  have hq : ((n + 2 : ℕ) : ℚ) / 2 ^ 52 ≤ 1 := by
    rw [div_le_one (by norm_num)]
    push_cast
    linarith
  calc (1 + 1 / 2 ^ 53 : ℚ) ^ (n + 2) * n ≤ 2 * 2 ^ 32 := mul_le_mul (by linarith) hn' (Nat.cast_nonneg n) (by norm_num)
    _ ≤ 2 ^ 1023 := by
      have : (2 : ℚ) * 2 ^ 32 = 2 ^ 33 := by norm_num
      rw [this]
      exact pow_le_pow_right₀ (by norm_num) (by norm_num)


section f64
variable [RFrom N (Ieee binary64)]
  (Q : QuotLoss N (Ieee.Fin (F := binary64)) Ieee.val (1 / 2 ^ 53) (2 ^ 1023) (2 ^ (-1075 : ℤ)) u32Max)
include Q

/-- **C78, medoid_silhouette with `f64` losses.** `Q` holds for `u32`, `f32` and `f64` distances. -/
theorem C78_medoid_silhouette_f64 {mat : Mat N} {n : Nat} {d : Nat → Nat → N} (hm : IsMatrix mat n d) (hd : Dissim n d)
    {med : List Nat} (hv : ValidMeds n med) (hk : 2 ≤ med.length) (samples : Bool) {avg : Ieee binary64}
    {sil : List (Ieee binary64)} (hr : medoidSilhouette (Ieee binary64) mat med samples = .ok (avg, sil)) :
    ∃ q, avg = .num q ∧
      |q - medSil (fun x : N => (conv x : Ieee binary64).val) n d med| ≤ (n + 3) / 2 ^ 52 := by
  have h0 : 0 < n := lt_of_lt_of_le hv.sizes.pos hv.sizes.le
  obtain ⟨⟨⟨q, rfl, -⟩, h⟩, -⟩ := C78_medoid_silhouette Q hm hd hv hk (medFits64 h0 hv.sizes.n_le) samples hr
  exact ⟨q, rfl, h.trans (medErr_f64 hv.sizes.n_le)⟩

/-- **C78, fastermsc with `f64` losses.** -/
theorem C78_fastermsc_f64 {mat : Mat N} {n : Nat} {d : Nat → Nat → N} (hm : IsMatrix mat n d) (hd : Dissim n d)
    {med : List Nat} (hv : ValidMeds n med) (hnd : med.Nodup) (hk : 2 ≤ med.length) (maxiter : Nat)
    {r : SwapResult (Ieee binary64)} (hr : fastermsc (Ieee binary64) mat med maxiter = .ok r) :
    ∃ q, r.loss = .num q ∧
      |q - medSil (fun x : N => (conv x : Ieee binary64).val) n d r.med| ≤ (n + 3) / 2 ^ 52 := by
  have h0 : 0 < n := lt_of_lt_of_le hv.sizes.pos hv.sizes.le
  obtain ⟨⟨q, hq, -⟩, h⟩ := C78_fastermsc Q hm hd hv hnd hk (medFits64 h0 hv.sizes.n_le) maxiter hr
  rw [hq] at h
  exact ⟨q, hq, h.trans (medErr_f64 hv.sizes.n_le)⟩

end f64

/-! ## Non-vacuity -/

theorem silU_valid3 {a b c : Nat} (h : ∀ m ∈ [a, b, c], m < 5) : ValidMeds 5 [a, b, c] :=
  ⟨⟨by simp, by simp, by decide, by simp; decide⟩, h⟩

/-- The computed value is not exact, but close. -/
example : (4023215667117643 / 4503599627370496 : ℚ) ≠ medSil (fun x : UInt32 => (x.toNat : ℚ)) 5 silU [1, 4, 2] ∧
    ∃ q, (.num (4023215667117643 / 4503599627370496) : Ieee binary64) = .num q ∧
      |q - medSil (fun x : UInt32 => (x.toNat : ℚ)) 5 silU [1, 4, 2]| ≤ ((5 : ℕ) + 3) / 2 ^ 52 :=
  ⟨by decide +kernel, C78_medoid_silhouette_f64 quotLoss_u32_f64 silU_isMatrix silU_dissim (silU_valid3 (by decide)) (by decide)
    false (sil := []) (by decide +kernel)⟩

/-- One exchange. -/
example : ∃ (r : SwapResult (Ieee binary64)) (q : ℚ), fastermsc (Ieee binary64) silUMat [0, 1, 2] 20 = .ok r ∧ r.nSwap = 1 ∧
    r.loss = .num q ∧ |q - medSil (fun x : UInt32 => (x.toNat : ℚ)) 5 silU r.med| ≤ ((5 : ℕ) + 3) / 2 ^ 52 := by
  have hr : fastermsc (Ieee binary64) silUMat [0, 1, 2] 20 =
      .ok ⟨.num (8106479329266893 / 9007199254740992), [1, 1, 2, 0, 0], 2, 1, [3, 1, 2]⟩ := by decide +kernel
  obtain ⟨q, h1, h2⟩ := C78_fastermsc_f64 quotLoss_u32_f64 silU_isMatrix silU_dissim (silU_valid3 (by decide)) (by decide)
    (by decide) 20 hr
  exact ⟨_, q, hr, rfl, h1, h2⟩

/-- Distances over the whole range of `f64`. -/
def wide (x y : Nat) : Finite binary64 :=
  .ofRat binary64 (if x = y then 0 else if x + y = 3 then 2 ^ (-1074 : ℤ) else if x + y = 4 then 3 else 2 ^ (1023 : ℤ))

def wideMat : Mat (Finite binary64) := ofRows ((List.range 4).map fun x => (List.range 4).map (wide x))

theorem wide_isMatrix : IsMatrix wideMat 4 wide := by
  have h : ∀ x < 4, ∀ y < 4, wideMat.get x y = .ok (wide x y) := by decide +kernel
  exact ⟨rfl, rfl, fun x y hx hy => h x hx y hy⟩

theorem wide_dissim : Dissim 4 wide :=
  ⟨by decide +kernel, fun x y hx hy => (by decide +kernel : ∀ x < 4, ∀ y < 4, 0 ≤ wide x y) x hx y hy⟩

/-- The quotients underflow, and yet the average is accurate. -/
example : ∃ (r : Ieee binary64 × List (Ieee binary64)) (q : ℚ),
    medoidSilhouette (Ieee binary64) wideMat [0, 1] true = .ok r ∧ r.1 = .num q ∧
      medSil1 (fun x : Finite binary64 => x.q) wide [0, 1] 3 ≠ 1 ∧ r.2[3]? = some (.num 1) ∧
      |q - medSil (fun x : Finite binary64 => x.q) 4 wide [0, 1]| ≤ ((4 : ℕ) + 3) / 2 ^ 52 := by
  have hr : ∃ r, medoidSilhouette (Ieee binary64) wideMat [0, 1] true = .ok r :=
    ⟨_, medoidSilhouette_eq wide_isMatrix ⟨⟨by decide, by decide, by decide, by decide⟩, by decide⟩ true⟩
  obtain ⟨⟨avg, sil⟩, hr⟩ := hr
  obtain ⟨q, h1, h2⟩ := C78_medoid_silhouette_f64 quotLoss_f64 wide_isMatrix wide_dissim
    ⟨⟨by decide, by decide, by decide, by decide⟩, by decide⟩ (by decide) true hr
  refine ⟨_, q, hr, h1, by decide +kernel, ?_, h2⟩
  have h3 : (medoidSilhouette (Ieee binary64) wideMat [0, 1] true).toOption.bind (·.2[3]?) = some (.num 1) := by
    decide +kernel
  rw [hr] at h3
  exact h3

end KMedoids
