import Verif.Proofs.PmsBuildAny
import Verif.Props.C71
import Verif.Props.C79
import Verif.Props.C81
import Verif.Props.C83

/-!
# C110: PAMMEDSIL with its own start, under rounding

C51 and C43 describe `pammedsil` for exact arithmetic. Here the loss is computed in any arithmetic in which the negated zero
is not negative: BUILD chooses different objects, one after the other, and its labels are those of nearest medoids. If adding
a contribution to zero does not change it (as in IEEE 754), then `pammedsil` is `pammedsil_swap` from the medoids of BUILD, bit
by bit, and what is known of the latter under rounding holds for `pammedsil`: bounds on the iterations, range and accuracy of
the medoid silhouette, nearly a local optimum. In floating point the choices of BUILD are nearly greedy, but never object 0
except as the first medoid; with fewer than `k` medoids, all objects other than object 0 have distance zero to one.
-/

set_option linter.unusedSectionVars false
set_option linter.overlappingInstances false

namespace KMedoids

open RFrom (conv)

section any
variable {N L : Type} [LinearOrder N] [Zero N] [RDist N] [LawfulDist N] [RLoss L] [RFrom N L]

/-- **C110, BUILD**, for any arithmetic of the loss. -/
theorem C110_build_valid [SaneZero L] (hz : NegZero N L) {mat : Mat N} {n k : Nat} {d : Nat → Nat → N} (hm : IsMatrix mat n d)
    (hd : Dissim n d) (hs : Sizes n k) {meds : List Nat} {data : List (Reco N)} {loss : L}
    (hb : pammedsilBuildInitialize L mat k = .ok (meds, data, loss)) :
    ValidMeds n meds ∧ meds.length ≤ k ∧ GoodAnswer n d meds (data.map (·.near.i)) ∧ (∀ c ∈ meds.drop 1, c ≠ 0) := by
  rw [(pmsBuild_eq hm hs).1] at hb
  obtain ⟨h1, h2, -, h4, -⟩ := pmsBuildP_ok (L := L) hz hd hs
  have hv := pmsBuildP_valid (L := L) hm hs
  injection hb with hb
  rw [hb] at h1 h2 h4 hv
  simp only at h1 h2 h4 hv
  refine ⟨hv, h2, ⟨h1.nodup, ?_⟩, fun c hc => ?_⟩
  · rw [h1.recs]
    have h := nearAssiP_ok hd hv h1.nodup
    have e : (mscInitDataP d n meds).map (·.near.i) = nearAssiP d n meds := by
      simp only [mscInitDataP, nearAssiP, List.map_map]
      exact List.map_congr_left fun o _ => congrArg Prod.fst (mscInitRecP_near d meds o)
    rw [e]; exact h
  · obtain ⟨l, hl⟩ := List.mem_iff_getElem?.mp hc
    rw [List.getElem?_drop] at hl
    have := (h4 (1 + l) c (by omega) hl).1
    omega

/-- **C110**: `pammedsil` is BUILD and SWAP, bit by bit. -/
theorem C110_pammedsil_eq [SaneZero L] (hz : NegZero N L) (ha : ZeroAdd N L) {mat : Mat N} {n k : Nat} {d : Nat → Nat → N}
    (hm : IsMatrix mat n d) (hd : Dissim n d) (hs : Sizes n k) (maxiter : Nat) {meds : List Nat} {data : List (Reco N)}
    {loss : L} (hb : pammedsilBuildInitialize L mat k = .ok (meds, data, loss)) :
    pammedsil L mat k maxiter = pammedsilSwap L mat meds maxiter ∧
    (2 ≤ meds.length → loss = leftSum (silTerms L n d meds)) := by
  obtain ⟨hv, -, ⟨hnd, -⟩, -⟩ := C110_build_valid hz hm hd hs hb
  rw [(pmsBuild_eq hm hs).1] at hb
  obtain ⟨h1, -⟩ := pmsBuildP_ok (L := L) hz hd hs
  injection hb with hb
  have e : meds = (pmsBuildP L d n k).1 := by rw [hb]
  constructor
  · rw [pammedsil_eq hm hs, pammedsilSwap_eq hm hv, pammedsilP_eq' hz ha hd hs, ← e]
  · intro hk
    rw [hb] at h1
    simp only at h1
    rw [h1.loss hk, h1.recs, pmsBuildLoss_sumP ha (by
      intro e; have := congrArg List.length e
      have := hv.sizes.pos; have := hv.sizes.le
      simp [mscInitDataP] at *; omega)]
    exact mscLossP_leftSum hd (mscInitDataP_cache hd hv hnd hk) hv.range

/-- **C110**: the answer of `pammedsil`, for any arithmetic of the loss. -/
theorem C110_pammedsil_valid [SaneZero L] (hz : NegZero N L) (ha : ZeroAdd N L) {mat : Mat N} {n k : Nat}
    {d : Nat → Nat → N} (hm : IsMatrix mat n d) (hd : Dissim n d) (hs : Sizes n k) (maxiter : Nat) {r : SwapResult L}
    (hr : pammedsil L mat k maxiter = .ok r) :
    GoodAnswer n d r.med r.assi ∧ r.med.length ≤ k ∧ (2 ≤ r.med.length → SilLossUpToLast n d r) := by
  obtain ⟨⟨meds, data, loss⟩, hb⟩ : ∃ b, pammedsilBuildInitialize L mat k = .ok b := ⟨_, (pmsBuild_eq hm hs).1⟩
  obtain ⟨hv, hl, ⟨hnd, -⟩, -⟩ := C110_build_valid hz hm hd hs hb
  rw [(C110_pammedsil_eq hz ha hm hd hs maxiter hb).1] at hr
  by_cases hk : 2 ≤ meds.length
  · obtain ⟨h1, h2, h3⟩ := pammedsilSwap_end hm hd hv hnd hk maxiter hr
    exact ⟨h1, h2.medLen.trans_le hl, fun _ => h3⟩
  · have hlen : meds.length = 1 := by have := hv.sizes.pos; omega
    obtain ⟨c, hc⟩ := List.length_eq_one_iff.mp hlen
    subst hc
    rw [pammedsilSwap_eq hm hv] at hr
    cases hr
    have e : pammedsilSwapP L d n [c] maxiter = singleP L d n c := rfl
    rw [e]
    exact ⟨singleP_good hm (hv.range c (by simp)), hl, fun h => absurd h (by simp [singleP])⟩

variable {K : Type} [LinearOrder K] {key : L → K} {good : L → Prop}

/-- **C110**: as in C72, an arithmetic of the loss in which smaller losses are smaller in an order cannot loop. -/
theorem C110_pammedsil_iters [SaneZero L] (ho : OrdersBy key good) (hz : NegZero N L) (ha : ZeroAdd N L) {mat : Mat N}
    {n k : Nat} {d : Nat → Nat → N} (hm : IsMatrix mat n d) (hd : Dissim n d) (hs : Sizes n k)
    (hg : ∀ a, 2 ≤ a.length → IsSel n a.length a → good (leftSum (silTerms L n d a))) (maxiter : Nat) {r : SwapResult L}
    (hr : pammedsil L mat k maxiter = .ok r) : r.nIter ≤ Nat.choose n r.med.length ∨ r.med.length = 1 ∧ r.nIter = 1 := by
  obtain ⟨⟨meds, data, loss⟩, hb⟩ : ∃ b, pammedsilBuildInitialize L mat k = .ok b := ⟨_, (pmsBuild_eq hm hs).1⟩
  obtain ⟨hv, hl, ⟨hnd, -⟩, -⟩ := C110_build_valid hz hm hd hs hb
  rw [(C110_pammedsil_eq hz ha hm hd hs maxiter hb).1] at hr
  by_cases hk : 2 ≤ meds.length
  · left
    rw [(C59_pammedsil_swap_nearest hm hd hv hnd hk maxiter hr).2.medLen]
    exact C72_pammedsil_swap ho hm hd hv hnd hk (fun a h => hg a (h.1 ▸ hk) (h.1.symm ▸ h)) maxiter hr
  · have hlen : meds.length = 1 := by have := hv.sizes.pos; omega
    obtain ⟨c, hc⟩ := List.length_eq_one_iff.mp hlen
    subst hc
    rw [pammedsilSwap_eq hm hv] at hr
    cases hr
    exact .inr ⟨rfl, rfl⟩

end any

section float
variable {N L K : Type} [LinearOrder N] [Zero N] [RDist N] [LawfulDist N] [RLoss L] [RFrom N L]
  [Field K] [LinearOrder K] [IsStrictOrderedRing K]
variable {fin : L → Prop} {val : L → K} {u B : K}

theorem argmin1P_float (M : StdModel fin val u B) (f : Nat → L) (n k : Nat) (hf : ∀ x < n, fin (f x)) :
    fin (argmin1P f n k).1 ∧ val (argmin1P f n k).1 ≤ 0 ∧ ∀ x, 1 ≤ x → x < n → val (argmin1P f n k).1 ≤ val (f x) := by
  unfold argmin1P
  have key : ∀ m, m ≤ n → fin (((List.range m).drop 1).foldl (fun (best : L × Nat) (i : Nat) =>
      if i == 0 || rlt (f i) best.1 then (f i, i) else best) ((RLoss.zero : L), k)).1 ∧
      val (((List.range m).drop 1).foldl (fun (best : L × Nat) (i : Nat) =>
        if i == 0 || rlt (f i) best.1 then (f i, i) else best) ((RLoss.zero : L), k)).1 ≤ 0 ∧
      ∀ x, 1 ≤ x → x < m → val (((List.range m).drop 1).foldl (fun (best : L × Nat) (i : Nat) =>
        if i == 0 || rlt (f i) best.1 then (f i, i) else best) ((RLoss.zero : L), k)).1 ≤ val (f x) := by
    intro m
    induction m with
    | zero => exact fun _ => ⟨M.zero_fin, M.zero.le, fun x h1 h2 => by omega⟩
    | succ m ih =>
      intro hm
      obtain ⟨i1, i2, i3⟩ := ih (by omega)
      by_cases h0 : m = 0
      · subst h0
        exact ⟨M.zero_fin, M.zero.le, fun x h1 h2 => by omega⟩
      · have e : (List.range (m + 1)).drop 1 = (List.range m).drop 1 ++ [m] := by
          rw [List.range_succ, List.drop_append_of_le_length (by simp; omega)]
        rw [e, List.foldl_append, List.foldl_cons, List.foldl_nil]
        generalize ((List.range m).drop 1).foldl (fun (best : L × Nat) (i : Nat) =>
          if i == 0 || rlt (f i) best.1 then (f i, i) else best) ((RLoss.zero : L), k) = best at *
        have hfm := hf m (by omega)
        split
        · rename_i h
          simp only [beq_iff_eq, h0, Bool.or_eq_true, false_or, M.rlt_iff hfm i1] at h
          refine ⟨hfm, h.le.trans i2, fun x h1 h2 => ?_⟩
          by_cases hxm : x = m
          · rw [hxm]
          · exact h.le.trans (i3 x h1 (by omega))
        · rename_i h
          simp only [beq_iff_eq, h0, Bool.or_eq_true, false_or, M.rlt_iff hfm i1, not_lt] at h
          refine ⟨i1, i2, fun x h1 h2 => ?_⟩
          by_cases hxm : x = m
          · rw [hxm]; exact h
          · exact i3 x h1 (by omega)
  exact key n le_rfl

/-- Each medoid but the first gives, up to a rounding error, the smallest exact total deviation of all objects but object 0,
given those before it. -/
def NearlyGreedy1 (val : L → K) (u : K) (n : Nat) (d : Nat → Nat → N) (med : List Nat) : Prop :=
  ∀ l c, 1 ≤ l → med[l]? = some c → ∀ x, 1 ≤ x → x < n → exactDev N val n d (med.take l ++ [c]) ≤
    exactDev N val n d (med.take l ++ [x]) + ((1 + u) ^ (n + 1) - 1) * (2 * exactDev N val n d (med.take l))

/-- **C110, BUILD in floating point.** -/
theorem C110_build (M : FloatLoss N fin val u B) {mat : Mat N} {n k : Nat} {d : Nat → Nat → N} (hm : IsMatrix mat n d)
    (hd : Dissim n d) (hs : Sizes n k) {W : K} (hW : AtMost val W n d) (hB : (1 + u) ^ (n + 1) * (n * W) ≤ B)
    {meds : List Nat} {data : List (Reco N)} {loss : L} (hb : pammedsilBuildInitialize L mat k = .ok (meds, data, loss)) :
    NearlyBestSingle val u n d (meds.take 1) ∧ NearlyGreedy1 val u n d meds ∧
    (meds.length < k → ∀ o, 1 ≤ o → o < n → ∃ c ∈ meds, val (conv (d o c) : L) = 0) := by
  have := M.saneZero
  have hn : 0 < n := hs.pos.trans hs.le
  rw [(pmsBuild_eq hm hs).1] at hb
  obtain ⟨hok, -, hfirst, hnext, hstop⟩ := pmsBuildP_ok (L := L) M.negZero hd hs
  injection hb with hb
  rw [hb] at hok hfirst hnext hstop
  simp only at hok hfirst hnext hstop
  clear hb
  have hW0 := (roundErr_nonneg (u := u) M hd hn hW (n + 1) 1).1
  have hfit : ∀ {med : List Nat}, med ≠ [] → (∀ c ∈ med, c < n) → (1 + u) ^ (n + 1) * exactDev N val n d med ≤ B ∧
      (1 + u) ^ (n - 1) * exactDev N val n d med ≤ B := fun {med} hne hr => by
    have h1 := exactDev_le hW hne hr
    have h2 := M.std.pow_mono (show n - 1 ≤ n + 1 by omega)
    have h3 := M.std.one_le_pow (n - 1)
    have h4 : 0 ≤ (n : K) * W := by positivity
    exact ⟨(mul_le_mul_of_nonneg_left h1 (by linarith)).trans hB,
      ((mul_le_mul_of_nonneg_left h1 (by linarith)).trans (mul_le_mul_of_nonneg_right h2 h4)).trans hB⟩
  refine ⟨?_, ?_, ?_⟩
  · have happ : ∀ i < n, Appr fin val u (n - 1) (exactDev N val n d [i]) (exactDev N val n d [i])
        (skipSum L n d [i] i) := fun i hi =>
      appr_skipSum (val := val) M hd (by simpa using hi) (by simp) (hfit (by simp) (by simpa using hi)).2
    obtain ⟨-, hmin⟩ := argminP_float (val := val) M.std (fun i => skipSum L n d [i] i) k hn fun x hx => (happ x hx).fin
    have hlt := argminP_lt (fun i => skipSum L n d [i] i) k hn
    have hv := argminP_value (fun i => skipSum L n d [i] i) k hn
    generalize argminP (fun i => skipSum L n d [i] i) n k = best at *
    have ht : meds.take 1 = [best.2] := by
      cases h : meds with
      | nil => exact absurd h hok.ne
      | cons y t => rw [h] at hfirst; simpa using hfirst
    rw [ht]
    intro x hx
    have h1 := hmin x hx
    rw [hv] at h1
    have h2 := (abs_le.mp (happ _ hlt).err).1
    have h3 := (abs_le.mp (happ x hx).err).2
    rw [mul_add]
    linarith
  · intro l c hl hc x hx0 hx
    obtain ⟨-, -, e2⟩ := hnext l c hl hc
    have hne : meds.take l ≠ [] := by
      apply List.ne_nil_of_length_pos
      have := (List.getElem?_eq_some_iff.mp hc).1
      rw [List.length_take]; omega
    have hr : ∀ m ∈ meds.take l, m < n := fun m hm => hok.range m (List.mem_of_mem_take hm)
    have happ := fun i (hi : i < n) => (appr_buildSum (val := val) (i := i) M hd hne hr hi (hfit hne hr).1).1
    obtain ⟨-, -, hmin⟩ := argmin1P_float (val := val) M.std _ n k fun x hx => (happ x hx).fin
    have h1 := hmin x hx0 hx
    rw [e2] at h1
    have h2 := (abs_le.mp (happ c (hok.range c (List.mem_of_getElem? hc))).err).1
    have h3 := (abs_le.mp (happ x hx).err).2
    linarith
  · intro hlt o ho0 ho
    have hge := hstop hlt
    have happ := fun i (hi : i < n) => appr_buildSum (val := val) (i := i) M hd hok.ne hok.range hi
      (hfit hok.ne hok.range).1
    obtain ⟨hf, -, hmin⟩ := argmin1P_float (val := val) M.std _ n k fun x hx => (happ x hx).1.fin
    rw [M.std.rge_iff hf M.std.zero_fin, M.std.zero] at hge
    obtain ⟨⟨c, hc, e⟩, -⟩ := minDist_spec d o meds hok.ne
    refine ⟨c, hc, ?_⟩
    rw [← e]
    refine le_antisymm (not_lt.mp fun hpos => ?_) (M.val_nonneg (minDist_nonneg hd hok.ne hok.range ho))
    have := (happ o ho).2 hpos
    linarith [hmin o ho0 ho]

end float

/-! ## IEEE 754 -/

section ieee
variable {N : Type} [LinearOrder N] [Zero N] [RDist N] [LawfulDist N] {F : Fmt} [RFrom N (Ieee F)]

theorem Ieee.zero_add_ofExact (x : ℚ) : Ieee.add (.num 0) (Ieee.ofExact F x) = Ieee.ofExact F x := by
  unfold Ieee.ofExact
  split
  · rfl
  · split
    · rfl
    · rename_i h1 h2
      show Ieee.ofExact F (0 + F.rnd x) = _
      unfold Ieee.ofExact
      rw [zero_add, F.rnd_rnd, if_neg h1, if_neg h2]

/-- Quotients of numbers are rounded, hence adding zero does not change them. -/
theorem zeroAdd_ieee (H : ConvNum N F) : ZeroAdd N (Ieee F) := by
  intro a b
  obtain ⟨f, h1, -⟩ := H
  unfold mscLoss
  split
  · show Ieee.ofExact F (0 + 0) = .num 0
    have hp : (0 : ℚ) < 2 ^ F.emax := zpow_pos two_pos _
    unfold Ieee.ofExact
    rw [zero_add, F.rnd_zero, if_neg (not_le.mpr hp), if_neg (by linarith)]
  · rw [h1, h1]
    show Ieee.add (.num 0) (if f b = 0 then Ieee.infOf (f a) else Ieee.ofExact F (f a / f b)) =
      if f b = 0 then Ieee.infOf (f a) else Ieee.ofExact F (f a / f b)
    split
    · unfold Ieee.infOf
      split
      · rfl
      · split <;> rfl
    · exact Ieee.zero_add_ofExact _

theorem negZero_ieee (H : ConvNum N F) : NegZero N (Ieee F) := by
  unfold NegZero
  rw [H.zero]
  show rge (Ieee.num (-0) : Ieee F) (.num 0) = true
  rw [neg_zero]
  show (match some (compare (0 : ℚ) 0) with
    | some .gt => true
    | some .eq => true
    | _ => false) = true
  simp

/-- **C110 in floating point**: for finite nonnegative distances, overflow allowed, nothing else is needed. -/
theorem C110_ieee (H : ConvNum N F) {mat : Mat N} {n k : Nat} {d : Nat → Nat → N} (hm : IsMatrix mat n d) (hd : Dissim n d)
    (hs : Sizes n k) (maxiter : Nat) {r : SwapResult (Ieee F)} (hr : pammedsil (Ieee F) mat k maxiter = .ok r) :
    GoodAnswer n d r.med r.assi ∧ r.med.length ≤ k ∧ r.nIter ≤ Nat.choose n r.med.length ∧
    (2 ≤ r.med.length → Counts F n → r.loss.Within 0 1) := by
  have hz := negZero_ieee H
  have ha := zeroAdd_ieee H
  obtain ⟨h1, h2, h3⟩ := C110_pammedsil_valid hz ha hm hd hs maxiter hr
  obtain ⟨r', k', hr', w1, -, hw⟩ := C29_pammedsil (L := Ieee F) hm hs maxiter
  rw [hr] at hr'; cases hr'
  have hr0 := hw.medRange
  have hn : 0 < n := hs.pos.trans hs.le
  refine ⟨h1, h2, ?_, fun hk hc => ?_⟩
  · rcases C110_pammedsil_iters (ieee_ordersBy F) hz ha hm hd hs (fun a _ ha' =>
      (leftSum_pos (silTerms_pos H hd ha')).notNan) maxiter hr with h | ⟨e1, e2⟩
    · exact h
    · rw [e1, e2, Nat.choose_one_right]; omega
  · obtain ⟨f, f1, f2, f3, f4⟩ := H
    have HM : ConvMono N F := .of_num f f1 f2 f3
    exact upToLast_within HM hn hc hd hk ⟨rfl, hr0, hw.assiLen, h1.2.nearest⟩ (h3 hk)

end ieee

section f64
variable {N : Type} [LinearOrder N] [Zero N] [RDist N] [LawfulDist N] [RFrom N (Ieee binary64)]
  (H : ConvNum N binary64)
  (Q : QuotLoss N (Ieee.Fin (F := binary64)) Ieee.val (1 / 2 ^ 53) (2 ^ 1023) (2 ^ (-1075 : ℤ)) u32Max)
include H Q

/-- **C110 with `f64` losses**: nearly a local optimum of the exact medoid silhouette, hardly worse than BUILD, and the
returned number is accurate. -/
theorem C110_f64 {mat : Mat N} {n k : Nat} {d : Nat → Nat → N} (hm : IsMatrix mat n d) (hd : Dissim n d) (hs : Sizes n k)
    (maxiter : Nat) {meds : List Nat} {data : List (Reco N)} {loss : Ieee binary64}
    (hb : pammedsilBuildInitialize (Ieee binary64) mat k = .ok (meds, data, loss)) (hk : 2 ≤ meds.length)
    {r : SwapResult (Ieee binary64)} (hr : pammedsil (Ieee binary64) mat k maxiter = .ok r) :
    (r.nSwap < r.nIter → NearlyBest (N := N) (Ieee.val (F := binary64)) (3 * (n + 2) / 2 ^ 52) n d r.med) ∧
    HardlyWorse (N := N) (Ieee.val (F := binary64)) (3 * (n + 2) / 2 ^ 52) 2 n d meds r.nSwap r.med ∧
    ∃ q, r.loss = .num q ∧ |q - medSil (fun x : N => (conv x : Ieee binary64).val) n d r.med| ≤ (4 * n + 9) / 2 ^ 52 := by
  have hz := negZero_ieee H
  have ha := zeroAdd_ieee H
  obtain ⟨hv, -, ⟨hnd, -⟩, -⟩ := C110_build_valid hz hm hd hs hb
  rw [(C110_pammedsil_eq hz ha hm hd hs maxiter hb).1] at hr
  exact ⟨fun hq => C80_pammedsil_swap_f64 Q hm hd hv hnd hk maxiter hr hq,
    C81_pammedsil_swap_f64 Q hm hd hv hnd hk maxiter hr⟩

end f64

/-! ## Non-vacuity -/

theorem silU_build : pammedsilBuildInitialize (Ieee binary64) silUMat 2 = .ok ([2, 3],
    [⟨⟨0, 3⟩, ⟨1, 9⟩, ⟨u32Max, 0⟩⟩, ⟨⟨0, 2⟩, ⟨1, 8⟩, ⟨u32Max, 0⟩⟩, ⟨⟨0, 0⟩, ⟨1, 5⟩, ⟨u32Max, 0⟩⟩,
      ⟨⟨1, 0⟩, ⟨0, 5⟩, ⟨u32Max, 0⟩⟩, ⟨⟨1, 1⟩, ⟨0, 6⟩, ⟨u32Max, 0⟩⟩], .num (6755399441055743 / 9007199254740992)) := by
  decide +kernel

theorem silU_pammedsil : pammedsil (Ieee binary64) silUMat 2 9 =
    .ok ⟨.num (495261923307559 / 562949953421312), [0, 0, 0, 1, 1], 3, 2, [1, 4]⟩ := by decide +kernel

theorem silU_sizes : Sizes 5 2 := ⟨by decide, by decide, by decide, by decide⟩

/-- Two exchanges after BUILD. -/
example := C110_pammedsil_eq (negZero_ieee convNum_u32_f64) (zeroAdd_ieee convNum_u32_f64) silU_isMatrix silU_dissim silU_sizes 9
  silU_build

example := C110_build_valid (negZero_ieee convNum_u32_f64) silU_isMatrix silU_dissim silU_sizes silU_build

example := C110_pammedsil_valid (negZero_ieee convNum_u32_f64) (zeroAdd_ieee convNum_u32_f64) silU_isMatrix silU_dissim
  silU_sizes 9 silU_pammedsil

example := C110_ieee convNum_u32_f64 silU_isMatrix silU_dissim silU_sizes 9 silU_pammedsil

example := C110_f64 convNum_u32_f64 quotLoss_u32_f64 silU_isMatrix silU_dissim silU_sizes 9 silU_build (by decide)
  silU_pammedsil

example := C110_pammedsil_iters (ieee_ordersBy binary64) (negZero_ieee convNum_u32_f64) (zeroAdd_ieee convNum_u32_f64)
  silU_isMatrix silU_dissim silU_sizes (fun _ _ h => (leftSum_pos (silTerms_pos convNum_u32_f64 silU_dissim h)).notNan) 9
  silU_pammedsil

/-- BUILD on distances that are multiples of 0.1. -/
example : ∃ meds data loss, pammedsilBuildInitialize (Ieee binary64) (ofRows (tenths tenthRows)) 3 = .ok (meds, data, loss) ∧
    meds = [2, 4, 1] ∧ NearlyGreedy1 (L := Ieee binary64) Ieee.val (1 / 2 ^ 53) 5 tenthD meds := by
  have h : ((pammedsilBuildInitialize (Ieee binary64) (ofRows (tenths tenthRows)) 3).toOption.map (·.1)) = some [2, 4, 1] := by
    decide +kernel
  obtain ⟨⟨meds, data, loss⟩, hb⟩ : ∃ b, pammedsilBuildInitialize (Ieee binary64) (ofRows (tenths tenthRows)) 3 = .ok b :=
    ⟨_, (pmsBuild_eq tenth_isMatrix ⟨by decide, by decide, by decide, by decide⟩).1⟩
  refine ⟨meds, data, loss, hb, ?_, (C110_build (k := 3) (ieee_floatLoss binary64) tenth_isMatrix tenth_dissim
    ⟨by decide, by decide, by decide, by decide⟩ tenth_atMost (by decide +kernel) hb).2.1⟩
  rw [hb] at h
  exact Option.some.inj h

end KMedoids
