import Verif.Proofs.MscFloat
import Verif.Proofs.BitK2

/-!
# Rounding errors of the computed gains

`mscFbsP_float`, `pmsFbsP_float` and `k2Fbs_float`: the sign of the computed gain is right up to a rounding error of the
exact sum of ratios.
-/

set_option linter.unusedSectionVars false

namespace KMedoids

open RFrom (conv)

variable {N L K : Type} [LinearOrder N] [Zero N] [RDist N] [LawfulDist N] [RLoss L] [RFrom N L]
  [Field K] [LinearOrder K] [IsStrictOrderedRing K]
variable {fin : L → Prop} {val : L → K} {u B eta : K} {C : Nat}

/-- What a computed gain `r.1` of exchanges with object `j` says about the exact sum of ratios, up to `E`; `r.2` is the
medoid to be replaced. -/
structure GainOk (fin : L → Prop) (val : L → K) (E : K) (n : Nat) (d : Nat → Nat → N) (med : List Nat) (j : Nat)
    (r : L × Nat) : Prop where
  fin : fin r.1
  low : val r.1 ≤ 0 → ∀ m < med.length, exactRatios N val n d med ≤ exactRatios N val n d (med.set m j) + E
  high : 0 < val r.1 → exactRatios N val n d (med.set r.2 j) ≤ exactRatios N val n d med + E

/-! ## FasterMSC and FastMSC -/

/-- The error of a computed gain (in terms of the average silhouette). -/
def gainErr (u v : K) (n : Nat) : K := 9 * ((1 + u) ^ (2 * n + 2) - 1) + 2 * v

section gain
variable {n : Nat} {d : Nat → Nat → N} {med : List Nat} {data : List (Reco N)}

theorem sum_const_zip {α : Type} (l : List α) (c : K) : (l.map fun _ => c).sum = l.length * c := by
  simp

theorem mscFbsP_float (Q : QuotLoss N fin val u B eta C) (hd : Dissim n d) (h : MCache n d med data)
    (hr : ∀ m ∈ med, m < n) (hk : 3 ≤ med.length) (hku : med.length < u32Max) {v : K} (hv0 : 0 ≤ v) (hv : v ≤ 1 / 2)
    (hS : SumErr val v n d) {j : Nat} (hj : j < n) (hB : (1 + u) ^ (2 * n + 2) * (9 * n) ≤ B) :
    GainOk fin val (n * gainErr u v n) n d med j (mscFbsP d (mscRemP L data med.length) data j) := by
  have M := Q.loss.std
  have hn : (1 : K) ≤ n := by exact_mod_cast (by omega : 1 ≤ n)
  have hu := M.u_nonneg
  have hlen : data.zipIdx.length = n := by rw [List.length_zipIdx, h.len]
  have hidx : ∀ r ∈ data, RecoIdx med.length r := (h.mshape hr).recIdx
  have hne : ∀ p ∈ data.zipIdx, p.1.near.i ≠ p.1.seco.i := fun p hp => (h.recs p hp).ne
  have hne' : ∀ r ∈ data, r.near.i ≠ r.seco.i := fun r hr' => by
    obtain ⟨i, hi, e⟩ := List.mem_iff_getElem.mp hr'
    exact (h.reco i r (by rw [List.getElem?_eq_getElem hi, e])).ne
  have hP := M.one_le_pow (2 * n + 2)
  have hpow : ∀ {e : Nat} {A : K}, e ≤ 2 * n + 2 → 0 ≤ A → A ≤ 9 * n → (1 + u) ^ e * A ≤ B := fun {e A} he hA hA' =>
    le_trans (mul_le_mul (M.pow_mono he) hA' hA (by linarith)) hB
  have hB2 : (1 + u) * 2 ≤ B := by
    have := hpow (e := 1) (A := 2) (by omega) (by norm_num) (by linarith)
    simpa using this
  have hB5 : (1 + u) ^ 2 * 5 ≤ B := hpow (by omega) (by norm_num) (by linarith)
  set cv : N → K := fun x => val (conv x : L) with hcv
  -- the removal loss
  have hrem : ∀ m < med.length, Appr fin val u (n + 2) (data.zipIdx.map fun p => remV cv m p.1).sum (2 * n)
      ((mscRemP L data med.length).getD m RLoss.zero) := fun m _ => by
    have e : data.foldl (mscRemSlotP L m) RLoss.zero =
        data.zipIdx.foldl (fun acc p => mscRemSlotP L m acc p.1) (RLoss.zero : L) := by
      conv_lhs => rw [← List.zipIdx_map_fst 0 data, List.foldl_map]
    rw [mscRemP_slot hidx hne' m, e]
    have key := Appr.foldl_at M (step := fun (acc : L) (p : Reco N × Nat) => mscRemSlotP L m acc p.1)
      (S := fun p => remV cv m p.1) (A := fun _ => (2 : K)) (ps := data.zipIdx) (m0 := 2)
      (fun p hp => rem_term Q h hd hr hk hB2 m hp) (le_refl 2) ((Appr.zero M).mono M (Nat.zero_le 2) le_rfl)
      (by
        rw [sum_const_zip, hlen, zero_add]
        exact hpow (by omega) (by positivity) (by linarith))
    rw [sum_const_zip, hlen, zero_add, zero_add, Nat.add_comm, mul_comm] at key
    exact key
  -- slots and accumulator
  have hrl : (mscRemP L data med.length).length = med.length := mscRemP_length _ _
  have f := fun m => msc_slot (L := L) d j m (k := med.length) (xs := data.zipIdx)
    (fun p hp => hidx _ (mem_zipIdx_mem hp)) hne hrl RLoss.zero
  have hslot : ∀ m < med.length, Appr fin val u (2 * n + 2) ((data.zipIdx.map fun p => remV cv m p.1).sum +
        (data.zipIdx.map fun p => slotV cv (sumX val d j p) (d p.2 j) m p.1).sum) (7 * n)
      ((data.zipIdx.foldl (mscFindStepP d j) (mscRemP L data med.length, RLoss.zero)).1.getD m RLoss.zero) := fun m hm => by
    rw [(f m).1]
    have key := Appr.foldl_at M (step := mscSlotP (L := L) d j m)
      (S := fun p => slotV cv (sumX val d j p) (d p.2 j) m p.1) (A := fun _ => (5 : K)) (ps := data.zipIdx) (m0 := 3)
      (fun p hp => find_term Q h hd hr hk hv hS hB5 m hj hp) (show 3 ≤ n + 2 by omega) (hrem m hm)
      (by
        rw [sum_const_zip, hlen]
        exact hpow (by omega) (by positivity) (by linarith))
    rw [sum_const_zip, hlen, show n + 2 + n = 2 * n + 2 by omega, show (2 : K) * n + n * 5 = 7 * n by ring] at key
    exact key
  have hacc : Appr fin val u (2 * n + 2) (data.zipIdx.map fun p => accV cv (d p.2 j) p.1).sum (2 * n)
      (data.zipIdx.foldl (mscFindStepP d j) (mscRemP L data med.length, RLoss.zero)).2 := by
    rw [(f 0).2]
    have key := Appr.foldl_at M (step := mscAccP (L := L) d j)
      (S := fun p => accV cv (d p.2 j) p.1) (A := fun _ => (2 : K)) (ps := data.zipIdx) (m0 := 2)
      (fun p hp => acc_term Q h hd hr hB2 hj hp) (le_refl 2) ((Appr.zero M).mono M (Nat.zero_le 2) le_rfl)
      (by
        rw [sum_const_zip, hlen, zero_add]
        exact hpow (by omega) (by positivity) (by linarith))
    rw [sum_const_zip, hlen, zero_add, zero_add, mul_comm] at key
    exact key.mono M (by omega) le_rfl
  -- the exact gain
  have hgain : ∀ m < med.length, |(data.zipIdx.map fun p => remV cv m p.1).sum +
        (data.zipIdx.map fun p => slotV cv (sumX val d j p) (d p.2 j) m p.1).sum +
        (data.zipIdx.map fun p => accV cv (d p.2 j) p.1).sum -
        (exactRatios N val n d med - exactRatios N val n d (med.set m j))| ≤ n * (2 * v) := fun m hm => by
    rw [exactRatios_cache Q h, exactRatios_set Q h hku hm]
    have hsum : ∀ ps : List (Reco N × Nat), (∀ p ∈ ps, p ∈ data.zipIdx) →
        |(ps.map fun p => remV cv m p.1).sum + (ps.map fun p => slotV cv (sumX val d j p) (d p.2 j) m p.1).sum +
          (ps.map fun p => accV cv (d p.2 j) p.1).sum -
          ((ps.map fun p => ratioV cv p.1).sum - (ps.map fun p => newRatioV cv p.1 m (d p.2 j)).sum)| ≤
          ps.length * (2 * v) := by
      intro ps
      induction ps with
      | nil => intro _; simp
      | cons p ps ih =>
        intro hps
        have hp := hps p (by simp)
        have i1 := ih fun q hq => hps q (by simp [hq])
        have i2 := slot_diff h Q hd hr hv0 hS m hj hp
        have i3 := gainV cv hk hku (h.recs p hp) m (d p.2 j)
        simp only [List.map_cons, List.sum_cons, List.length_cons]
        push_cast
        have e : ∀ a b c x y a' b' c' x' y' b'' : K, a + b'' + c = x - y →
            a + a' + (b + b') + (c + c') - (x + x' - (y + y')) = (b - b'') + (a' + b' + c' - (x' - y')) := by
          intro a b c x y a' b' c' x' y' b'' h; linear_combination h
        rw [e _ _ _ _ _ _ _ _ _ _ _ i3, add_mul, one_mul, add_comm ((ps.length : K) * _)]
        exact (abs_add_le _ _).trans (add_le_add i2 i1)
    have := hsum data.zipIdx fun _ hp => hp
    rwa [hlen] at this
  -- the choice
  have hlen2 := msc_fold_length d (mscRemP L data med.length) data j RLoss.zero
  rw [hrl] at hlen2
  unfold mscFbsP
  dsimp only
  generalize data.zipIdx.foldl (mscFindStepP d j) (mscRemP L data med.length, RLoss.zero) = st at hslot hacc hlen2 ⊢
  have hne0 : st.1 ≠ [] := List.ne_nil_of_length_pos (by omega)
  have hfin : ∀ x ∈ st.1, fin x := fun x hx => by
    obtain ⟨m, hm, rfl⟩ := List.mem_iff_getElem.mp hx
    have := (hslot m (by omega)).fin
    rwa [List.getD_eq_getElem?_getD, List.getElem?_eq_getElem hm, Option.getD_some] at this
  obtain ⟨g1, g2, g3⟩ := findMaxP_float M hne0 hfin
  have g3' : ∀ m < med.length, val (st.1.getD m RLoss.zero) ≤ val (findMaxP st.1).2 := fun m hm => by
    have hm' : m < st.1.length := by omega
    rw [List.getD_eq_getElem?_getD, List.getElem?_eq_getElem hm', Option.getD_some]
    exact g3 _ (List.getElem_mem hm')
  have hb : (findMaxP st.1).1 < med.length := by omega
  have hmax := hslot _ hb
  rw [← g1] at hmax
  have hsum : |val (findMaxP st.1).2 + val st.2| ≤ B := by
    refine le_trans (abs_add_le _ _) (le_trans (add_le_add hmax.abs_val hacc.abs_val) ?_)
    rw [← mul_add]
    exact hpow le_rfl (by positivity) (by linarith)
  have hsign := M.add_pos_iff hmax.fin hacc.fin hsum
  have hEE : n * gainErr u v n = ((1 + u) ^ (2 * n + 2) - 1) * (7 * n) + ((1 + u) ^ (2 * n + 2) - 1) * (2 * n) +
      n * (2 * v) := by unfold gainErr; ring
  refine ⟨(M.add _ _ hmax.fin hacc.fin hsum).1, fun hx m hm => ?_, fun hx => ?_⟩
  · have hx' := not_lt.mp fun h => absurd (hsign.mpr h) (not_lt.mpr hx)
    have e1 := abs_le.mp (hslot m hm).err
    have e2 := abs_le.mp hacc.err
    have e3 := g3' m hm
    have e4 := abs_le.mp (hgain m hm)
    rw [hEE]
    linarith [e1.1, e2.1, e4.1]
  · have hx' := hsign.mp hx
    have e1 := abs_le.mp hmax.err
    have e2 := abs_le.mp hacc.err
    have e4 := abs_le.mp (hgain _ hb)
    rw [hEE]
    linarith [e1.2, e2.2, e4.2]

/-! ## PAMMEDSIL -/

/-- The error of a gain computed by PAMMEDSIL. -/
def pmsErr (u : K) (n : Nat) : K := 3 * ((1 + u) ^ (n + 2) - 1)

theorem pmsStep_cases (cv : N → K) {k j : Nat} (hk : 2 ≤ k) (hku : k < u32Max) {m : Nat} (hm : m < k)
    {p : Reco N × Nat} (hpj : p.2 ≠ j) {f : Nat → N} (h : Top3 k f p.1) (hx : 0 ≤ d p.2 j) (h0 : 0 ≤ p.1.near.d) :
    (ratioV cv p.1 - newRatioV cv p.1 m (d p.2 j) = 0 ∧ ∀ acc : L, pmsStepKP k d m j acc p = acc) ∨
      ∃ a b : N, 0 ≤ a ∧ a ≤ b ∧ newRatioV cv p.1 m (d p.2 j) = cv a / cv b ∧
        ∀ acc : L, pmsStepKP k d m j acc p =
          RLoss.add acc (RLoss.sub (mscLoss L p.1.near.d p.1.seco.d) (mscLoss L a b)) := by
  have hne := h.ne
  have hle := h.le
  have hnl := h.near_lt
  have hsl := h.seco_lt
  have hs0 := h0.trans hle
  unfold pmsStepKP newRatioV mscSwapRecG ratioV
  by_cases hk2 : k = 2
  · have htu : p.1.third.i = u32Max := by
      rcases h.third with ⟨t1, t2, t3, t4, -⟩ | ⟨-, t⟩
      · omega
      · exact t
    unfold pmsStepK2P
    simp only [hk2, hpj, if_true, if_false, rltN, decide_eq_true_eq, Bool.or_eq_true, beq_iff_eq, htu, true_or]
    by_cases h3 : p.1.near.i = m
    · simp only [h3, if_true]
      by_cases c1 : d p.2 j < p.1.seco.d
      · simp only [c1, if_true]
        exact .inr ⟨_, _, hx, c1.le, rfl, fun _ => rfl⟩
      · simp only [c1, if_false]
        exact .inr ⟨_, _, hs0, not_lt.mp c1, rfl, fun _ => rfl⟩
    · have h4 : p.1.seco.i = m := by omega
      simp only [h3, h4, if_true, if_false]
      by_cases c1 : d p.2 j < p.1.near.d
      · simp only [c1, if_true]
        exact .inr ⟨_, _, hx, c1.le, rfl, fun _ => rfl⟩
      · simp only [c1, if_false]
        exact .inr ⟨_, _, h0, not_lt.mp c1, rfl, fun _ => rfl⟩
  · obtain ⟨t1, t2, t3, t4, t5, t6⟩ := h.third_of (by omega)
    have htu : p.1.third.i ≠ u32Max := by omega
    unfold pmsStepP
    simp only [hk2, hpj, if_false, rltN, decide_eq_true_eq, Bool.or_eq_true, beq_iff_eq, htu, false_or]
    by_cases h3 : p.1.near.i = m
    · simp only [h3, if_true]
      by_cases c1 : d p.2 j < p.1.seco.d
      · simp only [c1, if_true]
        exact .inr ⟨_, _, hx, c1.le, rfl, fun _ => rfl⟩
      · simp only [c1, if_false]
        by_cases c2 : d p.2 j < p.1.third.d
        · simp only [c2, if_true]
          exact .inr ⟨_, _, hs0, not_lt.mp c1, rfl, fun _ => rfl⟩
        · simp only [c2, if_false]
          exact .inr ⟨_, _, hs0, t5, rfl, fun _ => rfl⟩
    · by_cases h4 : p.1.seco.i = m
      · simp only [h3, h4, if_true, if_false]
        by_cases c1 : d p.2 j < p.1.near.d
        · simp only [c1, if_true]
          exact .inr ⟨_, _, hx, c1.le, rfl, fun _ => rfl⟩
        · simp only [c1, if_false]
          by_cases c2 : d p.2 j < p.1.third.d
          · simp only [c2, if_true]
            exact .inr ⟨_, _, h0, not_lt.mp c1, rfl, fun _ => rfl⟩
          · simp only [c2, if_false]
            exact .inr ⟨_, _, h0, hle.trans t5, rfl, fun _ => rfl⟩
      · simp only [h3, h4, if_false]
        by_cases c1 : d p.2 j < p.1.near.d
        · simp only [c1, if_true]
          exact .inr ⟨_, _, hx, c1.le, rfl, fun _ => rfl⟩
        · simp only [c1, if_false]
          by_cases c2 : d p.2 j < p.1.seco.d
          · simp only [c2, if_true]
            exact .inr ⟨_, _, h0, not_lt.mp c1, rfl, fun _ => rfl⟩
          · simp only [c2, if_false]
            left
            refine ⟨?_, fun _ => trivial⟩
            split
            · exact sub_self _
            · split <;> exact sub_self _

theorem newRatioV_zero (cv : N → K) (hcv : cv 0 = 0) {k m : Nat} {f : Nat → N} {r : Reco N} (h : Top3 k f r)
    (h0 : 0 ≤ r.near.d) : newRatioV cv r m (0 : N) = 0 := by
  have hs0 : 0 ≤ r.seco.d := le_trans h0 h.le
  unfold newRatioV mscSwapRecG ratioV
  simp only [rltN, decide_eq_true_eq, Bool.or_eq_true, beq_iff_eq]
  split
  · split
    · simp [hcv]
    · rename_i hc
      have hz : r.seco.d = 0 := le_antisymm (not_lt.mp hc) hs0
      split <;> simp [hz, hcv]
  · split
    · split
      · simp [hcv]
      · rename_i hc
        have hz : r.near.d = 0 := le_antisymm (not_lt.mp hc) h0
        split <;> simp [hz, hcv]
    · split
      · simp [hcv]
      · rename_i hc
        have hz : r.near.d = 0 := le_antisymm (not_lt.mp hc) h0
        split
        · simp [hz, hcv]
        · split
          · simp [hz, hcv]
          · split <;> simp [hz, hcv]

theorem sum_at {α : Type} {data : List α} {j : Nat} {a : α} (h : data[j]? = some a) (f : α × Nat → K) :
    (data.zipIdx.map fun p => if p.2 = j then f p else 0).sum = f (a, j) := by
  have key : ∀ (data : List α) (i : Nat), i ≤ j → data[j - i]? = some a →
      ((data.zipIdx i).map fun p => if p.2 = j then f p else 0).sum = f (a, j) := by
    intro data
    induction data with
    | nil => intro i _ h; simp at h
    | cons x xs ih =>
      intro i hi h
      rw [List.zipIdx_cons, List.map_cons, List.sum_cons]
      by_cases e : i = j
      · subst e
        simp only [Nat.sub_self, List.getElem?_cons_zero, Option.some.injEq] at h
        subst h
        have hz : ((xs.zipIdx (i + 1)).map fun p => if p.2 = i then f p else 0).sum = 0 := by
          refine List.sum_eq_zero fun y hy => ?_
          obtain ⟨p, hp, rfl⟩ := List.mem_map.mp hy
          rw [if_neg]
          have := List.le_snd_of_mem_zipIdx hp
          omega
        rw [hz, add_zero, if_pos rfl]
      · dsimp only
        rw [if_neg e, zero_add]
        refine ih (i + 1) (by omega) ?_
        rw [show j - i = (j - (i + 1)) + 1 by omega, List.getElem?_cons_succ] at h
        exact h
  exact key data 0 (Nat.zero_le j) (by simpa using h)

/-- The change computed by PAMMEDSIL. -/
theorem pmsChangeP_float (Q : QuotLoss N fin val u B eta C) (hd : Dissim n d) (h : MCache n d med data)
    (hr : ∀ m ∈ med, m < n) (hk : 2 ≤ med.length) (hku : med.length < u32Max) {m : Nat} (hm : m < med.length) {j : Nat}
    (hj : j < n) (hB : (1 + u) ^ (n + 2) * (3 * n) ≤ B) :
    Appr fin val u (n + 2) (exactRatios N val n d med - exactRatios N val n d (med.set m j)) (3 * n)
      (pmsChangeP L med.length d data j m) := by
  have M := Q.loss.std
  have hn : (1 : K) ≤ n := by exact_mod_cast (by omega : 1 ≤ n)
  have hlen : data.zipIdx.length = n := by rw [List.length_zipIdx, h.len]
  have hP := M.one_le_pow (n + 2)
  have hpow : ∀ {e : Nat} {A : K}, e ≤ n + 2 → 0 ≤ A → A ≤ 3 * n → (1 + u) ^ e * A ≤ B := fun {e A} he hA hA' =>
    le_trans (mul_le_mul (M.pow_mono he) hA' hA (by linarith)) hB
  have hB1 : 1 ≤ B := by simpa using hpow (e := 0) (A := 1) (by omega) (by norm_num) (by linarith)
  have hB2 : (1 + u) ^ 1 * (1 + 1) ≤ B := hpow (by omega) (by norm_num) (by linarith)
  set cv : N → K := fun x => val (conv x : L) with hcv
  obtain ⟨rj, hg⟩ := h.get hj
  have htj := h.reco j rj hg
  have hpj : (rj, j) ∈ data.zipIdx := by
    obtain ⟨hjl, e⟩ := List.getElem?_eq_some_iff.mp hg
    rw [List.mk_mem_zipIdx_iff_getElem?]
    exact hg
  obtain ⟨-, z0, z1, -⟩ := rec_range h hd hr hpj
  have hinit : Appr fin val u 2 (ratioV cv rj) 1 (mscLossAtP L data j) := by
    unfold mscLossAtP
    rw [hg]
    exact (Q.quot hB1 z0 z1).mono M (by norm_num) le_rfl
  have key := Appr.foldl_at M (step := pmsStepKP (L := L) med.length d m j)
    (S := fun p => if p.2 = j then 0 else ratioV cv p.1 - newRatioV cv p.1 m (d p.2 j)) (A := fun _ => (2 : K))
    (ps := data.zipIdx) (m0 := 2) (fun p hp => ⟨by norm_num, by
      obtain ⟨ho, r0, r1, -⟩ := rec_range h hd hr hp
      by_cases e : p.2 = j
      · left
        refine ⟨if_pos e, fun acc => ?_⟩
        unfold pmsStepKP pmsStepP pmsStepK2P
        simp [e]
      · simp only [if_neg e]
        rcases pmsStep_cases (L := L) cv hk hku hm e (h.recs p hp) (hd.nonneg _ _ ho hj) r0 with h1 | ⟨a, b, a0, ab, e1, e2⟩
        · exact .inl h1
        · right
          refine ⟨_, ?_, e2⟩
          rw [e1]
          exact ((Q.quot hB1 r0 r1).sub_of M (Q.quot hB1 a0 ab) hB2).mono M le_rfl (by norm_num)⟩)
    (le_refl 2) hinit (by
      rw [sum_const_zip, hlen]
      exact le_trans (mul_le_mul_of_nonneg_left (show (1 : K) + n * 2 ≤ 3 * n by linarith)
        (by linarith [M.one_le_pow (2 + n)])) (by rw [Nat.add_comm]; exact hB))
  have hS : ratioV cv rj + (data.zipIdx.map fun p => if p.2 = j then 0 else
      ratioV cv p.1 - newRatioV cv p.1 m (d p.2 j)).sum =
      exactRatios N val n d med - exactRatios N val n d (med.set m j) := by
    have hz : newRatioV cv rj m (d j j) = 0 := by
      rw [hd.diag j hj]
      exact newRatioV_zero cv (Q.val_zero) htj z0
    have h1 := sum_at hg fun p => ratioV cv p.1 - newRatioV cv p.1 m (d p.2 j)
    dsimp only at h1
    rw [hz, sub_zero] at h1
    rw [exactRatios_cache Q h, exactRatios_set Q h hku hm, ← h1, ← List.sum_map_add, eq_sub_iff_add_eq,
      ← List.sum_map_add]
    congr 1
    refine List.map_congr_left fun p _ => ?_
    split
    · rw [add_zero, sub_add_cancel]
    · rw [zero_add, sub_add_cancel]
  unfold pmsChangeP
  rw [hS, sum_const_zip, hlen, Nat.add_comm] at key
  exact key.mono M le_rfl (by linarith)

/-- The best exchange found by PAMMEDSIL for a candidate. -/
theorem pmsFbsP_float (Q : QuotLoss N fin val u B eta C) (hd : Dissim n d) (h : MCache n d med data)
    (hr : ∀ m ∈ med, m < n) (hk : 2 ≤ med.length) (hku : med.length < u32Max) {j : Nat}
    (hj : j < n) (hB : (1 + u) ^ (n + 2) * (3 * n) ≤ B) :
    GainOk fin val (n * pmsErr u n) n d med j (pmsFbsP L d med.length data j) := by
  have M := Q.loss.std
  have hc := fun m (hm : m < med.length) => pmsChangeP_float Q hd h hr hk hku hm hj hB
  have hg : ∀ k : Nat, k ≤ med.length →
      let b := (List.range k).foldl (fun (best : L × Nat) (m : Nat) =>
        if rgt (pmsChangeP L med.length d data j m) best.1 then (pmsChangeP L med.length d data j m, m)
        else best) (RLoss.zero, usizeMax)
      fin b.1 ∧ (∀ m < k, val (pmsChangeP L med.length d data j m) ≤ val b.1) ∧
      (0 < val b.1 → b.2 < med.length ∧ b.1 = pmsChangeP L med.length d data j b.2) := by
    intro k
    induction k with
    | zero => intro _; exact ⟨M.zero_fin, by simp, fun h => absurd h (by simp [M.zero])⟩
    | succ k ih =>
      intro hk'
      obtain ⟨i1, i2, i3⟩ := ih (by omega)
      rw [List.range_succ, List.foldl_append, List.foldl_cons, List.foldl_nil]
      generalize (List.range k).foldl _ ((RLoss.zero : L), usizeMax) = b at *
      have hck := (hc k (by omega)).fin
      by_cases hlt : rgt (pmsChangeP L med.length d data j k) b.1 = true
      · simp only [hlt, if_true]
        have hlt' := (DivModel.rgt_iff M hck i1).mp hlt
        refine ⟨hck, fun m hm => ?_, fun _ => ⟨by omega, trivial⟩⟩
        by_cases hmk : m = k
        · rw [hmk]
        · exact (i2 m (by omega)).trans hlt'.le
      · simp only [hlt, if_false, Bool.false_eq_true]
        have hlt' := not_lt.mp fun h => hlt ((DivModel.rgt_iff M hck i1).mpr h)
        refine ⟨i1, fun m hm => ?_, i3⟩
        by_cases hmk : m = k
        · rw [hmk]; exact hlt'
        · exact i2 m (by omega)
  obtain ⟨g1, g2, g3⟩ := hg med.length le_rfl
  have hEE : (n : K) * pmsErr u n = ((1 + u) ^ (n + 2) - 1) * (3 * n) := by unfold pmsErr; ring
  refine ⟨g1, fun hx m hm => ?_, fun hx => ?_⟩
  · have e1 := (abs_le.mp (hc m hm).err).1
    have e2 := (g2 m hm).trans hx
    rw [hEE]
    linarith
  · obtain ⟨g4, g5⟩ := g3 hx
    have e1 := (abs_le.mp (hc _ g4).err).2
    have hx' : 0 < val (pmsFbsP L d med.length data j).1 := hx
    have g5' : (pmsFbsP L d med.length data j).1 = pmsChangeP L med.length d data j (pmsFbsP L d med.length data j).2 := g5
    have e1' : val (pmsChangeP L med.length d data j (pmsFbsP L d med.length data j).2) -
      (exactRatios N val n d med - exactRatios N val n d (med.set (pmsFbsP L d med.length data j).2 j)) ≤
      ((1 + u) ^ (n + 2) - 1) * (3 * n) := e1
    rw [g5'] at hx'
    rw [hEE]
    linarith

end gain

/-! ## FasterMSC and FastMSC for two medoids -/

/-- The accuracy of a computed sum of ratios. -/
theorem leftSum_ratios (Q : QuotLoss N fin val u B eta C) {n : Nat} (hn : 0 < n) {d : Nat → Nat → N} (hd : Dissim n d)
    {med : List Nat} (hk : 2 ≤ med.length) (hr : ∀ m ∈ med, m < n) (hB1 : 1 ≤ B) (hB : (1 + u) ^ n * n ≤ B) :
    Appr fin val u n (exactRatios N val n d med) n (leftSum (silTerms L n d med)) :=
  leftSum_appr Q.loss.std hn (fun _ ho => Q.term hB1 hd hk hr ho) hB

theorem k2_fold (d : Nat → Nat → N) (j : Nat) (ps : List ((N × N) × Nat)) (a b : L) :
    ps.foldl (k2FindStepP d j) (a, b) =
      (ps.foldl (fun (acc : L) (p : (N × N) × Nat) =>
          RLoss.add acc (if rlt (d p.2 j) p.1.2 then mscLoss L (d p.2 j) p.1.2 else mscLoss L p.1.2 (d p.2 j))) a,
        ps.foldl (fun (acc : L) (p : (N × N) × Nat) =>
          RLoss.add acc (if rlt (d p.2 j) p.1.1 then mscLoss L (d p.2 j) p.1.1 else mscLoss L p.1.1 (d p.2 j))) b) := by
  induction ps generalizing a b with
  | nil => rfl
  | cons p ps ih => rw [List.foldl_cons, List.foldl_cons, List.foldl_cons, ← ih]; rfl

/-- A sum of ratios of two medoids, started at zero. -/
theorem k2_sum (Q : QuotLoss N fin val u B eta C) {n : Nat} {d : Nat → Nat → N} (hd : Dissim n d)
    {med : List Nat} (hk : 2 ≤ med.length) (hr : ∀ m ∈ med, m < n) (hB1 : 1 ≤ B) (hB : (1 + u) ^ (n + 1) * n ≤ B) :
    Appr fin val u (n + 1) (exactRatios N val n d med) n
      ((List.range n).foldl (fun (acc : L) o => RLoss.add acc (silTerm L d med o)) RLoss.zero) := by
  have M := Q.loss.std
  have key := Appr.foldl_at M (step := fun (acc : L) o => RLoss.add acc (silTerm L d med o))
    (S := fun o => 1 - medSil1 (fun x : N => val (conv x : L)) d med o) (A := fun _ => (1 : K)) (ps := List.range n)
    (m0 := 1) (fun o ho => ⟨zero_le_one, .inr ⟨_, Q.term hB1 hd hk hr (List.mem_range.mp ho), fun _ => rfl⟩⟩)
    (le_refl 1) ((Appr.zero M).mono M (Nat.zero_le 1) le_rfl)
    (by rw [sum_const_zip, List.length_range, zero_add, mul_one, Nat.add_comm]; exact hB)
  rw [sum_const_zip, List.length_range, zero_add, zero_add, mul_one, Nat.add_comm] at key
  exact key

theorem k2Fbs_float (Q : QuotLoss N fin val u B eta C) {n : Nat} {d : Nat → Nat → N} (hd : Dissim n d) {s : K2State N L}
    (h : K2Any n d s) {j : Nat} (hj : j < n) (hB1 : 1 ≤ B) (hB : (1 + u) ^ (n + 1) * n ≤ B) :
    fin (k2FbsP L d s.data j).1 ∧
      (∀ m < 2, val (k2FbsP L d s.data j).1 ≤ exactRatios N val n d (s.med.set m j) + ((1 + u) ^ (n + 1) - 1) * n) ∧
      |val (k2FbsP L d s.data j).1 - exactRatios N val n d (s.med.set (k2FbsP L d s.data j).2 j)| ≤
        ((1 + u) ^ (n + 1) - 1) * n := by
  obtain ⟨m0, m1, h⟩ := h
  have M := Q.loss.std
  have hg0 : (s.data.zipIdx.foldl (k2FindStepP d j) ((RLoss.zero : L), (RLoss.zero : L))).1 =
      (List.range n).foldl (fun (acc : L) o => RLoss.add acc (silTerm L d [j, m1] o)) RLoss.zero := by
    rw [k2_fold]
    dsimp only
    rw [h.data, zipIdx_map_range, List.foldl_map]
    refine List.foldl_ext _ _ _ fun acc o ho => ?_
    have ho := List.mem_range.mp ho
    dsimp only
    congr 1
    simp only [rltN, decide_eq_true_eq]
    split
    · rename_i hc; exact mscLoss_term (twoMin_pair hc.le) (hd.nonneg _ _ ho hj)
    · rename_i hc; exact mscLoss_term (twoMin_pair' (not_lt.mp hc)) (hd.nonneg _ _ ho h.r1)
  have hg1 : (s.data.zipIdx.foldl (k2FindStepP d j) ((RLoss.zero : L), (RLoss.zero : L))).2 =
      (List.range n).foldl (fun (acc : L) o => RLoss.add acc (silTerm L d [m0, j] o)) RLoss.zero := by
    rw [k2_fold]
    dsimp only
    rw [h.data, zipIdx_map_range, List.foldl_map]
    refine List.foldl_ext _ _ _ fun acc o ho => ?_
    have ho := List.mem_range.mp ho
    dsimp only
    congr 1
    simp only [rltN, decide_eq_true_eq]
    split
    · rename_i hc; exact mscLoss_term (twoMin_pair' hc.le) (hd.nonneg _ _ ho hj)
    · rename_i hc; exact mscLoss_term (twoMin_pair (not_lt.mp hc)) (hd.nonneg _ _ ho h.r0)
  have s0 := k2_sum Q hd (med := [j, m1]) le_rfl (by simp [hj, h.r1]) hB1 hB
  have s1 := k2_sum Q hd (med := [m0, j]) le_rfl (by simp [hj, h.r0]) hB1 hB
  rw [← hg0] at s0
  rw [← hg1] at s1
  unfold k2FbsP
  dsimp only
  rw [h.med]
  generalize s.data.zipIdx.foldl (k2FindStepP d j) ((RLoss.zero : L), (RLoss.zero : L)) = pl at s0 s1
  have hfin : ∀ x ∈ [pl.1, pl.2], fin x := by
    intro x hx
    simp only [List.mem_cons, List.not_mem_nil, or_false] at hx
    rcases hx with rfl | rfl
    · exact s0.fin
    · exact s1.fin
  obtain ⟨-, -, f3⟩ := findMinP_float M (List.cons_ne_nil pl.1 [pl.2]) hfin
  have g0 := f3 pl.1 (by simp)
  have g1 := f3 pl.2 (by simp)
  have e0 := abs_le.mp s0.err
  have e1 := abs_le.mp s1.err
  refine ⟨?_, fun m hm => ?_, ?_⟩
  · rw [findMinP_pair]; split
    · exact s1.fin
    · exact s0.fin
  · have hm2 : m = 0 ∨ m = 1 := by omega
    rcases hm2 with rfl | rfl
    · show _ ≤ exactRatios N val n d [j, m1] + _
      linarith [e0.2]
    · show _ ≤ exactRatios N val n d [m0, j] + _
      linarith [e1.2]
  · rw [findMinP_pair]; split
    · exact s1.err
    · exact s0.err

end KMedoids
