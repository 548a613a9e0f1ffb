import Verif.Proofs.DynAny
import Verif.Props.C36_C38
import Verif.Props.C79

/-!
# C83: DynMSC under rounding

DynMSC keeps the best solution only if its silhouette is greater than zero, the initial value. With exact arithmetic the
medoid silhouette of distinct medoids is positive. For any arithmetic: if the first silhouette is recognised as positive,
then DynMSC returns a solution it found. In a binary format, the computed medoid silhouette of distinct medoids is at least
`2^-p` (`p` bits of precision), for any number of objects, although the sum and the number of objects are rounded. Hence for
`f32` and `f64` the returned value is the maximum of the list, without further conditions; where the bookkeeping is right
(C37), it is close to the exact silhouette.
-/

set_option linter.unusedSectionVars false
set_option linter.overlappingInstances false

namespace KMedoids

open RFrom (conv)

/-! ## any arithmetic -/

section any
variable {N L : Type} [LinearOrder N] [Zero N] [RDist N] [LawfulDist N] [RLoss L] [RFrom N L]

/-- What is claimed of a run of `dynmsc` which started with `k` medoids. -/
structure DynRun (n : Nat) (d : Nat → Nat → N) (k mink : Nat) (r : DynResult L) : Prop where
  mem : r.loss ∈ r.losses
  wf : WellFormed n r.med.length r.med r.assi
  own : 3 ≤ r.med.length → ∀ m o : Nat, r.med[m]? = some o → r.assi[o]? = some m
  min : min (max mink 2) k ≤ r.med.length
  le : r.med.length ≤ k
  right : k ≤ 4 ∨ r.med.length = k ∨ r.med.length = 2 →
    r.loss = recomputedSil L n d r.med ∧ ∀ o m : Nat, r.assi[o]? = some m → IsNearest d r.med o m

/-- **C83, any arithmetic.** The entry for `k` medoids is the silhouette of FasterMSC. If it is recognised as positive, the
result is a solution that was found: its value is one of the list, the labels are well-formed, medoids are labelled with
themselves, and where C37 holds, the value is the one recomputed from the medoids and the labels are nearest. The medoids
are distinct; with two of them this needs a monotone division, or no duplicates (as in C59). -/
theorem C83_dynmsc_any {mat : Mat N} {n : Nat} {d : Nat → Nat → N} (hm : IsMatrix mat n d) (hd : Dissim n d)
    {med : List Nat} (hv : ValidMeds n med) (hnd : med.Nodup) (hk : 2 ≤ med.length) {mink maxiter : Nat}
    {f : SwapResult L} {r : DynResult L} (hf : fastermsc L mat med maxiter = .ok f)
    (hr : dynmsc L mat med mink maxiter = .ok r) :
    r.losses[med.length - min (max mink 1) med.length]? = some f.loss ∧
    (rgt f.loss RLoss.zero = true → DynRun n d med.length mink r ∧
      (3 ≤ r.med.length ∨ MonoQuot N L ∨ NoDuplicates n d → r.med.Nodup)) := by
  rw [dynmsc_eq hm hv hk] at hr
  rw [fastermsc_eq hm hv] at hf
  cases hf
  have h := dynmscP_any (L := L) hm hd hv hnd hk (minK := min (max mink 1) med.length) (by omega) (by omega) maxiter
  cases hr
  refine ⟨h.2, fun hp => ?_⟩
  have h := h.1 hp
  refine ⟨⟨h.mem, ⟨h.assiLen, h.label, rfl, h.range⟩, h.own, ?_, h.le, fun hc => ?_⟩, h.nodup⟩
  · have h1 := h.min
    have h2 := h.two
    omega
  · obtain ⟨h1, h2⟩ := h.right hc
    rw [toSil_eq hv.sizes.n_le] at h1
    exact ⟨h1, h2⟩

/-- **C83, `mink = k`, any arithmetic**: DynMSC is FasterMSC if the silhouette is recognised as positive. -/
theorem C83_dynmsc_eq_any {mat : Mat N} {n : Nat} {d : Nat → Nat → N} (hm : IsMatrix mat n d) {med : List Nat}
    (hv : ValidMeds n med) (hk : 2 ≤ med.length) {mink : Nat} (hmk : med.length ≤ mink) {maxiter : Nat} {f : SwapResult L}
    (hf : fastermsc L mat med maxiter = .ok f) (hp : rgt f.loss (RLoss.zero : L) = true) :
    dynmsc L mat med mink maxiter = .ok ⟨f.loss, f.assi, f.nIter, f.nSwap, f.med, [f.loss]⟩ :=
  dynmsc_alone hm hv hk hmk hf hp

end any

/-! ## the computed silhouette is positive -/

section pos
variable {N : Type} [LinearOrder N] [Zero N] [RDist N] [LawfulDist N] {F : Fmt} [RFrom N (Ieee F)]

/-- The terms are numbers in the unit interval. -/
theorem ConvNum.term_unit (H : ConvNum N F) {a b : N} (ha : 0 ≤ a) (hab : a ≤ b) :
    ∃ q : ℚ, mscLoss (Ieee F) a b = .num q ∧ 0 ≤ q ∧ q ≤ 1 := by
  unfold mscLoss
  split
  · exact ⟨0, rfl, le_rfl, zero_le_one⟩
  · rename_i hz
    simp only [LawfulDist.isZero_eq, Bool.or_eq_true, decide_eq_true_eq, not_or] at hz
    obtain ⟨f, h1, -, h3, h4⟩ := H
    have hfa := h4 a (lt_of_le_of_ne ha (Ne.symm hz.1))
    have hfab := h3 a b hab
    have hfb := hfa.trans_le hfab
    have hb := Ieee.one_lt_big F
    obtain ⟨t, e, t1, t2, -⟩ := Ieee.ofExact_within (F := F) (x := f a / f b) (lo := 0) (hi := 1)
      (div_nonneg hfa.le hfb.le) ((div_le_one hfb).mpr hfab) F.rnd_zero (Ieee.one_rnd F) (by linarith) hb
    refine ⟨t, ?_, t1, t2⟩
    rw [h1, h1]
    show Ieee.div (.num (f a)) (.num (f b)) = _
    unfold Ieee.div
    dsimp only
    rw [if_neg hfb.ne', e]

theorem ConvNum.silTerm_unit (H : ConvNum N F) {n : Nat} {d : Nat → Nat → N} (hd : Dissim n d) {med : List Nat}
    (hk : 2 ≤ med.length) (hr : ∀ m ∈ med, m < n) {o : Nat} (ho : o < n) :
    ∃ q : ℚ, silTerm (Ieee F) d med o = .num q ∧ 0 ≤ q ∧ q ≤ 1 := by
  have ht := twoNearestP_twoMin d hk o
  obtain ⟨h1, h2⟩ := QuotLoss.twoMin_range hd hr ho ht
  rw [← mscLoss_term ht h1]
  exact H.term_unit h1 h2

theorem silTerm_medoid {L : Type} [RLoss L] [RFrom N L] {n : Nat} {d : Nat → Nat → N} (hd : Dissim n d) {med : List Nat}
    (hk : 2 ≤ med.length) (hr : ∀ m ∈ med, m < n) {o : Nat} (ho : o ∈ med) : silTerm L d med o = RLoss.zero := by
  have ht := twoNearestP_twoMin d hk o
  obtain ⟨h1, h2⟩ := QuotLoss.twoMin_range hd hr (hr o ho) ht
  rw [← mscLoss_term ht h1]
  have h0 : (twoNearestP d med o).1 = 0 := by
    refine le_antisymm ?_ h1
    rw [← hd.diag o (hr o ho)]
    obtain ⟨rest, h3, h4, h5⟩ := ht
    rcases List.mem_cons.mp (h3.mem_iff.mp (List.mem_map_of_mem ho)) with h | h
    · exact h.ge
    · rcases List.mem_cons.mp h with h | h
      · exact h4.trans h.ge
      · exact h4.trans (h5 _ h)
  unfold mscLoss
  rw [if_pos (by simp [LawfulDist.isZero_eq, h0])]

/-- A sum of numbers in the unit interval: zeros do not count. -/
theorem leftSum_count {xs : List (Ieee F)} (h : ∀ x ∈ xs, ∃ q : ℚ, x = .num q ∧ 0 ≤ q ∧ q ≤ 1) (hc : Counts F xs.length) :
    ∃ q : ℚ, leftSum xs = .num q ∧ 0 ≤ q ∧ q ≤ capped F (xs.countP (fun x => decide (x ≠ .num 0))) := by
  induction xs using List.reverseRecOn with
  | nil => exact ⟨0, rfl, le_rfl, by simp [capped]⟩
  | append_singleton xs x ih =>
    rw [List.length_append, List.length_singleton] at hc
    obtain ⟨q, e, q0, q1⟩ := ih (fun y hy => h y (by simp [hy])) (hc.mono (by omega))
    obtain ⟨p, rfl, p0, p1⟩ := h x (by simp)
    rw [List.countP_append, List.countP_singleton]
    have hcm : Counts F (xs.countP (fun x => decide (x ≠ .num 0)) + 1) := hc.mono (by have := List.countP_le_length (p := fun x : Ieee F => decide (x ≠ .num 0)) (l := xs); omega)
    generalize xs.countP (fun x => decide (x ≠ .num 0)) = m at *
    have hstep : F.rnd (q + p) ≤ capped F (m + if decide ((.num p : Ieee F) ≠ .num 0) = true then 1 else 0) := by
      by_cases hp : p = 0
      · subst hp
        have := F.rnd_mono q1
        rw [capped_rnd] at this
        simpa using this
      · have : decide ((.num p : Ieee F) ≠ .num 0) = true := by
          rw [decide_eq_true_eq]
          rintro h
          cases h
          exact hp rfl
        rw [if_pos this]
        exact (hcm.mono (Nat.le_succ m)).capped_succ (by linarith)
    have hlt : (capped F (m + if decide ((.num p : Ieee F) ≠ .num 0) = true then 1 else 0) : ℚ) < 2 ^ F.emax := by
      refine (hcm.mono ?_).capped_lt
      split <;> omega
    have h0 := F.rnd_nonneg (add_nonneg q0 p0)
    have hp : (0 : ℚ) < 2 ^ F.emax := zpow_pos two_pos _
    cases xs with
    | nil =>
      refine ⟨p, rfl, p0, ?_⟩
      by_cases hp : p = 0
      · rw [hp]
        exact Nat.cast_nonneg _
      · have : decide ((.num p : Ieee F) ≠ .num 0) = true := by
          rw [decide_eq_true_eq]
          rintro h
          cases h
          exact hp rfl
        rw [if_pos this]
        refine p1.trans ?_
        exact_mod_cast Nat.le_min.mpr ⟨by omega, Nat.one_le_two_pow⟩
    | cons y ys =>
      have e' : leftSum (y :: ys ++ [.num p]) = RLoss.add (leftSum (y :: ys)) (.num p) := by simp [leftSum]
      rw [e', e]
      refine ⟨F.rnd (q + p), ?_, h0, hstep⟩
      exact Ieee.ofExact_num (by linarith) (lt_of_le_of_lt hstep hlt)

theorem silTerms_count {L : Type} [RLoss L] [RFrom N L] [DecidableEq L] {n : Nat} {d : Nat → Nat → N} (hd : Dissim n d)
    {med : List Nat} (hnd : med.Nodup) (hk : 2 ≤ med.length) (hr : ∀ m ∈ med, m < n) :
    (silTerms L n d med).countP (fun x => decide (x ≠ RLoss.zero)) + med.length ≤ n := by
  unfold silTerms
  rw [List.countP_map]
  have h := List.length_eq_countP_add_countP (l := List.range n)
    ((fun x => decide (x ≠ RLoss.zero)) ∘ silTerm L d med)
  rw [List.length_range] at h
  have h2 : med.length ≤ (List.range n).countP
      (fun a => decide ¬ ((fun x => decide (x ≠ RLoss.zero)) ∘ silTerm L d med) a = true) := by
    rw [List.countP_eq_length_filter]
    refine (List.subperm_of_subset hnd fun o ho => List.mem_filter.mpr ⟨List.mem_range.mpr (hr o ho), ?_⟩).length_le
    simp [silTerm_medoid (L := L) hd hk hr ho]
  omega

/-- The number of objects exceeds any sum with two terms less, relatively by `2^-p` or more. -/
theorem Counts.gap {n : Nat} (hc : Counts F n) (h2 : 2 ≤ n) {m : Nat} (hm : m + 2 ≤ n) :
    ∃ c : ℚ, (RLoss.ofU32 n : Ieee F) = .num c ∧ 0 < c ∧ (capped F m : ℚ) ≤ (1 - 1 / 2 ^ F.p) * c := by
  have hp : (0 : ℚ) < 2 ^ F.p := by positivity
  have hemax : (0 : ℚ) < 2 ^ F.emax := zpow_pos two_pos _
  have hbig := F.rnd_mono hc.big
  rw [F.rnd_big] at hbig
  have hn0 := F.rnd_nonneg (x := (n : ℚ)) (Nat.cast_nonneg _)
  refine ⟨F.rnd n, Ieee.ofExact_num (by linarith) (lt_of_le_of_lt hbig F.big_lt), ?_⟩
  have hmq : (capped F m : ℚ) ≤ m := by exact_mod_cast Nat.min_le_left _ _
  have hmp : (capped F m : ℚ) ≤ 2 ^ F.p := by exact_mod_cast Nat.min_le_right _ _
  have hmn : (m : ℚ) + 2 ≤ n := by exact_mod_cast hm
  have h2q : (2 : ℚ) ≤ n := by exact_mod_cast h2
  rcases Nat.lt_or_ge (2 ^ F.p) n with h | h
  · rcases Nat.lt_or_ge (2 ^ F.p + 1) n with h' | h'
    · -- the rounded number is at least `2^p + 2`
      have h3 : ((2 ^ F.p + 2 : ℕ) : ℚ) ≤ n := by exact_mod_cast h'
      have h4 := F.rnd_mono h3
      have h5 : F.rnd ((2 ^ F.p + 2 : ℕ) : ℚ) = 2 ^ F.p + 2 := by
        have := F.rnd_of_rep (m := 2 ^ (F.p - 1) + 1) (e := 1) (by have := F.hone; have := F.hp; omega) (by
          rw [abs_of_nonneg (by positivity)]
          have : (2 : ℤ) ^ F.p = 2 ^ (F.p - 1) * 2 := by rw [← pow_succ]; congr 1; have := F.hp; omega
          rw [this]
          have : (1 : ℤ) ≤ 2 ^ (F.p - 1) := one_le_pow₀ (by norm_num)
          linarith)
        have e : (((2 ^ (F.p - 1) + 1 : ℤ) : ℚ) * 2 ^ (1 : ℤ)) = 2 ^ F.p + 2 := by
          have : (2 : ℚ) ^ F.p = 2 ^ (F.p - 1) * 2 := by rw [← pow_succ]; congr 1; have := F.hp; omega
          rw [this]
          push_cast
          ring
        rw [e] at this
        push_cast
        exact this
      rw [h5] at h4
      refine ⟨by linarith, hmp.trans ?_⟩
      have h6 : (4 : ℚ) ≤ 2 ^ F.p := by
        have := pow_le_pow_right₀ (a := (2 : ℚ)) (by norm_num) hc.prec
        linarith
      have h7 : (0 : ℚ) ≤ 1 - 1 / 2 ^ F.p := by
        rw [sub_nonneg, div_le_one hp]
        linarith
      refine le_trans ?_ (mul_le_mul_of_nonneg_left h4 h7)
      have h8 : (1 : ℚ) / 2 ^ F.p * 2 ^ F.p = 1 := by field_simp
      have h9 : (1 : ℚ) / 2 ^ F.p ≤ 1 / 4 := by
        rw [div_le_div_iff₀ hp (by norm_num)]
        linarith
      nlinarith
    · -- `2^p + 1` is rounded down
      have e : (n : ℚ) = 2 ^ F.p + 1 := by
        have : n = 2 ^ F.p + 1 := by omega
        rw [this]
        push_cast
        rfl
      rw [e, F.rnd_stuck hc.prec]
      refine ⟨hp, hmq.trans ?_⟩
      have h8 : (1 : ℚ) / 2 ^ F.p * 2 ^ F.p = 1 := by field_simp
      nlinarith
  · rw [F.rnd_count h]
    refine ⟨by linarith, hmq.trans ?_⟩
    have h3 : (n : ℚ) ≤ 2 ^ F.p := by exact_mod_cast h
    have h4 : (1 : ℚ) / 2 ^ F.p * n ≤ 1 := by
      rw [div_mul_eq_mul_div, one_mul, div_le_one hp]
      exact h3
    linarith

theorem Fmt.rnd_ulp (F : Fmt) (hs : F.emin + F.p ≤ 0) : F.rnd (1 / 2 ^ F.p) = 1 / 2 ^ F.p := by
  have := F.rnd_of_rep (m := 1) (e := -F.p) (by omega) (by rw [abs_one]; exact one_le_pow₀ (by norm_num))
  rw [Int.cast_one, one_mul, zpow_neg, zpow_natCast] at this
  rw [one_div]
  exact this

theorem Fmt.rnd_below_one (F : Fmt) (hs : F.emin + F.p ≤ 0) : F.rnd (1 - 1 / 2 ^ F.p) = 1 - 1 / 2 ^ F.p := by
  have hp : (0 : ℚ) < 2 ^ F.p := by positivity
  have h1 : (1 : ℤ) ≤ 2 ^ F.p := one_le_pow₀ (by norm_num)
  have := F.rnd_of_rep (m := 2 ^ F.p - 1) (e := -F.p) (by omega) (by
    rw [abs_of_nonneg (by linarith)]
    linarith)
  have e : (((2 ^ F.p - 1 : ℤ) : ℚ) * 2 ^ (-F.p : ℤ)) = 1 - 1 / 2 ^ F.p := by
    rw [zpow_neg, zpow_natCast]
    push_cast
    field_simp
  rwa [e] at this

/-- **C83, positive silhouettes.** The computed medoid silhouette of distinct medoids is a number, at least `2^-p` and at
most one. -/
theorem C83_silhouette_pos (H : ConvNum N F) (hs : F.emin + F.p ≤ 0) {n : Nat} (hc : Counts F n) {d : Nat → Nat → N}
    (hd : Dissim n d) {med : List Nat} (hnd : med.Nodup) (hk : 2 ≤ med.length) (hr : ∀ m ∈ med, m < n) :
    ∃ q : ℚ, recomputedSil (Ieee F) n d med = .num q ∧ 1 / 2 ^ F.p ≤ q ∧ q ≤ 1 := by
  have hcnt := silTerms_count (L := Ieee F) hd hnd hk hr
  have e : (silTerms (Ieee F) n d med).length = n := by simp [silTerms]
  obtain ⟨s, es, s0, s1⟩ := leftSum_count (xs := silTerms (Ieee F) n d med) (fun x hx => by
    obtain ⟨o, ho, rfl⟩ := List.mem_map.mp hx
    exact H.silTerm_unit hd hk hr (List.mem_range.mp ho)) (by rwa [e])
  obtain ⟨c, ec, c0, hg⟩ := hc.gap (by omega) (m := (silTerms (Ieee F) n d med).countP (fun x => decide (x ≠ RLoss.zero)))
    (by omega)
  have hp : (0 : ℚ) < 2 ^ F.p := by positivity
  have hb := Ieee.one_lt_big F
  have hu : (0 : ℚ) < 1 / 2 ^ F.p := by positivity
  have s2 : s ≤ (1 - 1 / 2 ^ F.p) * c := s1.trans hg
  obtain ⟨a, ea, a0, a1, -⟩ := Ieee.ofExact_within (F := F) (x := s / c) (lo := 0) (hi := 1 - 1 / 2 ^ F.p)
    (div_nonneg s0 c0.le) (by rw [div_le_iff₀ c0]; exact s2) F.rnd_zero (F.rnd_below_one hs) (by linarith) (by linarith)
  obtain ⟨q, eq, q0, q1, -⟩ := Ieee.ofExact_within (F := F) (x := 1 + -a) (lo := 1 / 2 ^ F.p) (hi := 1) (by linarith)
    (by linarith) (F.rnd_ulp hs) (Ieee.one_rnd F) (by linarith) hb
  refine ⟨q, ?_, q0, q1⟩
  unfold recomputedSil
  rw [es, ec]
  have ea' : (RLoss.div (.num s) (.num c) : Ieee F) = .num a := by
    show Ieee.div (.num s) (.num c) = _
    unfold Ieee.div
    dsimp only
    rw [if_neg c0.ne', ea]
  rw [ea']
  exact eq

/-- **C83, fastermsc**: the returned silhouette. -/
theorem C83_fastermsc (H : ConvNum N F) (hs : F.emin + F.p ≤ 0) {mat : Mat N} {n : Nat} (hc : Counts F n)
    {d : Nat → Nat → N} (hm : IsMatrix mat n d) (hd : Dissim n d) {med : List Nat} (hv : ValidMeds n med)
    (hnd : med.Nodup) (hk : 2 ≤ med.length) {maxiter : Nat} {f : SwapResult (Ieee F)}
    (hf : fastermsc (Ieee F) mat med maxiter = .ok f) : ∃ q : ℚ, f.loss = .num q ∧ 1 / 2 ^ F.p ≤ q ∧ q ≤ 1 := by
  have h := C59_fastermsc_nearest hm hd hv hnd hk maxiter hf
  have h' := C59_fastermsc_distinct hm hd hv hnd hk (.inr (.inl (monoQuot_ieee H))) maxiter hf
  rw [C59_fastermsc hm hd hv hnd hk maxiter hf]
  exact C83_silhouette_pos H hs hc hd h' (by rw [h.medLen]; exact hk) h.medRange

end pos

/-! ## DynMSC -/

section ieee
variable {N : Type} [LinearOrder N] [Zero N] [RDist N] [LawfulDist N] {F : Fmt} [RFrom N (Ieee F)]

/-- At most one; not NaN. -/
def Ieee.UpToOne : Ieee F → Prop
  | .num q => q ≤ 1
  | .negInf => True
  | _ => False

theorem ieee_rgt {x y : Ieee F} (hx : x.UpToOne) (hy : y.UpToOne) : rgt x y = true ↔ y.rank < x.rank := by
  cases x <;> cases y <;> first | exact hx.elim | exact hy.elim | skip
  · rename_i p q
    show _ ↔ ((q : WithTop ℚ) : WithBot (WithTop ℚ)) < ((p : WithTop ℚ) : WithBot (WithTop ℚ))
    rw [WithBot.coe_lt_coe, WithTop.coe_lt_coe]
    unfold rgt
    simp only [pcmp, RPartialOrd.pcmp, Ieee.cmp]
    rcases lt_trichotomy p q with h | h | h
    · simp [compare_lt_iff_lt.mpr h, h.le]
    · simp [h]
    · simp [compare_gt_iff_gt.mpr h, h]
  · exact ⟨fun _ => WithBot.bot_lt_coe _, fun _ => rfl⟩
  · exact ⟨fun h => (by cases h), fun h => absurd h not_lt_bot⟩
  · exact ⟨fun h => (by cases h), fun h => absurd h (lt_irrefl _)⟩

theorem ieee_rle {x y : Ieee F} (hx : x.UpToOne) (hy : y.UpToOne) (h : x.rank ≤ y.rank) : rle x y = true := by
  cases x <;> cases y <;> first | exact hx.elim | exact hy.elim | skip
  · rename_i p q
    have h : p ≤ q := WithTop.coe_le_coe.mp (WithBot.coe_le_coe.mp h)
    simp only [rle, pcmp, RPartialOrd.pcmp, Ieee.cmp]
    rcases h.lt_or_eq with h | h
    · simp [compare_lt_iff_lt.mpr h]
    · simp [h]
  · exact absurd h (not_le.mpr (WithBot.bot_lt_coe _))
  · rfl
  · rfl

theorem silOrd_ieee (H : ConvNum N F) {n : Nat} (hn : n ≤ u32Max) (h0 : 0 < n) (hc : Counts F n) :
    SilOrd (L := Ieee F) N n Ieee.rank Ieee.UpToOne Ieee.Pos := by
  refine ⟨fun x y hx hy => ieee_rgt hx hy, zero_le_one (α := ℚ), fun a b ha hb => ?_, fun xs _ hxs => ?_⟩
  · unfold mscLoss
    split
    · exact le_refl (0 : ℚ)
    · rename_i hz
      simp only [LawfulDist.isZero_eq, Bool.or_eq_true, decide_eq_true_eq, not_or] at hz
      exact H.div_pos (lt_of_le_of_ne ha (Ne.symm hz.1)) hb
  · have hs := leftSum_pos hxs
    rw [toSil_eq hn]
    obtain ⟨c, e, hc1⟩ := Ieee.ofU32_num hc
    have h1 : (1 : ℚ) ≤ capped F n := by exact_mod_cast Nat.le_min.mpr ⟨h0, Nat.one_le_two_pow⟩
    have hc0 : (0 : ℚ) < c := by linarith
    rw [e]
    have hq : (RLoss.div (leftSum xs) (.num c) : Ieee F).Pos := by
      generalize leftSum xs = s at hs
      cases s with
      | negInf => exact hs.elim
      | nan => exact hs.elim
      | inf =>
        show (Ieee.div .inf (.num c)).Pos
        unfold Ieee.div
        dsimp only
        rw [if_neg (not_lt.mpr hc0.le)]
        trivial
      | num q =>
        show (Ieee.div (.num q) (.num c)).Pos
        unfold Ieee.div
        dsimp only
        rw [if_neg hc0.ne']
        exact ofExact_pos F (div_nonneg hs hc0.le)
    generalize (RLoss.div (leftSum xs) (.num c) : Ieee F) = t at hq
    cases t with
    | negInf => exact hq.elim
    | nan => exact hq.elim
    | inf => exact trivial
    | num q =>
      have hq : 0 ≤ q := hq
      have h3 := F.rnd_mono (x := 1 + -q) (y := 1) (by linarith)
      rw [Ieee.one_rnd] at h3
      have hb := Ieee.one_lt_big F
      show (Ieee.ofExact F (1 + -q)).UpToOne
      unfold Ieee.ofExact
      rw [if_neg (by linarith)]
      split
      · trivial
      · exact h3

/-- **C83, floating point.** The returned value is a number between `2^-p` and one and the maximum of the list, none of
whose values is NaN; it is at least that of FasterMSC. The medoids are distinct. -/
theorem C83_dynmsc (H : ConvNum N F) (hs : F.emin + F.p ≤ 0) {mat : Mat N} {n : Nat} (hc : Counts F n)
    {d : Nat → Nat → N} (hm : IsMatrix mat n d) (hd : Dissim n d) {med : List Nat} (hv : ValidMeds n med)
    (hnd : med.Nodup) (hk : 2 ≤ med.length) {mink maxiter : Nat} {r : DynResult (Ieee F)}
    (hr : dynmsc (Ieee F) mat med mink maxiter = .ok r) :
    DynRun n d med.length mink r ∧ r.med.Nodup ∧
    (∃ q : ℚ, r.loss = .num q ∧ 1 / 2 ^ F.p ≤ q ∧ q ≤ 1) ∧
    (∀ x ∈ r.losses, x ≠ .nan ∧ rle x r.loss = true) ∧
    ∃ f, fastermsc (Ieee F) mat med maxiter = .ok f ∧ f.loss ∈ r.losses ∧
      (med.length ≤ mink → r = ⟨f.loss, f.assi, f.nIter, f.nSwap, f.med, [f.loss]⟩) := by
  have h0 : 0 < n := lt_of_lt_of_le hv.sizes.pos hv.sizes.le
  obtain ⟨f, hf⟩ : ∃ f, fastermsc (Ieee F) mat med maxiter = .ok f := ⟨_, fastermsc_eq hm hv maxiter⟩
  obtain ⟨p, hp, p0, p1⟩ := C83_fastermsc H hs hc hm hd hv hnd hk hf
  have hu : (0 : ℚ) < 1 / 2 ^ F.p := by positivity
  have hgt : rgt f.loss (RLoss.zero : Ieee F) = true := by
    rw [hp]
    exact Ieee.rgt_zero.mpr (by linarith)
  obtain ⟨h1, h2⟩ := C83_dynmsc_any hm hd hv hnd hk hf hr
  obtain ⟨h2, h3⟩ := h2 hgt
  have hmem := List.mem_of_getElem? h1
  have hr' := hr
  rw [dynmsc_eq hm hv hk] at hr'
  have hmax := dynmscP_max (silOrd_ieee H hv.sizes.n_le h0 hc) hm hd hv hk (minK := min (max mink 1) med.length)
    (by omega) maxiter
  cases hr'
  obtain ⟨m1, -, m3⟩ := hmax
  refine ⟨h2, h3 (.inr (.inl (monoQuot_ieee H))), ?_, fun x hx => ?_, f, hf, hmem, fun hmk => ?_⟩
  · have h4 := (m3 _ hmem).2
    rw [hp] at h4
    revert m1 h4
    generalize (dynmscP (Ieee F) d n med (min (max mink 1) med.length) maxiter).loss = x
    intro m1 h4
    cases x with
    | num q =>
      have h4 : p ≤ q := WithTop.coe_le_coe.mp (WithBot.coe_le_coe.mp h4)
      exact ⟨q, rfl, p0.trans h4, m1⟩
    | negInf => exact absurd h4 (not_le.mpr (WithBot.bot_lt_coe _))
    | inf => exact m1.elim
    | nan => exact m1.elim
  · obtain ⟨x1, x2⟩ := m3 x hx
    refine ⟨?_, ieee_rle x1 m1 x2⟩
    rintro rfl
    exact x1
  · rw [C83_dynmsc_eq_any hm hv hk hmk hf hgt] at hr
    simpa using hr.symm

end ieee

/-! ## `f32` and `f64` -/

theorem convNum_f32_f64 : ConvNum (Finite binary32) binary64 := ⟨(·.q), fun _ => rfl, rfl, fun _ _ h => h, fun _ h => h⟩

theorem convNum_u32_f64 : ConvNum UInt32 binary64 :=
  ⟨fun x => (x.toNat : ℚ), fun _ => rfl, rfl, fun x y h => by
    have : x.toNat ≤ y.toNat := UInt32.le_iff_toNat_le.mp h
    show (x.toNat : ℚ) ≤ y.toNat
    exact_mod_cast this, fun x h => by
    have : (0 : UInt32).toNat < x.toNat := UInt32.lt_iff_toNat_lt.mp h
    show (0 : ℚ) < x.toNat
    exact_mod_cast this⟩

/-- **C83, `f32`**: distances and losses; also for more than `2^24` objects. -/
theorem C83_dynmsc_f32 {mat : Mat (Finite binary32)} {n : Nat} {d : Nat → Nat → Finite binary32} (hm : IsMatrix mat n d)
    (hd : Dissim n d) {med : List Nat} (hv : ValidMeds n med) (hnd : med.Nodup) (hk : 2 ≤ med.length) {mink maxiter : Nat}
    {r : DynResult (Ieee binary32)} (hr : dynmsc (Ieee binary32) mat med mink maxiter = .ok r) :
    DynRun n d med.length mink r ∧ r.med.Nodup ∧ (∃ q : ℚ, r.loss = .num q ∧ 1 / 2 ^ 24 ≤ q ∧ q ≤ 1) ∧
    ∀ x ∈ r.losses, x ≠ .nan ∧ rle x r.loss = true := by
  obtain ⟨h1, h2, h3, h4, -⟩ := C83_dynmsc (convNum_same binary32) (by decide) (counts32 hv.sizes.n_le) hm hd hv hnd hk hr
  exact ⟨h1, h2, h3, h4⟩

/-- **C83, `f64` losses**, and distances of type `u32`, `f32` or `f64`: also close to the exact value where C37 holds. -/
theorem C83_dynmsc_f64 {N : Type} [LinearOrder N] [Zero N] [RDist N] [LawfulDist N] [RFrom N (Ieee binary64)]
    (H : ConvNum N binary64)
    (Q : QuotLoss N (Ieee.Fin (F := binary64)) Ieee.val (1 / 2 ^ 53) (2 ^ 1023) (2 ^ (-1075 : ℤ)) u32Max)
    {mat : Mat N} {n : Nat} {d : Nat → Nat → N} (hm : IsMatrix mat n d)
    (hd : Dissim n d) {med : List Nat} (hv : ValidMeds n med) (hnd : med.Nodup) (hk : 2 ≤ med.length) {mink maxiter : Nat}
    {r : DynResult (Ieee binary64)} (hr : dynmsc (Ieee binary64) mat med mink maxiter = .ok r) :
    DynRun n d med.length mink r ∧ r.med.Nodup ∧ (∀ x ∈ r.losses, x ≠ .nan ∧ rle x r.loss = true) ∧
    ∃ q : ℚ, r.loss = .num q ∧ 1 / 2 ^ 53 ≤ q ∧ q ≤ 1 ∧ (med.length ≤ 4 ∨ r.med.length = med.length ∨ r.med.length = 2 →
      |q - medSil (fun x : N => (conv x : Ieee binary64).val) n d r.med| ≤ (n + 3) / 2 ^ 52) := by
  obtain ⟨h1, h2, ⟨q, h3, h4, h5⟩, h6, -⟩ := C83_dynmsc H (by decide) (counts64 hv.sizes.n_le) hm hd hv hnd hk hr
  refine ⟨h1, h2, h6, q, h3, h4, h5, fun hc => ?_⟩
  have h0 : 0 < n := lt_of_lt_of_le hv.sizes.pos hv.sizes.le
  have hk' : 2 ≤ r.med.length := by have := h1.min; omega
  obtain ⟨-, h⟩ := recomputedSil_near Q (medFits64 h0 hv.sizes.n_le) hd hk' h1.wf.medRange
  rw [← (h1.right hc).1, h3] at h
  exact h.trans (medErr_f64 hv.sizes.n_le)

/-! ## Non-vacuity -/

/-- Three numbers of medoids. -/
example : ∃ (r : DynResult (Ieee binary64)) (q : ℚ), dynmsc (Ieee binary64) silUMat [0, 1, 2] 1 20 = .ok r ∧ r.nSwap = 3 ∧
    r.losses.length = 3 ∧ r.loss = .num q ∧
    |q - medSil (fun x : UInt32 => (x.toNat : ℚ)) 5 silU r.med| ≤ ((5 : ℕ) + 3) / 2 ^ 52 := by
  have hr : dynmsc (Ieee binary64) silUMat [0, 1, 2] 1 20 =
      .ok ⟨.num (8106479329266893 / 9007199254740992), [1, 1, 2, 0, 0], 4, 3, [3, 1, 2],
        [.num 0, .num (495261923307559 / 562949953421312), .num (8106479329266893 / 9007199254740992)]⟩ := by decide +kernel
  obtain ⟨-, -, -, q, h1, -, -, h2⟩ := C83_dynmsc_f64 convNum_u32_f64 quotLoss_u32_f64 silU_isMatrix silU_dissim
    (silU_valid3 (by decide)) (by decide) (by decide) hr
  exact ⟨_, q, hr, rfl, rfl, h1, h2 (.inl (by decide))⟩

/-- The condition on the format is needed: two bits of precision, and `1 - 2^-p` is not a number of the format. The
silhouette becomes zero, and DynMSC returns the labels it started with, `vec![0, n]`. -/
def crude : Fmt := ⟨2, -1, 4, by decide, by decide, by decide⟩

instance : Inhabited (Finite crude) := ⟨0⟩

def equi (x y : Nat) : Finite crude := .ofRat crude (if x = y then 0 else 1)

def equiMat : Mat (Finite crude) := ofRows ((List.range 5).map fun x => (List.range 5).map (equi x))

example : Counts crude 5 ∧ IsMatrix equiMat 5 equi ∧ Dissim 5 equi ∧
    fastermsc (Ieee crude) equiMat [0, 1] 5 = .ok ⟨.num 0, [0, 1, 1, 1, 1], 1, 0, [0, 1]⟩ ∧
    dynmsc (Ieee crude) equiMat [0, 1] 2 5 = .ok ⟨.num 0, [0, 5], 1, 0, [0, 1], [.num 0]⟩ := by
  refine ⟨⟨by decide, by decide +kernel⟩, ⟨rfl, rfl, fun x y hx hy => ?_⟩, ⟨by decide +kernel, fun x y hx hy => ?_⟩,
    by decide +kernel, by decide +kernel⟩
  · exact (by decide +kernel : ∀ x < 5, ∀ y < 5, equiMat.get x y = .ok (equi x y)) x hx y hy
  · exact (by decide +kernel : ∀ x < 5, ∀ y < 5, 0 ≤ equi x y) x hx y hy

end KMedoids
