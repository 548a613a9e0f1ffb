import Verif.Props.C86
import Verif.Props.C29_C35
import Verif.Props.C39_C43

/-!
# C87: FastMSC and PAMMEDSIL are steepest ascent, and do not depend on the order of objects and medoids

C86 for the medoid silhouette: the medoids returned by FastMSC and by the SWAP phase of PAMMEDSIL are reached
by exactly `n_swap` best exchanges, and the run ends when there is no improving exchange or the limit is
reached. If the best exchange is always unique, renumbering the objects and reordering the medoids changes
nothing. The BUILD phase of PAMMEDSIL depends on the order of the objects also without any ties, since it does
not consider object 0 except as the first medoid.
-/

set_option linter.unusedSectionVars false

namespace KMedoids

open RFrom (conv)

/-! ## Steepest descent under a renumbering, for any objective -/

section general

variable {L : Type} [LinearOrder L]

/-- No exchange decreases `T`. -/
def NoBetter (T : List Nat → L) (n : Nat) (med : List Nat) : Prop :=
  ∀ m x, m < med.length → x < n → x ∉ med → T med ≤ T (med.set m x)

/-- `T'` is `T` after a renumbering, for medoid lists of length `k`. -/
def Corresponds (T T' : List Nat → L) (σ : Nat → Nat) (k : Nat) : Prop :=
  ∀ a a' : List Nat, a.length = k → (a'.map σ).Perm a → T' a' = T a

theorem bestExchange_renumber {n k : Nat} {σ : Nat → Nat} (hσ : Renumbering n σ) {T T' : List Nat → L}
    (hT : Corresponds T T' σ k) {med med' med1' : List Nat} (hl : med.length = k) (hr : ∀ m ∈ med', m < n)
    (h : (med'.map σ).Perm med) (hb : BestExchange T' n med' med1') :
    ∃ med1, BestExchange T n med med1 ∧ (med1'.map σ).Perm med1 ∧ ∀ m ∈ med1', m < n := by
  obtain ⟨b, j, h1, h2, h3, rfl, h5, h6⟩ := hb
  have hl' : med'.length = med.length := by simpa using h.length_eq
  obtain ⟨b', hb', hp⟩ := perm_set h (m := b) (by simpa using h1) (σ j)
  rw [← List.map_set] at hp
  have hjm : ∀ x, x < n → x ∉ med' → σ x ∉ med := by
    intro x hx hxm hm
    obtain ⟨y, hy, e⟩ := List.mem_map.mp (h.mem_iff.mpr hm)
    exact hxm (hσ.inj y x (hr y hy) hx e ▸ hy)
  refine ⟨med.set b' (σ j), ⟨b', σ j, hb', hσ.range j h2, hjm j h2 h3, rfl, ?_, ?_⟩, hp, ?_⟩
  · rw [← hT _ _ (by simpa using hl) hp, ← hT _ _ hl h]
    exact h5
  · intro m x hm hx hxm
    obtain ⟨i, hi, rfl⟩ := hσ.surj hx
    obtain ⟨m', hm', hp'⟩ := perm_set h.symm hm (σ i)
    rw [List.length_map] at hm'
    rw [← List.map_set] at hp'
    rw [← hT _ _ (by simpa using hl) hp, ← hT _ _ (by simpa using hl) hp'.symm]
    refine h6 m' i hm' hi fun hmem => hxm ?_
    exact h.mem_iff.mp (List.mem_map_of_mem hmem)
  · intro m hm
    rcases List.mem_or_eq_of_mem_set hm with hm | rfl
    · exact hr m hm
    · exact h2

theorem noBetter_renumber {n k : Nat} {σ : Nat → Nat} (hσ : Renumbering n σ) {T T' : List Nat → L}
    (hT : Corresponds T T' σ k) {med med' : List Nat} (hl : med.length = k) (hr : ∀ m ∈ med', m < n)
    (h : (med'.map σ).Perm med) : NoBetter T' n med' ↔ NoBetter T n med := by
  constructor
  · intro ho m j hm hj hjm
    obtain ⟨i, hi, rfl⟩ := hσ.surj hj
    obtain ⟨m', hm', hp⟩ := perm_set h.symm hm (σ i)
    rw [List.length_map] at hm'
    have hi' : i ∉ med' := fun hh => hjm (h.mem_iff.mp (List.mem_map_of_mem hh))
    have := ho m' i hm' hi hi'
    rwa [hT _ _ hl h, hT (med.set m (σ i)) _ (by simpa using hl) (by rw [List.map_set]; exact hp.symm)] at this
  · intro ho m j hm hj hjm
    obtain ⟨m', hm', hp⟩ := perm_set h (m := m) (by simpa using hm) (σ j)
    have hj' : σ j ∉ med := fun hh => by
      obtain ⟨x, hx, e⟩ := List.mem_map.mp (h.mem_iff.mpr hh)
      exact hjm (hσ.inj x j (hr x hx) hj e ▸ hx)
    have := ho m' (σ j) hm' (hσ.range j hj) hj'
    rwa [← hT _ _ hl h, ← hT _ (med'.set m j) (by simpa using hl) (by rw [List.map_set]; exact hp)] at this

theorem steepest_not_noBetter {T : List Nat → L} {n c : Nat} {med med' : List Nat}
    (h : Steepest T n (c + 1) med med') : ¬ NoBetter T n med := by
  intro ho
  cases h with
  | step hb _ =>
    obtain ⟨b, j, h1, h2, h3, rfl, h5, -⟩ := hb
    exact absurd (ho b j h1 h2 h3) (not_le.mpr h5)

/-- Two descents with the same start and limit, on a problem and a renumbering of it. -/
theorem steepest_renumber {n k : Nat} {σ : Nat → Nat} (hσ : Renumbering n σ) {T T' : List Nat → L}
    (hT : Corresponds T T' σ k) {c c' maxiter : Nat} {med med' e e' : List Nat} (hl : med.length = k)
    (hr : ∀ m ∈ med', m < n) (h : (med'.map σ).Perm med) (hu : NoTies T n med)
    (hs : Steepest T n c med e) (hs' : Steepest T' n c' med' e')
    (ho : c = maxiter ∨ c < maxiter ∧ NoBetter T n e) (ho' : c' = maxiter ∨ c' < maxiter ∧ NoBetter T' n e') :
    c' = c ∧ (e'.map σ).Perm e := by
  induction c generalizing c' maxiter med med' with
  | zero =>
    cases hs
    cases c' with
    | zero => cases hs'; exact ⟨rfl, h⟩
    | succ c' =>
      exfalso
      rcases ho with ho | ⟨-, ho⟩
      · omega
      · exact steepest_not_noBetter hs' ((noBetter_renumber hσ hT hl hr h).mpr ho)
  | succ c ih =>
    cases c' with
    | zero =>
      exfalso
      cases hs'
      rcases ho' with ho' | ⟨-, ho'⟩
      · omega
      · exact steepest_not_noBetter hs ((noBetter_renumber hσ hT hl hr h).mp ho')
    | succ c' =>
      cases hs with
      | step hb hs =>
        cases hs' with
        | step hb' hs' =>
          obtain ⟨med1, q1, q2, q3⟩ := bestExchange_renumber hσ hT hl hr h hb'
          have hp := hu 0 _ (.refl _) _ _ hb q1
          have hl1 := hb
          obtain ⟨b, j, -, -, -, rfl, -, -⟩ := hl1
          obtain ⟨i1, i2⟩ := ih (maxiter := maxiter - 1) (by simpa using hl) q3 (q2.trans hp.symm)
            (fun c2 m2 h2 => hu (c2 + 1) m2 (.step hb h2)) hs hs'
            (by rcases ho with ho | ho; exacts [Or.inl (by omega), Or.inr ⟨by omega, ho.2⟩])
            (by rcases ho' with ho | ho; exacts [Or.inl (by omega), Or.inr ⟨by omega, ho.2⟩])
          exact ⟨by omega, i2⟩

end general

variable {N L : Type} [LinearOrder N] [Zero N] [RDist N] [LawfulDist N]
variable [Field L] [LinearOrder L] [IsStrictOrderedRing L] [RLoss L] [LawfulField L]
variable [RFrom N L] [LawfulFrom N L]

/-! ## Whole runs are steepest ascents -/

/-- The objective, to be minimised: the negated mean medoid silhouette. -/
def negSil (L : Type) [Field L] [RFrom N L] (n : Nat) (d : Nat → Nat → N) (med : List Nat) : L :=
  - medSil (conv : N → L) n d med

/-- `r` is the outcome of a steepest ascent from `med`. -/
structure AscentOf (n : Nat) (d : Nat → Nat → N) (med : List Nat) (maxiter : Nat) (r : SwapResult L) : Prop where
  path : Steepest (negSil L n d) n r.nSwap med r.med
  stop : (r.nSwap = maxiter ∧ r.nIter = maxiter) ∨
    (r.nSwap < maxiter ∧ r.nIter = r.nSwap + 1 ∧ SilSwapOptimal L n d r.med)

theorem msLoop_descent {n k : Nat} {d : Nat → Nat → N} (hd : Dissim n d) (hk : 2 ≤ k) (hku : k < u32Max)
    (fuel iter : Nat) {s : MPState N L} (hs : MPEx n k d s) :
    ∃ c, (loopB (mpStepP d (pmsScanP d n k)) fuel iter s).1.nSwaps = s.nSwaps + c ∧
      Steepest (msT L n d) n c s.med (loopB (mpStepP d (pmsScanP d n k)) fuel iter s).1.med ∧
      ((c = fuel ∧ (loopB (mpStepP d (pmsScanP d n k)) fuel iter s).2 = iter + fuel) ∨
        (c < fuel ∧ (loopB (mpStepP d (pmsScanP d n k)) fuel iter s).2 = iter + c + 1 ∧
          ∀ x, x < n → Settled (msT L n d) x (loopB (mpStepP d (pmsScanP d n k)) fuel iter s).1.med)) := by
  induction fuel generalizing iter s with
  | zero => exact ⟨0, rfl, .refl _, Or.inl ⟨rfl, rfl⟩⟩
  | succ fuel ih =>
    unfold loopB
    rcases pmsStep_spec hd hk hku hs with ⟨h1, h2⟩ | ⟨b, j, s', h1, h2, h3, h4, h5⟩
    · rw [h1]
      exact ⟨0, rfl, .refl _, Or.inr ⟨by omega, rfl, h2⟩⟩
    · rw [h5]
      obtain ⟨c, i1, i2, i3⟩ := ih (iter + 1) h4
      refine ⟨c + 1, by rw [h3] at i1; simp only; omega, .step ⟨b, j, h1.hb, h1.hj, h1.hjm, h2, ?_, ?_⟩ i2, ?_⟩
      · rw [h2]; exact h1.lt
      · rw [h2]; exact h1.best
      · rcases i3 with ⟨q1, q2⟩ | ⟨q1, q2, q3⟩
        · exact Or.inl ⟨by omega, by simp only; omega⟩
        · exact Or.inr ⟨by omega, by simp only; omega, q3⟩

theorem bestExchange_negSil {n : Nat} (hn : 0 < n) (d : Nat → Nat → N) {a b : List Nat} :
    BestExchange (msT L n d) n a b ↔ BestExchange (negSil L n d) n a b := by
  unfold BestExchange negSil
  simp only [neg_lt_neg_iff, neg_le_neg_iff, medSil_le_iff hn, medSil_lt_iff hn]

theorem steepest_negSil {n c : Nat} (hn : 0 < n) {d : Nat → Nat → N} {a b : List Nat}
    (h : Steepest (msT L n d) n c a b) : Steepest (negSil L n d) n c a b := by
  induction h with
  | refl => exact .refl _
  | step hb _ ih => exact .step ((bestExchange_negSil hn d).mp hb) ih

/-- **C87, pammedsil_swap:** the whole run is a steepest ascent of the medoid silhouette. -/
theorem C87_pammedsil_swap_ascent {mat : Mat N} {n : Nat} {d : Nat → Nat → N} (hm : IsMatrix mat n d)
    (hd : Dissim n d) {med : List Nat} (hv : ValidMeds n med) (hnd : med.Nodup) (hk : 2 ≤ med.length)
    (maxiter : Nat) {r : SwapResult L} (hr : pammedsilSwap L mat med maxiter = .ok r) :
    AscentOf n d med maxiter r := by
  have hn : 0 < n := lt_of_lt_of_le hv.sizes.pos hv.sizes.le
  rw [pammedsilSwap_eq hm hv] at hr
  cases hr
  rw [pammedsilSwapP, pmsOptP_many d n (s := mpInitP L d n med) hk]
  obtain ⟨c, h1, h2, h3⟩ := msLoop_descent (L := L) hd hk hv.sizes.k_lt maxiter 0
    (s := mpInitP L d n med) (MInv.init hd hv hnd hk)
  have h1' : (loopB (mpStepP d (pmsScanP d n med.length)) maxiter 0 (mpInitP L d n med)).1.nSwaps = c := by
    simpa [mpInitP] using h1
  subst h1'
  simp only [Nat.zero_add] at h3
  refine ⟨steepest_negSil hn h2, ?_⟩
  rcases h3 with h3 | ⟨h3, h4, h5⟩
  · exact Or.inl h3
  · refine Or.inr ⟨h3, h4, fun m j hm hj hjm => ?_⟩
    rcases h5 j hj with h' | h'
    · exact absurd h' hjm
    · exact (medSil_le_iff hn d _ _).mpr (h' m hm)

theorem fastmsc_pammedsil [LawfulAdd N L] {mat : Mat N} {n : Nat} {d : Nat → Nat → N} (hm : IsMatrix mat n d)
    (hd : Dissim n d) {med : List Nat} (hv : ValidMeds n med) (hnd : med.Nodup) (maxiter : Nat)
    {r : SwapResult L} (hr : fastmsc L mat med maxiter = .ok r) :
    ∃ r' : SwapResult L, pammedsilSwap L mat med maxiter = .ok r' ∧ r.med = r'.med ∧ r.loss = r'.loss ∧
      r.nIter = r'.nIter ∧ r.nSwap = r'.nSwap := by
  by_cases h2 : med.length = 2
  · obtain ⟨a, b, e1, e2, e3⟩ := C34_fastmsc_two_partial (L := L) hm hd hv hnd h2 maxiter
    rw [e1] at hr
    cases hr
    exact ⟨b, e2, e3⟩
  · rw [C34_fastmsc_partial hm hd hv hnd h2] at hr
    exact ⟨r, hr, rfl, rfl, rfl, rfl⟩

/-- **C87, fastmsc.** -/
theorem C87_fastmsc_ascent [LawfulAdd N L] {mat : Mat N} {n : Nat} {d : Nat → Nat → N} (hm : IsMatrix mat n d)
    (hd : Dissim n d) {med : List Nat} (hv : ValidMeds n med) (hnd : med.Nodup) (hk : 2 ≤ med.length)
    (maxiter : Nat) {r : SwapResult L} (hr : fastmsc L mat med maxiter = .ok r) :
    AscentOf n d med maxiter r := by
  obtain ⟨r', h1, h2, -, h4, h5⟩ := fastmsc_pammedsil hm hd hv hnd maxiter hr
  have := C87_pammedsil_swap_ascent hm hd hv hnd hk maxiter h1
  exact ⟨by rw [h5, h2]; exact this.path, by rw [h5, h4, h2]; exact this.stop⟩

/-! ## Order -/

theorem negSil_corresponds {n k : Nat} {σ : Nat → Nat} (hσ : Renumbering n σ) (d : Nat → Nat → N) (hk : 2 ≤ k) :
    Corresponds (negSil L n d) (negSil L n fun x y => d (σ x) (σ y)) σ k := by
  intro a a' hl h
  unfold negSil
  rw [medSil_renumber hσ d h (by omega)]

theorem AscentOf.order {n : Nat} {σ : Nat → Nat} (hσ : Renumbering n σ) {d : Nat → Nat → N}
    {med med' : List Nat} (hk : 2 ≤ med.length) (hr : ∀ m ∈ med', m < n) (h : (med'.map σ).Perm med)
    (hu : NoTies (negSil L n d) n med) {maxiter : Nat} {r r' : SwapResult L}
    (hs : AscentOf n d med maxiter r) (hs' : AscentOf n (fun x y => d (σ x) (σ y)) med' maxiter r') :
    (r'.med.map σ).Perm r.med ∧ r'.nSwap = r.nSwap ∧ r'.nIter = r.nIter := by
  have conv : ∀ {e : Nat → Nat → N} {a : List Nat}, SilSwapOptimal L n e a → NoBetter (negSil L n e) n a :=
    fun h m x hm hx hxm => neg_le_neg (h m x hm hx hxm)
  obtain ⟨h1, h2⟩ := steepest_renumber hσ (negSil_corresponds hσ d hk) rfl hr h hu hs.path hs'.path
    (by rcases hs.stop with q | q; exacts [Or.inl q.1, Or.inr ⟨q.1, conv q.2.2⟩])
    (by rcases hs'.stop with q | q; exacts [Or.inl q.1, Or.inr ⟨q.1, conv q.2.2⟩])
  refine ⟨h2, h1, ?_⟩
  rcases hs.stop with q | q <;> rcases hs'.stop with q' | q' <;> omega

/-- **C87, order of objects and medoids, pammedsil_swap:** the objects are renumbered by `σ`, and the medoids are
listed in any order. If the best exchange is always unique, the result is the same. -/
theorem C87_pammedsil_swap_order [LawfulAdd N L] {n : Nat} {σ : Nat → Nat} (hσ : Renumbering n σ) {d : Nat → Nat → N}
    {mat mat' : Mat N} (hm : IsMatrix mat n d) (hm' : IsMatrix mat' n fun x y => d (σ x) (σ y)) (hd : Dissim n d)
    {med med' : List Nat} (hv : ValidMeds n med) (hv' : ValidMeds n med') (hnd : med.Nodup) (hk : 2 ≤ med.length)
    (h : (med'.map σ).Perm med) (hu : NoTies (negSil L n d) n med) {maxiter : Nat} {r r' : SwapResult L}
    (hr : pammedsilSwap L mat med maxiter = .ok r) (hr' : pammedsilSwap L mat' med' maxiter = .ok r') :
    (r'.med.map σ).Perm r.med ∧ r'.nSwap = r.nSwap ∧ r'.nIter = r.nIter ∧ r'.loss = r.loss := by
  have hl : med'.length = med.length := by simpa using h.length_eq
  have hnd' := nodup_of_map h hnd
  obtain ⟨h1, h2, h3⟩ := (C87_pammedsil_swap_ascent hm hd hv hnd hk maxiter hr).order hσ hk hv'.range h hu
    (C87_pammedsil_swap_ascent hm' (hd.renumber hσ) hv' hnd' (by omega) maxiter hr')
  exact ⟨h1, h2, h3, C61_msc hσ hm hm' hd hv hv' hnd hnd' hk (by omega) (Or.inr (Or.inr hr)) (Or.inr (Or.inr hr')) h1⟩

/-- **C87, order of objects and medoids, fastmsc.** -/
theorem C87_fastmsc_order [LawfulAdd N L] {n : Nat} {σ : Nat → Nat} (hσ : Renumbering n σ) {d : Nat → Nat → N}
    {mat mat' : Mat N} (hm : IsMatrix mat n d) (hm' : IsMatrix mat' n fun x y => d (σ x) (σ y)) (hd : Dissim n d)
    {med med' : List Nat} (hv : ValidMeds n med) (hv' : ValidMeds n med') (hnd : med.Nodup) (hk : 2 ≤ med.length)
    (h : (med'.map σ).Perm med) (hu : NoTies (negSil L n d) n med) {maxiter : Nat} {r r' : SwapResult L}
    (hr : fastmsc L mat med maxiter = .ok r) (hr' : fastmsc L mat' med' maxiter = .ok r') :
    (r'.med.map σ).Perm r.med ∧ r'.nSwap = r.nSwap ∧ r'.nIter = r.nIter ∧ r'.loss = r.loss := by
  obtain ⟨q, a1, a2, a3, a4, a5⟩ := fastmsc_pammedsil hm hd hv hnd maxiter hr
  obtain ⟨q', b1, b2, b3, b4, b5⟩ :=
    fastmsc_pammedsil hm' (hd.renumber hσ) hv' (nodup_of_map h hnd) maxiter hr'
  rw [a2, a3, a4, a5, b2, b3, b4, b5]
  exact C87_pammedsil_swap_order hσ hm hm' hd hv hv' hnd hk h hu a1 b1

/-- **C87, order of the medoids:** reordering the initial medoids changes nothing but the order of the result. -/
theorem C87_medoid_order [LawfulAdd N L] {n : Nat} {d : Nat → Nat → N} {mat : Mat N} (hm : IsMatrix mat n d)
    (hd : Dissim n d) {med med' : List Nat} (hv : ValidMeds n med) (hnd : med.Nodup) (hk : 2 ≤ med.length)
    (h : med'.Perm med) (hu : NoTies (negSil L n d) n med) {maxiter : Nat} {r r' : SwapResult L}
    (hr : fastmsc L mat med maxiter = .ok r) (hr' : fastmsc L mat med' maxiter = .ok r') :
    r'.med.Perm r.med ∧ r'.nSwap = r.nSwap ∧ r'.nIter = r.nIter ∧ r'.loss = r.loss := by
  have hσ : Renumbering n id := ⟨fun _ h => h, fun _ _ _ _ h => h⟩
  have hv' : ValidMeds n med' := ⟨h.length_eq ▸ hv.sizes, fun m hm => hv.range m (h.mem_iff.mp hm)⟩
  have := C87_fastmsc_order hσ hm (mat' := mat) hm hd hv hv' hnd hk (by simpa using h) hu hr hr'
  simpa using this

/-! ## Examples -/

/-- All pairs of the five objects of C86 also have different medoid silhouettes. -/
theorem ord_noTies_sil {a b : Nat} (ha : a < 5) (hb : b < 5) (hab : a ≠ b) :
    NoTies (negSil ℚ 5 ordD) 5 [a, b] := by
  refine noTies_of_injective (k := 2) ?_ rfl (by simpa using hab) (by
    intro m hm
    simp only [List.mem_cons, List.not_mem_nil, or_false] at hm
    omega)
  intro p q hp hq np nq rp rq e
  obtain ⟨x, y, rfl⟩ := List.length_eq_two.mp hp
  obtain ⟨u, v, rfl⟩ := List.length_eq_two.mp hq
  have key : ∀ x ∈ List.range 5, ∀ y ∈ List.range 5, ∀ u ∈ List.range 5, ∀ v ∈ List.range 5, (x ≠ y ∧ u ≠ v ∧
      negSil ℚ 5 ordD [x, y] = negSil ℚ 5 ordD [u, v]) → (x = u ∧ y = v ∨ x = v ∧ y = u) := by decide +kernel
  rcases key x (List.mem_range.mpr (rp x (by simp))) y (List.mem_range.mpr (rp y (by simp)))
    u (List.mem_range.mpr (rq u (by simp))) v (List.mem_range.mpr (rq v (by simp)))
    ⟨by simpa using np, by simpa using nq, e⟩ with ⟨rfl, rfl⟩ | ⟨rfl, rfl⟩
  · exact List.Perm.refl _
  · exact List.Perm.swap _ _ _

/-- The hypotheses of the theorems are met, and the runs make exchanges. -/
example : Renumbering 5 ordσ ∧ IsMatrix (ofRows ordRows) 5 ordD ∧ Dissim 5 ordD ∧
    IsMatrix (ofRows ordRows') 5 (fun x y => ordD (ordσ x) (ordσ y)) ∧
    NoTies (negSil ℚ 5 ordD) 5 [1, 0] ∧ ([4, 1].map ordσ).Perm [1, 0] ∧
    pammedsilSwap ℚ (ofRows ordRows) [1, 0] 9 = .ok ⟨23 / 30, [0, 0, 0, 1, 0], 2, 1, [1, 3]⟩ ∧
    pammedsilSwap ℚ (ofRows ordRows') [4, 1] 9 = .ok ⟨23 / 30, [0, 1, 1, 1, 1], 2, 1, [0, 1]⟩ ∧
    fastmsc ℚ (ofRows ordRows) [1, 0] 9 = .ok ⟨23 / 30, [0, 0, 0, 1, 0], 2, 1, [1, 3]⟩ ∧
    fastmsc ℚ (ofRows ordRows') [4, 1] 9 = .ok ⟨23 / 30, [0, 1, 1, 1, 1], 2, 1, [0, 1]⟩ :=
  ⟨ordσ_renumbering, ordMat_isMatrix, ordD_dissim, ordMat'_isMatrix,
    ord_noTies_sil (by decide) (by decide) (by decide), List.Perm.swap _ _ _, by decide +kernel, by decide +kernel,
    by decide +kernel, by decide +kernel⟩

theorem ordD_symm : Symm 5 ordD := fun x y hx hy => by
  have : ∀ x < 5, ∀ y < 5, ordD x y = ordD y x := by decide +kernel
  exact this x hx y hy

/-! ## Where the order matters -/

/-- **C87, FasterMSC depends on the order:** there are no ties at all and the matrix is symmetric, but the
renumbered objects end with another silhouette, since FasterMSC takes the first improvement. -/
theorem C87_fastermsc_order_negation :
    ¬ ∀ (n : Nat) (σ : Nat → Nat) (d : Nat → Nat → ℕ) (mat mat' : Mat ℕ) (med med' : List Nat) (maxiter : Nat)
      (r r' : SwapResult ℚ), Renumbering n σ → IsMatrix mat n d → IsMatrix mat' n (fun x y => d (σ x) (σ y)) →
      Dissim n d → Symm n d → ValidMeds n med → ValidMeds n med' → med.Nodup → 2 ≤ med.length →
      (med'.map σ).Perm med → NoTies (negSil ℚ n d) n med → fastermsc ℚ mat med maxiter = .ok r →
      fastermsc ℚ mat' med' maxiter = .ok r' → r'.loss = r.loss := by
  intro h
  have := h 5 ordσ ordD (ofRows ordRows) (ofRows ordRows') [1, 0] [1, 4] 9 ⟨56 / 75, [1, 0, 0, 0, 1], 2, 1, [2, 0]⟩
    ⟨23 / 30, [1, 0, 0, 0, 0], 2, 1, [1, 0]⟩ ordσ_renumbering ordMat_isMatrix ordMat'_isMatrix ordD_dissim ordD_symm
    ⟨⟨by decide, by decide, by decide, by decide⟩, by decide⟩
    ⟨⟨by decide, by decide, by decide, by decide⟩, by decide⟩ (by decide) (by decide) (List.Perm.refl _)
    (ord_noTies_sil (by decide) (by decide) (by decide)) (by decide +kernel) (by decide +kernel)
  exact absurd this (by decide +kernel)

/-- Five objects with ties. -/
def tiedSilRows : List (List ℕ) :=
  [[0, 2, 2, 2, 1], [2, 0, 2, 2, 2], [2, 2, 0, 1, 3], [2, 2, 1, 0, 1], [1, 2, 3, 1, 0]]

def tiedSilD (x y : Nat) : ℕ := (tiedSilRows.getD x []).getD y 0

def tiedSilσ (x : Nat) : Nat := [3, 2, 4, 0, 1].getD x 0

/-- The same objects in the order `3, 2, 4, 0, 1`. -/
def tiedSilRows' : List (List ℕ) :=
  [[0, 1, 1, 2, 2], [1, 0, 3, 2, 2], [1, 3, 0, 1, 2], [2, 2, 1, 0, 2], [2, 2, 2, 2, 0]]

/-- **C87, with ties FastMSC depends on the order:** the same for `fastmsc` without the assumption on ties. -/
theorem C87_ties_negation :
    ¬ ∀ (n : Nat) (σ : Nat → Nat) (d : Nat → Nat → ℕ) (mat mat' : Mat ℕ) (med med' : List Nat) (maxiter : Nat)
      (r r' : SwapResult ℚ), Renumbering n σ → IsMatrix mat n d → IsMatrix mat' n (fun x y => d (σ x) (σ y)) →
      Dissim n d → Symm n d → ValidMeds n med → ValidMeds n med' → med.Nodup → 2 ≤ med.length →
      (med'.map σ).Perm med → fastmsc ℚ mat med maxiter = .ok r →
      fastmsc ℚ mat' med' maxiter = .ok r' → r'.loss = r.loss := by
  intro h
  have := h 5 tiedSilσ tiedSilD (ofRows tiedSilRows) (ofRows tiedSilRows') [3, 2] [0, 1] 9
    ⟨19 / 30, [0, 1, 1, 1, 0], 2, 1, [0, 2]⟩
    ⟨2 / 3, [1, 0, 1, 1, 0], 3, 2, [4, 2]⟩
    ⟨by decide +kernel, fun i j hi hj => by
      have : ∀ i < 5, ∀ j < 5, tiedSilσ i = tiedSilσ j → i = j := by decide +kernel
      exact this i hi j hj⟩
    ⟨rfl, rfl, fun x y hx hy => by
      have : ∀ x < 5, ∀ y < 5, (ofRows tiedSilRows).get x y = .ok (tiedSilD x y) := by decide +kernel
      exact this x hx y hy⟩
    ⟨rfl, rfl, fun x y hx hy => by
      have : ∀ x < 5, ∀ y < 5, (ofRows tiedSilRows').get x y = .ok (tiedSilD (tiedSilσ x) (tiedSilσ y)) := by
        decide +kernel
      exact this x hx y hy⟩
    ⟨by decide +kernel, fun _ _ _ _ => Nat.zero_le _⟩
    (fun x y hx hy => by
      have : ∀ x < 5, ∀ y < 5, tiedSilD x y = tiedSilD y x := by decide +kernel
      exact this x hx y hy)
    ⟨⟨by decide, by decide, by decide, by decide⟩, by decide⟩
    ⟨⟨by decide, by decide, by decide, by decide⟩, by decide⟩ (by decide) (by decide) (List.Perm.refl _)
    (by decide +kernel) (by decide +kernel)
  exact absurd this (by decide +kernel)

/-- Five objects without ties. -/
def skipRows : List (List ℕ) :=
  [[0, 9, 14, 14, 6], [9, 0, 13, 2, 8], [14, 13, 0, 8, 5], [14, 2, 8, 0, 1], [6, 8, 5, 1, 0]]

def skipD (x y : Nat) : ℕ := (skipRows.getD x []).getD y 0

/-- Objects 0 and 1 change places. -/
def skipσ (x : Nat) : Nat := [1, 0, 2, 3, 4].getD x 0

def skipRows' : List (List ℕ) :=
  [[0, 9, 13, 2, 8], [9, 0, 14, 14, 6], [13, 14, 0, 8, 5], [2, 14, 8, 0, 1], [8, 6, 5, 1, 0]]

theorem skip_noTies : NoTies (negSil ℚ 5 skipD) 5 [4, 1] := by
  refine noTies_of_injective (k := 2) ?_ rfl (by decide) (by decide)
  intro p q hp hq np nq rp rq e
  obtain ⟨x, y, rfl⟩ := List.length_eq_two.mp hp
  obtain ⟨u, v, rfl⟩ := List.length_eq_two.mp hq
  have key : ∀ x ∈ List.range 5, ∀ y ∈ List.range 5, ∀ u ∈ List.range 5, ∀ v ∈ List.range 5, (x ≠ y ∧ u ≠ v ∧
      negSil ℚ 5 skipD [x, y] = negSil ℚ 5 skipD [u, v]) → (x = u ∧ y = v ∨ x = v ∧ y = u) := by decide +kernel
  rcases key x (List.mem_range.mpr (rp x (by simp))) y (List.mem_range.mpr (rp y (by simp)))
    u (List.mem_range.mpr (rq u (by simp))) v (List.mem_range.mpr (rq v (by simp)))
    ⟨by simpa using np, by simpa using nq, e⟩ with ⟨rfl, rfl⟩ | ⟨rfl, rfl⟩
  · exact List.Perm.refl _
  · exact List.Perm.swap _ _ _

theorem skip_uniqueGreedy : UniqueGreedy (totalDev (conv : ℕ → ℚ) 5 skipD) 5 [4, 1] := by
  intro l c hl x hx
  match l, hl with
  | 0, hl =>
    cases hl
    have : ∀ x < 5, totalDev (conv : ℕ → ℚ) 5 skipD [x] ≤ totalDev (conv : ℕ → ℚ) 5 skipD [4] → x = 4 := by
      decide +kernel
    exact this x hx
  | 1, hl =>
    cases hl
    have : ∀ x < 5, totalDev (conv : ℕ → ℚ) 5 skipD [4, x] ≤ totalDev (conv : ℕ → ℚ) 5 skipD [4, 1] → x = 1 := by
      decide +kernel
    exact this x hx
  | l + 2, hl => simp at hl

/-- **C87, `pammedsil` depends on the order of the objects:** the analogue of `C86_pam_order` is false. All choices
of BUILD and all exchanges are unique, and the matrix is symmetric, but exchanging objects 0 and 1 changes the result:
BUILD cannot choose the best second medoid once that is object 0. -/
theorem C87_pammedsil_order_negation :
    ¬ ∀ (n k : Nat) (σ : Nat → Nat) (d : Nat → Nat → ℕ) (mat mat' : Mat ℕ) (meds : List Nat)
      (maxiter : Nat) (r r' : SwapResult ℚ), Renumbering n σ →
      IsMatrix mat n d → IsMatrix mat' n (fun x y => d (σ x) (σ y)) → Dissim n d → Symm n d → Sizes n k →
      (pammedsilBuildInitialize ℚ mat k).map (fun p => p.1) = .ok meds → 2 ≤ meds.length →
      UniqueGreedy (totalDev (conv : ℕ → ℚ) n d) n meds → NoTies (negSil ℚ n d) n meds →
      pammedsil ℚ mat k maxiter = .ok r → pammedsil ℚ mat' k maxiter = .ok r' → r'.loss = r.loss := by
  intro h
  have := h 5 2 skipσ skipD (ofRows skipRows) (ofRows skipRows') [4, 1]
    9 ⟨2789 / 3640, [0, 0, 1, 0, 0], 2, 1, [4, 2]⟩ ⟨509 / 630, [1, 0, 1, 1, 1], 2, 1, [1, 3]⟩
    ⟨by decide +kernel, fun i j hi hj => by
      have : ∀ i < 5, ∀ j < 5, skipσ i = skipσ j → i = j := by decide +kernel
      exact this i hi j hj⟩
    ⟨rfl, rfl, fun x y hx hy => by
      have : ∀ x < 5, ∀ y < 5, (ofRows skipRows).get x y = .ok (skipD x y) := by decide +kernel
      exact this x hx y hy⟩
    ⟨rfl, rfl, fun x y hx hy => by
      have : ∀ x < 5, ∀ y < 5, (ofRows skipRows').get x y = .ok (skipD (skipσ x) (skipσ y)) := by
        decide +kernel
      exact this x hx y hy⟩
    ⟨by decide +kernel, fun _ _ _ _ => Nat.zero_le _⟩
    (fun x y hx hy => by
      have : ∀ x < 5, ∀ y < 5, skipD x y = skipD y x := by decide +kernel
      exact this x hx y hy)
    ⟨by decide, by decide, by decide, by decide⟩ (by decide +kernel) (by decide) skip_uniqueGreedy skip_noTies
    (by decide +kernel) (by decide +kernel)
  exact absurd this (by decide +kernel)

end KMedoids
