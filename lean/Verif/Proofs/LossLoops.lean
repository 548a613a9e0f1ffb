import Verif.Proofs.Loss
import Verif.Proofs.Chain

/-!
# Exact behaviour of the optimisation loops

Level 3: exact loss arithmetic.
-/

set_option linter.unusedSectionVars false

namespace KMedoids

open RFrom (conv)

variable {N L : Type} [LinearOrder N] [Zero N] [RDist N] [LawfulDist N]
variable [AddCommGroup L] [LinearOrder L] [IsOrderedAddMonoid L] [RLoss L] [LawfulLoss L]
variable [RFrom N L] [LawfulFrom N L]

theorem minDist_toFinset {d : Nat → Nat → N} {o : Nat} {x y : List Nat}
    (h : x.toFinset = y.toFinset) : minDist d o x = minDist d o y := by
  have hm : ∀ c, c ∈ x ↔ c ∈ y := fun c => by
    rw [← List.mem_toFinset, h, List.mem_toFinset]
  by_cases hx : x = []
  · have : y = [] := by
      rw [List.eq_nil_iff_forall_not_mem]; intro c hc; have := (hm c).mpr hc; simp [hx] at this
    rw [hx, this]
  · obtain ⟨⟨c, hc, e⟩, h2⟩ := minDist_spec d o x hx
    rw [e]
    exact (minDist_eq ((hm c).mp hc) fun c' hc' => e ▸ h2 c' ((hm c').mpr hc')).symm

theorem totalDev_toFinset {n : Nat} {d : Nat → Nat → N} {x y : List Nat}
    (h : x.toFinset = y.toFinset) : totalDev (conv : N → L) n d x = totalDev (conv : N → L) n d y := by
  unfold totalDev
  congr 1
  exact List.map_congr_left fun o _ => by rw [minDist_toFinset h]

/-- No exchange with `x` improves, or `x` is a medoid. -/
def Settled (T : List Nat → L) (x : Nat) (med : List Nat) : Prop :=
  x ∈ med ∨ ∀ m, m < med.length → T med ≤ T (med.set m x)

theorem swapOptimal_of_settled {n : Nat} {d : Nat → Nat → N} {med : List Nat}
    (h : ∀ x, x < n → Settled (totalDev (conv : N → L) n d) x med) :
    SwapOptimal (conv : N → L) n d med := by
  intro m j hm hj hjm
  rcases h j hj with h | h
  · exact absurd h hjm
  · exact h m hm

/-! ## FasterPAM -/

/-- Exact invariant of FasterPAM. -/
structure FPEx (n k : Nat) (d : Nat → Nat → N) (s : FPState N L) : Prop extends FPOk n k d s where
  rem : s.rem = remP L s.data k
  loss : s.loss = totalDev (conv : N → L) n d s.med

theorem fpSwapP_ex {n k : Nat} {d : Nat → Nat → N} (hd : Dissim n d) {s : FPState N L}
    (hs : FPEx n k d s) {b j : Nat} (hb : b < k) (hj : j < n) (hjm : j ∉ s.med) :
    FPEx n k d (fpSwapP d s b j) := by
  have h := fpSwapP_ok hd hs.toFPOk hb hj hjm
  refine ⟨h, ?_, ?_⟩
  · simp [fpSwapP, hs.remLen]
  · refine swapSumP_eq hd h.cache ?_
    have hb' : b < s.med.length := hs.medLen ▸ hb
    exact List.mem_of_getElem? (i := b) (by simp [fpSwapP, hb'])

/-- What happens at one candidate. -/
theorem fp_candidate {n k : Nat} {d : Nat → Nat → N} {s : FPState N L} (hs : FPEx n k d s) (hk : 1 ≤ k)
    {j : Nat} (hj : j < n) (hown : ownP s.med s.data j = false) :
    j ∉ s.med ∧
    ((rge (fbsP d s.rem s.data j).1 RLoss.zero = true ∧
      Settled (totalDev (conv : N → L) n d) j s.med) ∨
    (rge (fbsP d s.rem s.data j).1 RLoss.zero = false ∧ (fbsP d s.rem s.data j).2 < k ∧
      totalDev (conv : N → L) n d (s.med.set (fbsP d s.rem s.data j).2 j) <
        totalDev (conv : N → L) n d s.med)) := by
  have hjm : j ∉ s.med := fun h => by
    have := (ownP_iff hs.cache hj).mpr h; simp [hown] at this
  have hrem : s.rem = remP L s.data s.med.length := by rw [hs.medLen]; exact hs.rem
  obtain ⟨f1, f2, f3, -⟩ := fbsP_spec hs.cache (by rw [hs.medLen]; exact hk) hrem j
  refine ⟨hjm, ?_⟩
  rw [rgeL, zeroL]
  by_cases hc : 0 ≤ (fbsP d s.rem s.data j).1
  · left
    refine ⟨by simp [hc], Or.inr fun m hm => ?_⟩
    have := le_trans hc (f3 m hm)
    rw [changeP_eq hs.cache hm] at this
    exact sub_nonneg.mp this
  · right
    refine ⟨by simp [hc], hs.medLen ▸ f1, ?_⟩
    rw [f2, changeP_eq hs.cache f1] at hc
    exact sub_neg.mp (not_le.mp hc)

theorem fpPassP_ex {n k : Nat} {d : Nat → Nat → N} (hd : Dissim n d) (hk : 1 ≤ k) {js : List Nat}
    (hjs : ∀ j ∈ js, j < n) {s : FPState N L} (hs : FPEx n k d s) :
    FPEx n k d (fpPassP d js s) ∧ ∃ c, (fpPassP d js s).nSwaps = s.nSwaps + c ∧
      SwapChain (totalDev (conv : N → L) n d) n c s.med (fpPassP d js s).med := by
  induction js generalizing s with
  | nil => exact ⟨hs, 0, rfl, .refl _⟩
  | cons j js ih =>
    have hj : j < n := hjs j (by simp)
    have ih' := fun {s : FPState N L} (h : FPEx n k d s) => ih (fun j hj => hjs j (by simp [hj])) h
    unfold fpPassP
    by_cases h1 : j = s.lastswap
    · simp only [h1, if_true]; exact ⟨hs, 0, rfl, .refl _⟩
    · simp only [h1, if_false]
      by_cases h2 : ownP s.med s.data j = true
      · simp only [h2, if_true]; exact ih' hs
      · have h2 : ownP s.med s.data j = false := by simpa using h2
        simp only [h2, Bool.false_eq_true, if_false]
        obtain ⟨hjm, ⟨h3, -⟩ | ⟨h3, h4, h5⟩⟩ := fp_candidate hs hk hj h2
        · simp only [h3, if_true]; exact ih' hs
        · simp only [h3, Bool.false_eq_true, if_false]
          obtain ⟨i1, c, i2, i3⟩ := ih' (fpSwapP_ex hd hs h4 hj hjm)
          refine ⟨i1, 1 + c, ?_, ?_⟩
          · rw [i2]; simp [fpSwapP]; omega
          · refine SwapChain.trans ?_ i3
            exact .step (.refl _) _ _ (hs.medLen ▸ h4) hj hjm h5

/-- All objects after the last exchange in the visiting order are settled. -/
def Hist (n : Nat) (d : Nat → Nat → N) (seq : List Nat) (s : FPState N L) : Prop :=
  s.lastswap ∉ seq ∨ ∃ pre post, seq = pre ++ s.lastswap :: post ∧ s.lastswap ∈ s.med ∧
    ∀ x ∈ post, Settled (totalDev (conv : N → L) n d) x s.med

/-- Rest of a pass after an exchange happened in it. -/
theorem fpPassP_after {n k : Nat} {d : Nat → Nat → N} (hd : Dissim n d) (hk : 1 ≤ k) {seq : List Nat}
    (hseq : ∀ j ∈ seq, j < n) (hnd : seq.Nodup) {pre post js : List Nat} {s : FPState N L}
    (hs : FPEx n k d s) (hsplit : seq = (pre ++ s.lastswap :: post) ++ js) (hmed : s.lastswap ∈ s.med)
    (hpost : ∀ x ∈ post, Settled (totalDev (conv : N → L) n d) x s.med) :
    Hist n d seq (fpPassP d js s) := by
  induction js generalizing s pre post with
  | nil => right; exact ⟨pre, post, by simpa [fpPassP] using hsplit, hmed, hpost⟩
  | cons j js ih =>
    have hj : j < n := hseq j (by rw [hsplit]; simp)
    have h1 : j ≠ s.lastswap := by
      intro h
      rw [hsplit, List.nodup_append] at hnd
      exact hnd.2.2 s.lastswap (by simp) j (by simp) h.symm
    have hsplit' : seq = (pre ++ s.lastswap :: (post ++ [j])) ++ js := by rw [hsplit]; simp
    unfold fpPassP
    simp only [h1, if_false]
    by_cases h2 : ownP s.med s.data j = true
    · simp only [h2, if_true]
      refine ih hs hsplit' hmed fun x hx => ?_
      rcases List.mem_append.mp hx with hx | hx
      · exact hpost x hx
      · rw [List.mem_singleton.mp hx]; exact Or.inl ((ownP_iff hs.cache hj).mp h2)
    · have h2 : ownP s.med s.data j = false := by simpa using h2
      simp only [h2, Bool.false_eq_true, if_false]
      obtain ⟨hjm, ⟨h3, hset⟩ | ⟨h3, h4, h5⟩⟩ := fp_candidate hs hk hj h2
      · simp only [h3, if_true]
        refine ih hs hsplit' hmed fun x hx => ?_
        rcases List.mem_append.mp hx with hx | hx
        · exact hpost x hx
        · rw [List.mem_singleton.mp hx]; exact hset
      · simp only [h3, Bool.false_eq_true, if_false]
        have h4' : (fbsP d s.rem s.data j).2 < s.med.length := hs.medLen ▸ h4
        exact ih (s := fpSwapP d s (fbsP d s.rem s.data j).2 j)
          (pre := pre ++ s.lastswap :: post) (post := []) (fpSwapP_ex hd hs h4 hj hjm)
          (by rw [hsplit]; simp [fpSwapP])
          (List.mem_of_getElem? (i := (fbsP d s.rem s.data j).2) (by simp [fpSwapP, h4']))
          (by simp)

theorem split_unique {α : Type} {a b c e : List α} {x : α} (h : a ++ x :: b = c ++ x :: e)
    (hnd : (a ++ x :: b).Nodup) : b = e := by
  induction a generalizing c with
  | nil =>
    cases c with
    | nil => simpa using h
    | cons y c =>
      simp only [List.nil_append, List.cons_append, List.cons.injEq] at h
      obtain ⟨rfl, h⟩ := h
      rw [h] at hnd
      simp at hnd
  | cons y a ih =>
    cases c with
    | nil =>
      simp only [List.nil_append, List.cons_append, List.cons.injEq] at h
      obtain ⟨rfl, h⟩ := h
      simp at hnd
    | cons z c =>
      simp only [List.cons_append, List.cons.injEq] at h
      exact ih h.2 (by simpa using (List.nodup_cons.mp hnd).2)

/-- A pass either changes nothing and settles all objects, or performs an exchange. -/
theorem fpPassP_pass {n k : Nat} {d : Nat → Nat → N} (hd : Dissim n d) (hk : 1 ≤ k) {seq : List Nat}
    (hseq : ∀ j ∈ seq, j < n) (hnd : seq.Nodup) {done js : List Nat} {s : FPState N L}
    (hs : FPEx n k d s) (hsplit : seq = done ++ js) (hh : Hist n d seq s)
    (hdone : ∀ x ∈ done, Settled (totalDev (conv : N → L) n d) x s.med) :
    (fpPassP d js s = s ∧ ∀ x ∈ seq, Settled (totalDev (conv : N → L) n d) x s.med) ∨
    (s.nSwaps < (fpPassP d js s).nSwaps ∧ Hist n d seq (fpPassP d js s)) := by
  induction js generalizing done with
  | nil => left; exact ⟨rfl, by rw [hsplit]; simpa using hdone⟩
  | cons j js ih =>
    have hj : j < n := hseq j (by rw [hsplit]; simp)
    have hsplit' : seq = (done ++ [j]) ++ js := by rw [hsplit]; simp
    unfold fpPassP
    by_cases h1 : j = s.lastswap
    · simp only [h1, if_true]
      left
      refine ⟨trivial, ?_⟩
      rcases hh with hh | ⟨pre, post, e, hmed, hpost⟩
      · exact absurd (by rw [hsplit, ← h1]; simp) hh
      · have hpj : post = js := by
          rw [← h1] at e
          exact split_unique (e ▸ hsplit) (e ▸ hnd)
        subst hpj
        intro x hx
        rw [hsplit] at hx
        rcases List.mem_append.mp hx with hx | hx
        · exact hdone x hx
        · rcases List.mem_cons.mp hx with rfl | hx
          · exact Or.inl (h1 ▸ hmed)
          · exact hpost x hx
    · simp only [h1, if_false]
      have hnext : Settled (totalDev (conv : N → L) n d) j s.med → ∀ x ∈ done ++ [j],
          Settled (totalDev (conv : N → L) n d) x s.med := by
        intro h x hx
        rcases List.mem_append.mp hx with hx | hx
        · exact hdone x hx
        · rw [List.mem_singleton.mp hx]; exact h
      by_cases h2 : ownP s.med s.data j = true
      · simp only [h2, if_true]
        exact ih hsplit' (hnext (Or.inl ((ownP_iff hs.cache hj).mp h2)))
      · have h2 : ownP s.med s.data j = false := by simpa using h2
        simp only [h2, Bool.false_eq_true, if_false]
        obtain ⟨hjm, ⟨h3, hset⟩ | ⟨h3, h4, h5⟩⟩ := fp_candidate hs hk hj h2
        · simp only [h3, if_true]
          exact ih hsplit' (hnext hset)
        · simp only [h3, Bool.false_eq_true, if_false]
          right
          have hs' := fpSwapP_ex hd hs h4 hj hjm
          have h4' : (fbsP d s.rem s.data j).2 < s.med.length := hs.medLen ▸ h4
          refine ⟨?_, ?_⟩
          · obtain ⟨-, c, e, -⟩ := fpPassP_ex hd hk (js := js)
              (fun x hx => hseq x (by rw [hsplit]; simp [hx])) hs'
            rw [e]; simp only [fpSwapP]; omega
          · exact fpPassP_after hd hk hseq hnd hs' (pre := done) (post := [])
              (by rw [hsplit]; simp [fpSwapP])
              (List.mem_of_getElem? (i := (fbsP d s.rem s.data j).2) (by simp [fpSwapP, h4']))
              (by simp)

/-- The whole loop. -/
theorem fpLoopP_ex {n k : Nat} {d : Nat → Nat → N} (hd : Dissim n d) (hk : 1 ≤ k) {seq : List Nat}
    (hseq : ∀ j ∈ seq, j < n) {fuel iter : Nat} {s : FPState N L} (hs : FPEx n k d s) :
    FPEx n k d (fpLoopP d seq fuel iter s).1 ∧ ∃ c, (fpLoopP d seq fuel iter s).1.nSwaps = s.nSwaps + c ∧
      SwapChain (totalDev (conv : N → L) n d) n c s.med (fpLoopP d seq fuel iter s).1.med ∧
      (fpLoopP d seq fuel iter s).2 ≤ iter + c + 1 := by
  induction fuel generalizing iter s with
  | zero => exact ⟨hs, 0, rfl, .refl _, by simp [fpLoopP]⟩
  | succ fuel ih =>
    obtain ⟨h1, c, h2, h3⟩ := fpPassP_ex hd hk hseq hs
    unfold fpLoopP
    dsimp only
    split
    · exact ⟨h1, c, h2, h3, by dsimp only; omega⟩
    · rename_i hc
      obtain ⟨i1, c', i2, i3, i4⟩ := ih (iter := iter + 1) h1
      refine ⟨i1, c + c', by omega, h3.trans i3, ?_⟩
      have : c ≠ 0 := by
        rintro rfl; simp [h2] at hc
      omega

/-- Converged runs end in a state in which every visited object is settled. -/
theorem fpLoopP_converged {n k : Nat} {d : Nat → Nat → N} (hd : Dissim n d) (hk : 1 ≤ k)
    {seq : List Nat} (hseq : ∀ j ∈ seq, j < n) (hnd : seq.Nodup) {fuel iter : Nat} {s : FPState N L}
    (hs : FPEx n k d s) (hh : Hist n d seq s)
    (hconv : (fpLoopP d seq fuel iter s).2 < iter + fuel) :
    ∀ x ∈ seq, Settled (totalDev (conv : N → L) n d) x (fpLoopP d seq fuel iter s).1.med := by
  induction fuel generalizing iter s with
  | zero => simp [fpLoopP] at hconv
  | succ fuel ih =>
    obtain ⟨h1, c, h2, h3⟩ := fpPassP_ex hd hk hseq hs
    rcases fpPassP_pass hd hk hseq hnd hs (done := []) (js := seq) rfl hh (by simp) with
      ⟨e, hset⟩ | ⟨hlt, hh'⟩
    · unfold fpLoopP
      simp only [e, beq_self_eq_true, Bool.true_or, if_true]
      exact hset
    · have hdec : (fpPassP d seq s).loss < s.loss := by
        rw [h1.loss, hs.loss]; exact h3.lt (by omega)
      have hcond : ((fpPassP d seq s).nSwaps == s.nSwaps || rge (fpPassP d seq s).loss s.loss) = false := by
        rw [rgeL]
        simp only [Bool.or_eq_false_iff, beq_eq_false_iff_ne, decide_eq_false_iff_not, not_le]
        exact ⟨by omega, hdec⟩
      unfold fpLoopP at hconv ⊢
      simp only [hcond, Bool.false_eq_true, if_false] at hconv ⊢
      exact ih h1 hh' (by omega)

theorem fpInitP_ex {n : Nat} {d : Nat → Nat → N} (hd : Dissim n d) {med : List Nat}
    (hv : ValidMeds n med) (hk : 2 ≤ med.length) (hnd : med.Nodup) :
    FPEx n med.length d (fpInitP L d n med) :=
  ⟨fpInitP_ok hd hv hk hnd, rfl, nearLossP_eq (initDataP_ok hd hk hv hnd)⟩

/-- If every object is settled, nothing happens. -/
theorem fpPassP_settled {n k : Nat} {d : Nat → Nat → N} (hk : 1 ≤ k) {js : List Nat}
    (hjs : ∀ j ∈ js, j < n) {s : FPState N L} (hs : FPEx n k d s)
    (hset : ∀ x ∈ js, Settled (totalDev (conv : N → L) n d) x s.med) : fpPassP d js s = s := by
  induction js with
  | nil => rfl
  | cons j js ih =>
    have hj : j < n := hjs j (by simp)
    have ih' := ih (fun j hj => hjs j (by simp [hj])) (fun x hx => hset x (by simp [hx]))
    unfold fpPassP
    by_cases h1 : j = s.lastswap
    · simp only [h1, if_true]
    · simp only [h1, if_false]
      by_cases h2 : ownP s.med s.data j = true
      · simp only [h2, if_true]; exact ih'
      · have h2 : ownP s.med s.data j = false := by simpa using h2
        simp only [h2, Bool.false_eq_true, if_false]
        obtain ⟨hjm, ⟨h3, -⟩ | ⟨h3, h4, h5⟩⟩ := fp_candidate hs hk hj h2
        · simp only [h3, if_true]; exact ih'
        · rcases hset j (by simp) with h | h
          · exact absurd h hjm
          · exact absurd (h _ (hs.medLen ▸ h4)) (not_le.mpr h5)

/-! ## PAM and FastPAM1 -/

/-- The scan finds the best exchange. -/
structure ScanBest (n : Nat) (d : Nat → Nat → N) (med : List Nat) (data : List (Rec N))
    (best : L × Nat × Nat) : Prop where
  nonpos : best.1 ≤ 0
  bound : ∀ m j, m < med.length → j < n → j ∉ med → best.1 ≤ changeP L d data m j
  attained : best.1 < 0 → best.2.1 < med.length ∧ best.2.2 < n ∧ best.2.2 ∉ med ∧
    best.1 = changeP L d data best.2.1 best.2.2

/-- A candidate function that returns the best medoid to exchange, or something non-negative. -/
structure FbsBest (k : Nat) (chg : Nat → Nat → L) (fbs : Nat → L × Nat) (j : Nat) : Prop where
  bound : ∀ m, m < k → (fbs j).1 ≤ chg m j ∨ 0 ≤ chg m j
  attained : (fbs j).1 < 0 → (fbs j).2 < k ∧ (fbs j).1 = chg (fbs j).2 j

theorem scan_best {n : Nat} {d : Nat → Nat → N} {med : List Nat} {data : List (Rec N)}
    (hc : CacheOk n d med data) (fbs : Nat → L × Nat)
    (hfbs : ∀ j, j < n → j ∉ med → FbsBest med.length (changeP L d data) fbs j) (b0 : Nat × Nat) :
    ScanBest n d med data
      ((List.range n).foldl (scanStepP fbs (ownP med data)) ((RLoss.zero : L), b0)) := by
  have hg : ∀ js : List Nat, (∀ j ∈ js, j < n) →
      let best := js.foldl (scanStepP fbs (ownP med data)) ((RLoss.zero : L), b0)
      best.1 ≤ 0 ∧ (∀ m j, m < med.length → j ∈ js → j ∉ med → best.1 ≤ changeP L d data m j) ∧
      (best.1 < 0 → best.2.1 < med.length ∧ best.2.2 < n ∧ best.2.2 ∉ med ∧
        best.1 = changeP L d data best.2.1 best.2.2) := by
    intro js
    induction js using List.reverseRecOn with
    | nil => intro _; simp [zeroL]
    | append_singleton js j ih =>
      intro hjs
      obtain ⟨i1, i2, i3⟩ := ih (fun x hx => hjs x (by simp [hx]))
      have hj : j < n := hjs j (by simp)
      rw [List.foldl_append, List.foldl_cons, List.foldl_nil]
      generalize js.foldl (scanStepP fbs (ownP med data)) ((RLoss.zero : L), b0) = best at *
      unfold scanStepP
      by_cases hown : ownP med data j = true
      · simp only [hown, if_true]
        refine ⟨i1, fun m x hm hx hxm => ?_, i3⟩
        rcases List.mem_append.mp hx with hx | hx
        · exact i2 m x hm hx hxm
        · rw [List.mem_singleton.mp hx] at hxm
          exact absurd ((ownP_iff hc hj).mp hown) hxm
      · have hjm : j ∉ med := fun h => hown ((ownP_iff hc hj).mpr h)
        obtain ⟨f1, f2⟩ := hfbs j hj hjm
        have hown : ownP med data j = false := by simpa using hown
        simp only [hown, Bool.false_eq_true, if_false, rgeL]
        by_cases hle : best.1 ≤ (fbs j).1
        · simp only [hle, decide_true, if_true]
          refine ⟨i1, fun m x hm hx hxm => ?_, i3⟩
          rcases List.mem_append.mp hx with hx | hx
          · exact i2 m x hm hx hxm
          · rw [List.mem_singleton.mp hx]
            rcases f1 m hm with h | h
            · exact le_trans hle h
            · exact le_trans i1 h
        · simp only [hle, decide_false, Bool.false_eq_true, if_false]
          have hlt := not_le.mp hle
          have hneg : (fbs j).1 < 0 := lt_of_lt_of_le hlt i1
          refine ⟨le_of_lt hneg, fun m x hm hx hxm => ?_, fun _ => ⟨(f2 hneg).1, hj, hjm, (f2 hneg).2⟩⟩
          rcases List.mem_append.mp hx with hx | hx
          · exact le_of_lt (lt_of_lt_of_le hlt (i2 m x hm hx hxm))
          · rw [List.mem_singleton.mp hx]
            rcases f1 m hm with h | h
            · exact h
            · exact le_trans (le_of_lt hneg) h
  obtain ⟨g1, g2, g3⟩ := hg (List.range n) (fun j hj => List.mem_range.mp hj)
  exact ⟨g1, fun m j hm hj hjm => g2 m j hm (List.mem_range.mpr hj) hjm, g3⟩

theorem fastFbs_best {n : Nat} {d : Nat → Nat → N} {med : List Nat} {data : List (Rec N)}
    (hc : CacheOk n d med data) (hk : 1 ≤ med.length) (j : Nat) :
    FbsBest med.length (changeP L d data) (fbsP d (remP L data med.length) data) j := by
  obtain ⟨f1, f2, f3, -⟩ := fbsP_spec (L := L) hc hk rfl j
  exact ⟨fun m hm => Or.inl (f3 m hm), fun _ => ⟨f1, f2⟩⟩

/-- PAM's candidate function: the first best medoid if it improves, else `(0, usize::MAX)`. -/
theorem pamFbsP_spec {n : Nat} {d : Nat → Nat → N} (hd : Dissim n d) {med : List Nat}
    {data : List (Rec N)} (hc : CacheOk n d med data) {j : Nat} (hj : j < n) :
    (pamFbsP L d med.length data j).1 ≤ 0 ∧
    (∀ m, m < med.length → (pamFbsP L d med.length data j).1 ≤ changeP L d data m j) ∧
    ((pamFbsP L d med.length data j).1 < 0 → (pamFbsP L d med.length data j).2 < med.length ∧
      (pamFbsP L d med.length data j).1 = changeP L d data (pamFbsP L d med.length data j).2 j ∧
      ∀ m, m < (pamFbsP L d med.length data j).2 →
        (pamFbsP L d med.length data j).1 < changeP L d data m j) := by
  have hg : ∀ k : Nat, (pamFbsP L d k data j).1 ≤ 0 ∧
      (∀ m, m < k → (pamFbsP L d k data j).1 ≤ changeP L d data m j) ∧
      ((pamFbsP L d k data j).1 < 0 → (pamFbsP L d k data j).2 < k ∧
        (pamFbsP L d k data j).1 = changeP L d data (pamFbsP L d k data j).2 j ∧
        ∀ m, m < (pamFbsP L d k data j).2 → (pamFbsP L d k data j).1 < changeP L d data m j) := by
    intro k
    induction k with
    | zero => simp [pamFbsP, zeroL]
    | succ k ih =>
      obtain ⟨i1, i2, i3⟩ := ih
      have hstep : pamFbsP L d (k + 1) data j = if changeP L d data k j < (pamFbsP L d k data j).1 then
          (changeP L d data k j, k) else pamFbsP L d k data j := by
        simp only [pamFbsP, List.range_succ, List.foldl_append, List.foldl_cons, List.foldl_nil,
          pamChangeP_eq hd hc k hj, rltL, decide_eq_true_eq]
      rw [hstep]
      split
      · rename_i hlt
        have hneg : changeP L d data k j < 0 := lt_of_lt_of_le hlt i1
        refine ⟨le_of_lt hneg, fun m hm => ?_, fun _ => ⟨by simp, rfl, fun m hm => ?_⟩⟩
        · by_cases hmk : m = k
          · rw [hmk]
          · exact le_of_lt (lt_of_lt_of_le hlt (i2 m (by omega)))
        · exact lt_of_lt_of_le hlt (i2 m hm)
      · rename_i hlt
        refine ⟨i1, fun m hm => ?_, fun h => ⟨by have := (i3 h).1; omega, (i3 h).2⟩⟩
        by_cases hmk : m = k
        · rw [hmk]; exact not_lt.mp hlt
        · exact i2 m (by omega)
  exact hg med.length

theorem pamFbs_best {n : Nat} {d : Nat → Nat → N} (hd : Dissim n d) {med : List Nat}
    {data : List (Rec N)} (hc : CacheOk n d med data) {j : Nat} (hj : j < n) :
    FbsBest med.length (changeP L d data) (pamFbsP L d med.length data) j := by
  obtain ⟨-, f2, f3⟩ := pamFbsP_spec (L := L) hd hc hj
  exact ⟨fun m hm => Or.inl (f2 m hm), fun h => ⟨(f3 h).1, (f3 h).2.1⟩⟩

theorem fastScanP_best {n : Nat} {d : Nat → Nat → N} {med : List Nat} {data : List (Rec N)}
    (hc : CacheOk n d med data) (hk : 1 ≤ med.length) :
    ScanBest n d med data (fastScanP (L := L) d n med.length med data) :=
  scan_best hc _ (fun j _ _ => fastFbs_best hc hk j) _

theorem pamScanP_best {n : Nat} {d : Nat → Nat → N} (hd : Dissim n d) {med : List Nat}
    {data : List (Rec N)} (hc : CacheOk n d med data) :
    ScanBest n d med data (pamScanP (L := L) d n med.length med data) :=
  scan_best hc _ (fun _ hj _ => pamFbs_best hd hc hj) _

/-- Both scans return the same exchange, unless none improves. -/
theorem scans_agree {n : Nat} {d : Nat → Nat → N} (hd : Dissim n d) {med : List Nat}
    {data : List (Rec N)} (hc : CacheOk n d med data) (hk : 1 ≤ med.length) :
    (fastScanP (L := L) d n med.length med data).1 = (pamScanP (L := L) d n med.length med data).1 ∧
    ((pamScanP (L := L) d n med.length med data).1 < 0 →
      fastScanP (L := L) d n med.length med data = pamScanP (L := L) d n med.length med data) := by
  unfold fastScanP pamScanP
  have hg : ∀ js : List Nat, (∀ j ∈ js, j < n) →
      let a := js.foldl (scanStepP (fbsP d (remP L data med.length) data) (ownP med data))
        ((RLoss.zero : L), usizeMax, usizeMax)
      let b := js.foldl (scanStepP (pamFbsP L d med.length data) (ownP med data))
        ((RLoss.zero : L), med.length, usizeMax)
      a.1 = b.1 ∧ b.1 ≤ 0 ∧ (b.1 < 0 → a = b) := by
    intro js
    induction js using List.reverseRecOn with
    | nil => intro _; simp [zeroL]
    | append_singleton js j ih =>
      intro hjs
      obtain ⟨i1, i2, i3⟩ := ih (fun x hx => hjs x (by simp [hx]))
      have hj : j < n := hjs j (by simp)
      rw [List.foldl_append, List.foldl_cons, List.foldl_nil, List.foldl_append, List.foldl_cons,
        List.foldl_nil]
      generalize js.foldl (scanStepP (fbsP d (remP L data med.length) data) (ownP med data))
        ((RLoss.zero : L), usizeMax, usizeMax) = a at *
      generalize js.foldl (scanStepP (pamFbsP L d med.length data) (ownP med data))
        ((RLoss.zero : L), med.length, usizeMax) = b at *
      unfold scanStepP
      by_cases hown : ownP med data j = true
      · simp only [hown, if_true]; exact ⟨i1, i2, i3⟩
      · have hown : ownP med data j = false := by simpa using hown
        simp only [hown, Bool.false_eq_true, if_false, rgeL, decide_eq_true_eq, i1]
        obtain ⟨f1, f2, f3, f4⟩ := fbsP_spec (L := L) hc hk rfl j
        obtain ⟨p1, p2, p3⟩ := pamFbsP_spec (L := L) hd hc hj
        generalize fbsP d (remP L data med.length) data j = f at *
        generalize pamFbsP L d med.length data j = p at *
        by_cases hneg : f.1 < 0
        · -- both see the same improving exchange
          have hp : p.1 ≤ f.1 := by rw [f2]; exact p2 _ f1
          have hpn : p.1 < 0 := lt_of_le_of_lt hp hneg
          obtain ⟨q1, q2, q3⟩ := p3 hpn
          have hfp : f.1 = p.1 := le_antisymm (by rw [q2]; exact f3 _ q1) hp
          have hidx : f.2 = p.2 := by
            rcases lt_trichotomy f.2 p.2 with h | h | h
            · have := q3 _ h; rw [← f2, hfp] at this; exact absurd this (lt_irrefl _)
            · exact h
            · have := f4 _ h; rw [← q2, hfp] at this; exact absurd this (lt_irrefl _)
          rw [hfp, hidx]
          split
          · exact ⟨i1, i2, i3⟩
          · exact ⟨rfl, p1, fun _ => rfl⟩
        · -- neither sees an improvement
          have hf := not_lt.mp hneg
          have hp0 : p.1 = 0 := by
            by_contra h
            have hlt := lt_of_le_of_ne p1 h
            obtain ⟨q1, q2, q3⟩ := p3 hlt
            have := f3 _ q1
            rw [← q2] at this
            exact absurd (lt_of_le_of_lt this hlt) hneg
          rw [if_pos (le_trans i2 hf), if_pos (by rw [hp0]; exact i2)]
          exact ⟨i1, i2, i3⟩
  obtain ⟨g1, -, g3⟩ := hg (List.range n) (fun j hj => List.mem_range.mp hj)
  exact ⟨g1, g3⟩

/-- The scan of a loop finds best exchanges. -/
def GoodScan (n k : Nat) (d : Nat → Nat → N) (scan : List Nat → List (Rec N) → L × Nat × Nat) : Prop :=
  ∀ med data, CacheOk n d med data → med.length = k → ScanBest n d med data (scan med data)

theorem fastScanP_good {n k : Nat} (hk : 1 ≤ k) (d : Nat → Nat → N) :
    GoodScan n k d (fastScanP (L := L) d n k) := by
  rintro med data hc rfl; exact fastScanP_best hc hk

theorem pamScanP_good {n k : Nat} {d : Nat → Nat → N} (hd : Dissim n d) :
    GoodScan n k d (pamScanP (L := L) d n k) := by
  rintro med data hc rfl; exact pamScanP_best hd hc

/-- Exact invariant of PAM and FastPAM1. -/
structure PEx (n k : Nat) (d : Nat → Nat → N) (s : PState N L) : Prop where
  cache : CacheOk n d s.med s.data
  medLen : s.med.length = k
  loss : s.loss = totalDev (conv : N → L) n d s.med

/-- One iteration of PAM / FastPAM1. -/
theorem pIter {n k : Nat} {d : Nat → Nat → N} (hd : Dissim n d)
    {scan : List Nat → List (Rec N) → L × Nat × Nat} (hscan : GoodScan n k d scan)
    {s : PState N L} (hs : PEx n k d s) (fuel iter : Nat) :
    (SwapOptimal (conv : N → L) n d s.med ∧ pLoopP d scan (fuel + 1) iter s = (s, iter + 1)) ∨
    ∃ b j loss', b < s.med.length ∧ j < n ∧ j ∉ s.med ∧
      totalDev (conv : N → L) n d (s.med.set b j) < totalDev (conv : N → L) n d s.med ∧
      (∀ m x, m < s.med.length → x < n → x ∉ s.med →
        totalDev (conv : N → L) n d (s.med.set b j) ≤ totalDev (conv : N → L) n d (s.med.set m x)) ∧
      PEx n k d (pSwapP d s b j loss') ∧
      pLoopP d scan (fuel + 1) iter s = pLoopP d scan fuel (iter + 1) (pSwapP d s b j loss') := by
  have hb := hscan s.med s.data hs.cache hs.medLen
  by_cases hneg : (scan s.med s.data).1 < 0
  · right
    obtain ⟨h1, h2, h3, h4⟩ := hb.attained hneg
    have hc := swapDataP_ok hd hs.cache h1 h2 h3
    have hjm : (scan s.med s.data).2.2 ∈ s.med.set (scan s.med s.data).2.1 (scan s.med s.data).2.2 :=
      List.mem_of_getElem? (i := (scan s.med s.data).2.1) (by simp [h1])
    have hl := swapSumP_eq (L := L) hd hc hjm
    rw [changeP_eq hs.cache h1] at h4
    have hlt : totalDev (conv : N → L) n d (s.med.set (scan s.med s.data).2.1 (scan s.med s.data).2.2) <
        totalDev (conv : N → L) n d s.med := by rw [h4] at hneg; exact sub_neg.mp hneg
    refine ⟨_, _, swapSumP L (scan s.med s.data).2.2
      (swapDataP d s.med s.data (scan s.med s.data).2.1 (scan s.med s.data).2.2), h1, h2, h3, hlt, ?_, ?_, ?_⟩
    · intro m x hm hx hxm
      have := hb.bound m x hm hx hxm
      rw [h4, changeP_eq hs.cache hm] at this
      exact (sub_le_sub_iff_right _).mp this
    · exact ⟨hc, by simp [pSwapP, hs.medLen], hl⟩
    · have h5 : rge (swapSumP L (scan s.med s.data).2.2
          (swapDataP d s.med s.data (scan s.med s.data).2.1 (scan s.med s.data).2.2)) s.loss = false := by
        rw [rgeL, hl, hs.loss]; simpa using hlt
      conv_lhs => unfold pLoopP
      simp only [rltL, zeroL, hneg, decide_true, if_true, h5, Bool.false_eq_true, if_false]
  · left
    refine ⟨fun m j hm hj hjm => ?_, ?_⟩
    · have := le_trans (not_lt.mp hneg) (hb.bound m j hm hj hjm)
      rw [changeP_eq hs.cache hm] at this
      exact sub_nonneg.mp this
    · conv_lhs => unfold pLoopP
      simp only [rltL, zeroL, hneg, decide_false, Bool.false_eq_true, if_false]

theorem pLoopP_ex {n k : Nat} {d : Nat → Nat → N} (hd : Dissim n d)
    {scan : List Nat → List (Rec N) → L × Nat × Nat} (hscan : GoodScan n k d scan)
    {fuel iter : Nat} {s : PState N L} (hs : PEx n k d s) :
    PEx n k d (pLoopP d scan fuel iter s).1 ∧
    (∃ c, (pLoopP d scan fuel iter s).1.nSwaps = s.nSwaps + c ∧
      SwapChain (totalDev (conv : N → L) n d) n c s.med (pLoopP d scan fuel iter s).1.med ∧
      (pLoopP d scan fuel iter s).2 ≤ iter + c + 1) ∧
    ((pLoopP d scan fuel iter s).2 < iter + fuel →
      SwapOptimal (conv : N → L) n d (pLoopP d scan fuel iter s).1.med) := by
  induction fuel generalizing iter s with
  | zero => exact ⟨hs, ⟨0, rfl, .refl _, by simp [pLoopP]⟩, by simp [pLoopP]⟩
  | succ fuel ih =>
    rcases pIter hd hscan hs fuel iter with ⟨h1, h2⟩ | ⟨b, j, loss', h1, h2, h3, h4, -, h6, h7⟩
    · rw [h2]
      exact ⟨hs, ⟨0, rfl, .refl _, by simp⟩, fun _ => h1⟩
    · rw [h7]
      obtain ⟨i1, ⟨c, i2, i3, i4⟩, i5⟩ := ih (iter := iter + 1) h6
      refine ⟨i1, ⟨1 + c, ?_, ?_, by omega⟩, fun h => i5 (by omega)⟩
      · rw [i2]; simp [pSwapP]; omega
      · exact SwapChain.trans (.step (.refl _) _ _ h1 h2 h3 h4) i3

/-- FastPAM1 and PAM do the same. -/
theorem pLoopP_agree {n k : Nat} {d : Nat → Nat → N} (hd : Dissim n d) (hk : 1 ≤ k) {fuel iter : Nat}
    {s : PState N L} (hs : PEx n k d s) :
    pLoopP d (fastScanP d n k) fuel iter s = pLoopP d (pamScanP d n k) fuel iter s := by
  induction fuel generalizing iter s with
  | zero => rfl
  | succ fuel ih =>
    obtain ⟨a1, a2⟩ := scans_agree (L := L) hd hs.cache (by rw [hs.medLen]; exact hk)
    rw [hs.medLen] at a1 a2
    have hb := pamScanP_good (L := L) (k := k) hd s.med s.data hs.cache hs.medLen
    unfold pLoopP
    simp only [rltL, zeroL, decide_eq_true_eq, a1]
    split
    · rename_i hneg
      rw [a2 hneg]
      split
      · rfl
      · obtain ⟨h1, h2, h3, h4⟩ := hb.attained hneg
        have hc := swapDataP_ok hd hs.cache h1 h2 h3
        refine ih ⟨hc, by simp [pSwapP, hs.medLen], ?_⟩
        exact swapSumP_eq (L := L) hd hc (List.mem_of_getElem?
          (i := (pamScanP (L := L) d n k s.med s.data).2.1) (by simp [h1]))
    · rfl

end KMedoids
