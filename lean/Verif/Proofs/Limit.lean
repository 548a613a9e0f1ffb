import Verif.Proofs.Outcome
import Verif.Proofs.MscLoops
import Verif.Proofs.MscK2
import Verif.Proofs.PmsBuild
import Verif.Proofs.PamSilExact
import Verif.Proofs.Descent

/-!
# A larger limit continues the run

For each loop: with a larger limit the loop either ends in the same state, or it is the loop started again
in the state reached with the smaller limit.
-/

set_option linter.unusedSectionVars false

namespace KMedoids

section any
variable {N L : Type} [RDist N] [RLoss L] [RFrom N L]

theorem fpLoopP_split (d : Nat → Nat → N) (seq : List Nat) {m m' : Nat} (h : m ≤ m') (iter : Nat) (s : FPState N L) :
    fpLoopP d seq m' iter s = fpLoopP d seq m iter s ∨
    fpLoopP d seq m' iter s = fpLoopP d seq (m' - m) (iter + m) (fpLoopP d seq m iter s).1 := by
  induction m generalizing iter s m' with
  | zero => exact .inr (by simp [fpLoopP])
  | succ m ih =>
    obtain ⟨f, rfl⟩ : ∃ f, m' = f + 1 := ⟨m' - 1, by omega⟩
    simp only [fpLoopP]
    split
    · exact .inl rfl
    · have := ih (m' := f) (by omega) (iter + 1) (fpPassP d seq s)
      rwa [show iter + 1 + m = iter + (m + 1) by omega, show f - m = f + 1 - (m + 1) by omega] at this

theorem pLoopP_split (d : Nat → Nat → N) (scan : List Nat → List (Rec N) → L × Nat × Nat) {m m' : Nat}
    (h : m ≤ m') (iter : Nat) (s : PState N L) :
    pLoopP d scan m' iter s = pLoopP d scan m iter s ∨
    pLoopP d scan m' iter s = pLoopP d scan (m' - m) (iter + m) (pLoopP d scan m iter s).1 := by
  induction m generalizing iter s m' with
  | zero => exact .inr (by simp [pLoopP])
  | succ m ih =>
    obtain ⟨f, rfl⟩ : ∃ f, m' = f + 1 := ⟨m' - 1, by omega⟩
    simp only [pLoopP]
    split
    · split
      · exact .inl rfl
      · have := ih (m' := f) (by omega) (iter + 1) (pSwapP d s (scan s.med s.data).2.1 (scan s.med s.data).2.2
          (swapSumP L (scan s.med s.data).2.2
            (swapDataP d s.med s.data (scan s.med s.data).2.1 (scan s.med s.data).2.2)))
        rwa [show iter + 1 + m = iter + (m + 1) by omega, show f - m = f + 1 - (m + 1) by omega] at this
    · exact .inl rfl

theorem loopG_split {S : Type} (pass : S → S) (nSwaps : S → Nat) (loss : S → L) {m m' : Nat}
    (h : m ≤ m') (iter : Nat) (s : S) :
    loopG pass nSwaps loss m' iter s = loopG pass nSwaps loss m iter s ∨
    loopG pass nSwaps loss m' iter s =
      loopG pass nSwaps loss (m' - m) (iter + m) (loopG pass nSwaps loss m iter s).1 := by
  induction m generalizing iter s m' with
  | zero => exact .inr (by simp [loopG])
  | succ m ih =>
    obtain ⟨f, rfl⟩ : ∃ f, m' = f + 1 := ⟨m' - 1, by omega⟩
    simp only [loopG]
    split
    · exact .inl rfl
    · have := ih (m' := f) (by omega) (iter + 1) (pass s)
      rwa [show iter + 1 + m = iter + (m + 1) by omega, show f - m = f + 1 - (m + 1) by omega] at this

theorem loopB_split {S : Type} (step : S → Option (S × Bool)) {m m' : Nat} (h : m ≤ m') (iter : Nat) (s : S) :
    loopB step m' iter s = loopB step m iter s ∨
    loopB step m' iter s = loopB step (m' - m) (iter + m) (loopB step m iter s).1 := by
  induction m generalizing iter s m' with
  | zero => exact .inr (by simp [loopB])
  | succ m ih =>
    obtain ⟨f, rfl⟩ : ∃ f, m' = f + 1 := ⟨m' - 1, by omega⟩
    simp only [loopB]
    split
    · exact .inl rfl
    · exact .inl rfl
    · rename_i s' _
      have := ih (m' := f) (by omega) (iter + 1) s'
      rwa [show iter + 1 + m = iter + (m + 1) by omega, show f - m = f + 1 - (m + 1) by omega] at this

theorem altLoopP_split (d : Nat → Nat → N) (n : Nat) {m m' : Nat} (h : m ≤ m') (iter : Nat) (loss : L)
    (assi med : List Nat) :
    altLoopP d n m' iter loss assi med = altLoopP d n m iter loss assi med ∨
    altLoopP d n m' iter loss assi med = altLoopP d n (m' - m) (iter + m)
      (altLoopP d n m iter loss assi med).loss (altLoopP d n m iter loss assi med).assi
      (altLoopP d n m iter loss assi med).med := by
  induction m generalizing iter loss assi med m' with
  | zero => exact .inr (by simp [altLoopP])
  | succ m ih =>
    obtain ⟨f, rfl⟩ : ∃ f, m' = f + 1 := ⟨m' - 1, by omega⟩
    simp only [altLoopP]
    split
    · exact .inl rfl
    · have := ih (m' := f) (by omega) (iter + 1) (nearAssiLossP L d n (altUpdateP L d assi med).2)
        (nearAssiP d n (altUpdateP L d assi med).2) (altUpdateP L d assi med).2
      rwa [show iter + 1 + m = iter + (m + 1) by omega, show f - m = f + 1 - (m + 1) by omega] at this

/-- A panic of the PAMSIL loop is not avoided by a larger limit. -/
theorem psLoopP_error (d : Nat → Nat → N) (n k : Nat) {m m' : Nat} (h : m ≤ m') {iter : Nat} {sil : L}
    {med assi : List Nat} {nSwaps : Nat} {e : Panic}
    (he : psLoopP d n k m iter sil med assi nSwaps = .error e) :
    psLoopP d n k m' iter sil med assi nSwaps = .error e := by
  induction m generalizing iter sil med assi nSwaps m' with
  | zero => cases he
  | succ m ih =>
    obtain ⟨f, rfl⟩ : ∃ f, m' = f + 1 := ⟨m' - 1, by omega⟩
    simp only [psLoopP] at he ⊢
    split at he
    · cases he
    · rename_i hc
      rw [if_neg hc]
      cases hx : setIdx med (psScanP (L := L) d n k med assi).best.2.1 (psScanP (L := L) d n k med assi).best.2.2 with
      | error e' => rw [hx] at he; exact he
      | ok x =>
        rw [hx, ok_bind] at he
        rw [ok_bind]
        exact ih (by omega) he

theorem pamsilOptP_error (d : Nat → Nat → N) (n : Nat) {m m' : Nat} (h : m ≤ m') {med assi : List Nat} {e : Panic}
    (he : pamsilOptP L d n med assi m = .error e) : pamsilOptP L d n med assi m' = .error e := by
  unfold pamsilOptP at he ⊢
  split at he
  · cases he
  · rename_i hc
    rw [if_neg hc]
    cases hx : psLoopP d n med.length m 0 (silhouetteP L d assi false).1 med assi 0 with
    | error e' => rw [hx] at he; rw [psLoopP_error d n _ h hx]; exact he
    | ok x => rw [hx] at he; cases he

end any

open RFrom (conv)

/-- `r'` is reached from `r` by `r'.nSwap - r.nSwap` further exchanges, each of which decreases `T`. -/
def ReachedFrom {L : Type} [LT L] (T : List Nat → L) (n : Nat) (r r' : SwapResult L) : Prop :=
  ∃ c, r'.nSwap = r.nSwap + c ∧ SwapChain T n c r.med r'.med

theorem ReachedFrom.refl {L : Type} [LT L] (T : List Nat → L) (n : Nat) (r : SwapResult L) : ReachedFrom T n r r :=
  ⟨0, rfl, .refl _⟩

theorem SwapChain.mono {L L' : Type} [LT L] [LT L'] {T : List Nat → L} {T' : List Nat → L'} {n c : Nat}
    {med med' : List Nat} (hT : ∀ a b, T a < T b → T' a < T' b) (h : SwapChain T n c med med') :
    SwapChain T' n c med med' := by
  induction h with
  | refl _ => exact .refl _
  | step h b j hb hj hjm h' ih => exact .step ih b j hb hj hjm (hT _ _ h')

section group
variable {N L : Type} [LinearOrder N] [Zero N] [RDist N] [LawfulDist N]
variable [AddCommGroup L] [LinearOrder L] [IsOrderedAddMonoid L] [RLoss L] [LawfulLoss L]
variable [RFrom N L] [LawfulFrom N L]

theorem fpP_longer {n : Nat} {d : Nat → Nat → N} (hd : Dissim n d) {med : List Nat}
    (hv : ValidMeds n med) (hnd : med.Nodup) {m m' : Nat} (h : m ≤ m')
    {seq : List Nat} (hlt : ∀ j ∈ seq, j < n) :
    ReachedFrom (totalDev (conv : N → L) n d) n (fpP L d n med m seq) (fpP L d n med m' seq) := by
  by_cases h1 : med.length = 1
  · obtain ⟨c, rfl⟩ := List.length_eq_one_iff.mp h1
    exact .refl _ _ _
  · have hk : 2 ≤ med.length := by have := hv.sizes.pos; omega
    have hinit := fpInitP_ex (L := L) hd hv hk hnd
    obtain ⟨h2, -⟩ := fpLoopP_ex hd (by omega) hlt (fuel := m) (iter := 0) hinit
    rw [fpP_many d n hk, fpP_many d n hk]
    rcases fpLoopP_split d seq h 0 (fpInitP L d n med) with e | e
    · rw [e]; exact .refl _ _ _
    · rw [e]
      obtain ⟨-, c, h3, h4, -⟩ := fpLoopP_ex hd (by omega) hlt (fuel := m' - m) (iter := 0 + m) h2
      exact ⟨c, h3, h4⟩

theorem pOptP_longer {n : Nat} {d : Nat → Nat → N} (hd : Dissim n d) {med : List Nat}
    (hv : ValidMeds n med) (hnd : med.Nodup)
    {scan : Nat → Nat → List Nat → List (Rec N) → L × Nat × Nat}
    (hscan : GoodScan n med.length d (scan n med.length)) {m m' : Nat} (h : m ≤ m') :
    ReachedFrom (totalDev (conv : N → L) n d) n
      (pOptP d n scan med (initDataP d n med) m (nearLossP L (initDataP d n med)))
      (pOptP d n scan med (initDataP d n med) m' (nearLossP L (initDataP d n med))) := by
  by_cases h1 : med.length = 1
  · obtain ⟨c, rfl⟩ := List.length_eq_one_iff.mp h1
    exact .refl _ _ _
  · have hk : 2 ≤ med.length := by have := hv.sizes.pos; omega
    have hc := initDataP_ok hd hk hv hnd
    obtain ⟨h2, -, -⟩ := pLoopP_ex hd hscan (fuel := m) (iter := 0)
      (s := ⟨med, initDataP d n med, nearLossP L (initDataP d n med), 0⟩) ⟨hc, rfl, nearLossP_eq hc⟩
    rw [pOptP_many d n _ hk, pOptP_many d n _ hk]
    rcases pLoopP_split d (scan n med.length) h 0 ⟨med, initDataP d n med, nearLossP L (initDataP d n med), 0⟩
      with e | e
    · rw [e]; exact .refl _ _ _
    · rw [e]
      obtain ⟨-, ⟨c, h3, h4, -⟩, -⟩ := pLoopP_ex hd hscan (fuel := m' - m) (iter := 0 + m) h2
      exact ⟨c, h3, h4⟩

theorem altP_longer {n : Nat} {d : Nat → Nat → N} (hd : Dissim n d) (hsym : Symm n d) {med : List Nat}
    (hv : ValidMeds n med) (hnd : med.Nodup) {mat : Mat N} (hm : IsMatrix mat n d) {m m' : Nat} (h : m ≤ m') :
    totalDev (conv : N → L) n d (altP L d n med m').med ≤ totalDev (conv : N → L) n d (altP L d n med m).med := by
  obtain ⟨-, -, -, h4, h5⟩ := alternating_eq (L := L) hm hv m
  obtain ⟨h1, h2⟩ := altLoopP_ok (L := L) hd (fuel := m) (iter := 0) (loss := nearAssiLossP L d n med) hv hnd
    (nearAssiP_ok hd hv hnd)
  have hv' : ValidMeds n (altP L d n med m).med := ⟨by rw [h4]; exact hv.sizes, h5⟩
  unfold altP at *
  rcases altLoopP_split d n h 0 (nearAssiLossP L d n med) (nearAssiP d n med) med with e | e
  · rw [e]
  · rw [e]
    obtain ⟨c, h6, -⟩ := altLoopP_descent (L := L) hd hsym (fuel := m' - m) (iter := 0 + m)
      (loss := (altLoopP d n m 0 (nearAssiLossP L d n med) (nearAssiP d n med) med).loss) hv' h1 h2
    exact h6.le

end group

section field
variable {N L : Type} [LinearOrder N] [Zero N] [RDist N] [LawfulDist N]
variable [Field L] [LinearOrder L] [IsStrictOrderedRing L] [RLoss L] [LawfulField L]
variable [RFrom N L] [LawfulFrom N L]

theorem fastermscP_longer [LawfulAdd N L] {n : Nat} {d : Nat → Nat → N} (hd : Dissim n d) {med : List Nat}
    (hv : ValidMeds n med) (hnd : med.Nodup) {m m' : Nat} (h : m ≤ m') :
    ReachedFrom (msT L n d) n (fastermscP L d n med m) (fastermscP L d n med m') := by
  have hseq : ∀ j ∈ List.range n, j < n := fun j hj => List.mem_range.mp hj
  by_cases h1 : med.length = 1
  · obtain ⟨c, rfl⟩ := List.length_eq_one_iff.mp h1
    exact .refl _ _ _
  by_cases h2 : med.length = 2
  · obtain ⟨m0, m1, rfl⟩ := List.length_eq_two.mp h2
    have H := k2_candSpec (L := L) hd
    have hinit : K2Ex n d (k2InitP L d n m0 m1 n) :=
      ⟨m0, m1, k2InitP_ok d (hv.range m0 (by simp)) (hv.range m1 (by simp)) (by simpa using hnd) n⟩
    obtain ⟨g1, -⟩ := loopG_ex H hseq (fuel := m) (iter := 0) hinit
    show ReachedFrom _ n (fastermscK2P L d n m0 m1 m) (fastermscK2P L d n m0 m1 m')
    unfold fastermscK2P k2LoopP k2PassP
    rcases loopG_split (passG (·.lastswap) (k2CandP d) (List.range n)) (·.nSwaps) (·.loss) h 0
      (k2InitP L d n m0 m1 n) with e | e
    · rw [e]; exact .refl _ _ _
    · rw [e]
      obtain ⟨-, c, g2, g3, -⟩ := loopG_ex H hseq (fuel := m' - m) (iter := 0 + m) g1
      exact ⟨c, g2, g3⟩
  · have hk : 3 ≤ med.length := by have := hv.sizes.pos; omega
    have H := msc_candSpec (L := L) hd hk hv.sizes.k_lt
    have hinit := mscInitP_ex (L := L) hd hv hnd (by omega)
    obtain ⟨g1, -⟩ := loopG_ex H hseq (fuel := m) (iter := 0) hinit
    rw [fastermscP_many d n hk, fastermscP_many d n hk]
    unfold mscLoopP mscPassP
    rcases loopG_split (passG (·.lastswap) (mscCandP d) (List.range n)) (·.nSwaps) (·.loss) h 0
      (mscInitP L d n med) with e | e
    · rw [e]; exact .refl _ _ _
    · rw [e]
      obtain ⟨-, c, g2, g3, -⟩ := loopG_ex H hseq (fuel := m' - m) (iter := 0 + m) g1
      exact ⟨c, g2, g3⟩

theorem mpLoop_longer {n : Nat} {d : Nat → Nat → N} (hd : Dissim n d) {med : List Nat} (hv : ValidMeds n med)
    (hnd : med.Nodup) (hk : 2 ≤ med.length) {scan : List Nat → List (Reco N) → L × Nat × Nat}
    (hscan : GoodScanM n med.length d scan) {m m' : Nat} (h : m ≤ m') :
    ReachedFrom (msT L n d) n (mpResultP n (loopB (mpStepP d scan) m 0 (mpInitP L d n med)))
      (mpResultP n (loopB (mpStepP d scan) m' 0 (mpInitP L d n med))) := by
  have H := mp_bestSpec hd hv.sizes.k_lt hscan
  have hinit : MPEx n med.length d (mpInitP L d n med) := MInv.init hd hv hnd hk
  obtain ⟨g1, -⟩ := loopB_ex H (fuel := m) (iter := 0) hinit
  rcases loopB_split (mpStepP d scan) h 0 (mpInitP L d n med) with e | e
  · rw [e]; exact .refl _ _ _
  · rw [e]
    obtain ⟨-, ⟨c, g2, g3, -⟩, -⟩ := loopB_ex H (fuel := m' - m) (iter := 0 + m) g1
    exact ⟨c, g2, g3⟩

theorem fastmscP_longer [LawfulAdd N L] {n : Nat} {d : Nat → Nat → N} (hd : Dissim n d) {med : List Nat}
    (hv : ValidMeds n med) (hnd : med.Nodup) {m m' : Nat} (h : m ≤ m') :
    ReachedFrom (msT L n d) n (fastmscP L d n med m) (fastmscP L d n med m') := by
  by_cases h1 : med.length = 1
  · obtain ⟨c, rfl⟩ := List.length_eq_one_iff.mp h1
    exact .refl _ _ _
  by_cases h2 : med.length = 2
  · obtain ⟨m0, m1, rfl⟩ := List.length_eq_two.mp h2
    have H := fastmscK2_bestSpec (L := L) hd hv.sizes.n_le
    have hinit : K2Ex n d (k2InitP L d n m0 m1 0) :=
      ⟨m0, m1, k2InitP_ok d (hv.range m0 (by simp)) (hv.range m1 (by simp)) (by simpa using hnd) 0⟩
    obtain ⟨g1, -⟩ := loopB_ex H (fuel := m) (iter := 0) hinit
    show ReachedFrom _ n (fastmscK2P L d n m0 m1 m) (fastmscK2P L d n m0 m1 m')
    unfold fastmscK2P
    rcases loopB_split (fastmscK2StepP d n 2) h 0 (k2InitP L d n m0 m1 0) with e | e
    · rw [e]; exact .refl _ _ _
    · rw [e]
      obtain ⟨-, ⟨c, g2, g3, -⟩, -⟩ := loopB_ex H (fuel := m' - m) (iter := 0 + m) g1
      exact ⟨c, g2, g3⟩
  · have hk : 3 ≤ med.length := by have := hv.sizes.pos; omega
    rw [fastmscP_many d n hk, fastmscP_many d n hk]
    exact mpLoop_longer hd hv hnd (by omega) (fastmscScanP_good hk hv.sizes.k_lt d) h

theorem pammedsilSwapP_longer {n : Nat} {d : Nat → Nat → N} (hd : Dissim n d) {med : List Nat}
    (hv : ValidMeds n med) (hnd : med.Nodup) {m m' : Nat} (h : m ≤ m') :
    ReachedFrom (msT L n d) n (pammedsilSwapP L d n med m) (pammedsilSwapP L d n med m') := by
  by_cases h1 : med.length = 1
  · obtain ⟨c, rfl⟩ := List.length_eq_one_iff.mp h1
    exact .refl _ _ _
  · have hk : 2 ≤ med.length := by have := hv.sizes.pos; omega
    rw [pammedsilSwapP, pammedsilSwapP, pmsOptP_many d n (s := mpInitP L d n med) hk,
      pmsOptP_many d n (s := mpInitP L d n med) hk]
    exact mpLoop_longer hd hv hnd hk (pmsScanP_good hk hv.sizes.k_lt hd) h

theorem psLoopP_longer {d : Nat → Nat → N} {n k : Nat} {med assi : List Nat} (hv : ValidMeds n med)
    (hk : med.length = k) (hl : assi.length = n) (hlab : ∀ a ∈ assi, a < k) {m m' : Nat} (h : m ≤ m')
    {iter : Nat} {sil : L} {nSwaps : Nat} {r r' : L × List Nat × Nat × Nat}
    (hr : psLoopP d n k m iter sil med assi nSwaps = .ok r)
    (hr' : psLoopP d n k m' iter sil med assi nSwaps = .ok r') :
    r.1 ≤ r'.1 ∧ r.2.2.2 ≤ r'.2.2.2 := by
  induction m generalizing iter sil med assi nSwaps m' with
  | zero => cases hr; exact ⟨(psLoopP_ex hv hk hl hlab hr').1, (psLoopP_ok hv hk hr').2.2.1⟩
  | succ m ih =>
    obtain ⟨f, rfl⟩ : ∃ f, m' = f + 1 := ⟨m' - 1, by omega⟩
    obtain ⟨h1, -⟩ := psScanP_cover (L := L) (d := d) hv hk hl hlab
    obtain ⟨-, h6⟩ := psScanP_spec (L := L) (d := d) (n := n) hk assi
    simp only [psLoopP] at hr hr'
    split at hr
    · rename_i hc
      rw [if_pos hc] at hr'
      cases hr; cases hr'; exact ⟨le_rfl, le_rfl⟩
    · rename_i hc
      rw [if_neg hc] at hr'
      rcases h6 with e | ⟨b1, b2, -⟩
      · rw [e] at hr
        have : setIdx med k usizeMax = .error .index := by simp [setIdx, hk]
        rw [this] at hr; cases hr
      · rw [setIdx_lt (hk ▸ b1), ok_bind] at hr hr'
        exact ih (hv.set _ b2) (by simp [hk]) h1.assiLen h1.label (by omega) hr hr'

theorem pamsilOptP_longer {d : Nat → Nat → N} {n : Nat} {med assi : List Nat} (hv : ValidMeds n med)
    (hl : assi.length = n) (hlab : ∀ a ∈ assi, a < med.length) {m m' : Nat} (h : m ≤ m') {r r' : SwapResult L}
    (hr : pamsilOptP L d n med assi m = .ok r) (hr' : pamsilOptP L d n med assi m' = .ok r') :
    r.loss ≤ r'.loss ∧ r.nSwap ≤ r'.nSwap := by
  unfold pamsilOptP at hr hr'
  split at hr
  · rename_i hc
    rw [if_pos hc] at hr'
    cases hr; cases hr'; exact ⟨le_rfl, le_rfl⟩
  · rename_i hc
    rw [if_neg hc] at hr'
    obtain ⟨x, hx, hr⟩ := bind_eq_ok.mp hr
    obtain ⟨x', hx', hr'⟩ := bind_eq_ok.mp hr'
    cases hr; cases hr'
    exact psLoopP_longer hv rfl hl hlab h hx hx'

end field

end KMedoids
