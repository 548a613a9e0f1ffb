import Verif.Proofs.Trunc
import Verif.Proofs.Limit
import Verif.Props.C08_C16
import Verif.Props.C17
import Verif.Props.C18_C23
import Verif.Props.C29_C35
import Verif.Props.C39_C43
import Verif.Fl
import Verif.Examples

/-!
# C60: the iteration limit only truncates

First part: for every matrix, every number type and every arithmetic, without any assumption on the input. For
PAMSIL the statement about panics needs a matrix and valid medoids, because `assign_nearest` is called after the
loop.

Second part: exact arithmetic; a larger limit continues the run, so the answer does not get worse.
-/

set_option linter.unusedSectionVars false

namespace KMedoids

variable {N : Type} [RDist N] (L : Type) [RLoss L] [RFrom N L]

/-- The limit only truncates: a run that reports fewer iterations than its limit is returned, unchanged
in every field, for every limit not below the number of iterations it reports; a panic met within some
limit is met with every larger limit. -/
def LimitOnlyTruncates {R : Type} (nIter : R → Nat) (f : Nat → Res R) : Prop :=
  (∀ m r, f m = .ok r → nIter r < m → ∀ m', nIter r ≤ m' → f m' = .ok r) ∧
    ∀ m e, f m = .error e → ∀ m', m ≤ m' → f m' = .error e

theorem C60_fasterpam (mat : Mat N) (med : List Nat) :
    LimitOnlyTruncates SwapResult.nIter (fun maxiter => fasterpam L mat med maxiter) := by
  constructor
  · show StopsSame _ _
    unfold fasterpam
    refine .ite .const (.bind fun _ => .bind fun _ => ?_)
    simp only [fpLoop_iterR]
    exact .iter fun x r h => by cases h; rfl
  · show PanicsSame _
    unfold fasterpam
    refine .ite .const (.bind fun _ => .bind fun _ => ?_)
    simp only [fpLoop_iterR]
    exact .iter

theorem C60_rand_fasterpam (mat : Mat N) (med : List Nat) (seq : List Nat) :
    LimitOnlyTruncates SwapResult.nIter (fun maxiter => randFasterpam L mat med maxiter seq) := by
  constructor
  · show StopsSame _ _
    unfold randFasterpam
    refine .ite .const (.bind fun _ => .bind fun _ => ?_)
    simp only [fpLoop_iterR]
    exact .iter fun x r h => by cases h; rfl
  · show PanicsSame _
    unfold randFasterpam
    refine .ite .const (.bind fun _ => .bind fun _ => ?_)
    simp only [fpLoop_iterR]
    exact .iter

theorem C60_par_fasterpam (sc0 : Sched) (scF scS : Nat → Nat → Sched) (mat : Mat N) (med : List Nat)
    (seq : List Nat) :
    LimitOnlyTruncates SwapResult.nIter
      (fun maxiter => parFasterpam L sc0 scF scS mat med maxiter seq) := by
  constructor
  · show StopsSame _ _
    unfold parFasterpam
    refine .ite .const (.bind fun _ => .bind fun _ => ?_)
    simp only [parLoop_iterR]
    exact .iter fun x r h => by cases h; rfl
  · show PanicsSame _
    unfold parFasterpam
    refine .ite .const (.bind fun _ => .bind fun _ => ?_)
    simp only [parLoop_iterR]
    exact .iter

theorem C60_fastpam1 (mat : Mat N) (med : List Nat) :
    LimitOnlyTruncates SwapResult.nIter (fun maxiter => fastpam1 L mat med maxiter) := by
  constructor
  · show StopsSame _ _
    unfold fastpam1
    refine .ite .const (.bind fun _ => ?_)
    simp only [fastpam1Loop_iterR]
    exact .iter fun x r h => by cases h; rfl
  · show PanicsSame _
    unfold fastpam1
    refine .ite .const (.bind fun _ => ?_)
    simp only [fastpam1Loop_iterR]
    exact .iter

theorem C60_pam_swap (mat : Mat N) (med : List Nat) :
    LimitOnlyTruncates SwapResult.nIter (fun maxiter => pamSwap L mat med maxiter) := by
  constructor
  · show StopsSame _ _
    unfold pamSwap pamOptimize
    refine .bind fun _ => .ite .const ?_
    simp only [pamLoop_iterR]
    exact .iter fun x r h => by cases h; rfl
  · show PanicsSame _
    unfold pamSwap pamOptimize
    refine .bind fun _ => .ite .const ?_
    simp only [pamLoop_iterR]
    exact .iter

theorem C60_pam (mat : Mat N) (k : Nat) :
    LimitOnlyTruncates SwapResult.nIter (fun maxiter => pam L mat k maxiter) := by
  constructor
  · show StopsSame _ _
    unfold pam pamOptimize
    refine .bind fun _ => .bind fun _ => .ite .const ?_
    simp only [pamLoop_iterR]
    exact .iter fun x r h => by cases h; rfl
  · show PanicsSame _
    unfold pam pamOptimize
    refine .bind fun _ => .bind fun _ => .ite .const ?_
    simp only [pamLoop_iterR]
    exact .iter

theorem C60_alternating (mat : Mat N) (med : List Nat) :
    LimitOnlyTruncates AltResult.nIter (fun maxiter => alternating L mat med maxiter) := by
  have he : ∀ (s : L × List Nat), (fun m => alternatingLoop mat m 0 s.1 s.2 med) =
      fun m => iterR (fun _ => altStep L mat) m 0 (s.1, s.2, med) >>= fun r =>
        .ok ⟨r.1.1, r.1.2.1, r.2, r.1.2.2⟩ := fun s =>
    funext fun m => alternatingLoop_iterR mat m 0 (s.1, s.2, med)
  constructor
  · show StopsSame _ _
    unfold alternating
    refine .bind fun s => ?_
    show StopsSame _ (fun m => alternatingLoop mat m 0 s.1 s.2 med)
    rw [he]
    exact .iter fun x r h => by cases h; rfl
  · show PanicsSame _
    unfold alternating
    refine .bind fun s => ?_
    show PanicsSame (fun m => alternatingLoop mat m 0 s.1 s.2 med)
    rw [he]
    exact .iter

theorem C60_fastermsc (mat : Mat N) (med : List Nat) :
    LimitOnlyTruncates SwapResult.nIter (fun maxiter => fastermsc L mat med maxiter) := by
  constructor
  · show StopsSame _ _
    unfold fastermsc fastermscK2
    refine .ite .const (.ite (.bind fun _ => .bind fun _ => ?_) (.bind fun _ => .bind fun _ => ?_))
    · simp only [k2Loop_iterR]
      exact .iter fun x r h => by cases h; rfl
    · simp only [mscLoop_iterR]
      exact .iter fun x r h => by cases h; rfl
  · show PanicsSame _
    unfold fastermsc fastermscK2
    refine .ite .const (.ite (.bind fun _ => .bind fun _ => ?_) (.bind fun _ => .bind fun _ => ?_))
    · simp only [k2Loop_iterR]
      exact .iter
    · simp only [mscLoop_iterR]
      exact .iter

theorem C60_fastmsc (mat : Mat N) (med : List Nat) :
    LimitOnlyTruncates SwapResult.nIter (fun maxiter => fastmsc L mat med maxiter) := by
  constructor
  · show StopsSame _ _
    unfold fastmsc fastmscK2
    refine .ite .const (.ite (.bind fun _ => .bind fun _ => ?_) (.bind fun _ => ?_))
    · simp only [fastmscK2Loop_iterR]
      exact .iter fun x r h => by cases h; rfl
    · simp only [fastmscLoop_iterR]
      exact .iter fun x r h => by cases h; rfl
  · show PanicsSame _
    unfold fastmsc fastmscK2
    refine .ite .const (.ite (.bind fun _ => .bind fun _ => ?_) (.bind fun _ => ?_))
    · simp only [fastmscK2Loop_iterR]
      exact .iter
    · simp only [fastmscLoop_iterR]
      exact .iter

theorem C60_pammedsil_swap (mat : Mat N) (med : List Nat) :
    LimitOnlyTruncates SwapResult.nIter (fun maxiter => pammedsilSwap L mat med maxiter) := by
  constructor
  · show StopsSame _ _
    unfold pammedsilSwap pammedsilOptimize
    refine .bind fun _ => .ite .const ?_
    simp only [pmsLoop_iterR]
    exact .iter fun x r h => by cases h; rfl
  · show PanicsSame _
    unfold pammedsilSwap pammedsilOptimize
    refine .bind fun _ => .ite .const ?_
    simp only [pmsLoop_iterR]
    exact .iter

theorem C60_pammedsil (mat : Mat N) (k : Nat) :
    LimitOnlyTruncates SwapResult.nIter (fun maxiter => pammedsil L mat k maxiter) := by
  constructor
  · show StopsSame _ _
    unfold pammedsil pammedsilOptimize
    refine .bind fun _ => .bind fun _ => .ite .const ?_
    simp only [pmsLoop_iterR]
    exact .iter fun x r h => by cases h; rfl
  · show PanicsSame _
    unfold pammedsil pammedsilOptimize
    refine .bind fun _ => .bind fun _ => .ite .const ?_
    simp only [pmsLoop_iterR]
    exact .iter

/-- `pamsil_swap`, first half, for every input. -/
theorem C60_pamsil_swap_stop (mat : Mat N) (med : List Nat) (m : Nat) (r : SwapResult L)
    (h : pamsilSwap L mat med m = .ok r) (hr : r.nIter < m) (m' : Nat) (hm' : r.nIter ≤ m') :
    pamsilSwap L mat med m' = .ok r := by
  suffices hs : StopsSame SwapResult.nIter (fun m => pamsilSwap L mat med m) from hs m r h hr m' hm'
  unfold pamsilSwap pamsilOptimize
  refine .bind fun a => .ite .const (.bind fun s => ?_)
  have he : ∀ m, pamsilLoop mat med.length m 0 s.1 med a.2 0 = _ := fun m =>
    pamsilLoop_iterR mat med.length m 0 (s.1, med, a.2, 0)
  simp only [he, bind_assoc]
  refine .iter fun x r h => ?_
  obtain ⟨y, hy, h⟩ := bind_eq_ok.mp h
  cases hy
  obtain ⟨z, -, h⟩ := bind_eq_ok.mp h
  cases h; rfl

/-- `pamsil`, first half, for every input. -/
theorem C60_pamsil_stop (mat : Mat N) (k : Nat) (m : Nat) (r : SwapResult L)
    (h : pamsil L mat k m = .ok r) (hr : r.nIter < m) (m' : Nat) (hm' : r.nIter ≤ m') :
    pamsil L mat k m' = .ok r := by
  suffices hs : StopsSame SwapResult.nIter (fun m => pamsil L mat k m) from hs m r h hr m' hm'
  unfold pamsil pamsilOptimize
  refine .bind fun _ => .bind fun a => .ite .const (.bind fun s => ?_)
  have he : ∀ m, pamsilLoop mat a.length m 0 s.1 a (List.replicate mat.len 0) 0 = _ := fun m =>
    pamsilLoop_iterR mat a.length m 0 (s.1, a, List.replicate mat.len 0, 0)
  simp only [he, bind_assoc]
  refine .iter fun x r h => ?_
  obtain ⟨y, hy, h⟩ := bind_eq_ok.mp h
  cases hy
  obtain ⟨z, -, h⟩ := bind_eq_ok.mp h
  cases h; rfl

/-- `pamsil_swap` on a matrix with valid medoids. -/
theorem C60_pamsil_swap {mat : Mat N} {n : Nat} {d : Nat → Nat → N} (hm : IsMatrix mat n d) {med : List Nat}
    (hv : ValidMeds n med) :
    LimitOnlyTruncates SwapResult.nIter (fun maxiter => pamsilSwap L mat med maxiter) := by
  refine ⟨fun m r h hr m' hm' => C60_pamsil_swap_stop L mat med m r h hr m' hm', fun m e h m' hm' => ?_⟩
  simp only [pamsilSwap_eq hm hv] at h ⊢
  exact pamsilOptP_error d n hm' h

/-- `pamsil` on a matrix. -/
theorem C60_pamsil {mat : Mat N} {n k : Nat} {d : Nat → Nat → N} (hm : IsMatrix mat n d) (hs : Sizes n k) :
    LimitOnlyTruncates SwapResult.nIter (fun maxiter => pamsil L mat k maxiter) := by
  refine ⟨fun m r h hr m' hm' => C60_pamsil_stop L mat k m r h hr m' hm', fun m e h m' hm' => ?_⟩
  simp only [pamsil_eq hm hs] at h ⊢
  cases hb : psBuildP L d n k with
  | error e' => rw [hb] at h; exact h
  | ok b =>
    rw [hb, ok_bind] at h
    rw [ok_bind]
    exact pamsilOptP_error d n hm' h

/-! ## a larger limit continues the run -/

open RFrom (conv)

section group
variable {N L : Type} [LinearOrder N] [Zero N] [RDist N] [LawfulDist N]
variable [AddCommGroup L] [LinearOrder L] [IsOrderedAddMonoid L] [RLoss L] [LawfulLoss L]
variable [RFrom N L] [LawfulFrom N L]

/-- `r'` is an answer obtained from the answer `r` by further exchanges: `r'.nSwap - r.nSwap` exchanges of a medoid
by an object that is not a medoid, each of which decreases `T`. -/
def ContinuedBy {L : Type} [LT L] (T : List Nat → L) (n : Nat) (r r' : SwapResult L) : Prop :=
  ∃ c, r'.nSwap = r.nSwap + c ∧ SwapChain T n c r.med r'.med

theorem C60_rand_fasterpam_longer {mat : Mat N} {n : Nat} {d : Nat → Nat → N} (hm : IsMatrix mat n d)
    (hd : Dissim n d) {med : List Nat} (hv : ValidMeds n med) (hnd : med.Nodup) {seq : List Nat}
    (hseq : ∀ j ∈ seq, j < n) {m m' : Nat} (h : m ≤ m') {r r' : SwapResult L}
    (hr : randFasterpam L mat med m seq = .ok r) (hr' : randFasterpam L mat med m' seq = .ok r') :
    ContinuedBy (totalDev (conv : N → L) n d) n r r' := by
  rw [randFasterpam_eq hm hv _ hseq] at hr hr'
  cases hr; cases hr'
  exact fpP_longer hd hv hnd h hseq

theorem C60_fasterpam_longer {mat : Mat N} {n : Nat} {d : Nat → Nat → N} (hm : IsMatrix mat n d)
    (hd : Dissim n d) {med : List Nat} (hv : ValidMeds n med) (hnd : med.Nodup) {m m' : Nat} (h : m ≤ m')
    {r r' : SwapResult L} (hr : fasterpam L mat med m = .ok r) (hr' : fasterpam L mat med m' = .ok r') :
    ContinuedBy (totalDev (conv : N → L) n d) n r r' := by
  rw [fasterpam_eq_rand, hm.len] at hr hr'
  exact C60_rand_fasterpam_longer hm hd hv hnd (fun j hj => List.mem_range.mp hj) h hr hr'

/-- For every schedule of both runs. -/
theorem C60_par_fasterpam_longer (sc0 sc0' : Sched) {scF scS scF' scS' : Nat → Nat → Sched}
    (hF : ∀ i j, (scF i j).Ok) (hF' : ∀ i j, (scF' i j).Ok) {mat : Mat N} {n : Nat} {d : Nat → Nat → N}
    (hm : IsMatrix mat n d) (hd : Dissim n d) {med : List Nat} (hv : ValidMeds n med) (hnd : med.Nodup)
    {seq : List Nat} (hseq : ∀ j ∈ seq, j < n) {m m' : Nat} (h : m ≤ m') {r r' : SwapResult L}
    (hr : parFasterpam L sc0 scF scS mat med m seq = .ok r)
    (hr' : parFasterpam L sc0' scF' scS' mat med m' seq = .ok r') :
    ContinuedBy (totalDev (conv : N → L) n d) n r r' := by
  rw [(C17_par_fasterpam (L := L) sc0 hF hm hd hv hnd m hseq).1] at hr
  rw [(C17_par_fasterpam (L := L) sc0' hF' hm hd hv hnd m' hseq).1] at hr'
  exact C60_rand_fasterpam_longer hm hd hv hnd hseq h hr hr'

theorem C60_fastpam1_longer {mat : Mat N} {n : Nat} {d : Nat → Nat → N} (hm : IsMatrix mat n d)
    (hd : Dissim n d) {med : List Nat} (hv : ValidMeds n med) (hnd : med.Nodup) {m m' : Nat} (h : m ≤ m')
    {r r' : SwapResult L} (hr : fastpam1 L mat med m = .ok r) (hr' : fastpam1 L mat med m' = .ok r') :
    ContinuedBy (totalDev (conv : N → L) n d) n r r' := by
  rw [fastpam1_eq hm hv] at hr hr'
  cases hr; cases hr'
  exact pOptP_longer hd hv hnd (fastScanP_good hv.sizes.pos d) h

theorem C60_pam_swap_longer {mat : Mat N} {n : Nat} {d : Nat → Nat → N} (hm : IsMatrix mat n d)
    (hd : Dissim n d) {med : List Nat} (hv : ValidMeds n med) (hnd : med.Nodup) {m m' : Nat} (h : m ≤ m')
    {r r' : SwapResult L} (hr : pamSwap L mat med m = .ok r) (hr' : pamSwap L mat med m' = .ok r') :
    ContinuedBy (totalDev (conv : N → L) n d) n r r' := by
  rw [pamSwap_eq hm hv] at hr hr'
  cases hr; cases hr'
  exact pOptP_longer hd hv hnd (pamScanP_good hd) h

theorem C60_pam_longer {mat : Mat N} {n k : Nat} {d : Nat → Nat → N} (hm : IsMatrix mat n d)
    (hd : Dissim n d) (hs : Sizes n k) {m m' : Nat} (h : m ≤ m')
    {r r' : SwapResult L} (hr : pam L mat k m = .ok r) (hr' : pam L mat k m' = .ok r') :
    ContinuedBy (totalDev (conv : N → L) n d) n r r' := by
  obtain ⟨hv, hnd, -⟩ := buildP_cache (L := L) hd hs
  have hb := pamBuild_eq (L := L) hm hs
  rw [(C22_pam hm hd hs m hb).1] at hr
  rw [(C22_pam hm hd hs m' hb).1] at hr'
  exact C60_pam_swap_longer hm hd hv hnd h hr hr'

/-- What `ContinuedBy` means for the reported loss of the PAM family: with a larger limit it is at most as large,
and smaller if more exchanges were made. Symmetry is only needed for one medoid. -/
theorem C60_loss {mat : Mat N} {n : Nat} {d : Nat → Nat → N} (hm : IsMatrix mat n d)
    (hd : Dissim n d) {med : List Nat} (hv : ValidMeds n med) (hnd : med.Nodup)
    (hsym : med.length = 1 → Symm n d) {m m' : Nat} (h : m ≤ m') {r r' : SwapResult L}
    (hr : fasterpam L mat med m = .ok r ∧ fasterpam L mat med m' = .ok r' ∨
      fastpam1 L mat med m = .ok r ∧ fastpam1 L mat med m' = .ok r' ∨
      pamSwap L mat med m = .ok r ∧ pamSwap L mat med m' = .ok r') :
    r'.loss ≤ r.loss ∧ (r.nSwap < r'.nSwap → r'.loss < r.loss) := by
  have key : ∀ r r' : SwapResult L, r.loss = totalDev (conv : N → L) n d r.med →
      r'.loss = totalDev (conv : N → L) n d r'.med → ContinuedBy (totalDev (conv : N → L) n d) n r r' →
      r'.loss ≤ r.loss ∧ (r.nSwap < r'.nSwap → r'.loss < r.loss) := by
    rintro r r' e e' ⟨c, hc, hch⟩
    rw [e, e']
    exact ⟨hch.le, fun hlt => hch.lt (by omega)⟩
  rcases hr with ⟨a, b⟩ | ⟨a, b⟩ | ⟨a, b⟩
  · exact key r r' (fasterpam_outcome hm hd hv hnd hsym m a).loss (fasterpam_outcome hm hd hv hnd hsym m' b).loss
      (C60_fasterpam_longer hm hd hv hnd h a b)
  · exact key r r' (fastpam1_outcome hm hd hv hnd hsym m a).loss (fastpam1_outcome hm hd hv hnd hsym m' b).loss
      (C60_fastpam1_longer hm hd hv hnd h a b)
  · exact key r r' (pam_swap_outcome hm hd hv hnd hsym m a).loss (pam_swap_outcome hm hd hv hnd hsym m' b).loss
      (C60_pam_swap_longer hm hd hv hnd h a b)

/-- `alternating`, symmetric matrix: total deviation and loss do not increase with the limit. -/
theorem C60_alternating_longer {mat : Mat N} {n : Nat} {d : Nat → Nat → N} (hm : IsMatrix mat n d)
    (hd : Dissim n d) (hsym : Symm n d) {med : List Nat} (hv : ValidMeds n med) (hnd : med.Nodup) {m m' : Nat}
    (h : m ≤ m') {r r' : AltResult L} (hr : alternating L mat med m = .ok r)
    (hr' : alternating L mat med m' = .ok r') :
    totalDev (conv : N → L) n d r'.med ≤ totalDev (conv : N → L) n d r.med ∧ r'.loss ≤ r.loss := by
  have e := C08_alternating hm hd hv hnd m hr
  have e' := C08_alternating hm hd hv hnd m' hr'
  rw [(alternating_eq (L := L) hm hv m).1] at hr
  rw [(alternating_eq (L := L) hm hv m').1] at hr'
  cases hr; cases hr'
  have := altP_longer (L := L) hd hsym hv hnd hm h
  exact ⟨this, by rw [e, e']; exact this⟩

end group

section field
variable {N L : Type} [LinearOrder N] [Zero N] [RDist N] [LawfulDist N]
variable [Field L] [LinearOrder L] [IsStrictOrderedRing L] [RLoss L] [LawfulField L]
variable [RFrom N L] [LawfulFrom N L] [LawfulAdd N L]

/-- `fastermsc`, `fastmsc`, `pammedsil_swap`: a larger limit continues the run, and the reported medoid silhouette
does not decrease. -/
theorem C60_msc_longer {mat : Mat N} {n : Nat} {d : Nat → Nat → N} (hm : IsMatrix mat n d)
    (hd : Dissim n d) {med : List Nat} (hv : ValidMeds n med) (hnd : med.Nodup) (hk : 2 ≤ med.length)
    {m m' : Nat} (h : m ≤ m') {r r' : SwapResult L}
    (hr : fastermsc L mat med m = .ok r ∧ fastermsc L mat med m' = .ok r' ∨
      fastmsc L mat med m = .ok r ∧ fastmsc L mat med m' = .ok r' ∨
      pammedsilSwap L mat med m = .ok r ∧ pammedsilSwap L mat med m' = .ok r') :
    ContinuedBy (fun ms => - medSil (conv : N → L) n d ms) n r r' ∧
    r.loss ≤ r'.loss ∧ (r.nSwap < r'.nSwap → r.loss < r'.loss) := by
  have hn : 0 < n := lt_of_lt_of_le hv.sizes.pos hv.sizes.le
  have key : IsMscRun mat med m r → IsMscRun mat med m' r' → ReachedFrom (msT L n d) n r r' →
      ContinuedBy (fun ms => - medSil (conv : N → L) n d ms) n r r' ∧
      r.loss ≤ r'.loss ∧ (r.nSwap < r'.nSwap → r.loss < r'.loss) := by
    rintro a b ⟨c, hc, hch⟩
    refine ⟨⟨c, hc, ?_⟩, ?_⟩
    · exact hch.mono fun _ _ hT => neg_lt_neg ((medSil_lt_iff hn d _ _).mpr hT)
    · rw [(a.outcome hm hd hv hnd hk).loss, (b.outcome hm hd hv hnd hk).loss]
      exact ⟨(medSil_le_iff hn d _ _).mpr hch.le, fun hlt => (medSil_lt_iff hn d _ _).mpr (hch.lt (by omega))⟩
  rcases hr with ⟨a, b⟩ | ⟨a, b⟩ | ⟨a, b⟩
  · refine key (.inl a) (.inl b) ?_
    rw [fastermsc_eq hm hv] at a b; cases a; cases b
    exact fastermscP_longer hd hv hnd h
  · refine key (.inr (.inl a)) (.inr (.inl b)) ?_
    rw [fastmsc_eqE hm hd hv hnd] at a b; cases a; cases b
    exact fastmscP_longer hd hv hnd h
  · refine key (.inr (.inr a)) (.inr (.inr b)) ?_
    rw [pammedsilSwap_eq hm hv] at a b; cases a; cases b
    exact pammedsilSwapP_longer hd hv hnd h

/-- `pamsil_swap`: the reported silhouette does not decrease with the limit. -/
theorem C60_pamsil_swap_longer {mat : Mat N} {n : Nat} {d : Nat → Nat → N} (hm : IsMatrix mat n d)
    {med : List Nat} (hv : ValidMeds n med) {m m' : Nat} (h : m ≤ m') {r r' : SwapResult L}
    (hr : pamsilSwap L mat med m = .ok r) (hr' : pamsilSwap L mat med m' = .ok r') :
    r.loss ≤ r'.loss ∧ r.nSwap ≤ r'.nSwap := by
  rw [pamsilSwap_eq hm hv] at hr hr'
  exact pamsilOptP_longer hv (nearAssiP_length _ _ _) (nearAssiP_label d hv.sizes.pos) h hr hr'

/-- `pamsil`: likewise. -/
theorem C60_pamsil_longer {mat : Mat N} {n k : Nat} {d : Nat → Nat → N} (hm : IsMatrix mat n d) (hd : Dissim n d)
    (hs : Sizes n k) {m m' : Nat} (h : m ≤ m') {r r' : SwapResult L}
    (hr : pamsil L mat k m = .ok r) (hr' : pamsil L mat k m' = .ok r') :
    r.loss ≤ r'.loss ∧ r.nSwap ≤ r'.nSwap := by
  obtain ⟨b, h0, hv, hl, -, e⟩ := pamsil_run (L := L) hm hd hs m
  obtain ⟨b', h0', -, -, -, e'⟩ := pamsil_run (L := L) hm hd hs m'
  rw [h0] at h0'; cases h0'
  rw [e] at hr
  rw [e'] at hr'
  exact pamsilOptP_longer hv (by simp) (fun a ha => by
    rw [(List.mem_replicate.mp ha).2]; exact hv.sizes.pos) h hr hr'

end field

/-! ## examples -/

/-- A run that ends by itself after two iterations, and one that is cut off. -/
example : fasterpam ℤ exMat [0, 1, 2] 9 = .ok ⟨2, [1, 1, 1, 0, 0, 2], 2, 3, [4, 1, 5]⟩ ∧
    fasterpam ℤ exMat [0, 1, 2] 2 = .ok ⟨2, [1, 1, 1, 0, 0, 2], 2, 3, [4, 1, 5]⟩ ∧
    fasterpam ℤ exMat [0, 1, 2] 1 = .ok ⟨2, [1, 1, 1, 0, 0, 2], 1, 3, [4, 1, 5]⟩ ∧
    ∀ maxiter, 2 ≤ maxiter → fasterpam ℤ exMat [0, 1, 2] maxiter = .ok ⟨2, [1, 1, 1, 0, 0, 2], 2, 3, [4, 1, 5]⟩ := by
  have h : fasterpam ℤ exMat [0, 1, 2] 9 = .ok ⟨2, [1, 1, 1, 0, 0, 2], 2, 3, [4, 1, 5]⟩ := by decide +kernel
  exact ⟨h, by decide +kernel, by decide +kernel,
    (C60_fasterpam ℤ exMat [0, 1, 2]).1 9 _ h (by decide)⟩

/-- A panic that a larger limit does not avoid, and that the limit 0 avoids. -/
example : (∃ r, pamsilSwap ℚ (ofRows exPanic : Mat ℕ) [0, 1, 2] 0 = .ok r) ∧
    ∀ maxiter, 1 ≤ maxiter → pamsilSwap ℚ (ofRows exPanic : Mat ℕ) [0, 1, 2] maxiter = .error .index := by
  have h : pamsilSwap ℚ (ofRows exPanic : Mat ℕ) [0, 1, 2] 1 = .error .index := by decide +kernel
  exact ⟨⟨_, rfl⟩, (C60_pamsil_swap ℚ exPanic_isMatrix
    ⟨⟨by decide, by decide, by decide, by decide⟩, by decide⟩).2 1 _ h⟩

/-- PAM with limits 1 and 9: one more exchange, smaller loss. -/
example : ∃ r r' : SwapResult ℤ, pamSwap ℤ exMat [0, 1, 2] 1 = .ok r ∧ pamSwap ℤ exMat [0, 1, 2] 9 = .ok r' ∧
    r.nSwap = 1 ∧ r'.nSwap = 2 ∧ r'.loss < r.loss ∧
    ContinuedBy (totalDev (conv : ℕ → ℤ) 6 exD) 6 r r' := by
  have h : pamSwap ℤ exMat [0, 1, 2] 1 = .ok ⟨5, [1, 1, 2, 0, 0, 0], 1, 1, [4, 1, 2]⟩ := by decide +kernel
  have h' : pamSwap ℤ exMat [0, 1, 2] 9 = .ok ⟨2, [1, 1, 1, 0, 0, 2], 3, 2, [4, 1, 5]⟩ := by decide +kernel
  have hv : ValidMeds 6 [0, 1, 2] := ex_valid (by decide) (by decide) (by decide)
  exact ⟨_, _, h, h', rfl, rfl, (C60_loss exMat_isMatrix exD_dissim hv (by decide) (by simp) (by decide)
    (.inr (.inr ⟨h, h'⟩))).2 (by decide), C60_pam_swap_longer exMat_isMatrix exD_dissim hv (by decide) (by decide) h h'⟩

def roundRows : List (List ℕ) :=
  [[0, 3, 2, 3, 3, 2], [3, 0, 6, 6, 6, 9], [2, 6, 0, 2, 8, 1], [3, 6, 2, 0, 7, 1], [3, 6, 8, 7, 0, 3],
    [2, 9, 1, 1, 3, 0]]

/-- The second part needs exact arithmetic: in floating point with three bits, FasterPAM reports the loss 10 with the
limit 0 and the larger loss 12, for other medoids, with every limit from 1 on. -/
theorem C60_longer_needs_exact :
    fasterpam Fl (ofRows roundRows) [0, 1] 0 = .ok ⟨⟨10⟩, [0, 1, 0, 0, 0, 0], 0, 0, [0, 1]⟩ ∧
    ∃ r : SwapResult Fl, r.loss = ⟨12⟩ ∧ 0 < r.nSwap ∧
      ∀ maxiter, 1 ≤ maxiter → fasterpam Fl (ofRows roundRows) [0, 1] maxiter = .ok r := by
  have h : fasterpam Fl (ofRows roundRows) [0, 1] 1 = .ok ⟨⟨12⟩, [0, 1, 0, 0, 1, 0], 1, 1, [2, 1]⟩ := by decide +kernel
  have h2 : fasterpam Fl (ofRows roundRows) [0, 1] 2 = .ok ⟨⟨12⟩, [0, 1, 0, 0, 1, 0], 1, 1, [2, 1]⟩ := by
    decide +kernel
  refine ⟨by decide +kernel, ⟨⟨12⟩, [0, 1, 0, 0, 1, 0], 1, 1, [2, 1]⟩, rfl, Nat.one_pos, fun m hm => ?_⟩
  exact (C60_fasterpam Fl (ofRows roundRows) [0, 1]).1 2 _ h2 (by decide) m hm

end KMedoids
