import Verif.Proofs.Copies
import Verif.Examples

/-!
# C125: copies of objects act as weights

A data set with duplicates (objects at distance 0 from each other and with the same distances to everything) is a weighted data set:
on it, PAM, FastPAM1 and BUILD do what the same search does on the different objects with the objective that counts every object as
often as it occurs, wherever the copies are. For FasterPAM the copies must be next to each other. If every object occurs equally often,
nothing changes but the loss, which is multiplied. The medoid silhouette methods do not have this property.
-/

set_option linter.unusedSectionVars false

namespace KMedoids

open RFrom (conv)

section
variable {N L : Type} [LinearOrder N] [Zero N] [RDist N] [LawfulDist N]
variable [AddCommGroup L] [LinearOrder L] [IsOrderedAddMonoid L] [RLoss L] [LawfulLoss L]
variable [RFrom N L] [LawfulFrom N L]
variable {n n' : Nat} {cls rep : Nat → Nat} {d : Nat → Nat → N}

theorem Copies.dissim (h : Copies n n' cls rep) (hd : Dissim n d) : Dissim n' (fun x y => d (cls x) (cls y)) :=
  ⟨fun x hx => hd.diag _ (h.cls_lt x hx), fun x y hx hy => hd.nonneg _ _ (h.cls_lt x hx) (h.cls_lt y hy)⟩

theorem Copies.sizes (h : Copies n n' cls rep) (hn : n' ≤ u32Max) {k : Nat} (hs : Sizes n k) : Sizes n' k :=
  ⟨hs.pos, le_trans hs.le h.le, hn, hs.k_lt⟩

theorem Copies.valid (h : Copies n n' cls rep) (hn : n' ≤ u32Max) {med : List Nat} (hv : ValidMeds n med) :
    ValidMeds n' (med.map rep) :=
  ⟨by rw [List.length_map]; exact h.sizes hn hv.sizes, h.range hv.range⟩

/-- **C125, pam_swap, any numbers of copies:** the weighted steepest search on the different objects. -/
theorem C125_pam_swap_weights (h : Copies n n' cls rep) (hn : n' ≤ u32Max) (hd : Dissim n d) {mat' : Mat N}
    (hm' : IsMatrix mat' n' fun x y => d (cls x) (cls y)) {med : List Nat} (hv : ValidMeds n med) (hnd : med.Nodup)
    (hk : 2 ≤ med.length) (maxiter : Nat) {r' : SwapResult L} (hr' : pamSwap L mat' (med.map rep) maxiter = .ok r') :
    let e := steepRun (wDev (conv : N → L) (copyCount n' cls) n d) n maxiter med
    (r'.med, r'.nIter, r'.nSwap) = (e.1.map rep, e.2) ∧ r'.loss = wDev conv (copyCount n' cls) n d e.1 := by
  obtain ⟨h1, h2⟩ := C90_pam_swap hm' (h.dissim hd) (h.valid hn hv) (h.nodup hv.range hnd) (by rw [List.length_map]; exact hk) maxiter hr'
  obtain ⟨g1, g2⟩ := h.steepRun (h.totalDev (L := L) d) (wDev_le_set_mem _) maxiter hv.range
  dsimp only
  rw [g1] at h1
  refine ⟨h1, ?_⟩
  rw [h2, (Prod.mk.inj h1).1, h.totalDev, h.map_cls g2]

/-- **C125, fastpam1, any numbers of copies.** -/
theorem C125_fastpam1_weights (h : Copies n n' cls rep) (hn : n' ≤ u32Max) (hd : Dissim n d) {mat' : Mat N}
    (hm' : IsMatrix mat' n' fun x y => d (cls x) (cls y)) {med : List Nat} (hv : ValidMeds n med) (hnd : med.Nodup)
    (hk : 2 ≤ med.length) (maxiter : Nat) {r' : SwapResult L} (hr' : fastpam1 L mat' (med.map rep) maxiter = .ok r') :
    let e := steepRun (wDev (conv : N → L) (copyCount n' cls) n d) n maxiter med
    (r'.med, r'.nIter, r'.nSwap) = (e.1.map rep, e.2) ∧ r'.loss = wDev conv (copyCount n' cls) n d e.1 := by
  rw [(C14_fastpam1_eq_pam_swap hm' (h.dissim hd) (h.valid hn hv) (h.nodup hv.range hnd) maxiter).1] at hr'
  exact C125_pam_swap_weights h hn hd hm' hv hnd hk maxiter hr'

/-- **C125, pam_build, any numbers of copies:** the weighted greedy search on the different objects, for `k` up to their number. -/
theorem C125_pam_build_weights (h : Copies n n' cls rep) (hn : n' ≤ u32Max) (hd : Dissim n d) {mat' : Mat N}
    (hm' : IsMatrix mat' n' fun x y => d (cls x) (cls y)) {k : Nat} (hs : Sizes n k) {r' : BuildResult L}
    (hr' : pamBuild L mat' k = .ok r') :
    r'.med = (greedyBuild (wDev (conv : N → L) (copyCount n' cls) n d) 0 n k).map rep := by
  rw [C90_pam_build hm' (h.dissim hd) (h.sizes hn hs) hr']
  exact (h.greedyBuild (le_trans hs.pos hs.le) (h.totalDev (L := L) d) k).1

/-- **C125, pam, any numbers of copies.** -/
theorem C125_pam_weights (h : Copies n n' cls rep) (hn : n' ≤ u32Max) (hd : Dissim n d) {mat' : Mat N}
    (hm' : IsMatrix mat' n' fun x y => d (cls x) (cls y)) {k : Nat} (hs : Sizes n k) (maxiter : Nat)
    (hk : 2 ≤ (greedyBuild (wDev (conv : N → L) (copyCount n' cls) n d) 0 n k).length) {r' : SwapResult L}
    (hr' : pam L mat' k maxiter = .ok r') :
    let e := steepRun (wDev (conv : N → L) (copyCount n' cls) n d) n maxiter
      (greedyBuild (wDev (conv : N → L) (copyCount n' cls) n d) 0 n k)
    (r'.med, r'.nIter, r'.nSwap) = (e.1.map rep, e.2) ∧ r'.loss = wDev conv (copyCount n' cls) n d e.1 := by
  obtain ⟨b1, b2⟩ := h.greedyBuild (le_trans hs.pos hs.le) (h.totalDev (L := L) d) k
  obtain ⟨h1, h2⟩ := C90_pam hm' (h.dissim hd) (h.sizes hn hs) maxiter (by rw [b1, List.length_map]; exact hk) hr'
  obtain ⟨g1, g2⟩ := h.steepRun (h.totalDev (L := L) d) (wDev_le_set_mem _) maxiter b2
  dsimp only
  rw [b1, g1] at h1
  refine ⟨h1, ?_⟩
  rw [h2, (Prod.mk.inj h1).1, h.totalDev, h.map_cls g2]

/-- **C125, rand_fasterpam, any numbers of copies:** if each object is followed by its copies in the visiting order, the run is the
weighted eager search on the different objects. -/
theorem C125_rand_fasterpam_weights (h : Copies n n' cls rep) (hn : n' ≤ u32Max) (hd : Dissim n d) {mat' : Mat N}
    (hm' : IsMatrix mat' n' fun x y => d (cls x) (cls y)) {med : List Nat} (hv : ValidMeds n med) (hnd : med.Nodup)
    (hk : 2 ≤ med.length) (maxiter : Nat) {rest : Nat → List Nat} (hrest : ∀ y < n, ∀ x ∈ rest y, cls x = y) {seq : List Nat}
    (hseq : ∀ j ∈ seq, j < n) (hseq' : ∀ j ∈ seq.flatMap fun y => rep y :: rest y, j < n')
    (hsn : (seq.flatMap fun y => rep y :: rest y).Nodup) {r' : SwapResult L}
    (hr' : randFasterpam L mat' (med.map rep) maxiter (seq.flatMap fun y => rep y :: rest y) = .ok r') :
    let e := eagerRun (wDev (conv : N → L) (copyCount n' cls) n d) seq maxiter med
    (r'.med, r'.nIter, r'.nSwap) = (e.1.map rep, e.2) ∧ r'.loss = wDev conv (copyCount n' cls) n d e.1 := by
  obtain ⟨h1, h2⟩ := C89_rand_fasterpam hm' (h.dissim hd) (h.valid hn hv) (h.nodup hv.range hnd) (by rw [List.length_map]; exact hk)
    maxiter hseq' hsn hr'
  obtain ⟨g1, g2⟩ := h.eagerRun (h.totalDev (L := L) d) (wDev_le_set_mem _) hrest hseq maxiter (by omega) hv.range
  dsimp only
  rw [g1] at h1
  refine ⟨h1, ?_⟩
  rw [h2, (Prod.mk.inj h1).1, h.totalDev, h.map_cls g2]

/-- Copies that are next to each other: the objects in their order are the first copies, each followed by the others. -/
theorem Copies.layout (h : Copies n n' cls rep) (hn : 1 ≤ n) (hmono : ∀ x x', x ≤ x' → x' < n' → cls x ≤ cls x') :
    ∃ rest : Nat → List Nat, (∀ y < n, ∀ x ∈ rest y, cls x = y) ∧
      List.range n' = (List.range n).flatMap fun y => rep y :: rest y := by
  have hpos : 0 < n' := lt_of_le_of_lt (Nat.zero_le _) (h.rep_lt 0 (by omega))
  have h0 : rep 0 = 0 := by
    have hf := h.first 0 hpos
    by_contra hc
    have : 0 < cls 0 := Nat.pos_of_ne_zero fun e => by rw [e] at hf; omega
    have := h.mono 0 _ this (h.cls_lt 0 hpos)
    omega
  let R : Nat → Nat := fun y => if y < n then rep y else n'
  have hR : ∀ y < n, R y = rep y := fun y hy => if_pos hy
  have hRn : R n = n' := if_neg (lt_irrefl n)
  have hlt : ∀ y < n, rep y < R (y + 1) := by
    intro y hy
    by_cases hy' : y + 1 < n
    · rw [hR _ hy']; exact h.mono y (y + 1) (by omega) hy'
    · have : y + 1 = n := by omega
      rw [this, hRn]; exact h.rep_lt y hy
  refine ⟨fun y => List.range' (rep y + 1) (R (y + 1) - rep y - 1), fun y hy x hx => ?_, ?_⟩
  · rw [List.mem_range'_1] at hx
    have h1 := hlt y hy
    have hx' : x < R (y + 1) := by omega
    have hxn : x < n' := by
      by_cases hy' : y + 1 < n
      · rw [hR _ hy'] at hx'; exact lt_trans hx' (h.rep_lt _ hy')
      · have : y + 1 = n := by omega
        rw [this, hRn] at hx'; exact hx'
    have g1 := hmono (rep y) x (by omega) hxn
    rw [h.cls_rep y hy] at g1
    by_contra hne
    have g2 : y + 1 ≤ cls x := by omega
    have g3 := h.cls_lt x hxn
    have g4 := h.first x hxn
    rw [hR (y + 1) (by omega)] at hx'
    rcases Nat.lt_or_ge (y + 1) (cls x) with g | g
    · have := h.mono _ _ g g3; omega
    · have e : cls x = y + 1 := by omega
      rw [e] at g4; omega
  · have key : ∀ y ≤ n, List.range (R y) =
        (List.range y).flatMap fun y => rep y :: List.range' (rep y + 1) (R (y + 1) - rep y - 1) := by
      intro y
      induction y with
      | zero => intro _; rw [hR 0 (by omega), h0]; rfl
      | succ y ih =>
        intro hy
        have h1 := hlt y (by omega)
        rw [List.range_succ, List.flatMap_append, ← ih (by omega), hR y (by omega)]
        conv_lhs => rw [show R (y + 1) = rep y + (R (y + 1) - rep y - 1 + 1) by omega, List.range_eq_range',
          ← List.range'_append_1, ← List.range_eq_range', Nat.zero_add, List.range'_succ]
        simp
    rw [← hRn]; exact key n le_rfl

/-- **C125, fasterpam, any numbers of copies that are next to each other.** -/
theorem C125_fasterpam_weights (h : Copies n n' cls rep) (hn : n' ≤ u32Max) (hmono : ∀ x x', x ≤ x' → x' < n' → cls x ≤ cls x')
    (hd : Dissim n d) {mat' : Mat N} (hm' : IsMatrix mat' n' fun x y => d (cls x) (cls y)) {med : List Nat} (hv : ValidMeds n med)
    (hnd : med.Nodup) (hk : 2 ≤ med.length) (maxiter : Nat) {r' : SwapResult L}
    (hr' : fasterpam L mat' (med.map rep) maxiter = .ok r') :
    let e := eagerRun (wDev (conv : N → L) (copyCount n' cls) n d) (List.range n) maxiter med
    (r'.med, r'.nIter, r'.nSwap) = (e.1.map rep, e.2) ∧ r'.loss = wDev conv (copyCount n' cls) n d e.1 := by
  obtain ⟨rest, h1, h2⟩ := h.layout (le_trans hv.sizes.pos hv.sizes.le) hmono
  rw [fasterpam_eq_rand, hm'.len, h2] at hr'
  exact C125_rand_fasterpam_weights h hn hd hm' hv hnd hk maxiter h1 (fun j hj => List.mem_range.mp hj)
    (fun j hj => by rw [← h2] at hj; exact List.mem_range.mp hj) (by rw [← h2]; exact List.nodup_range) hr'

/-! ## The same number of copies of every object -/

theorem nsmul_lt_iff_of_pos {c : Nat} (hc : 1 ≤ c) (a b : L) : c • a < c • b ↔ a < b := by
  constructor
  · intro h
    by_contra hn
    exact absurd (nsmul_le_nsmul_right (not_lt.mp hn) c) (not_le.mpr h)
  · intro h
    obtain ⟨c, rfl⟩ : ∃ e, c = e + 1 := ⟨c - 1, by omega⟩
    clear hc
    induction c with
    | zero => simpa using h
    | succ c ih => rw [succ_nsmul a, succ_nsmul b]; exact add_lt_add ih h

theorem Copies.count_pos (h : Copies n n' cls rep) {y : Nat} (hy : y < n) : 1 ≤ copyCount n' cls y := by
  unfold copyCount
  refine List.length_pos_of_mem (a := rep y) ?_
  simp [h.rep_lt y hy, h.cls_rep y hy]

theorem wDev_lt_iff (h : Copies n n' cls rep) (hn : 1 ≤ n) {c : Nat} (hc : ∀ y < n, copyCount n' cls y = c) (a b : List Nat) :
    wDev (conv : N → L) (copyCount n' cls) n d a < wDev (conv : N → L) (copyCount n' cls) n d b ↔
      totalDev (conv : N → L) n d a < totalDev (conv : N → L) n d b := by
  rw [wDev_const c n d a hc, wDev_const c n d b hc]
  exact nsmul_lt_iff_of_pos (by have := h.count_pos (y := 0) (by omega); rw [hc 0 (by omega)] at this; exact this) _ _

/-- **C125, pam_swap, `c` copies of every object:** the result is that without copies, and the loss `c` times as large. -/
theorem C125_pam_swap (h : Copies n n' cls rep) (hn : n' ≤ u32Max) {c : Nat} (hc : ∀ y < n, copyCount n' cls y = c)
    (hd : Dissim n d) {mat mat' : Mat N} (hm : IsMatrix mat n d) (hm' : IsMatrix mat' n' fun x y => d (cls x) (cls y))
    {med : List Nat} (hv : ValidMeds n med) (hnd : med.Nodup) (hk : 2 ≤ med.length) (maxiter : Nat) {r r' : SwapResult L}
    (hr : pamSwap L mat med maxiter = .ok r) (hr' : pamSwap L mat' (med.map rep) maxiter = .ok r') :
    r'.med = r.med.map rep ∧ r'.loss = c • r.loss ∧ r'.nIter = r.nIter ∧ r'.nSwap = r.nSwap := by
  obtain ⟨h1, h2⟩ := C125_pam_swap_weights h hn hd hm' hv hnd hk maxiter hr'
  obtain ⟨g1, g2⟩ := C90_pam_swap hm hd hv hnd hk maxiter hr
  rw [steepRun_congr (wDev_lt_iff h (le_trans hv.sizes.pos hv.sizes.le) hc), ← g1] at h1 h2
  dsimp only at h1 h2
  simp only [Prod.mk.injEq] at h1
  exact ⟨h1.1, by rw [h2, wDev_const c n d _ hc, g2], h1.2.1, h1.2.2⟩

/-- **C125, fastpam1, `c` copies of every object.** -/
theorem C125_fastpam1 (h : Copies n n' cls rep) (hn : n' ≤ u32Max) {c : Nat} (hc : ∀ y < n, copyCount n' cls y = c)
    (hd : Dissim n d) {mat mat' : Mat N} (hm : IsMatrix mat n d) (hm' : IsMatrix mat' n' fun x y => d (cls x) (cls y))
    {med : List Nat} (hv : ValidMeds n med) (hnd : med.Nodup) (hk : 2 ≤ med.length) (maxiter : Nat) {r r' : SwapResult L}
    (hr : fastpam1 L mat med maxiter = .ok r) (hr' : fastpam1 L mat' (med.map rep) maxiter = .ok r') :
    r'.med = r.med.map rep ∧ r'.loss = c • r.loss ∧ r'.nIter = r.nIter ∧ r'.nSwap = r.nSwap := by
  rw [(C14_fastpam1_eq_pam_swap hm' (h.dissim hd) (h.valid hn hv) (h.nodup hv.range hnd) maxiter).1] at hr'
  rw [(C14_fastpam1_eq_pam_swap hm hd hv hnd maxiter).1] at hr
  exact C125_pam_swap h hn hc hd hm hm' hv hnd hk maxiter hr hr'

theorem greedyFrom_congr {T T' : List Nat → L} (hT : ∀ a b, T' a < T' b ↔ T a < T b) (lo n cnt : Nat) (med : List Nat) :
    greedyFrom T' lo n cnt med = greedyFrom T lo n cnt med := by
  induction cnt generalizing med with
  | zero => rfl
  | succ cnt ih => unfold greedyFrom; simp only [bestOf_congr hT, hT, ih]

theorem greedyBuild_congr {T T' : List Nat → L} (hT : ∀ a b, T' a < T' b ↔ T a < T b) (lo n k : Nat) :
    greedyBuild T' lo n k = greedyBuild T lo n k := by
  unfold greedyBuild
  rw [greedyFrom_congr hT, firstMin_congr fun a b _ _ => hT [a] [b]]

/-- **C125, pam, `c` copies of every object.** -/
theorem C125_pam (h : Copies n n' cls rep) (hn : n' ≤ u32Max) {c : Nat} (hc : ∀ y < n, copyCount n' cls y = c)
    (hd : Dissim n d) {mat mat' : Mat N} (hm : IsMatrix mat n d) (hm' : IsMatrix mat' n' fun x y => d (cls x) (cls y))
    {k : Nat} (hs : Sizes n k) (maxiter : Nat) (hk : 2 ≤ (greedyBuild (totalDev (conv : N → L) n d) 0 n k).length)
    {r r' : SwapResult L} (hr : pam L mat k maxiter = .ok r) (hr' : pam L mat' k maxiter = .ok r') :
    r'.med = r.med.map rep ∧ r'.loss = c • r.loss ∧ r'.nIter = r.nIter ∧ r'.nSwap = r.nSwap := by
  have hT := wDev_lt_iff (N := N) (L := L) (d := d) h (le_trans hs.pos hs.le) hc
  obtain ⟨h1, h2⟩ := C125_pam_weights h hn hd hm' hs maxiter (by rw [greedyBuild_congr hT]; exact hk) hr'
  obtain ⟨g1, g2⟩ := C90_pam hm hd hs maxiter hk hr
  rw [steepRun_congr hT, greedyBuild_congr hT, ← g1] at h1 h2
  dsimp only at h1 h2
  simp only [Prod.mk.injEq] at h1
  exact ⟨h1.1, by rw [h2, wDev_const c n d _ hc, g2], h1.2.1, h1.2.2⟩

theorem eagerRun_congr {T T' : List Nat → L} (hT : ∀ a b, T' a < T' b ↔ T a < T b) (seq : List Nat) (fuel : Nat) (med : List Nat) :
    eagerRun T' seq fuel med = eagerRun T seq fuel med := by
  have hs : eagerStep T' = eagerStep T := by
    funext s j
    unfold eagerStep
    rw [firstMin_congr (f := fun m => T' (s.1.set m j)) (g := fun m => T (s.1.set m j)) fun a b _ _ => hT _ _]
    simp only [hT]
  induction fuel generalizing med with
  | zero => rfl
  | succ fuel ih => unfold eagerRun eagerPass; simp only [hs, ih]

/-- **C125, fasterpam, `c` copies of every object, next to each other.** -/
theorem C125_fasterpam (h : Copies n n' cls rep) (hn : n' ≤ u32Max) (hmono : ∀ x x', x ≤ x' → x' < n' → cls x ≤ cls x') {c : Nat}
    (hc : ∀ y < n, copyCount n' cls y = c) (hd : Dissim n d) {mat mat' : Mat N} (hm : IsMatrix mat n d)
    (hm' : IsMatrix mat' n' fun x y => d (cls x) (cls y)) {med : List Nat} (hv : ValidMeds n med) (hnd : med.Nodup)
    (hk : 2 ≤ med.length) (maxiter : Nat) {r r' : SwapResult L} (hr : fasterpam L mat med maxiter = .ok r)
    (hr' : fasterpam L mat' (med.map rep) maxiter = .ok r') :
    r'.med = r.med.map rep ∧ r'.loss = c • r.loss ∧ r'.nIter = r.nIter ∧ r'.nSwap = r.nSwap := by
  obtain ⟨h1, h2⟩ := C125_fasterpam_weights h hn hmono hd hm' hv hnd hk maxiter hr'
  obtain ⟨g1, g2⟩ := C89_fasterpam hm hd hv hnd hk maxiter hr
  rw [eagerRun_congr (wDev_lt_iff h (le_trans hv.sizes.pos hv.sizes.le) hc), ← g1] at h1 h2
  dsimp only at h1 h2
  simp only [Prod.mk.injEq] at h1
  exact ⟨h1.1, by rw [h2, wDev_const c n d _ hc, g2], h1.2.1, h1.2.2⟩

end

/-! ## Examples -/

section examples

/-- The matrix with copies. -/
def copyRows (cls : Nat → Nat) (n' : Nat) (rows : List (List ℕ)) : List (List ℕ) :=
  (List.range n').map fun x => (List.range n').map fun y => rowsD rows (cls x) (cls y)

/-- Five objects. -/
def exCopyRows : List (List ℕ) := [[0, 18, 14, 15, 12], [18, 0, 11, 19, 10], [14, 11, 0, 15, 8], [15, 19, 15, 0, 6], [12, 10, 8, 6, 0]]

theorem exCopy_isMatrix : IsMatrix (ofRows exCopyRows : Mat ℕ) 5 (rowsD exCopyRows) :=
  ⟨rfl, rfl, fun x y hx hy => by
    have : ∀ x < 5, ∀ y < 5, (ofRows exCopyRows : Mat ℕ).get x y = .ok (rowsD exCopyRows x y) := by decide +kernel
    exact this x hx y hy⟩

theorem exCopy_dissim : Dissim 5 (rowsD exCopyRows) := ⟨by decide +kernel, fun _ _ _ _ => Nat.zero_le _⟩

/-- Two copies of every object next to each other. -/
theorem exCopies_div : Copies 5 10 (· / 2) (2 * ·) :=
  ⟨by decide, by decide, by decide, by decide, fun y y' h _ => by omega⟩

/-- Two copies of every object, as a second data set behind the first. -/
theorem exCopies_mod : Copies 5 10 (· % 5) id :=
  ⟨by decide, by decide, by decide, by decide, fun y y' h _ => h⟩

theorem exCopyDiv_isMatrix : IsMatrix (ofRows (copyRows (· / 2) 10 exCopyRows) : Mat ℕ) 10
    (fun x y => rowsD exCopyRows (x / 2) (y / 2)) :=
  ⟨rfl, by decide +kernel, fun x y hx hy => by
    have : ∀ x < 10, ∀ y < 10, (ofRows (copyRows (· / 2) 10 exCopyRows) : Mat ℕ).get x y =
      .ok (rowsD exCopyRows (x / 2) (y / 2)) := by decide +kernel
    exact this x hx y hy⟩

theorem exCopyMod_isMatrix : IsMatrix (ofRows (copyRows (· % 5) 10 exCopyRows) : Mat ℕ) 10
    (fun x y => rowsD exCopyRows (x % 5) (y % 5)) :=
  ⟨rfl, by decide +kernel, fun x y hx hy => by
    have : ∀ x < 10, ∀ y < 10, (ofRows (copyRows (· % 5) 10 exCopyRows) : Mat ℕ).get x y =
      .ok (rowsD exCopyRows (x % 5) (y % 5)) := by decide +kernel
    exact this x hx y hy⟩

theorem exCopy_valid : ValidMeds 5 [1, 0, 2] := ⟨⟨by decide, by decide, by decide, by decide⟩, by decide⟩

/-- FasterPAM with three swaps: the copies next to each other change nothing. -/
example : ∃ r r' : SwapResult ℤ, fasterpam ℤ (ofRows exCopyRows : Mat ℕ) [1, 0, 2] 100 = .ok r ∧
    fasterpam ℤ (ofRows (copyRows (· / 2) 10 exCopyRows) : Mat ℕ) [2, 0, 4] 100 = .ok r' ∧
    r.nSwap = 3 ∧ r'.med = r.med.map (2 * ·) ∧ r'.loss = 2 • r.loss ∧ r'.nIter = r.nIter ∧ r'.nSwap = r.nSwap := by
  obtain ⟨r, hr, hw⟩ := C04_fasterpam (L := ℤ) exCopy_isMatrix exCopy_valid 100
  obtain ⟨r', hr', -⟩ := C04_fasterpam (L := ℤ) exCopyDiv_isMatrix (exCopies_div.valid (by decide) exCopy_valid) 100
  refine ⟨r, r', hr, hr', ?_, C125_fasterpam exCopies_div (by decide) (fun x x' h _ => Nat.div_le_div_right h) (c := 2) (by decide)
    exCopy_dissim exCopy_isMatrix exCopyDiv_isMatrix exCopy_valid (by decide) (by decide) 100 hr hr'⟩
  have : (fasterpam ℤ (ofRows exCopyRows : Mat ℕ) [1, 0, 2] 100).toOption.map (·.nSwap) = some 3 := by decide +kernel
  rw [hr] at this
  simpa [Except.toOption] using this

/-- PAM: also with the copies behind the originals. -/
example : ∃ r r' : SwapResult ℤ, pamSwap ℤ (ofRows exCopyRows : Mat ℕ) [1, 0, 2] 100 = .ok r ∧
    pamSwap ℤ (ofRows (copyRows (· % 5) 10 exCopyRows) : Mat ℕ) [1, 0, 2] 100 = .ok r' ∧
    r'.med = r.med ∧ r'.loss = 2 • r.loss ∧ r'.nIter = r.nIter ∧ r'.nSwap = r.nSwap := by
  obtain ⟨r, hr, -⟩ := C04_pam_swap (L := ℤ) exCopy_isMatrix exCopy_valid 100
  obtain ⟨r', hr', -⟩ := C04_pam_swap (L := ℤ) exCopyMod_isMatrix (exCopies_mod.valid (by decide) exCopy_valid) 100
  obtain ⟨h1, h2⟩ := C125_pam_swap exCopies_mod (by decide) (c := 2) (by decide)
    exCopy_dissim exCopy_isMatrix exCopyMod_isMatrix exCopy_valid (by decide) (by decide) 100 hr hr'
  exact ⟨r, r', hr, hr', by simpa using h1, h2⟩

/-- `pam` with BUILD. -/
example : ∃ r r' : SwapResult ℤ, pam ℤ (ofRows exCopyRows : Mat ℕ) 2 100 = .ok r ∧
    pam ℤ (ofRows (copyRows (· % 5) 10 exCopyRows) : Mat ℕ) 2 100 = .ok r' ∧
    r'.med = r.med.map id ∧ r'.loss = 2 • r.loss ∧ r'.nIter = r.nIter ∧ r'.nSwap = r.nSwap := by
  have hs : Sizes 5 2 := ⟨by decide, by decide, by decide, by decide⟩
  obtain ⟨r, hr, -⟩ := C04_pam (L := ℤ) exCopy_isMatrix hs 100
  obtain ⟨r', hr', -⟩ := C04_pam (L := ℤ) exCopyMod_isMatrix (exCopies_mod.sizes (by decide) hs) 100
  exact ⟨r, r', hr, hr', C125_pam exCopies_mod (by decide) (c := 2) (by decide)
    exCopy_dissim exCopy_isMatrix exCopyMod_isMatrix hs 100 (by decide +kernel) hr hr'⟩

/-- **C125, the copies must be next to each other for FasterPAM:** with the copies behind the originals it ends earlier and with a
copy as medoid. -/
theorem C125_order_matters :
    fasterpam ℤ (ofRows exCopyRows : Mat ℕ) [1, 0, 2] 100 = .ok ⟨14, [1, 2, 0, 0, 0], 3, 3, [4, 0, 1]⟩ ∧
    (fasterpam ℤ (ofRows (copyRows (· % 5) 10 exCopyRows) : Mat ℕ) [1, 0, 2] 100).toOption.map
      (fun r => (r.loss, r.nIter, r.nSwap, r.med)) = some (28, 2, 3, [4, 0, 6]) := by decide +kernel

/-- **C125, the medoid silhouette methods do not have the property:** without copies the medoids 2, 1, 0 are optimal, with every object
doubled PAMMEDSIL exchanges medoid 2 for the copy of medoid 0. -/
theorem C125_pammedsil_fails :
    let rows : List (List ℕ) := [[0, 2, 2, 3], [2, 0, 1, 1], [2, 1, 0, 1], [3, 1, 1, 0]]
    (pammedsilSwap ℚ (ofRows rows : Mat ℕ) [2, 1, 0] 100).toOption.map (fun r => (r.loss, r.nSwap, r.med)) =
      some (3/4, 0, [2, 1, 0]) ∧
    (pammedsilSwap ℚ (ofRows (copyRows (· % 4) 8 rows) : Mat ℕ) [2, 1, 0] 100).toOption.map (fun r => (r.loss, r.nSwap, r.med)) =
      some (19/24, 1, [4, 1, 0]) := by decide +kernel

end examples

end KMedoids
