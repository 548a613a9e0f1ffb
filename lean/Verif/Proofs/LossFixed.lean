import Verif.Model.Repaired2
import Verif.Proofs.BitLoss
import Verif.Proofs.BitMsc

/-! # The functions with the loss of the last exchange (`Model/Repaired2.lean`), for C120 -/

set_option linter.unusedSectionVars false

namespace KMedoids

open RFrom (conv)

/-! ## Everything but the loss is unchanged -/

section any
variable {N L : Type} [RDist N] [RLoss L] [RFrom N L]

theorem fixPamLoop_same {mat : Mat N} {k fuel iter : Nat} {s : PState N L} {r : PState N L × Nat}
    (h : pamLoop mat k fuel iter s = .ok r) : ∃ l, fixPamLoop mat k fuel iter s = .ok ({ r.1 with loss := l }, r.2) := by
  induction fuel generalizing iter s with
  | zero => cases h; exact ⟨s.loss, rfl⟩
  | succ fuel ih =>
    unfold pamLoop at h
    unfold fixPamLoop
    cases hb : foldRes (pamScanStep mat s.med s.data) ((RLoss.zero : L), k, usizeMax) (List.range mat.len) with
    | error e => rw [hb] at h; cases h
    | ok best =>
      simp only [hb, ok_bind] at h ⊢
      split at h
      · rename_i hlt
        rw [if_pos hlt]
        cases hs : doSwap L mat s.med s.data best.2.1 best.2.2 with
        | error e => rw [hs] at h; cases h
        | ok t =>
          simp only [hs, ok_bind] at h ⊢
          split at h
          · rename_i hge
            rw [if_pos hge]
            cases h
            exact ⟨_, rfl⟩
          · rename_i hge
            rw [if_neg hge]
            exact ih h
      · rename_i hlt
        rw [if_neg hlt]
        cases h
        exact ⟨s.loss, rfl⟩

theorem fixFastpam1Loop_same {mat : Mat N} {k fuel iter : Nat} {s : PState N L} {r : PState N L × Nat}
    (h : fastpam1Loop mat k fuel iter s = .ok r) :
    ∃ l, fixFastpam1Loop mat k fuel iter s = .ok ({ r.1 with loss := l }, r.2) := by
  induction fuel generalizing iter s with
  | zero => cases h; exact ⟨s.loss, rfl⟩
  | succ fuel ih =>
    unfold fastpam1Loop at h
    unfold fixFastpam1Loop
    cases hu : updateRemovalLoss L s.data k with
    | error e => rw [hu] at h; cases h
    | ok rem =>
    simp only [hu, ok_bind] at h ⊢
    cases hb : foldRes (fastpam1ScanStep mat s.med s.data rem) ((RLoss.zero : L), usizeMax, usizeMax) (List.range mat.len) with
    | error e => rw [hb] at h; cases h
    | ok best =>
      simp only [hb, ok_bind] at h ⊢
      split at h
      · rename_i hlt
        rw [if_pos hlt]
        cases hs : doSwap L mat s.med s.data best.2.1 best.2.2 with
        | error e => rw [hs] at h; cases h
        | ok t =>
          simp only [hs, ok_bind] at h ⊢
          split at h
          · rename_i hge
            rw [if_pos hge]
            cases h
            exact ⟨_, rfl⟩
          · rename_i hge
            rw [if_neg hge]
            exact ih h
      · rename_i hlt
        rw [if_neg hlt]
        cases h
        exact ⟨s.loss, rfl⟩

theorem fixFastmscLoop_same {mat : Mat N} {k fuel iter : Nat} {s : MPState N L} {r : MPState N L × Nat}
    (h : fastmscLoop mat k fuel iter s = .ok r) :
    ∃ l, fixFastmscLoop mat k fuel iter s = .ok ({ r.1 with loss := l }, r.2) := by
  induction fuel generalizing iter s with
  | zero => cases h; exact ⟨s.loss, rfl⟩
  | succ fuel ih =>
    unfold fastmscLoop at h
    unfold fixFastmscLoop
    cases hu : mscUpdateRemovalLoss L s.data k with
    | error e => rw [hu] at h; cases h
    | ok rem =>
    simp only [hu, ok_bind] at h ⊢
    cases hb : foldRes (fastmscScanStep mat s.med s.data rem) ((RLoss.zero : L), usizeMax, usizeMax) (List.range mat.len) with
    | error e => rw [hb] at h; cases h
    | ok best =>
      simp only [hb, ok_bind] at h ⊢
      split at h
      · rename_i hlt
        rw [if_pos hlt]
        cases hs : mscDoSwap L mat s.med s.data best.2.1 best.2.2 with
        | error e => rw [hs] at h; cases h
        | ok t =>
          simp only [hs, ok_bind] at h ⊢
          split at h
          · rename_i hge
            rw [if_pos hge]
            cases h
            exact ⟨_, rfl⟩
          · rename_i hge
            rw [if_neg hge]
            exact ih h
      · rename_i hlt
        rw [if_neg hlt]
        cases h
        exact ⟨s.loss, rfl⟩

theorem fixPmsLoop_same {mat : Mat N} {k fuel iter : Nat} {s : MPState N L} {r : MPState N L × Nat}
    (h : pmsLoop mat k fuel iter s = .ok r) : ∃ l, fixPmsLoop mat k fuel iter s = .ok ({ r.1 with loss := l }, r.2) := by
  induction fuel generalizing iter s with
  | zero => cases h; exact ⟨s.loss, rfl⟩
  | succ fuel ih =>
    unfold pmsLoop at h
    unfold fixPmsLoop
    cases hb : foldRes (pmsScanStep mat k s.med s.data) ((RLoss.zero : L), k, usizeMax) (List.range mat.len) with
    | error e => rw [hb] at h; cases h
    | ok best =>
      simp only [hb, ok_bind] at h ⊢
      split at h
      · rename_i hlt
        rw [if_pos hlt]
        cases hs : mscDoSwap L mat s.med s.data best.2.1 best.2.2 with
        | error e => rw [hs] at h; cases h
        | ok t =>
          simp only [hs, ok_bind] at h ⊢
          split at h
          · rename_i hge
            rw [if_pos hge]
            cases h
            exact ⟨_, rfl⟩
          · rename_i hge
            rw [if_neg hge]
            exact ih h
      · rename_i hlt
        rw [if_neg hlt]
        cases h
        exact ⟨s.loss, rfl⟩

theorem k2DoSwap_ok {mat : Mat N} {med assi : List Nat} {data : List (N × N)} {b j : Nat}
    {t : L × List Nat × List Nat × List (N × N)} (h : k2DoSwap L mat med assi data b j = .ok t) :
    b < med.length ∧ t.2.1.length = med.length := by
  unfold k2DoSwap at h
  by_cases hb : b < med.length
  · refine ⟨hb, ?_⟩
    simp only [hb, decide_true, rassert_true, ok_bind] at h
    cases h1 : rassert (decide (j < mat.len)) "invalid object number" with
    | error e => rw [h1] at h; cases h
    | ok _ =>
    simp only [h1, ok_bind, setIdx, if_pos hb] at h
    cases h2 : mapRes (k2SwapRec L mat b j) (assi.zip data).zipIdx with
    | error e => rw [h2] at h; cases h
    | ok rs =>
    simp only [h2, ok_bind] at h
    cases h3 : unwrapOpt (reduceAdd (rs.map (·.2.2))) with
    | error e => rw [h3] at h; cases h
    | ok l =>
    simp only [h3, ok_bind] at h
    cases h
    simp
  · simp [hb, rassert] at h

theorem fixFastmscK2Loop_same {mat : Mat N} {k fuel iter : Nat} {s : K2State N L} (hk : s.med.length = k) {r : K2State N L × Nat}
    (h : fastmscK2Loop mat k fuel iter s = .ok r) :
    ∃ l, fixFastmscK2Loop mat k fuel iter s = .ok ({ r.1 with loss := l }, r.2) := by
  induction fuel generalizing iter s with
  | zero => cases h; exact ⟨s.loss, rfl⟩
  | succ fuel ih =>
    unfold fastmscK2Loop at h
    unfold fixFastmscK2Loop
    cases hb : foldRes (fastmscK2ScanStep mat s.med s.assi s.data) ((RLoss.zero : L), k, usizeMax) (List.range mat.len) with
    | error e => rw [hb] at h; cases h
    | ok best =>
      simp only [hb, ok_bind] at h ⊢
      split at h
      · rename_i hlt
        rw [if_pos (by simp [hlt])]
        cases h
        exact ⟨s.loss, rfl⟩
      · rename_i hlt
        cases hs : k2DoSwap L mat s.med s.assi s.data best.2.1 best.2.2 with
        | error e => rw [hs] at h; cases h
        | ok t =>
          have ht := k2DoSwap_ok hs
          rw [if_neg (by simp only [Bool.or_eq_true, beq_iff_eq, not_or]; exact ⟨by omega, hlt⟩)]
          simp only [hs, ok_bind] at h ⊢
          split at h
          · rename_i hge
            rw [if_pos hge]
            cases h
            exact ⟨_, rfl⟩
          · rename_i hge
            rw [if_neg hge]
            exact ih (by simpa [hk] using ht.2) h

theorem fastmscK2ScanP_or (d : Nat → Nat → N) (n : Nat) (s : K2State N L) :
    (fastmscK2ScanP d n 2 s).2.1 = 2 ∨ Found n 2 (fastmscK2ScanP d n 2 s) := by
  unfold fastmscK2ScanP
  refine foldl_inv (fun b : L × Nat × Nat => b.2.1 = 2 ∨ Found n 2 b) (fun b j hj hb => ?_) (Or.inl rfl)
  split
  · exact hb
  · dsimp only
    split
    · exact Or.inr ⟨k2FbsP_lt d s.data j, List.mem_range.mp hj⟩
    · exact hb

theorem fixFastmscK2Loop_ok {n : Nat} {d : Nat → Nat → N} {mat : Mat N} (hm : IsMatrix mat n d) {fuel iter : Nat} {s : K2State N L}
    (hs : K2Shape n s) :
    ∃ t : K2State N L × Nat, fixFastmscK2Loop mat 2 fuel iter s = .ok t ∧ K2Shape n t.1 ∧ t.2 ≤ iter + fuel := by
  induction fuel generalizing iter s with
  | zero => exact ⟨_, rfl, hs, le_rfl⟩
  | succ fuel ih =>
    unfold fixFastmscK2Loop
    simp only [fastmscK2Scan_eq (L := L) hm hs, ok_bind]
    split
    · exact ⟨_, rfl, hs, by show iter + 1 ≤ _; omega⟩
    · rename_i hgt
      simp only [Bool.or_eq_true, beq_iff_eq, not_or] at hgt
      obtain ⟨hb, hj⟩ := (fastmscK2ScanP_or d n s).resolve_left hgt.1
      have hsw := k2DoSwap_eq (L := L) hm hs hb hj s.lastswap
      simp only [hsw.1, ok_bind]
      split
      · exact ⟨_, rfl, hsw.2, by show iter + 1 ≤ _; omega⟩
      · obtain ⟨t, h1, h2, h3⟩ := ih (iter := iter + 1) hsw.2
        exact ⟨t, h1, h2, by omega⟩

end any

/-! ## The loss -/

variable {N L : Type} [LinearOrder N] [Zero N] [RDist N] [LawfulDist N] [RLoss L] [RFrom N L]

/-- Invariant of the PAM loops. -/
structure PExact (n k : Nat) (d : Nat → Nat → N) (s : PState N L) : Prop where
  shape : Shape n k s.med s.data
  cache : CacheOk n d s.med s.data
  loss : s.loss = leftSum (devs L n d s.med)

theorem PExact.swap (hz : (conv (0 : N) : L) = RLoss.zero) {n k : Nat} {d : Nat → Nat → N} (hd : Dissim n d) {mat : Mat N}
    (hm : IsMatrix mat n d) (hk : k < u32Max) {s : PState N L} (hs : PExact n k d s) {b j : Nat} (hb : b < k) (hj : j < n)
    (hjm : j ∉ s.med) (c : Nat) :
    PExact n k d (⟨s.med.set b j, swapDataP d s.med s.data b j, swapSumP L j (swapDataP d s.med s.data b j), c⟩ : PState N L) := by
  have hb' : b < s.med.length := hs.shape.medLen ▸ hb
  have h := swapDataP_ok hd hs.cache hb' hj hjm
  refine ⟨(doSwap_eq (L := L) hm hs.shape hk hb hj).2, h, ?_⟩
  show swapSumP L j _ = _
  rw [swapSumP, sumP_leftSum]
  exact congrArg leftSum (swapMap_devs (L := L) hz hd h (mem_set_self hb' _))

theorem fixPamLoop_loss [SaneZero L] (hz : (conv (0 : N) : L) = RLoss.zero) {n k : Nat} {d : Nat → Nat → N} (hd : Dissim n d)
    {mat : Mat N} (hm : IsMatrix mat n d) (hk : k < u32Max) {fuel iter : Nat} {s : PState N L} (hs : PExact n k d s) :
    ∃ t : PState N L × Nat, fixPamLoop mat k fuel iter s = .ok t ∧ PExact n k d t.1 := by
  induction fuel generalizing iter s with
  | zero => exact ⟨_, rfl, hs⟩
  | succ fuel ih =>
    obtain ⟨h1, h2⟩ := pamScan_eq (L := L) hm hs.shape
    unfold fixPamLoop
    simp only [h1, ok_bind]
    split
    · rename_i hlt
      obtain ⟨hb, hj⟩ := h2 hlt
      obtain ⟨-, -, hjm⟩ := pamScanP_sound n k d _ _ hs.cache hs.shape.medLen hlt
      have hsw := hs.swap hz hd hm hk hb hj hjm (s.nSwaps + 1)
      simp only [(doSwap_eq (L := L) hm hs.shape hk hb hj).1, ok_bind]
      split
      · exact ⟨_, rfl, hsw⟩
      · exact ih hsw
    · exact ⟨_, rfl, hs⟩

theorem fixFastpam1Loop_loss [SaneZero L] (hz : (conv (0 : N) : L) = RLoss.zero) {n k : Nat} {d : Nat → Nat → N} (hd : Dissim n d)
    {mat : Mat N} (hm : IsMatrix mat n d) (hk : k < u32Max) (hk1 : 1 ≤ k) {fuel iter : Nat} {s : PState N L} (hs : PExact n k d s) :
    ∃ t : PState N L × Nat, fixFastpam1Loop mat k fuel iter s = .ok t ∧ PExact n k d t.1 := by
  induction fuel generalizing iter s with
  | zero => exact ⟨_, rfl, hs⟩
  | succ fuel ih =>
    obtain ⟨h1, h2⟩ := fastScan_eq (L := L) hm hk1 hs.shape
    unfold fixFastpam1Loop
    simp only [(updateRemovalLoss_eq (L := L) hs.shape.recIdx).1, h1, ok_bind]
    split
    · rename_i hlt
      obtain ⟨hb, hj⟩ := h2 hlt
      obtain ⟨-, -, hjm⟩ := fastScanP_sound hk1 d _ _ hs.cache hs.shape.medLen hlt
      have hsw := hs.swap hz hd hm hk hb hj hjm (s.nSwaps + 1)
      simp only [(doSwap_eq (L := L) hm hs.shape hk hb hj).1, ok_bind]
      split
      · exact ⟨_, rfl, hsw⟩
      · exact ih hsw
    · exact ⟨_, rfl, hs⟩

/-- Invariant of the FastMSC and PAMMEDSIL loops. -/
structure MExact (n k : Nat) (d : Nat → Nat → N) (s : MPState N L) : Prop where
  shape : MShape n k s.med s.data
  inv : MInvA n k d s.med s.data s.loss

theorem MExact.swap {n k : Nat} {d : Nat → Nat → N} (hd : Dissim n d) {mat : Mat N}
    (hm : IsMatrix mat n d) (hk : k < u32Max) {s : MPState N L} (hs : MExact n k d s) {b j : Nat} (hb : b < k) (hj : j < n)
    (hjm : j ∉ s.med) (c : Nat) :
    MExact n k d (⟨s.med.set b j, mscSwapDataP d s.med s.data b j, mscSwapSumP L j (mscSwapDataP d s.med s.data b j), c⟩ :
      MPState N L) :=
  ⟨(mscDoSwap_eq (L := L) hm hs.shape hk hb hj).2, hs.inv.swap hd hk hb hj hjm⟩

theorem fixFastmscLoop_loss [SaneZero L] {n k : Nat} {d : Nat → Nat → N} (hd : Dissim n d)
    {mat : Mat N} (hm : IsMatrix mat n d) (hk : k < u32Max) (hk1 : 1 ≤ k) {fuel iter : Nat} {s : MPState N L} (hs : MExact n k d s) :
    ∃ t : MPState N L × Nat, fixFastmscLoop mat k fuel iter s = .ok t ∧ MExact n k d t.1 := by
  induction fuel generalizing iter s with
  | zero => exact ⟨_, rfl, hs⟩
  | succ fuel ih =>
    unfold fixFastmscLoop
    simp only [mscUpdateRemovalLoss_eq (L := L) hs.shape.recIdx, fastmscScan_eq (L := L) hm hk1 hs.shape, ok_bind]
    split
    · rename_i hgt
      obtain ⟨hb, hj, hjm⟩ := fastmscScanP_sound n hk1 d _ _ hs.inv.cache hgt
      have hsw := hs.swap hd hm hk hb hj hjm (s.nSwaps + 1)
      simp only [(mscDoSwap_eq (L := L) hm hs.shape hk hb hj).1, ok_bind]
      split
      · exact ⟨_, rfl, hsw⟩
      · exact ih hsw
    · exact ⟨_, rfl, hs⟩

theorem fixPmsLoop_loss [SaneZero L] {n k : Nat} {d : Nat → Nat → N} (hd : Dissim n d)
    {mat : Mat N} (hm : IsMatrix mat n d) (hk : k < u32Max) {fuel iter : Nat} {s : MPState N L} (hs : MExact n k d s) :
    ∃ t : MPState N L × Nat, fixPmsLoop mat k fuel iter s = .ok t ∧ MExact n k d t.1 := by
  induction fuel generalizing iter s with
  | zero => exact ⟨_, rfl, hs⟩
  | succ fuel ih =>
    unfold fixPmsLoop
    simp only [pmsScan_eq (L := L) hm hs.shape, ok_bind]
    split
    · rename_i hgt
      obtain ⟨hb, hj, hjm⟩ := pmsScanP_sound n k d _ _ hs.inv.cache hgt
      have hsw := hs.swap hd hm hk hb hj hjm (s.nSwaps + 1)
      simp only [(mscDoSwap_eq (L := L) hm hs.shape hk hb hj).1, ok_bind]
      split
      · exact ⟨_, rfl, hsw⟩
      · exact ih hsw
    · exact ⟨_, rfl, hs⟩

theorem fixFastmscK2Loop_loss {n : Nat} {d : Nat → Nat → N} (hd : Dissim n d)
    {mat : Mat N} (hm : IsMatrix mat n d) {fuel iter : Nat} {s : K2State N L} (hs : K2Any n d s) :
    ∃ t : K2State N L × Nat, fixFastmscK2Loop mat 2 fuel iter s = .ok t ∧ K2Any n d t.1 := by
  induction fuel generalizing iter s with
  | zero => exact ⟨_, rfl, hs⟩
  | succ fuel ih =>
    unfold fixFastmscK2Loop
    simp only [fastmscK2Scan_eq (L := L) hm hs.shape, ok_bind]
    split
    · exact ⟨_, rfl, hs⟩
    · rename_i hgt
      simp only [Bool.or_eq_true, beq_iff_eq, not_or] at hgt
      obtain ⟨hb, hj⟩ := (fastmscK2ScanP_or d n s).resolve_left hgt.1
      have hsw := hs.swap hd hb hj s.lastswap
      simp only [(k2DoSwap_eq (L := L) hm hs.shape hb hj s.lastswap).1, ok_bind]
      split
      · exact ⟨_, rfl, hsw⟩
      · exact ih hsw

end KMedoids
