import Verif.Model.Repaired3
import Verif.Proofs.SilExact

/-! # The silhouette with empty clusters skipped (`Model/Repaired3.lean`), for C121 -/

set_option linter.unusedSectionVars false

namespace KMedoids

open RFrom (conv)

section any
variable {N L : Type} [RDist N] [RLoss L] [RFrom N L]

/-- `fixSilValue` without panics. -/
def fixSilValueP (buf : List (Nat × L)) (ai : Nat) : L :=
  let own := buf.getD ai (0, RLoss.zero)
  if 0 < own.1 then
    let a := checkedDiv own.2 (RLoss.ofU32 own.1)
    match (buf.zipIdx.filter (fun p => p.2 ≠ ai ∧ 0 < p.1.1)).map (fun p => checkedDiv p.1.2 (RLoss.ofU32 p.1.1)) with
    | [] => RLoss.zero
    | x :: xs =>
      let b := xs.foldl (fun x y => if rlt y x then y else x) x
      checkedDiv (RLoss.sub b a) (if rgt a b then a else b)
  else RLoss.zero

theorem fixSilValue_eq {buf : List (Nat × L)} {ai : Nat} (h : ai < buf.length) :
    fixSilValue buf ai = .ok (fixSilValueP buf ai) := by
  unfold fixSilValue fixSilValueP
  simp only [idx_lt h, ok_bind, List.getD_eq_getElem?_getD, List.getElem?_eq_getElem h, Option.getD_some]
  split
  · generalize (buf.zipIdx.filter (fun p => p.2 ≠ ai ∧ 0 < p.1.1)).map
      (fun p => checkedDiv p.1.2 (RLoss.ofU32 p.1.1)) = l
    cases l <;> rfl
  · rfl

/-- The values in order. -/
def fixSilValsP (L : Type) [RLoss L] [RFrom N L] (d : Nat → Nat → N) (assi : List Nat) : List L :=
  assi.zipIdx.map fun p => fixSilValueP (silBufP L d assi p.2) p.1

/-- The average as computed. -/
def fixSilAvgP (L : Type) [RLoss L] [RFrom N L] (d : Nat → Nat → N) (assi : List Nat) : L :=
  RLoss.div ((fixSilValsP L d assi).foldl RLoss.add RLoss.zero) (RLoss.ofU32 (asU32 assi.length))

theorem fixSilGo_eq {mat : Mat N} {n : Nat} {d : Nat → Nat → N} (hm : IsMatrix mat n d) {assi : List Nat}
    (hl : assi.length ≤ n) (samples : Bool) (pre post : List (Nat × Nat))
    (he : assi.zipIdx = pre ++ post) (lsum : L) (sil : List L) (hsil : sil.length = assi.length ∨ samples = false) :
    fixSilGo mat assi samples post lsum sil =
      .ok (RLoss.div ((post.map fun p => fixSilValueP (silBufP L d assi p.2) p.1).foldl RLoss.add lsum)
        (RLoss.ofU32 (asU32 assi.length)),
        if samples then sil.take pre.length ++ post.map fun p => fixSilValueP (silBufP L d assi p.2) p.1
        else sil) := by
  have hlen : pre.length + post.length = assi.length := by
    have := congrArg List.length he; simpa using this.symm
  induction post generalizing pre lsum sil with
  | nil =>
    cases samples
    · simp [fixSilGo]
    · simp at hsil
      simp [fixSilGo, hsil]
      simp at hlen; omega
  | cons p post ih =>
    have hp : p ∈ assi.zipIdx := by rw [he]; simp
    have hp2 := mem_zipIdx_lt hp
    have hp1 : p.1 ∈ assi := mem_zipIdx_mem hp
    have hpre : p.2 = pre.length := by
      have h1 : assi.zipIdx[pre.length]? = some p := by rw [he]; simp
      rw [List.getElem?_zipIdx] at h1
      simp at h1
      obtain ⟨a, -, h1⟩ := h1; rw [← h1]
    have hbl : p.1 < (silBufP L d assi p.2).length := by rw [silBufP_length]; exact lt_bufLen hp1
    unfold fixSilGo
    simp only [silBuf_eq hm hl (lt_of_lt_of_le hp2 hl), ok_bind, fixSilValue_eq hbl]
    cases samples
    · simp only [Bool.false_eq_true, if_false, ok_bind]
      rw [ih (pre ++ [p]) (by simp [he]) _ _ (by simp) (by simp at hlen ⊢; omega)]
      simp
    · simp at hsil
      simp only [if_true, setIdx_lt (hsil ▸ hp2), ok_bind]
      rw [ih (pre ++ [p]) (by simp [he]) _ _ (by simp [hsil]) (by simp at hlen ⊢; omega)]
      simp only [if_true, List.map_cons, List.foldl_cons]
      congr 2
      rw [List.length_append, hpre, List.length_singleton, List.take_set, List.take_add_one]
      have : sil[pre.length]? = some (sil[pre.length]'(by rw [hsil]; omega)) := by
        rw [List.getElem?_eq_getElem]
      rw [this, List.set_append_right _ _ (by simp)]
      simp
      have : pre.length - min pre.length sil.length = 0 := by rw [hsil]; omega
      rw [this]; rfl

theorem silhouetteFixed_eq {mat : Mat N} {n : Nat} {d : Nat → Nat → N} (hm : IsMatrix mat n d) {assi : List Nat}
    (hl : assi.length ≤ n) (samples : Bool) :
    silhouetteFixed L mat assi samples = .ok (fixSilAvgP L d assi, if samples then fixSilValsP L d assi else []) := by
  unfold silhouetteFixed assertSquare
  simp only [hm.square, ok_bind, rassert_true]
  rw [fixSilGo_eq hm hl samples [] assi.zipIdx (by simp) _ _ (by cases samples <;> simp)]
  cases samples <;> rfl

theorem parSilhouetteFixed_eq {mat : Mat N} {n : Nat} {d : Nat → Nat → N} (hm : IsMatrix mat n d)
    {assi : List Nat} (hl : assi.length ≤ n) :
    parSilhouetteFixed L mat assi = .ok (fixSilAvgP L d assi) := by
  unfold parSilhouetteFixed assertSquare
  simp only [hm.square, ok_bind, rassert_true]
  rw [mapRes_eq (g := fun p => fixSilValueP (silBufP L d assi p.2) p.1)]
  · rfl
  · intro p hp
    have hp2 := mem_zipIdx_lt hp
    rw [silBuf_eq hm hl (lt_of_lt_of_le hp2 hl), ok_bind, fixSilValue_eq]
    rw [silBufP_length]; exact lt_bufLen (mem_zipIdx_mem hp)

theorem foldl_silAdd_fst (d : Nat → Nat → N) (i : Nat) (js : List Nat) (s : Nat × L) :
    (js.foldl (silAdd d i) s).1 = s.1 + js.length := by
  induction js generalizing s with
  | nil => simp
  | cons j js ih => simp [ih, silAdd]; omega

theorem bucket_count (d : Nat → Nat → N) (assi : List Nat) (i c : Nat) :
    ((silBufP L d assi i).getD c (0, RLoss.zero)).1 = (members assi i c).length := by
  rw [silBufP_getD, members_eq, foldl_silAdd_fst]
  simp

theorem bucket_pos (d : Nat → Nat → N) (assi : List Nat) (i : Nat) {p : (Nat × L) × Nat} (hp : p ∈ (silBufP L d assi i).zipIdx) :
    0 < p.1.1 ↔ members assi i p.2 ≠ [] := by
  have hb := bucket_count (L := L) d assi i p.2
  rw [List.getD_eq_getElem?_getD, mem_zipIdx_get hp, Option.getD_some] at hb
  rw [hb, List.length_pos_iff]

theorem members_ne {assi : List Nat} {i ai c : Nat} (hi : assi[i]? = some ai) (hc : c ∈ assi) (hne : c ≠ ai) :
    members assi i c ≠ [] := by
  obtain ⟨j, hj⟩ := List.mem_iff_getElem?.mp hc
  refine List.ne_nil_of_mem (mem_members.mpr ⟨hj, ?_⟩)
  rintro rfl
  rw [hi] at hj
  exact hne (Option.some.inj hj).symm

/-- Without unused labels and with two clusters nothing changes. -/
theorem fixSilValueP_same (d : Nat → Nat → N) {assi : List Nat} (hg : NoGap assi) (h1 : 1 ∈ assi) {i ai : Nat}
    (hi : assi[i]? = some ai) : fixSilValueP (silBufP L d assi i) ai = silValueP (silBufP L d assi i) ai := by
  have hf : (silBufP L d assi i).zipIdx.filter (fun p => p.2 ≠ ai ∧ 0 < p.1.1) =
      (silBufP L d assi i).zipIdx.filter (fun p => p.2 ≠ ai) := by
    refine List.filter_congr fun p hp => ?_
    simp only [decide_eq_decide]
    refine ⟨fun h => h.1, fun h => ⟨h, (bucket_pos d assi i hp).mpr (members_ne hi ?_ h)⟩⟩
    have hlt : p.2 < bufLen assi := by rw [← silBufP_length (L := L) d assi i]; exact mem_zipIdx_lt hp
    have := bufLen_mem (List.ne_nil_of_mem h1)
    exact hg _ (bufLen assi - 1) (by omega) this.1
  unfold fixSilValueP silValueP
  dsimp only
  rw [hf]
  split
  · split
    · rename_i he
      exfalso
      have h2 := lt_bufLen h1
      obtain ⟨c, hc, hca⟩ : ∃ c, c < bufLen assi ∧ c ≠ ai :=
        if h0 : ai = 0 then ⟨1, by omega, by omega⟩ else ⟨0, by omega, by omega⟩
      rw [List.map_eq_nil_iff, List.filter_eq_nil_iff] at he
      have hcl : c < (silBufP L d assi i).length := by rw [silBufP_length]; exact hc
      refine he ((silBufP L d assi i)[c], c) ?_ (by simpa using hca)
      rw [List.mem_iff_getElem?]
      exact ⟨c, by simp [hcl]⟩
    · rename_i x xs he
      simp only [he, List.tail_cons, List.head?_cons, Option.getD_some]
  · rfl

end any

section exact
variable {L : Type} [Field L] [LinearOrder L] [IsStrictOrderedRing L] [RLoss L] [LawfulField L]
variable {N : Type} [RDist N] [LinearOrder N] [Zero N] [RFrom N L] [LawfulFrom N L]

/-- Whatever the labels, the value is the textbook one. -/
theorem fixSilValueP_eq {d : Nat → Nat → N} {assi : List Nat} {i ai : Nat} (hnn : ∀ j, j < assi.length → 0 ≤ d i j)
    (hi : assi[i]? = some ai) : fixSilValueP (silBufP L d assi i) ai = silWith (conv : N → L) d assi i ai := by
  have hm : ((silBufP L d assi i).zipIdx.filter (fun p => p.2 ≠ ai ∧ 0 < p.1.1)).map
      (fun p => checkedDiv p.1.2 (RLoss.ofU32 p.1.1)) =
      ((silBufP L d assi i).zipIdx.filter (fun p => p.2 ≠ ai ∧ 0 < p.1.1)).map
        (fun p => meanDist (conv : N → L) d assi i p.2) := by
    refine List.map_congr_left fun p hp => ?_
    have hb := bucket_eq (L := L) d assi i p.2
    rw [List.getD_eq_getElem?_getD, mem_zipIdx_get (List.mem_of_mem_filter hp), Option.getD_some] at hb
    rw [hb, checkedDiv_nat]; rfl
  have hmin : ((((silBufP L d assi i).zipIdx.filter (fun p => p.2 ≠ ai ∧ 0 < p.1.1)).map
        (fun p => meanDist (conv : N → L) d assi i p.2)).min?) =
      ((assi.filter (· ≠ ai)).map (meanDist (conv : N → L) d assi i)).min? := by
    refine min?_eq_of_mem fun x => ⟨fun hx => ?_, fun hx => ?_⟩
    · obtain ⟨p, hp, rfl⟩ := List.mem_map.mp hx
      obtain ⟨hp1, hp2⟩ := List.mem_filter.mp hp
      simp only [decide_eq_true_eq] at hp2
      obtain ⟨j, hj⟩ := List.exists_mem_of_ne_nil _ ((bucket_pos d assi i hp1).mp hp2.2)
      exact List.mem_map_of_mem (List.mem_filter.mpr ⟨List.mem_of_getElem? (mem_members.mp hj).1, by simpa using hp2.1⟩)
    · obtain ⟨c, hc, rfl⟩ := List.mem_map.mp hx
      obtain ⟨hc1, hc2⟩ := List.mem_filter.mp hc
      have hcl : c < (silBufP L d assi i).length := by rw [silBufP_length]; exact lt_bufLen hc1
      have hc2 : c ≠ ai := by simpa using hc2
      have hmem : (((silBufP L d assi i)[c], c) : (Nat × L) × Nat) ∈ (silBufP L d assi i).zipIdx := by
        rw [List.mem_iff_getElem?]; exact ⟨c, by simp [hcl]⟩
      refine List.mem_map.mpr ⟨_, List.mem_filter.mpr ⟨hmem, ?_⟩, rfl⟩
      simp only [decide_eq_true_eq]
      exact ⟨hc2, (bucket_pos d assi i hmem).mpr (members_ne hi hc1 hc2)⟩
  have ha0 : 0 ≤ meanDist (conv : N → L) d assi i ai := meanDist_nonneg hnn ai
  unfold fixSilValueP silWith
  dsimp only
  rw [hm, ← hmin]
  generalize hg : ((silBufP L d assi i).zipIdx.filter (fun p => p.2 ≠ ai ∧ 0 < p.1.1)).map
        (fun p => meanDist (conv : N → L) d assi i p.2) = l at *
  simp only [bucket_eq, checkedDiv_nat, foldl_min_eq]
  by_cases hmm : members assi i ai = []
  · rw [if_pos hmm, if_neg (by simp [hmm]), zeroL]
  · rw [if_neg hmm, if_pos (List.length_pos_iff.mpr hmm)]
    cases l with
    | nil => exact zeroL
    | cons x xs =>
      have hmem : xs.foldl min x ∈ x :: xs := by
        have : (x :: xs).min? = some (xs.foldl min x) := rfl
        exact List.min?_mem this
      rw [← hg] at hmem
      obtain ⟨p, -, hc⟩ := List.mem_map.mp hmem
      have hb0 : 0 ≤ xs.foldl min x := hc ▸ meanDist_nonneg hnn p.2
      simp only [List.min?_cons']
      exact frac_eq ha0 hb0

end exact

end KMedoids
