import Verif.Model.Silhouette
import Verif.Proofs.PureFasterPam

/-! # Pure versions of the silhouette functions (any arithmetic) -/

set_option linter.unusedSectionVars false

namespace KMedoids

variable {N L : Type} [RDist N] [RLoss L] [RFrom N L]
open RFrom (conv)

/-- One bucket update. -/
def silAdd (d : Nat → Nat → N) (i : Nat) (s : Nat × L) (j : Nat) : Nat × L :=
  (s.1 + 1, RLoss.add s.2 (conv (d i j)))

/-- `silBufStep` without panics. -/
def silBufStepP (d : Nat → Nat → N) (i : Nat) (buf : List (Nat × L)) (p : Nat × Nat) : List (Nat × L) :=
  if i ≠ p.2 then (growBuf buf p.1).set p.1 (silAdd d i ((growBuf buf p.1).getD p.1 (0, RLoss.zero)) p.2)
  else growBuf buf p.1

/-- `silBuf` without panics. -/
def silBufP (L : Type) [RLoss L] [RFrom N L] (d : Nat → Nat → N) (assi : List Nat) (i : Nat) :
    List (Nat × L) :=
  assi.zipIdx.foldl (silBufStepP d i) []

theorem growBuf_length (buf : List (Nat × L)) (a : Nat) : (growBuf buf a).length = max buf.length (a + 1) := by
  simp [growBuf]; omega

theorem growBuf_getD (buf : List (Nat × L)) (a c : Nat) :
    (growBuf buf a).getD c (0, RLoss.zero) = buf.getD c (0, RLoss.zero) := by
  simp only [growBuf, List.getD_eq_getElem?_getD, List.getElem?_append, List.getElem?_replicate]
  by_cases h : c < buf.length
  · simp [h]
  · have : buf[c]? = none := by simpa using h
    simp only [h, if_false, this]
    split <;> rfl

theorem silBufStep_eq {mat : Mat N} {n : Nat} {d : Nat → Nat → N} (hm : IsMatrix mat n d) {i : Nat}
    (hi : i < n) (buf : List (Nat × L)) {p : Nat × Nat} (hp : p.2 < n) :
    silBufStep mat i buf p = .ok (silBufStepP d i buf p) := by
  unfold silBufStep silBufStepP
  have hl : p.1 < (growBuf buf p.1).length := by rw [growBuf_length]; omega
  by_cases h : i ≠ p.2
  · simp only [hm.get i p.2 hi hp, ok_bind, idx_lt hl, setIdx_lt hl, silAdd]
    simp [List.getD_eq_getElem?_getD, hl, h]
  · simp [h]

theorem silBuf_eq {mat : Mat N} {n : Nat} {d : Nat → Nat → N} (hm : IsMatrix mat n d) {assi : List Nat}
    (hl : assi.length ≤ n) {i : Nat} (hi : i < n) : silBuf L mat assi i = .ok (silBufP L d assi i) := by
  refine foldRes_eq' (fun s x hx => silBufStep_eq hm hi s ?_) _
  have := mem_zipIdx_lt hx; omega

/-- Length of the bucket table: one more than the largest label. -/
def bufLen (assi : List Nat) : Nat := assi.foldl (fun m a => max m (a + 1)) 0

theorem silBufStepP_length (d : Nat → Nat → N) (i : Nat) (buf : List (Nat × L)) (p : Nat × Nat) :
    (silBufStepP d i buf p).length = max buf.length (p.1 + 1) := by
  unfold silBufStepP; split <;> simp [growBuf_length]

theorem silBufP_length (d : Nat → Nat → N) (assi : List Nat) (i : Nat) :
    (silBufP L d assi i).length = bufLen assi := by
  have : ∀ (ps : List (Nat × Nat)) (buf : List (Nat × L)), (ps.foldl (silBufStepP d i) buf).length =
      (ps.map Prod.fst).foldl (fun m a => max m (a + 1)) buf.length := by
    intro ps
    induction ps with
    | nil => intro buf; rfl
    | cons p ps ih => intro buf; simp only [List.foldl_cons, List.map_cons, ih, silBufStepP_length]
  rw [silBufP, this, List.zipIdx_map_fst]; rfl

theorem le_bufLen_foldl (assi : List Nat) (m : Nat) :
    m ≤ assi.foldl (fun m a => max m (a + 1)) m := by
  induction assi generalizing m with
  | nil => exact le_rfl
  | cons a as ih => exact le_trans (Nat.le_max_left _ _) (ih _)

theorem lt_bufLen {assi : List Nat} {a : Nat} (h : a ∈ assi) : a < bufLen assi := by
  unfold bufLen
  generalize 0 = m
  induction assi generalizing m with
  | nil => cases h
  | cons b as ih =>
    rcases List.mem_cons.mp h with rfl | h
    · have := le_bufLen_foldl as (max m (a + 1))
      simp only [List.foldl_cons]; omega
    · exact ih h _

theorem bufLen_mem {assi : List Nat} (h : assi ≠ []) : bufLen assi - 1 ∈ assi ∧ 0 < bufLen assi := by
  have : ∀ (l : List Nat) (m : Nat), l.foldl (fun m a => max m (a + 1)) m = m ∨
      (m < l.foldl (fun m a => max m (a + 1)) m ∧ l.foldl (fun m a => max m (a + 1)) m - 1 ∈ l) := by
    intro l
    induction l with
    | nil => intro m; exact .inl rfl
    | cons a as ih =>
      intro m
      simp only [List.foldl_cons]
      rcases ih (max m (a + 1)) with h | h
      · rw [h]
        by_cases ham : m < a + 1
        · right; rw [Nat.max_eq_right (by omega)]; exact ⟨ham, by simp⟩
        · left; omega
      · right; exact ⟨by omega, List.mem_cons_of_mem _ h.2⟩
  rcases this assi 0 with h0 | h0
  · obtain ⟨a, ha⟩ := List.exists_mem_of_ne_nil _ h
    have := lt_bufLen ha
    unfold bufLen at this; omega
  · exact ⟨h0.2, h0.1⟩

theorem silBufStepP_getD (d : Nat → Nat → N) (i : Nat) (buf : List (Nat × L)) (p : Nat × Nat) (c : Nat) :
    (silBufStepP d i buf p).getD c (0, RLoss.zero) =
      if p.1 = c ∧ p.2 ≠ i then silAdd d i (buf.getD c (0, RLoss.zero)) p.2
      else buf.getD c (0, RLoss.zero) := by
  unfold silBufStepP
  have hl : p.1 < (growBuf buf p.1).length := by rw [growBuf_length]; omega
  by_cases h : i ≠ p.2
  · rw [if_pos h, growBuf_getD]
    by_cases hc : p.1 = c
    · subst hc
      rw [if_pos ⟨rfl, h.symm⟩]
      simp only [List.getD_eq_getElem?_getD, List.getElem?_set_self hl, Option.getD_some]
    · rw [if_neg (fun h => hc h.1), ← growBuf_getD buf p.1 c]
      simp only [List.getD_eq_getElem?_getD, List.getElem?_set_ne hc]
  · rw [if_neg h, growBuf_getD, if_neg (fun h' => h h'.2.symm)]

/-- Contents of the bucket table: counter and sum over the other members of the cluster, in order. -/
theorem silBufP_getD (d : Nat → Nat → N) (assi : List Nat) (i c : Nat) :
    (silBufP L d assi i).getD c (0, RLoss.zero) =
      ((assi.zipIdx.filter fun p => p.1 = c ∧ p.2 ≠ i).map Prod.snd).foldl (silAdd d i) (0, RLoss.zero) := by
  have : ∀ (ps : List (Nat × Nat)) (buf : List (Nat × L)),
      (ps.foldl (silBufStepP d i) buf).getD c (0, RLoss.zero) =
      ((ps.filter fun p => p.1 = c ∧ p.2 ≠ i).map Prod.snd).foldl (silAdd d i) (buf.getD c (0, RLoss.zero)) := by
    intro ps
    induction ps with
    | nil => intro buf; rfl
    | cons p ps ih =>
      intro buf
      rw [List.foldl_cons, ih, silBufStepP_getD]
      by_cases h : p.1 = c ∧ p.2 ≠ i
      · rw [if_pos h, List.filter_cons_of_pos (by simpa using h)]; rfl
      · rw [if_neg h, List.filter_cons_of_neg (by simpa using h)]
  exact this _ _

/-- `silValue` without panics. -/
def silValueP (buf : List (Nat × L)) (ai : Nat) : L :=
  let own := buf.getD ai (0, RLoss.zero)
  if 0 < own.1 then
    let a := checkedDiv own.2 (RLoss.ofU32 own.1)
    let tmp := (buf.zipIdx.filter (fun p => p.2 ≠ ai)).map
      (fun p => checkedDiv p.1.2 (RLoss.ofU32 p.1.1))
    let b := tmp.tail.foldl (fun x y => if rlt y x then y else x) (tmp.head?.getD RLoss.zero)
    checkedDiv (RLoss.sub b a) (if rgt a b then a else b)
  else RLoss.zero

theorem silValue_eq {buf : List (Nat × L)} {ai : Nat} (h : ai < buf.length) :
    silValue buf ai = .ok (silValueP buf ai) := by
  unfold silValue silValueP
  simp only [idx_lt h, ok_bind, List.getD_eq_getElem?_getD, List.getElem?_eq_getElem h, Option.getD_some]
  split <;> rfl

/-- The silhouette values in order. -/
def silValsP (L : Type) [RLoss L] [RFrom N L] (d : Nat → Nat → N) (assi : List Nat) : List L :=
  assi.zipIdx.map fun p => silValueP (silBufP L d assi p.2) p.1

/-- The average silhouette as computed. -/
def silAvgP (L : Type) [RLoss L] [RFrom N L] (d : Nat → Nat → N) (assi : List Nat) : L :=
  RLoss.div ((silValsP L d assi).foldl RLoss.add RLoss.zero) (RLoss.ofU32 (asU32 assi.length))

/-- `silhouette` without panics. -/
def silhouetteP (L : Type) [RLoss L] [RFrom N L] (d : Nat → Nat → N) (assi : List Nat) (samples : Bool) :
    L × List L :=
  if bufLen assi = 1 then (RLoss.zero, List.replicate (if samples then assi.length else 0) RLoss.zero)
  else (silAvgP L d assi, if samples then silValsP L d assi else [])

theorem silGo_eq {mat : Mat N} {n : Nat} {d : Nat → Nat → N} (hm : IsMatrix mat n d) {assi : List Nat}
    (hl : assi.length ≤ n) (hb : bufLen assi ≠ 1) (samples : Bool) (pre post : List (Nat × Nat))
    (he : assi.zipIdx = pre ++ post) (lsum : L) (sil : List L) (hsil : sil.length = assi.length ∨ samples = false) :
    silGo mat assi samples post lsum sil =
      .ok (RLoss.div ((post.map fun p => silValueP (silBufP L d assi p.2) p.1).foldl RLoss.add lsum)
        (RLoss.ofU32 (asU32 assi.length)),
        if samples then sil.take pre.length ++ post.map fun p => silValueP (silBufP L d assi p.2) p.1
        else sil) := by
  have hlen : pre.length + post.length = assi.length := by
    have := congrArg List.length he; simpa using this.symm
  induction post generalizing pre lsum sil with
  | nil =>
    cases samples
    · simp [silGo]
    · simp at hsil
      simp [silGo, hsil]
      simp at hlen; omega
  | cons p post ih =>
    have hp : p ∈ assi.zipIdx := by rw [he]; simp
    have hp2 := mem_zipIdx_lt hp
    have hp1 : p.1 ∈ assi := mem_zipIdx_mem hp
    have hpre : p.2 = pre.length := by
      have h1 : assi.zipIdx[pre.length]? = some p := by rw [he]; simp
      rw [List.getElem?_zipIdx] at h1
      simp at h1
      obtain ⟨a, -, h1⟩ := h1; rw [← h1]
    have hbl : p.1 < (silBufP L d assi p.2).length := by rw [silBufP_length]; exact lt_bufLen hp1
    have hb' : (silBufP L d assi p.2).length ≠ 1 := by rwa [silBufP_length]
    unfold silGo
    simp only [silBuf_eq hm hl (lt_of_lt_of_le hp2 hl), ok_bind, hb', if_false, silValue_eq hbl]
    cases samples
    · simp only [Bool.false_eq_true, if_false]
      rw [ih (pre ++ [p]) (by simp [he]) _ _ (by simp) (by simp at hlen ⊢; omega)]
      simp
    · simp at hsil
      simp only [if_true, setIdx_lt (hsil ▸ hp2), ok_bind]
      rw [ih (pre ++ [p]) (by simp [he]) _ _ (by simp [hsil]) (by simp at hlen ⊢; omega)]
      simp only [if_true, List.map_cons, List.foldl_cons]
      congr 2
      rw [List.length_append, hpre, List.length_singleton, List.take_set, List.take_add_one]
      have : sil[pre.length]? = some (sil[pre.length]'(by rw [hsil]; omega)) := by
        rw [List.getElem?_eq_getElem]
      rw [this, List.set_append_right _ _ (by simp)]
      simp
      have : pre.length - min pre.length sil.length = 0 := by rw [hsil]; omega
      rw [this]; rfl

theorem silhouette_eq {mat : Mat N} {n : Nat} {d : Nat → Nat → N} (hm : IsMatrix mat n d) {assi : List Nat}
    (hl : assi.length ≤ n) (samples : Bool) :
    silhouette L mat assi samples = .ok (silhouetteP L d assi samples) := by
  unfold silhouette silhouetteP assertSquare
  simp only [hm.square, ok_bind, rassert_true]
  by_cases hb : bufLen assi = 1
  · rw [if_pos hb]
    cases assi with
    | nil => simp [bufLen] at hb
    | cons a as =>
      simp only [List.zipIdx_cons]
      unfold silGo
      have h0 : (0 : Nat) < n := lt_of_lt_of_le (by simp) hl
      have hb' : (silBufP L d (a :: as) 0).length = 1 := by rwa [silBufP_length]
      simp only [silBuf_eq hm hl h0, ok_bind, hb', if_true]
  · rw [if_neg hb, silGo_eq hm hl hb samples [] assi.zipIdx (by simp) _ _ (by cases samples <;> simp)]
    cases samples <;> rfl

theorem parSilhouette_eq {mat : Mat N} {n : Nat} {d : Nat → Nat → N} (hm : IsMatrix mat n d)
    {assi : List Nat} (hl : assi.length ≤ n) :
    parSilhouette L mat assi = .ok (silAvgP L d assi) := by
  unfold parSilhouette assertSquare
  simp only [hm.square, ok_bind, rassert_true]
  rw [mapRes_eq (g := fun p => silValueP (silBufP L d assi p.2) p.1)]
  · rfl
  · intro p hp
    have hp2 := mem_zipIdx_lt hp
    rw [silBuf_eq hm hl (lt_of_lt_of_le hp2 hl), ok_bind, silValue_eq]
    rw [silBufP_length]; exact lt_bufLen (mem_zipIdx_mem hp)

end KMedoids
