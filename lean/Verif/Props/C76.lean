import Verif.Props.C24_C28
import Verif.Props.C75
import Verif.Proofs.DivErr

/-!
# C76: the silhouette under rounding

`silhouette` and `par_silhouette` in floating point, against the textbook definition over the exact values of the distances.
-/

set_option linter.unusedSectionVars false
set_option exponentiation.threshold 2000

namespace KMedoids

open RFrom (conv)

section general
variable {N L K : Type} [RDist N] [RLoss L] [RFrom N L] [Field K] [LinearOrder K] [IsStrictOrderedRing K]
variable {fin : L → Prop} {val : L → K} {u B eta w W : K} {C n : Nat}

/-- The distances are finite, at most `W`, and zero or at least `w`. -/
structure Spread (fin : L → Prop) (val : L → K) (w W : K) (n : Nat) (d : Nat → Nat → N) : Prop where
  fin : ∀ x y, x < n → y < n → fin (conv (d x y) : L)
  low : ∀ x y, x < n → y < n → val (conv (d x y) : L) = 0 ∨ w ≤ val (conv (d x y) : L)
  high : ∀ x y, x < n → y < n → val (conv (d x y) : L) ≤ W

/-- Neither overflow nor underflow for `n` objects. -/
structure SilFits (u B eta w W : K) (C n : Nat) : Prop where
  w_pos : 0 < w
  exact : n ≤ C
  small : (1 + u) ^ n ≤ 3 / 2
  under : 2 * n * eta ≤ u * w
  over : 3 / 2 * (n * W) ≤ B
  big : 4 * n ≤ B

theorem silAdd_foldl (d : Nat → Nat → N) (i : Nat) (js : List Nat) (s : Nat × L) :
    js.foldl (silAdd d i) s = (s.1 + js.length, (js.map fun j => (conv (d i j) : L)).foldl RLoss.add s.2) := by
  induction js generalizing s with
  | nil => simp
  | cons j js ih => simp [ih, silAdd, add_assoc, add_comm 1]

/-- The mean distance as computed. -/
def meanF (L : Type) [RLoss L] [RFrom N L] (d : Nat → Nat → N) (assi : List Nat) (i c : Nat) : L :=
  checkedDiv (((members assi i c).map fun j => (conv (d i j) : L)).foldl RLoss.add RLoss.zero)
    (RLoss.ofU32 (members assi i c).length)

theorem bucket_any (d : Nat → Nat → N) (assi : List Nat) (i c : Nat) :
    (silBufP L d assi i).getD c (0, RLoss.zero) =
      ((members assi i c).length, ((members assi i c).map fun j => (conv (d i j) : L)).foldl RLoss.add RLoss.zero) := by
  rw [silBufP_getD, members_eq, silAdd_foldl, Nat.zero_add]

theorem others_any (d : Nat → Nat → N) (assi : List Nat) (i ai : Nat) :
    ((silBufP L d assi i).zipIdx.filter (fun p => p.2 ≠ ai)).map
      (fun p => checkedDiv p.1.2 (RLoss.ofU32 p.1.1)) =
    ((List.range (bufLen assi)).filter (· ≠ ai)).map (meanF L d assi i) := by
  have h1 : ((silBufP L d assi i).zipIdx.filter (fun p => p.2 ≠ ai)).map
      (fun p => checkedDiv p.1.2 (RLoss.ofU32 p.1.1)) =
      ((silBufP L d assi i).zipIdx.filter (fun p => p.2 ≠ ai)).map (fun p => meanF L d assi i p.2) := by
    refine List.map_congr_left fun p hp => ?_
    have hb := bucket_any (L := L) d assi i p.2
    rw [List.getD_eq_getElem?_getD, mem_zipIdx_get (List.mem_of_mem_filter hp), Option.getD_some] at hb
    rw [hb]; rfl
  rw [h1, ← silBufP_length (L := L) d assi i, List.range_eq_range', ← List.zipIdx_map_snd,
    List.filter_map, List.map_map]
  rfl

theorem members_lt (assi : List Nat) {i : Nat} (hi : i < assi.length) (c : Nat) :
    (members assi i c).length + 1 ≤ assi.length := by
  have h : members assi i c = ((List.range assi.length).filter (· ≠ i)).filter fun j => assi[j]? = some c := by
    rw [members, List.filter_filter]
    refine List.filter_congr fun j _ => ?_
    simp
  have h2 : ((List.range assi.length).filter (· ≠ i)).length < assi.length := by
    have := List.length_filter_lt_length_iff_exists (l := List.range assi.length) (p := fun j => decide (j ≠ i))
    rw [List.length_range] at this
    exact this.mpr ⟨i, List.mem_range.mpr hi, by simp⟩
  have h3 := List.length_filter_le (fun j => decide (assi[j]? = some c)) ((List.range assi.length).filter (· ≠ i))
  rw [h]
  omega

/-- Relative error of a computed mean. -/
abbrev gErr (u : K) (n : Nat) : K := (1 + u) ^ n - 1

theorem meanF_near' (M : DivModel fin val u B eta C) {d : Nat → Nat → N} {assi : List Nat}
    (hs : Spread fin val w W assi.length d) (hf : SilFits u B eta w W C assi.length) {i : Nat} (hi : i < assi.length)
    {c : Nat} (hc : members assi i c ≠ []) :
    Near fin val (gErr u assi.length) (meanDist (fun x : N => val (conv x : L)) d assi i c) (meanF L d assi i c) ∧
      meanDist (fun x : N => val (conv x : L)) d assi i c ≤ W := by
  have hlt := members_lt assi hi c
  have hpos := List.length_pos_iff.mpr hc
  have hmem : ∀ j ∈ members assi i c, j < assi.length := fun j hj =>
    (List.getElem?_eq_some_iff.mp (mem_members.mp hj).1).1
  have hpw : ∀ {m : Nat}, m ≤ assi.length → (1 + u) ^ m ≤ 3 / 2 := fun h => (M.std.pow_mono h).trans hf.small
  have hsum : (((members assi i c).map fun j => (conv (d i j) : L)).map val).sum ≤ (members assi i c).length * W := by
    rw [List.map_map]
    have := List.sum_le_card_nsmul ((members assi i c).map (val ∘ fun j => (conv (d i j) : L))) W fun y hy => by
      obtain ⟨j, hj, rfl⟩ := List.mem_map.mp hy
      exact hs.high i j hi (hmem j hj)
    rwa [nsmul_eq_mul, List.length_map] at this
  have hW0 : 0 ≤ W := by
    obtain ⟨j, hj⟩ := List.exists_mem_of_ne_nil _ hc
    rcases hs.low i j hi (hmem j hj) with h | h
    · exact h ▸ hs.high i j hi (hmem j hj)
    · exact (hf.w_pos.le.trans h).trans (hs.high i j hi (hmem j hj))
  have hlK : ((members assi i c).length : K) ≤ assi.length := by exact_mod_cast (by omega)
  have hl0 : (0 : K) < (members assi i c).length := by exact_mod_cast hpos
  constructor
  · have := near_mean M ((members assi i c).map fun j => (conv (d i j) : L)) (w := w) (by rw [List.length_map]; exact hpos)
      (by rw [List.length_map]; exact le_trans (by omega) hf.exact)
      (fun x hx => by
        obtain ⟨j, hj, rfl⟩ := List.mem_map.mp hx
        exact ⟨hs.fin i j hi (hmem j hj), hs.low i j hi (hmem j hj)⟩) hf.w_pos
      (hpw (by rw [List.length_map]; omega))
      (by
        rw [List.length_map]
        exact (mul_le_mul_of_nonneg_right (mul_le_mul_of_nonneg_left hlK (by norm_num)) M.eta_nonneg).trans hf.under)
      (by
        rw [List.length_map]
        have h1 : (members assi i c).length * W ≤ assi.length * W := mul_le_mul_of_nonneg_right hlK hW0
        calc _ ≤ (1 + u) ^ (members assi i c).length * (assi.length * W) :=
              mul_le_mul_of_nonneg_left (hsum.trans h1) (by linarith [M.std.one_le_pow (members assi i c).length])
          _ ≤ 3 / 2 * (assi.length * W) := mul_le_mul_of_nonneg_right (hpw (by omega)) (by positivity)
          _ ≤ B := hf.over)
    rw [List.length_map, List.map_map] at this
    refine Near.mono this ?_
    have := M.std.pow_mono hlt
    linarith
  · unfold meanDist
    rw [div_le_iff₀ hl0, mul_comm]
    rw [List.map_map] at hsum
    exact hsum

theorem meanF_near (M : DivModel fin val u B eta C) {d : Nat → Nat → N} {assi : List Nat}
    (hs : Spread fin val w W assi.length d) (hf : SilFits u B eta w W C assi.length) (hW0 : 0 ≤ W) {i : Nat}
    (hi : i < assi.length) (c : Nat) :
    Near fin val (gErr u assi.length) (meanDist (fun x : N => val (conv x : L)) d assi i c) (meanF L d assi i c) ∧
      meanDist (fun x : N => val (conv x : L)) d assi i c ≤ W := by
  by_cases hc : members assi i c = []
  · have h1 : meanDist (fun x : N => val (conv x : L)) d assi i c = 0 := by simp [meanDist, hc]
    have h2 : meanF L d assi i c = RLoss.zero := by
      obtain ⟨h3, h4⟩ := M.ofU32 0 (Nat.zero_le _)
      unfold meanF checkedDiv
      rw [hc, List.length_nil, if_neg]
      rw [DivModel.rgt_iff M.std h3 M.std.zero_fin, M.std.zero, h4]
      simp
    rw [h1, h2]
    exact ⟨⟨M.std.zero_fin, le_rfl, by rw [M.std.zero]; simp⟩, hW0⟩
  · exact meanF_near' M hs hf hi hc

/-- The error of one silhouette value. -/
def silErr1 (u : K) (n : Nat) : K := 2 * gErr u n / (1 - gErr u n) + ((1 + u) ^ 2 - 1)

/-- The error of the average. -/
def silErr (u : K) (n : Nat) : K := 2 * gErr u n / (1 - gErr u n) + ((1 + u) ^ (n + 3) - 1)

theorem gErr_range (M : StdModel fin val u B) (h : (1 + u) ^ n ≤ 3 / 2) : 0 ≤ gErr u n ∧ gErr u n ≤ 1 / 2 := by
  have := M.one_le_pow n
  unfold gErr
  constructor <;> linarith

theorem silErr1_nonneg (M : StdModel fin val u B) (h : (1 + u) ^ n ≤ 3 / 2) : 0 ≤ silErr1 u n := by
  have h1 := gErr_range M h
  have h2 := M.one_le_pow 2
  exact add_nonneg (div_nonneg (by linarith) (by linarith)) (by linarith)

/-- The last step: `(b - a) / max a b` of approximate means. -/
theorem frac_comp (M : DivModel fin val u B eta C) (hn : 1 ≤ n) (hsm : (1 + u) ^ n ≤ 3 / 2) (hBW : 3 / 2 * (n * W) ≤ B)
    (hB3 : 4 * (n : K) ≤ B) {a b : K} {x y : L} (ha : Near fin val (gErr u n) a x) (hb : Near fin val (gErr u n) b y)
    (haW : a ≤ W) (hbW : b ≤ W) :
    fin (checkedDiv (RLoss.sub y x) (if rgt x y then x else y)) ∧
      |val (checkedDiv (RLoss.sub y x) (if rgt x y then x else y))| ≤ (1 + u) ^ 2 ∧
      |val (checkedDiv (RLoss.sub y x) (if rgt x y then x else y)) - (if max a b = 0 then 0 else (b - a) / max a b)| ≤
        silErr1 u n := by
  obtain ⟨hg0, hg1⟩ := gErr_range M.std hsm
  have hu0 := M.std.u_nonneg
  have hp2 := M.std.one_le_pow 2
  have hx := ha.bounds
  have hy := hb.bounds
  have hxn : 0 ≤ val x := (mul_nonneg (by linarith) ha.2.1).trans hx.1
  have hyn : 0 ≤ val y := (mul_nonneg (by linarith) hb.2.1).trans hy.1
  have hmax : fin (if rgt x y then x else y) ∧ val (if rgt x y then x else y) = max (val x) (val y) := by
    by_cases h : rgt x y = true
    · rw [if_pos h]; exact ⟨ha.1, (max_eq_left ((DivModel.rgt_iff M.std ha.1 hb.1).mp h).le).symm⟩
    · rw [if_neg h]
      exact ⟨hb.1, (max_eq_right (not_lt.mp fun h' => h ((DivModel.rgt_iff M.std ha.1 hb.1).mpr h'))).symm⟩
  generalize (if rgt x y then x else y) = m at hmax ⊢
  obtain ⟨hmf, hmv⟩ := hmax
  by_cases h0 : max a b = 0
  · have ha0 : a = 0 := le_antisymm ((le_max_left _ _).trans h0.le) ha.2.1
    have hb0 : b = 0 := le_antisymm ((le_max_right _ _).trans h0.le) hb.2.1
    have : ¬ rgt m RLoss.zero = true := fun h => by
      have := (DivModel.rgt_iff M.std hmf M.std.zero_fin).mp h
      rw [hmv, ha.zero ha0, hb.zero hb0, M.std.zero, max_self] at this
      exact lt_irrefl _ this
    rw [checkedDiv, if_neg this, if_pos h0, M.std.zero]
    refine ⟨M.std.zero_fin, ?_, ?_⟩
    · rw [abs_zero]; linarith
    · rw [sub_zero, abs_zero]; exact silErr1_nonneg M.std hsm
  · have hmp : 0 < max a b := lt_of_le_of_ne (ha.2.1.trans (le_max_left _ _)) (Ne.symm h0)
    have hmp' : 0 < max (val x) (val y) := by
      rcases max_choice a b with e | e
      · rw [e] at hmp
        exact lt_of_lt_of_le (lt_of_lt_of_le (mul_pos (by linarith) hmp) hx.1) (le_max_left _ _)
      · rw [e] at hmp
        exact lt_of_lt_of_le (lt_of_lt_of_le (mul_pos (by linarith) hmp) hy.1) (le_max_right _ _)
    rw [checkedDiv, if_pos ((DivModel.rgt_iff M.std hmf M.std.zero_fin).mpr (by rw [hmv, M.std.zero]; exact hmp')),
      if_neg h0]
    have hfr := frac_near hg0 (by linarith) ha.2.1 hb.2.1 hx.1 hx.2 hy.1 hy.2 h0
    have hnK : (1 : K) ≤ n := by exact_mod_cast hn
    have hdiff : |val y - val x| ≤ max (val x) (val y) := by
      rw [abs_le]
      constructor
      · linarith [le_max_left (val x) (val y)]
      · linarith [le_max_right (val x) (val y)]
    have hmB : max (val x) (val y) ≤ B := by
      have hW0 : 0 ≤ W := ha.2.1.trans haW
      have h1 : ∀ {c : K}, 0 ≤ c → c ≤ W → (1 + gErr u n) * c ≤ B := fun h0 h => by
        have : W ≤ n * W := le_mul_of_one_le_left hW0 (by linarith)
        nlinarith
      exact max_le (hx.2.trans (h1 ha.2.1 haW)) (hy.2.trans (h1 hb.2.1 hbW))
    obtain ⟨ht1, ht2⟩ := M.std.sub y x hb.1 ha.1 (hdiff.trans hmB)
    have hs0 : |(val y - val x) / max (val x) (val y)| ≤ 1 := by
      rw [abs_div, abs_of_pos hmp']; exact (div_le_one hmp').mpr hdiff
    have hq : |val (RLoss.sub y x) / max (val x) (val y) - (val y - val x) / max (val x) (val y)| ≤ u := by
      rw [← sub_div, abs_div, abs_of_pos hmp', div_le_iff₀ hmp']
      exact ht2.trans (mul_le_mul_of_nonneg_left hdiff hu0)
    have hq1 : |val (RLoss.sub y x) / max (val x) (val y)| ≤ 1 + u := by
      have := abs_add_le (val (RLoss.sub y x) / max (val x) (val y) - (val y - val x) / max (val x) (val y))
        ((val y - val x) / max (val x) (val y))
      rw [sub_add_cancel] at this
      linarith
    obtain ⟨hr1, hr2⟩ := M.div_abs ht1 hmf (by rw [hmv]; exact hmp'.ne') (A := 1 + u) (by rw [hmv]; exact hq1)
      (by linarith) (by linarith [M.std.u_lt_one])
    rw [hmv] at hr2
    have htot : |val (RLoss.div (RLoss.sub y x) m) - (val y - val x) / max (val x) (val y)| ≤ (1 + u) ^ 2 - 1 := by
      have := abs_add_le (val (RLoss.div (RLoss.sub y x) m) - val (RLoss.sub y x) / max (val x) (val y))
        (val (RLoss.sub y x) / max (val x) (val y) - (val y - val x) / max (val x) (val y))
      rw [sub_add_sub_cancel] at this
      nlinarith
    refine ⟨hr1, ?_, ?_⟩
    · have := abs_add_le (val (RLoss.div (RLoss.sub y x) m) - (val y - val x) / max (val x) (val y))
        ((val y - val x) / max (val x) (val y))
      rw [sub_add_cancel] at this
      linarith
    · have := abs_add_le (val (RLoss.div (RLoss.sub y x) m) - (val y - val x) / max (val x) (val y))
        ((val y - val x) / max (val x) (val y) - (b - a) / max a b)
      rw [sub_add_sub_cancel] at this
      unfold silErr1
      linarith

/-- The silhouette of object `i` by the rule of the code: the labels below the largest one that do not occur count as
clusters at distance zero, and so does the other cluster if there is only one (C26, C27). -/
def silGap (conv : N → K) (d : Nat → Nat → N) (assi : List Nat) (i ai : Nat) : K :=
  if members assi i ai = [] then 0
  else
    let bs := ((List.range (bufLen assi)).filter (· ≠ ai)).map (meanDist conv d assi i)
    let a := meanDist conv d assi i ai
    let b := bs.tail.foldl min (bs.head?.getD 0)
    if max a b = 0 then 0 else (b - a) / max a b

/-- The values of `silGap` for all objects. -/
def silGaps (conv : N → K) (d : Nat → Nat → N) (assi : List Nat) : List K :=
  assi.zipIdx.map fun p => silGap conv d assi p.2 p.1

/-- If all labels up to the largest occur, and there are at least two, this is the textbook definition. -/
theorem silGap_eq (conv : N → K) (d : Nat → Nat → N) {assi : List Nat} (hg : NoGap assi) (hb : bufLen assi ≠ 1) {i ai : Nat}
    (hi : assi[i]? = some ai) : silGap conv d assi i ai = silWith conv d assi i ai := by
  unfold silGap silWith
  by_cases hm : members assi i ai = []
  · rw [if_pos hm, if_pos hm]
  rw [if_neg hm, if_neg hm]
  have hmin := min?_eq_of_mem (l := ((List.range (bufLen assi)).filter (· ≠ ai)).map (meanDist conv d assi i))
    (l' := (assi.filter (· ≠ ai)).map (meanDist conv d assi i))
    (fun x => by
      constructor
      · intro hx; obtain ⟨c, hc, rfl⟩ := List.mem_map.mp hx
        exact List.mem_map_of_mem ((others_mem hg ai c).mp hc)
      · intro hx; obtain ⟨c, hc, rfl⟩ := List.mem_map.mp hx
        exact List.mem_map_of_mem ((others_mem hg ai c).mpr hc))
  rw [← hmin]
  have hai : ai < bufLen assi := lt_bufLen (List.mem_of_getElem? hi)
  have hne : (List.range (bufLen assi)).filter (· ≠ ai) ≠ [] := by
    obtain ⟨c, hc, hca⟩ : ∃ c, c < bufLen assi ∧ c ≠ ai :=
      if h0 : ai = 0 then ⟨1, by omega, by omega⟩ else ⟨0, by omega, by omega⟩
    intro h
    rw [List.filter_eq_nil_iff] at h
    exact h c (List.mem_range.mpr hc) (by simpa using hca)
  obtain ⟨c0, cs, hcs⟩ := List.exists_cons_of_ne_nil hne
  rw [hcs]
  simp only [List.map_cons, List.tail_cons, List.head?_cons, Option.getD_some, List.min?_cons']

theorem silGaps_eq (conv : N → K) (d : Nat → Nat → N) {assi : List Nat} (hg : NoGap assi) (hb : bufLen assi ≠ 1) :
    silGaps conv d assi = silList conv d assi :=
  List.map_congr_left fun _ hp => silGap_eq conv d hg hb (mem_zipIdx_get hp)

/-- One silhouette value. -/
theorem silValue_near (M : DivModel fin val u B eta C) {d : Nat → Nat → N} {assi : List Nat}
    (hs : Spread fin val w W assi.length d) (hf : SilFits u B eta w W C assi.length) {i ai : Nat}
    (hi : i < assi.length) :
    fin (silValueP (silBufP L d assi i) ai) ∧ |val (silValueP (silBufP L d assi i) ai)| ≤ (1 + u) ^ 2 ∧
      |val (silValueP (silBufP L d assi i) ai) - silGap (fun x : N => val (conv x : L)) d assi i ai| ≤
        silErr1 u assi.length := by
  unfold silValueP silGap
  simp only [others_any]
  simp only [bucket_any]
  by_cases hm : members assi i ai = []
  · rw [if_pos hm, if_neg (by simp [hm]), M.std.zero, sub_zero, abs_zero]
    exact ⟨M.std.zero_fin, by linarith [M.std.one_le_pow 2], silErr1_nonneg M.std hf.small⟩
  · rw [if_neg hm, if_pos (List.length_pos_iff.mpr hm)]
    obtain ⟨hg0, hg1⟩ := gErr_range M.std hf.small
    have hown := meanF_near' M hs hf hi hm
    have hW0 : 0 ≤ W := hown.1.2.1.trans hown.2
    refine frac_comp M (by omega) hf.small hf.over hf.big hown.1 ?_ hown.2 ?_
    · cases (List.range (bufLen assi)).filter (· ≠ ai) with
      | nil =>
        simp only [List.map_nil, List.tail_nil, List.foldl_nil, List.head?_nil, Option.getD_none]
        exact ⟨M.std.zero_fin, le_rfl, by rw [M.std.zero]; simp⟩
      | cons c0 cs =>
        simp only [List.map_cons, List.tail_cons, List.head?_cons, Option.getD_some]
        exact near_min M.std (g := gErr u assi.length) (by linarith) (meanF L d assi i)
          (meanDist (fun x : N => val (conv x : L)) d assi i) cs (meanF_near M hs hf hW0 hi c0).1
          fun c _ => (meanF_near M hs hf hW0 hi c).1
    · cases (List.range (bufLen assi)).filter (· ≠ ai) with
      | nil => simpa using hW0
      | cons c0 cs =>
        have h1 : ((c0 :: cs).map (meanDist (fun x : N => val (conv x : L)) d assi i)).min? =
            some ((cs.map (meanDist (fun x : N => val (conv x : L)) d assi i)).foldl min
          (meanDist (fun x : N => val (conv x : L)) d assi i c0)) := by
          rw [List.map_cons, List.min?_cons']
        obtain ⟨c, hc, e⟩ := List.mem_map.mp (List.min?_mem h1)
        simp only [List.map_cons, List.tail_cons, List.head?_cons, Option.getD_some]
        rw [← e]
        exact (meanF_near M hs hf hW0 hi c).2

theorem silAvg_near (M : DivModel fin val u B eta C) {d : Nat → Nat → N} {assi : List Nat}
    (hs : Spread fin val w W assi.length d) (hf : SilFits u B eta w W C assi.length)
    (hne : assi ≠ []) (hu : assi.length ≤ u32Max) :
    fin (silAvgP L d assi) ∧
      |val (silAvgP L d assi) - mean (silGaps (fun x : N => val (conv x : L)) d assi)| ≤ silErr u assi.length := by
  have hl0 := List.length_pos_iff.mpr hne
  have hlK : (0 : K) < assi.length := by exact_mod_cast hl0
  have hlK1 : (1 : K) ≤ assi.length := by exact_mod_cast hl0
  have hlen : (silValsP L d assi).length = assi.length := by simp [silValsP]
  have hval : ∀ x ∈ silValsP L d assi, fin x ∧ |val x| ≤ (1 + u) ^ 2 := by
    intro x hx
    obtain ⟨p, hp, rfl⟩ := List.mem_map.mp hx
    have := silValue_near M hs hf (ai := p.1) (mem_zipIdx_lt hp)
    exact ⟨this.1, this.2.1⟩
  have hu0 := M.std.u_nonneg
  have hu1 : 1 + u ≤ 3 / 2 := by
    have := (M.std.pow_mono (m := 1) hl0).trans hf.small
    rwa [pow_one] at this
  have hp2 : (1 + u) ^ 2 ≤ 9 / 4 := by nlinarith
  have hsumA : ((silValsP L d assi).map fun _ => (1 + u) ^ 2).sum = assi.length * (1 + u) ^ 2 := by
    rw [List.map_const', List.sum_replicate, hlen, nsmul_eq_mul]
  have hpn := M.std.one_le_pow assi.length
  have hfit : (1 + u) ^ assi.length * (1 + u) ^ 2 ≤ 27 / 8 := by
    calc (1 + u) ^ assi.length * (1 + u) ^ 2 ≤ 3 / 2 * (9 / 4) :=
          mul_le_mul hf.small hp2 (by positivity) (by norm_num)
      _ = 27 / 8 := by norm_num
  have ha := appr_sum M.std (silValsP L d assi) (A := fun _ => (1 + u) ^ 2) hval (by
    rw [hsumA, hlen]
    calc (1 + u) ^ assi.length * ((assi.length : K) * (1 + u) ^ 2) =
          ((1 + u) ^ assi.length * (1 + u) ^ 2) * (assi.length : K) := by ring
      _ ≤ 27 / 8 * (assi.length : K) := mul_le_mul_of_nonneg_right hfit hlK.le
      _ ≤ 4 * (assi.length : K) := by linarith
      _ ≤ B := hf.big)
  rw [hsumA, hlen] at ha
  obtain ⟨hcf, hc⟩ := M.ofU32 assi.length hf.exact
  rw [silAvgP, asU32_le hu]
  generalize (silValsP L d assi).foldl RLoss.add RLoss.zero = s at ha ⊢
  -- the quotient before rounding
  have hv : |val s / assi.length| ≤ (1 + u) ^ assi.length * (1 + u) ^ 2 := by
    rw [abs_div, abs_of_pos hlK, div_le_iff₀ hlK]
    refine ha.abs_val.trans (le_of_eq ?_)
    ring
  obtain ⟨hd1, hd2⟩ := M.div_abs ha.fin hcf (by rw [hc]; exact hlK.ne') (A := (1 + u) ^ assi.length * (1 + u) ^ 2)
    (by rw [hc]; exact hv) (one_le_mul_of_one_le_of_one_le hpn (M.std.one_le_pow 2))
    (hfit.trans (by linarith [hf.big]))
  rw [hc] at hd2
  refine ⟨hd1, ?_⟩
  have hs1 : |val s / assi.length - ((silValsP L d assi).map val).sum / assi.length| ≤
      ((1 + u) ^ assi.length - 1) * (1 + u) ^ 2 := by
    rw [← sub_div, abs_div, abs_of_pos hlK, div_le_iff₀ hlK]
    refine ha.err.trans (le_of_eq ?_)
    ring
  have hs2 : |((silValsP L d assi).map val).sum / assi.length - mean (silGaps (fun x : N => val (conv x : L)) d assi)| ≤
      silErr1 u assi.length := by
    have e1 : (silGaps (fun x : N => val (conv x : L)) d assi).length = assi.length := by simp [silGaps]
    rw [mean, e1, ← sub_div, abs_div, abs_of_pos hlK, div_le_iff₀ hlK]
    have : ∀ ps : List (Nat × Nat), (∀ p ∈ ps, p.2 < assi.length) →
        |((ps.map fun p => silValueP (silBufP L d assi p.2) p.1).map val).sum -
          (ps.map fun p => silGap (fun x : N => val (conv x : L)) d assi p.2 p.1).sum| ≤
        silErr1 u assi.length * ps.length := by
      intro ps
      induction ps with
      | nil => intro _; simp
      | cons p ps ih =>
        intro h
        have h1 := ih fun q hq => h q (by simp [hq])
        have h2 := (silValue_near M hs hf (ai := p.1) (h p (by simp))).2.2
        simp only [List.map_cons, List.sum_cons, List.length_cons]
        rw [add_sub_add_comm]
        refine (abs_add_le _ _).trans ?_
        push_cast
        linarith
    have h := this assi.zipIdx fun p hp => mem_zipIdx_lt hp
    rw [List.length_zipIdx] at h
    exact h
  have t1 := abs_add_le (val (RLoss.div s (RLoss.ofU32 assi.length)) - val s / assi.length)
    (val s / assi.length - ((silValsP L d assi).map val).sum / assi.length)
  rw [sub_add_sub_cancel] at t1
  have t2 := abs_add_le (val (RLoss.div s (RLoss.ofU32 assi.length)) - ((silValsP L d assi).map val).sum / assi.length)
    (((silValsP L d assi).map val).sum / assi.length - mean (silGaps (fun x : N => val (conv x : L)) d assi))
  rw [sub_add_sub_cancel] at t2
  have e : silErr u assi.length = silErr1 u assi.length +
      (((1 + u) ^ assi.length - 1) * (1 + u) ^ 2 + u * ((1 + u) ^ assi.length * (1 + u) ^ 2)) := by
    unfold silErr silErr1
    rw [pow_add]; ring
  rw [e]
  linarith

theorem silErr_nonneg (M : StdModel fin val u B) (h : (1 + u) ^ n ≤ 3 / 2) : 0 ≤ silErr u n := by
  have h1 := gErr_range M h
  have h2 := M.one_le_pow (n + 3)
  exact add_nonneg (div_nonneg (by linarith) (by linarith)) (by linarith)

/-- The average as `silhouette` computes it. -/
def silExact (conv : N → K) (d : Nat → Nat → N) (assi : List Nat) : K :=
  if bufLen assi = 1 then 0 else mean (silGaps conv d assi)

theorem silExact_eq (conv : N → K) (d : Nat → Nat → N) {assi : List Nat} (hg : NoGap assi) :
    silExact conv d assi = mean (silList conv d assi) := by
  unfold silExact
  by_cases hb : bufLen assi = 1
  · have hz : silList conv d assi = List.replicate assi.length 0 := by
      refine List.eq_replicate_iff.mpr ⟨by simp [silList], fun x hx => ?_⟩
      obtain ⟨p, hp, rfl⟩ := List.mem_map.mp hx
      unfold silWith
      have : assi.filter (· ≠ p.1) = [] := by
        rw [List.filter_eq_nil_iff]
        intro c hc
        have := lt_bufLen hc
        have := lt_bufLen (List.mem_of_getElem? (mem_zipIdx_get hp))
        simp; omega
      rw [this]
      simp
    rw [if_pos hb, hz, mean]
    simp
  · rw [if_neg hb, silGaps_eq conv d hg hb]

/-- The average for all labels, also with gaps. -/
theorem silhouetteP_near (M : DivModel fin val u B eta C) {d : Nat → Nat → N} {assi : List Nat}
    (hs : Spread fin val w W assi.length d) (hf : SilFits u B eta w W C assi.length) (hne : assi ≠ [])
    (hu : assi.length ≤ u32Max) (samples : Bool) :
    fin (silhouetteP L d assi samples).1 ∧
      |val (silhouetteP L d assi samples).1 - silExact (fun x : N => val (conv x : L)) d assi| ≤ silErr u assi.length := by
  unfold silhouetteP silExact
  by_cases hb : bufLen assi = 1
  · rw [if_pos hb, if_pos hb]
    refine ⟨M.std.zero_fin, ?_⟩
    dsimp only
    rw [M.std.zero, sub_zero, abs_zero]
    exact silErr_nonneg M.std hf.small
  · rw [if_neg hb, if_neg hb]
    exact silAvg_near M hs hf hne hu

/-- **C76**: `silhouette`. -/
theorem C76_silhouette (M : DivModel fin val u B eta C) {mat : Mat N} {m : Nat} {d : Nat → Nat → N} (hm : IsMatrix mat m d)
    {assi : List Nat} (hl : assi.length ≤ m) (hne : assi ≠ []) (hu : assi.length ≤ u32Max) (hg : NoGap assi)
    (hs : Spread fin val w W assi.length d) (hf : SilFits u B eta w W C assi.length) (samples : Bool) {avg : L} {sil : List L}
    (hr : silhouette L mat assi samples = .ok (avg, sil)) :
    (fin avg ∧ |val avg - mean (silList (fun x : N => val (conv x : L)) d assi)| ≤ silErr u assi.length) ∧
      (samples = true → List.Forall₂ (fun s e => fin s ∧ |val s - e| ≤ silErr1 u assi.length) sil
        (silList (fun x : N => val (conv x : L)) d assi)) := by
  rw [silhouette_eq hm hl] at hr
  have h := silhouetteP_near M hs hf hne hu samples
  rw [Except.ok.inj hr, silExact_eq _ _ hg] at h
  refine ⟨h, ?_⟩
  rintro rfl
  unfold silhouetteP at hr
  by_cases hb : bufLen assi = 1
  · rw [if_pos hb] at hr
    cases hr
    rw [if_pos rfl, silList, List.forall₂_map_right_iff, List.forall₂_iff_get]
    refine ⟨by simp, fun i h1 h2 => ?_⟩
    have hp : assi.zipIdx.get ⟨i, h2⟩ ∈ assi.zipIdx := List.get_mem _ _
    have : assi.filter (· ≠ (assi.zipIdx.get ⟨i, h2⟩).1) = [] := by
      rw [List.filter_eq_nil_iff]
      intro c hc
      have := lt_bufLen hc
      have := lt_bufLen (List.mem_of_getElem? (mem_zipIdx_get hp))
      simp only [ne_eq, decide_not, Bool.not_eq_eq_eq_not, Bool.not_true, decide_eq_false_iff_not, not_not]
      omega
    have hz : silWith (fun x : N => val (conv x : L)) d assi (assi.zipIdx.get ⟨i, h2⟩).2 (assi.zipIdx.get ⟨i, h2⟩).1 = 0 := by
      unfold silWith
      rw [this]
      simp
    rw [hz]
    simp only [List.get_eq_getElem, List.getElem_replicate]
    rw [M.std.zero, sub_zero, abs_zero]
    exact ⟨M.std.zero_fin, silErr1_nonneg M.std hf.small⟩
  · rw [if_neg hb] at hr
    cases hr
    rw [if_pos rfl, silValsP, silList, List.forall₂_map_left_iff, List.forall₂_map_right_iff, List.forall₂_same]
    intro p hp
    have := silValue_near M hs hf (ai := p.1) (mem_zipIdx_lt hp)
    rw [silGap_eq _ _ hg hb (mem_zipIdx_get hp)] at this
    exact ⟨this.1, this.2.2⟩

/-- **C76**: `par_silhouette`, for at least two clusters (see C27 for one). -/
theorem C76_par_silhouette (M : DivModel fin val u B eta C) {mat : Mat N} {m : Nat} {d : Nat → Nat → N}
    (hm : IsMatrix mat m d) {assi : List Nat} (hl : assi.length ≤ m) (h1 : 1 ∈ assi) (hu : assi.length ≤ u32Max)
    (hg : NoGap assi) (hs : Spread fin val w W assi.length d) (hf : SilFits u B eta w W C assi.length) {avg : L}
    (hr : parSilhouette L mat assi = .ok avg) :
    fin avg ∧ |val avg - mean (silList (fun x : N => val (conv x : L)) d assi)| ≤ silErr u assi.length := by
  have := lt_bufLen h1
  rw [parSilhouette_eq hm hl] at hr
  cases hr
  rw [← silGaps_eq _ _ hg (by omega)]
  exact silAvg_near M hs hf (List.ne_nil_of_mem h1) hu

end general

/-! ## `f32` or `u32` distances, `f64` silhouettes: no assumptions -/

theorem divModel64 : DivModel (Ieee.Fin (F := binary64)) Ieee.val (1 / 2 ^ 53) (2 ^ 1023) (2 ^ (-1075 : ℤ)) u32Max := by
  have := Ieee.divModel binary64 (C := u32Max) (by decide) (by
    have h : (u32Max : ℚ) ≤ 2 ^ 32 := by unfold u32Max; norm_num
    refine h.trans ?_
    show (2 : ℚ) ^ 32 ≤ 2 ^ (1023 : ℤ)
    exact_mod_cast Nat.pow_le_pow_right (by norm_num) (by norm_num))
  exact this

theorem silErr_f64 {n : Nat} (hn : n ≤ u32Max) : silErr (1 / 2 ^ 53 : ℚ) n ≤ (5 * n + 3) / 2 ^ 52 := by
  have hn' : (n : ℚ) ≤ 2 ^ 32 := by
    have h : n ≤ 2 ^ 32 := hn.trans (by decide)
    exact_mod_cast h
  have h1 := pow_f64 (e := n) (hn.trans (by decide))
  have h2 := pow_f64 (e := n + 3) (le_trans (Nat.add_le_add_right hn 3) (by decide))
  have h0 := (Ieee.stdModel binary64).one_le_pow n
  have h0 : (1 : ℚ) ≤ (1 + 1 / 2 ^ 53) ^ n := h0
  have hg : gErr (1 / 2 ^ 53 : ℚ) n ≤ n / 2 ^ 52 := h1
  have hg0 : 0 ≤ gErr (1 / 2 ^ 53 : ℚ) n := by unfold gErr; linarith
  have hq : (n : ℚ) / 2 ^ 52 ≤ 1 / 2 := by rw [div_le_iff₀ (by norm_num)]; linarith
  have h3 : 2 * gErr (1 / 2 ^ 53 : ℚ) n / (1 - gErr (1 / 2 ^ 53 : ℚ) n) ≤ 4 * (n / 2 ^ 52) := by
    rw [div_le_iff₀ (by linarith)]
    nlinarith
  unfold silErr
  push_cast at h2
  have e : (5 * (n : ℚ) + 3) / 2 ^ 52 = 4 * (n / 2 ^ 52) + (n + 3) / 2 ^ 52 := by ring
  rw [e]
  linarith

theorem silFits64 {w : ℚ} (hw : 2 ^ (-149 : ℤ) ≤ w) {n : Nat} (hn : n ≤ u32Max) :
    SilFits (1 / 2 ^ 53 : ℚ) (2 ^ 1023) (2 ^ (-1075 : ℤ)) w (2 ^ 128) u32Max n := by
  have hn' : (n : ℚ) ≤ 2 ^ 32 := by
    have h : n ≤ 2 ^ 32 := hn.trans (by decide)
    exact_mod_cast h
  have hw0 : (0 : ℚ) < w := lt_of_lt_of_le (zpow_pos two_pos _) hw
  refine ⟨hw0, hn, ?_, ?_, ?_, ?_⟩
  · have h1 := pow_f64 (e := n) (hn.trans (by decide))
    have hq : (n : ℚ) / 2 ^ 52 ≤ 1 / 2 := by rw [div_le_iff₀ (by norm_num)]; linarith
    linarith
  · have e1 : (2 : ℚ) ^ (-1075 : ℤ) = 2 ^ (-149 : ℤ) * (1 / 2 ^ (926 : ℕ)) := by
      rw [one_div, ← zpow_natCast, ← zpow_neg, ← zpow_add₀ two_ne_zero]; norm_num
    have e2 : (1 : ℚ) / 2 ^ (926 : ℕ) ≤ 1 / 2 ^ (86 : ℕ) :=
      one_div_le_one_div_of_le (by norm_num) (pow_le_pow_right₀ (by norm_num) (by norm_num))
    have hp : (0 : ℚ) < 2 ^ (-149 : ℤ) := zpow_pos two_pos _
    rw [e1]
    calc 2 * (n : ℚ) * (2 ^ (-149 : ℤ) * (1 / 2 ^ (926 : ℕ))) ≤ 2 * 2 ^ 32 * (2 ^ (-149 : ℤ) * (1 / 2 ^ (86 : ℕ))) := by
          refine mul_le_mul (by linarith) (mul_le_mul_of_nonneg_left e2 hp.le) (by positivity) (by norm_num)
      _ = 1 / 2 ^ 53 * 2 ^ (-149 : ℤ) := by
          generalize (2 : ℚ) ^ (-149 : ℤ) = z
          ring
      _ ≤ 1 / 2 ^ 53 * w := mul_le_mul_of_nonneg_left hw (by norm_num)
  · calc 3 / 2 * ((n : ℚ) * 2 ^ 128) ≤ 3 / 2 * (2 ^ 32 * 2 ^ 128) := by
          exact mul_le_mul_of_nonneg_left (mul_le_mul_of_nonneg_right hn' (by norm_num)) (by norm_num)
      _ ≤ 2 ^ 200 := by norm_num
      _ ≤ 2 ^ 1023 := pow_le_pow_right₀ (by norm_num) (by norm_num)
  · calc 4 * (n : ℚ) ≤ 4 * 2 ^ 32 := by linarith
      _ ≤ 2 ^ 200 := by norm_num
      _ ≤ 2 ^ 1023 := pow_le_pow_right₀ (by norm_num) (by norm_num)

/-- Non-negative `f32` distances in the range of `f32`. -/
theorem spread_f32 {n : Nat} {d : Nat → Nat → Finite binary32} (h0 : ∀ x y, x < n → y < n → 0 ≤ d x y)
    (h : ∀ x y, x < n → y < n → (d x y).q ≤ 2 ^ 128) :
    Spread (Ieee.Fin (F := binary64)) Ieee.val (2 ^ (-149 : ℤ)) (2 ^ 128) n d where
  fin x y _ _ := floatLoss_f32_f64.conv_fin (d x y)
  low x y hx hy := by
    have hq : 0 ≤ (d x y).q := h0 x y hx hy
    obtain ⟨m, hm⟩ : binary32.Grid (d x y).q := (d x y).rep ▸ binary32.rnd_grid (d x y).q
    have hp : (0 : ℚ) < 2 ^ binary32.emin := zpow_pos two_pos _
    rcases eq_or_lt_of_le hq with e | e
    · exact .inl e.symm
    · right
      show (2 : ℚ) ^ binary32.emin ≤ (d x y).q
      rw [hm] at e ⊢
      have : (0 : ℚ) < m := (pos_iff_pos_of_mul_pos e).mpr hp
      have h1 : (1 : ℚ) ≤ m := by exact_mod_cast (by exact_mod_cast this : (0 : ℤ) < m)
      exact le_mul_of_one_le_left hp.le h1
  high := h

theorem spread_u32 (n : Nat) (d : Nat → Nat → UInt32) :
    Spread (Ieee.Fin (F := binary64)) Ieee.val 1 (2 ^ 128) n d where
  fin x y _ _ := floatLoss_u32_f64.conv_fin (d x y)
  low x y _ _ := by
    show ((d x y).toNat : ℚ) = 0 ∨ (1 : ℚ) ≤ ((d x y).toNat : ℚ)
    rcases Nat.eq_zero_or_pos (d x y).toNat with h | h
    · exact .inl (by exact_mod_cast h)
    · exact .inr (by exact_mod_cast h)
  high x y _ _ := by
    show ((d x y).toNat : ℚ) ≤ 2 ^ 128
    have h : ((d x y).toNat : ℚ) ≤ 2 ^ 32 := by exact_mod_cast (d x y).toNat_lt.le
    exact h.trans (by norm_num)

/-- **C76, `u32` distances**: the `f64` silhouette has an absolute error of at most `(5 n + 3) 2⁻⁵²`. -/
theorem C76_u32 {mat : Mat UInt32} {m : Nat} {d : Nat → Nat → UInt32} (hm : IsMatrix mat m d) {assi : List Nat}
    (hl : assi.length ≤ m) (hne : assi ≠ []) (hu : assi.length ≤ u32Max) (hg : NoGap assi) (samples : Bool)
    {avg : Ieee binary64} {sil : List (Ieee binary64)} (hr : silhouette (Ieee binary64) mat assi samples = .ok (avg, sil)) :
    ∃ q, avg = .num q ∧ |q - mean (silList (fun x : UInt32 => (x.toNat : ℚ)) d assi)| ≤ (5 * assi.length + 3) / 2 ^ 52 := by
  obtain ⟨⟨⟨q, rfl, -⟩, h⟩, -⟩ := C76_silhouette divModel64 hm hl hne hu hg (spread_u32 _ d)
    (silFits64 (by norm_num) hu) samples hr
  exact ⟨q, rfl, h.trans (silErr_f64 hu)⟩

/-- **C76, `f32` distances.** -/
theorem C76_f32 {mat : Mat (Finite binary32)} {m : Nat} {d : Nat → Nat → Finite binary32} (hm : IsMatrix mat m d)
    {assi : List Nat} (hl : assi.length ≤ m) (h0 : ∀ x y, x < m → y < m → 0 ≤ d x y)
    (hW : ∀ x y, x < m → y < m → (d x y).q ≤ 2 ^ 128) (hne : assi ≠ []) (hu : assi.length ≤ u32Max) (hg : NoGap assi)
    (samples : Bool) {avg : Ieee binary64} {sil : List (Ieee binary64)}
    (hr : silhouette (Ieee binary64) mat assi samples = .ok (avg, sil)) :
    ∃ q, avg = .num q ∧ |q - mean (silList (fun x : Finite binary32 => x.q) d assi)| ≤ (5 * assi.length + 3) / 2 ^ 52 := by
  obtain ⟨⟨⟨q, rfl, -⟩, h⟩, -⟩ := C76_silhouette divModel64 hm hl hne hu hg
    (spread_f32 (fun x y hx hy => h0 x y (by omega) (by omega)) fun x y hx hy => hW x y (by omega) (by omega))
    (silFits64 le_rfl hu) samples hr
  exact ⟨q, rfl, h.trans (silErr_f64 hu)⟩

/-! ## Concrete cases -/

/-- Two clusters of three and two objects; thirds and fifths are not binary fractions. -/
def silRows : List (List ℕ) := [[0, 1, 3, 9, 7], [1, 0, 2, 8, 7], [3, 2, 0, 5, 6], [9, 8, 5, 0, 1], [7, 7, 6, 1, 0]]

def silU (x y : Nat) : UInt32 := ((silRows.getD x []).getD y 0).toUInt32
def silF (x y : Nat) : Finite binary32 := .ofRat binary32 (((silRows.getD x []).getD y 0 : ℕ) / 10)
def silUMat : Mat UInt32 := ofRows ((List.range 5).map fun x => (List.range 5).map (silU x))
def silFMat : Mat (Finite binary32) := ofRows ((List.range 5).map fun x => (List.range 5).map (silF x))

theorem silU_isMatrix : IsMatrix silUMat 5 silU := by
  have h : ∀ x < 5, ∀ y < 5, silUMat.get x y = .ok (silU x y) := by decide +kernel
  exact ⟨rfl, rfl, fun x y hx hy => h x hx y hy⟩

theorem silF_isMatrix : IsMatrix silFMat 5 silF := by
  have h : ∀ x < 5, ∀ y < 5, silFMat.get x y = .ok (silF x y) := by decide +kernel
  exact ⟨rfl, rfl, fun x y hx hy => h x hx y hy⟩

theorem silLabels_noGap : NoGap [0, 0, 0, 1, 1] := by
  intro c a hc ha
  simp only [List.mem_cons, List.not_mem_nil, or_false] at ha ⊢
  omega

/-- The computed value is not exact, but close. -/
example : (3430924079760433 / 4503599627370496 : ℚ) ≠ mean (silList (fun x : UInt32 => (x.toNat : ℚ)) silU [0, 0, 0, 1, 1]) ∧
    ∃ q, (.num (3430924079760433 / 4503599627370496) : Ieee binary64) = .num q ∧
      |q - mean (silList (fun x : UInt32 => (x.toNat : ℚ)) silU [0, 0, 0, 1, 1])| ≤ (5 * (5 : ℕ) + 3) / 2 ^ 52 :=
  ⟨by decide +kernel, C76_u32 silU_isMatrix (assi := [0, 0, 0, 1, 1]) (by decide) (by decide) (by decide)
    silLabels_noGap false (sil := []) (by decide +kernel)⟩

example : ∃ q, (.num (3430924056656403 / 4503599627370496) : Ieee binary64) = .num q ∧
      |q - mean (silList (fun x : Finite binary32 => x.q) silF [0, 0, 0, 1, 1])| ≤ (5 * (5 : ℕ) + 3) / 2 ^ 52 :=
  C76_f32 silF_isMatrix (assi := [0, 0, 0, 1, 1]) (by decide)
    (fun x y hx hy => (by decide +kernel : ∀ x < 5, ∀ y < 5, 0 ≤ silF x y) x hx y hy)
    (fun x y hx hy => (by decide +kernel : ∀ x < 5, ∀ y < 5, (silF x y).q ≤ 2 ^ 128) x hx y hy)
    (by decide) (by decide) silLabels_noGap false (sil := []) (by decide +kernel)

/-- The hypotheses of the general theorems, `par_silhouette`. -/
example : |Ieee.val (.num (3430924056656403 / 4503599627370496) : Ieee binary64) -
    mean (silList (fun x : Finite binary32 => x.q) silF [0, 0, 0, 1, 1])| ≤ silErr (1 / 2 ^ 53) 5 :=
  (C76_par_silhouette divModel64 silF_isMatrix (assi := [0, 0, 0, 1, 1]) (by decide) (by decide) (by decide) silLabels_noGap
    (spread_f32 (fun x y hx hy => (by decide +kernel : ∀ x < 5, ∀ y < 5, 0 ≤ silF x y) x hx y hy)
      (fun x y hx hy => (by decide +kernel : ∀ x < 5, ∀ y < 5, (silF x y).q ≤ 2 ^ 128) x hx y hy))
    (silFits64 le_rfl (by decide)) (by decide +kernel)).2

/-! ## With `f64` distances the means can underflow -/

/-- Four objects, distances 1 and 2, times the smallest positive `f64`. -/
def tinyRows : List (List ℕ) := [[0, 1, 2, 2], [1, 0, 1, 2], [2, 1, 0, 2], [2, 2, 2, 0]]

def tiny (x y : Nat) : Finite binary64 := .ofRat binary64 (((tinyRows.getD x []).getD y 0 : ℕ) * 2 ^ (-1074 : ℤ))

def tinyMat : Mat (Finite binary64) := ofRows ((List.range 4).map fun x => (List.range 4).map (tiny x))

/-- **C76, underflow**: the mean of the distances 1 and 2 (in units of the smallest number) is rounded to 2, and so two
silhouettes of 1/4 become 0, and the average of 1/4 becomes 1/8. -/
theorem C76_underflow : IsMatrix tinyMat 4 tiny ∧ Dissim 4 tiny ∧ Symm 4 tiny ∧
    silhouette (Ieee binary64) tinyMat [0, 0, 0, 1] true = .ok (.num (1 / 8), [.num 0, .num (1 / 2), .num 0, .num 0]) ∧
    silList (fun x : Finite binary64 => x.q) tiny [0, 0, 0, 1] = [1 / 4, 1 / 2, 1 / 4, 0] := by
  refine ⟨⟨rfl, rfl, fun x y hx hy => ?_⟩, ⟨?_, ?_⟩, ?_, by decide +kernel, by decide +kernel⟩
  · exact (by decide +kernel : ∀ x < 4, ∀ y < 4, tinyMat.get x y = .ok (tiny x y)) x hx y hy
  · exact (by decide +kernel : ∀ x < 4, tiny x x = 0)
  · exact fun x y hx hy => (by decide +kernel : ∀ x < 4, ∀ y < 4, 0 ≤ tiny x y) x hx y hy
  · exact fun x y hx hy => (by decide +kernel : ∀ x < 4, ∀ y < 4, tiny x y = tiny y x) x hx y hy

end KMedoids
