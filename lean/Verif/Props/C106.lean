import Verif.Proofs.DynCons
import Verif.Props.C36_C38
import Verif.Props.C83

/-!
# C106: the labels of DynMSC, and what its loss means for any number of medoids

With five or more medoids at the start, the cache of the three nearest medoids is not always right (C37). Then an object can
be returned with the label of a medoid that is not nearest. What holds for any number of medoids: labels are positions, the
medoids are labelled with themselves, and the loss is the average of `1 - a / b`, where `a` is the distance of an object to
the medoid of its label, and `b` its distance to another one of the returned medoids.
-/

set_option linter.unusedSectionVars false

namespace KMedoids

open RFrom (conv)

section any
variable {N L : Type} [LinearOrder N] [Zero N] [RDist N] [LawfulDist N] [RLoss L] [RFrom N L]

/-- **C106, any arithmetic of the losses.** At least three medoids returned, the loss not zero: the loss is computed from the
distances to the medoid of the label, and to another medoid. -/
theorem C106_value_any {mat : Mat N} {n : Nat} {d : Nat → Nat → N} (hm : IsMatrix mat n d) (hd : Dissim n d)
    {med : List Nat} (hv : ValidMeds n med) (hnd : med.Nodup) (hk : 2 ≤ med.length) {mink maxiter : Nat} {r : DynResult L}
    (hr : dynmsc L mat med mink maxiter = .ok r) (h3 : 3 ≤ r.med.length) (h0 : r.loss ≠ RLoss.zero) :
    ∃ near other : Nat → Nat,
      (∀ o, o < n → ∃ m m' : Nat, r.assi[o]? = some m ∧ r.med[m]? = some (near o) ∧ r.med[m']? = some (other o) ∧ m ≠ m') ∧
      r.loss = RLoss.sub RLoss.one (RLoss.div (leftSum ((List.range n).map fun o =>
        if d o (near o) = 0 ∨ d o (other o) = 0 then RLoss.zero
        else RLoss.div (conv (d o (near o))) (conv (d o (other o))))) (RLoss.ofU32 n)) := by
  rw [dynmsc_eq hm hv hk] at hr
  cases hr
  rcases dynmscP_cons (L := L) hd hm hv hnd hk _ maxiter h3 with h | ⟨near, other, h1, h2⟩
  · exact absurd h h0
  · refine ⟨near, other, h1, h2.trans ?_⟩
    rw [toSilhouette, asU32_le hv.sizes.n_le]
    congr 4
    funext o
    simp only [mscLoss, isZeroN, Bool.or_eq_true, decide_eq_true_eq]

end any

section exact
variable {N L : Type} [LinearOrder N] [Zero N] [RDist N] [LawfulDist N]
variable [Field L] [LinearOrder L] [IsStrictOrderedRing L] [RLoss L] [LawfulField L]
variable [RFrom N L] [LawfulFrom N L] [LawfulAdd N L]

theorem dynmsc_pos {mat : Mat N} {n : Nat} {d : Nat → Nat → N} (hm : IsMatrix mat n d)
    (hd : Dissim n d) {med : List Nat} (hv : ValidMeds n med) (hnd : med.Nodup) (hk : 2 ≤ med.length)
    {mink maxiter : Nat} {r : DynResult L} (hr : dynmsc L mat med mink maxiter = .ok r) : 0 < r.loss := by
  have hf := fastermsc_eq (L := L) hm hv maxiter
  have hout := fastermsc_outcome hm hd hv hnd hk hf
  refine lt_of_lt_of_le ?_ (C48_dynmsc_ge hm hd hv hnd hk hr hf).2
  rw [hout.loss]
  exact medSil_pos hd (hout.chain.range hv.range) (by rw [hout.chain.length]; omega)

/-- **C106.** For any number of medoids at the start, if at least three are returned (two: C37): the medoids are
labelled with themselves, and the loss is the average of `1 - a / b`, where `a` is the distance of the object to the medoid
of its label and `b` its distance to another one of the medoids (`1` if one of them is zero). In particular it is at most
one. -/
theorem C106_value {mat : Mat N} {n : Nat} {d : Nat → Nat → N} (hm : IsMatrix mat n d)
    (hd : Dissim n d) {med : List Nat} (hv : ValidMeds n med) (hnd : med.Nodup) (hk : 2 ≤ med.length)
    {mink maxiter : Nat} {r : DynResult L} (hr : dynmsc L mat med mink maxiter = .ok r) (h3 : 3 ≤ r.med.length) :
    (∀ m o : Nat, r.med[m]? = some o → r.assi[o]? = some m) ∧
    (∃ near other : Nat → Nat,
      (∀ o, o < n → ∃ m m' : Nat, r.assi[o]? = some m ∧ r.med[m]? = some (near o) ∧ r.med[m']? = some (other o) ∧ m ≠ m') ∧
      r.loss = ((List.range n).map fun o => if d o (near o) = 0 ∨ d o (other o) = 0 then 1
        else 1 - conv (d o (near o)) / conv (d o (other o))).sum / (n : L)) ∧
    0 < r.loss ∧ r.loss ≤ 1 := by
  have hpos := dynmsc_pos hm hd hv hnd hk hr
  have hn0 : 0 < n := lt_of_lt_of_le hv.sizes.pos hv.sizes.le
  have hnL : (0 : L) < n := by exact_mod_cast hn0
  obtain ⟨near, other, h1, h2⟩ := C106_value_any (L := L) hm hd hv hnd hk hr h3 (by rw [zeroL]; exact hpos.ne')
  have hf := fastermsc_eq (L := L) hm hv maxiter
  have hgt : rgt (fastermscP L d n med maxiter).loss (RLoss.zero : L) = true := by
    have hout := fastermsc_outcome hm hd hv hnd hk hf
    rw [rgtL, zeroL, decide_eq_true_eq, hout.loss]
    exact medSil_pos hd (hout.chain.range hv.range) (by rw [hout.chain.length]; omega)
  have hown := ((C83_dynmsc_any (L := L) hm hd hv hnd hk hf hr).2 hgt).1.own h3
  have hdiv : ∀ o, o < n → ¬ (d o (near o) = 0 ∨ d o (other o) = 0) →
      (RLoss.div (conv (d o (near o))) (conv (d o (other o))) : L) = conv (d o (near o)) / conv (d o (other o)) := by
    intro o ho hz
    have := mscLoss_eq (L := L) (d o (near o)) (d o (other o))
    rw [← this, mscLoss, isZeroN, isZeroN, if_neg (by simpa using hz)]
  have hval : r.loss = ((List.range n).map fun o => if d o (near o) = 0 ∨ d o (other o) = 0 then 1
        else 1 - conv (d o (near o)) / conv (d o (other o))).sum / (n : L) := by
    rw [h2, subL, oneL, ofU32L, divL _ hnL.ne', ← sumP_leftSum, sumP_eq, eq_div_iff hnL.ne', sub_mul, one_mul,
      div_mul_cancel₀ _ hnL.ne']
    have : ∀ l : List Nat, (∀ o ∈ l, o < n) → (l.length : L) - (l.map fun o =>
        if d o (near o) = 0 ∨ d o (other o) = 0 then (RLoss.zero : L)
        else RLoss.div (conv (d o (near o))) (conv (d o (other o)))).sum =
        (l.map fun o => if d o (near o) = 0 ∨ d o (other o) = 0 then 1
          else 1 - conv (d o (near o)) / conv (d o (other o))).sum := by
      intro l
      induction l with
      | nil => simp
      | cons o l ih =>
        intro hl
        have ih := ih fun x hx => hl x (List.mem_cons_of_mem _ hx)
        simp only [List.map_cons, List.sum_cons, ← ih, List.length_cons, Nat.cast_add, Nat.cast_one]
        split
        · rw [zeroL]; ring
        · rename_i hz
          rw [hdiv o (hl o (List.mem_cons_self ..)) hz]; ring
    have := this (List.range n) fun o ho => List.mem_range.mp ho
    rwa [List.length_range] at this
  refine ⟨hown, ⟨near, other, h1, hval⟩, hpos, ?_⟩
  rw [hval, div_le_one hnL]
  have : ∀ l : List Nat, (∀ o ∈ l, o < n) → (l.map fun o => if d o (near o) = 0 ∨ d o (other o) = 0 then (1 : L)
          else 1 - conv (d o (near o)) / conv (d o (other o))).sum ≤ (l.length : L) := by
    intro l
    induction l with
    | nil => simp
    | cons o l ih =>
      intro hl
      have ih := ih fun x hx => hl x (List.mem_cons_of_mem _ hx)
      simp only [List.map_cons, List.sum_cons, List.length_cons, Nat.cast_add, Nat.cast_one]
      rw [add_comm]
      refine add_le_add ih ?_
      split
      · exact le_rfl
      · have ho := hl o (List.mem_cons_self ..)
        obtain ⟨m, m', -, e1, e2, -⟩ := h1 o ho
        have hok := dynmsc_ok hm hd hv hnd hk hr
        have g1 := LawfulFrom.strictMono.monotone (β := L) (hd.nonneg o _ ho (hok.range _ (List.mem_of_getElem? e1)))
        rw [LawfulFrom.map_zero] at g1
        have g2 := LawfulFrom.strictMono.monotone (β := L) (hd.nonneg o _ ho (hok.range _ (List.mem_of_getElem? e2)))
        rw [LawfulFrom.map_zero] at g2
        have := div_nonneg g1 g2
        linarith
  have := this (List.range n) fun o ho => List.mem_range.mp ho
  rwa [List.length_range] at this

/-- **C106, part.** With at most four medoids at the start, or as many medoids returned as given, or two, every
object is labelled with a nearest one of the returned medoids. Missing: five or more medoids at the start and between
three and `k - 1` returned; then it is false, see `C106_negation`. -/
theorem C106_labels_partial {mat : Mat N} {n : Nat} {d : Nat → Nat → N} (hm : IsMatrix mat n d)
    (hd : Dissim n d) {med : List Nat} (hv : ValidMeds n med) (hnd : med.Nodup) (hk : 2 ≤ med.length)
    {mink maxiter : Nat} {r : DynResult L} (hr : dynmsc L mat med mink maxiter = .ok r)
    (hc : med.length ≤ 4 ∨ r.med.length = med.length ∨ r.med.length = 2) :
    r.assi.length = n ∧ ∀ o m : Nat, r.assi[o]? = some m → m < r.med.length ∧ ∀ m' < r.med.length,
      d o (r.med.getD m 0) ≤ d o (r.med.getD m' 0) := by
  have h := dynmsc_ok hm hd hv hnd hk hr
  refine ⟨h.assiLen, fun o m ho => ⟨h.label m (List.mem_of_getElem? ho), fun m' hm' => ?_⟩⟩
  obtain ⟨c, hc1, hc2⟩ := (h.right hc).2 o m ho
  rw [List.getD_eq_getElem?_getD, hc1, List.getD_eq_getElem?_getD, List.getElem?_eq_getElem hm']
  exact hc2 _ (List.getElem_mem hm')

end exact

/-- The full statement: every object is labelled with a nearest one of the returned medoids. False even for symmetric
distances, see `C106_negation`. -/
def C106_full : Prop := ∀ (mat : Mat ℕ) (n : Nat) (d : Nat → Nat → ℕ), IsMatrix mat n d → Dissim n d → Symm n d →
  ∀ med : List Nat, ValidMeds n med → med.Nodup → 2 ≤ med.length → ∀ (mink maxiter : Nat) (r : DynResult ℚ),
    dynmsc ℚ mat med mink maxiter = .ok r →
    ∀ o m : Nat, r.assi[o]? = some m → ∀ m' < r.med.length, d o (r.med.getD m 0) ≤ d o (r.med.getD m' 0)

/-- Eleven objects, symmetric distances. -/
def exDynLabRows : List (List ℕ) :=
  [[0, 2, 2, 2, 4, 3, 1, 1, 4, 3, 2], [2, 0, 1, 1, 4, 2, 1, 4, 4, 1, 3], [2, 1, 0, 4, 1, 1, 1, 4, 2, 2, 1],
   [2, 1, 4, 0, 4, 1, 3, 4, 1, 2, 2], [4, 4, 1, 4, 0, 2, 2, 3, 1, 3, 3], [3, 2, 1, 1, 2, 0, 4, 3, 4, 3, 4],
   [1, 1, 1, 3, 2, 4, 0, 4, 3, 4, 2], [1, 4, 4, 4, 3, 3, 4, 0, 1, 3, 2], [4, 4, 2, 1, 1, 4, 3, 1, 0, 3, 1],
   [3, 1, 2, 2, 3, 3, 4, 3, 3, 0, 1], [2, 3, 1, 2, 3, 4, 2, 2, 1, 1, 0]]

def exDynLabD (x y : Nat) : ℕ := (exDynLabRows.getD x []).getD y 0

theorem exDynLab_isMatrix : IsMatrix (ofRows exDynLabRows) 11 exDynLabD :=
  ⟨rfl, rfl, fun x y hx hy => by
    have : ∀ x < 11, ∀ y < 11, (ofRows exDynLabRows).get x y = .ok (exDynLabD x y) := by decide +kernel
    exact this x hx y hy⟩

theorem exDynLab_dissim : Dissim 11 exDynLabD := ⟨by decide +kernel, fun _ _ _ _ => Nat.zero_le _⟩
theorem exDynLab_symm : Symm 11 exDynLabD := by
  have : ∀ x < 11, ∀ y < 11, exDynLabD x y = exDynLabD y x := by decide +kernel
  exact fun x y hx hy => this x hx y hy

/-- **C106, finding.** Seven medoids at the start, the best solution found has six: object 8 is labelled with medoid 2 at
distance 2 (position 4), but medoid 10 is at distance 1. -/
theorem C106_negation : ¬ C106_full := by
  intro h
  have := h (ofRows exDynLabRows) 11 exDynLabD exDynLab_isMatrix exDynLab_dissim exDynLab_symm [4, 9, 7, 8, 3, 6, 10]
    ⟨⟨by decide, by decide, by decide, by decide⟩, by decide⟩ (by decide) (by decide) 3 10
    ⟨25 / 33, [0, 2, 4, 2, 4, 4, 5, 0, 4, 1, 3], 10, 7, [0, 9, 1, 10, 2, 6], [7 / 11, 91 / 132, 23 / 33, 25 / 33, 49 / 66]⟩
    (by decide +kernel) 8 4 (by decide) 3 (by decide)
  revert this
  decide +kernel

/-! ## concrete cases -/

/-- The run of `C106_negation`: six medoids, more than three. -/
example := C106_value (L := ℚ) (mink := 3) (maxiter := 10) (r := ⟨25 / 33, [0, 2, 4, 2, 4, 4, 5, 0, 4, 1, 3], 10, 7,
    [0, 9, 1, 10, 2, 6], [7 / 11, 91 / 132, 23 / 33, 25 / 33, 49 / 66]⟩)
  exDynLab_isMatrix exDynLab_dissim (med := [4, 9, 7, 8, 3, 6, 10])
  ⟨⟨by decide, by decide, by decide, by decide⟩, by decide⟩ (by decide) (by decide) (by decide +kernel) (by decide)

/-- Five medoids, four returned; `C37_negation`. -/
example := C106_value (L := ℚ) (mink := 3) (maxiter := 10)
  (r := ⟨37 / 42, [1, 2, 3, 0, 1, 0, 1], 6, 3, [5, 6, 1, 2], [11 / 14, 37 / 42, 5 / 6]⟩)
  exDynMat_isMatrix exDynD_dissim (med := [4, 6, 1, 2, 5])
  ⟨⟨by decide, by decide, by decide, by decide⟩, by decide⟩ (by decide) (by decide) (by decide +kernel) (by decide)

/-- Four medoids. -/
example := C106_labels_partial (L := ℚ) (mink := 1) (maxiter := 9)
  (r := ⟨23 / 24, [1, 1, 2, 3, 3, 0], 6, 5, [5, 1, 2, 4], [0, 13 / 15, 14 / 15, 23 / 24]⟩)
  exMat_isMatrix exD_dissim (med := [0, 1, 2, 3]) (ex_valid (by decide) (by decide) (by decide)) (by decide) (by decide)
  (by decide +kernel) (by decide)

/-- `f64`: the loss is not zero. -/
example := C106_value_any (L := Ieee binary64) (mink := 1) (maxiter := 20)
  (r := ⟨.num (8106479329266893 / 9007199254740992), [1, 1, 2, 0, 0], 4, 3, [3, 1, 2],
    [.num 0, .num (495261923307559 / 562949953421312), .num (8106479329266893 / 9007199254740992)]⟩)
  silU_isMatrix silU_dissim (med := [0, 1, 2]) (silU_valid3 (by decide)) (by decide) (by decide) (by decide +kernel)
  (by decide) (by decide +kernel)

end KMedoids
