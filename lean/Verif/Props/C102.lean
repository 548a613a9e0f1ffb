import Verif.Props.C75
import Verif.Props.C82
import Verif.Props.C60
import Verif.Props.C101

/-!
# C102: guarantees for points in a metric space, when the distances are computed with rounding

The input of the functions is a matrix of computed distances, and the losses are rounded, too. The guarantees hold for the exact
distances of the points: the reported loss is close to the exact total deviation, and a run that ends with a pass without exchange is
within the factor five of the exact optimum, up to an error. The MNIST example is such a program.
-/

set_option linter.unusedSectionVars false
set_option linter.overlappingInstances false

set_option exponentiation.threshold 2000

namespace KMedoids

open RFrom (conv)

section general
variable {X : Type} [PseudoMetricSpace X]
variable {N : Type} [LinearOrder N] [Zero N] [RDist N] [LawfulDist N] [RFrom N (Ieee binary64)]

/-- The exact total deviation of the points. -/
noncomputable def metricDev (p : Nat → X) (n : Nat) (med : List Nat) : ℝ :=
  totalDev (fun x : ℝ => x) n (fun x y => dist (p x) (p y)) med

/-- `D` contains the distances of the points, which are at most `s`, with relative error `u`; losses are `f64`. -/
structure Computed (p : Nat → X) (n : Nat) (D : Nat → Nat → N) (u s : ℚ) : Prop where
  model : FloatLoss N (Ieee.Fin (F := binary64)) Ieee.val (1 / 2 ^ 53) (2 ^ 1023)
  dissim : Dissim n D
  symm : Symm n D
  err : ∀ x y, x < n → y < n →
    |(Ieee.val (conv (D x y) : Ieee binary64) : ℝ) - dist (p x) (p y)| ≤ (u : ℝ) * dist (p x) (p y)
  le : ∀ x y, x < n → y < n → dist (p x) (p y) ≤ (s : ℝ)
  u_nonneg : 0 ≤ u
  u_le : u ≤ 1
  s_le : s ≤ 2 ^ 100

variable {p : Nat → X} {n : Nat} {D : Nat → Nat → N} {u s : ℚ}

theorem Computed.pair (h : Computed p n D u s) {x y : Nat} (hx : x < n) (hy : y < n) :
    (1 - u : ℝ) * dist (p x) (p y) ≤ Ieee.val (conv (D x y) : Ieee binary64) ∧
      (Ieee.val (conv (D x y) : Ieee binary64) : ℝ) ≤ (1 + u) * dist (p x) (p y) := by
  have := abs_le.mp (h.err x y hx hy)
  constructor <;> linarith [this.1, this.2]

theorem Computed.real (h : Computed p n D u s) : (0 : ℝ) ≤ u ∧ (u : ℝ) ≤ 1 := by
  have h1 := h.u_nonneg
  have h2 := h.u_le
  exact ⟨by exact_mod_cast h1, by exact_mod_cast h2⟩

theorem Computed.s_nonneg (h : Computed p n D u s) (hn : 0 < n) : 0 ≤ s := by
  have : (0 : ℝ) ≤ s := dist_nonneg.trans (h.le 0 0 hn hn)
  exact_mod_cast this

/-- The distance to the nearest medoid. -/
theorem Computed.minDist (h : Computed p n D u s) {med : List Nat} (hne : med ≠ []) (hr : ∀ c ∈ med, c < n) {o : Nat} (ho : o < n) :
    (1 - u : ℝ) * KMedoids.minDist (fun x y => dist (p x) (p y)) o med ≤
        Ieee.val (conv (KMedoids.minDist D o med) : Ieee binary64) ∧
      (Ieee.val (conv (KMedoids.minDist D o med) : Ieee binary64) : ℝ) ≤
        (1 + u) * KMedoids.minDist (fun x y => dist (p x) (p y)) o med := by
  obtain ⟨u0, u1⟩ := h.real
  obtain ⟨⟨c, hc, e⟩, hmin⟩ := minDist_spec D o med hne
  obtain ⟨⟨c', hc', e'⟩, hmin'⟩ := minDist_spec (fun x y => dist (p x) (p y)) o med hne
  constructor
  · rw [e]
    exact (mul_le_mul_of_nonneg_left (hmin' c hc) (by linarith)).trans (h.pair ho (hr c hc)).1
  · rw [e']
    refine le_trans ?_ (h.pair ho (hr c' hc')).2
    exact_mod_cast h.model.conv_mono (hmin c' hc')

/-- The total deviation of the computed distances. -/
theorem Computed.dev (h : Computed p n D u s) {med : List Nat} (hne : med ≠ []) (hr : ∀ c ∈ med, c < n) :
    (1 - u : ℝ) * metricDev p n med ≤ dev64 n D med ∧ (dev64 n D med : ℝ) ≤ (1 + u) * metricDev p n med := by
  have e1 : (dev64 n D med : ℝ) = ∑ o ∈ Finset.range n, (Ieee.val (conv (KMedoids.minDist D o med) : Ieee binary64) : ℝ) := by
    rw [dev64, exactDev_eq_sum, Rat.cast_sum]
  have e2 : metricDev p n med = ∑ o ∈ Finset.range n, KMedoids.minDist (fun x y => dist (p x) (p y)) o med := by
    rw [metricDev, totalDev, sum_map_range]
  rw [e1, e2, Finset.mul_sum, Finset.mul_sum]
  exact ⟨Finset.sum_le_sum fun o ho => (h.minDist hne hr (Finset.mem_range.mp ho)).1,
    Finset.sum_le_sum fun o ho => (h.minDist hne hr (Finset.mem_range.mp ho)).2⟩

theorem metricDev_nonneg {med : List Nat} (hne : med ≠ []) : 0 ≤ metricDev p n med := by
  rw [metricDev, totalDev, sum_map_range]
  refine Finset.sum_nonneg fun o _ => ?_
  obtain ⟨⟨c, hc, e⟩, -⟩ := minDist_spec (fun x y => dist (p x) (p y)) o med hne
  rw [e]
  exact dist_nonneg

theorem metricDev_le (h : Computed p n D u s) {med : List Nat} (hne : med ≠ []) (hr : ∀ c ∈ med, c < n) :
    metricDev p n med ≤ n * s := by
  rw [metricDev, totalDev, sum_map_range]
  calc _ ≤ ∑ o ∈ Finset.range n, (s : ℝ) := Finset.sum_le_sum fun o ho => by
        obtain ⟨⟨c, hc, e⟩, -⟩ := minDist_spec (fun x y => dist (p x) (p y)) o med hne
        rw [e]
        exact h.le o c (Finset.mem_range.mp ho) (hr c hc)
    _ = _ := by rw [Finset.sum_const, Finset.card_range, nsmul_eq_mul]

theorem Computed.wide (h : Computed p n D u s) (hn : 0 < n) : Wide n D ((1 + u) * s) := by
  obtain ⟨u0, u1⟩ := h.real
  refine ⟨h.model, fun x y hx hy => ?_, ?_⟩
  · have : (Ieee.val (conv (D x y) : Ieee binary64) : ℝ) ≤ (1 + u) * s :=
      (h.pair hx hy).2.trans (mul_le_mul_of_nonneg_left (h.le x y hx hy) (by linarith))
    exact_mod_cast this
  · have h1 := h.u_le
    have h2 := h.u_nonneg
    calc (1 + u) * s ≤ 2 * 2 ^ 100 := mul_le_mul (by linarith) h.s_le (h.s_nonneg hn) (by norm_num)
      _ ≤ 2 ^ 128 := by norm_num

/-- The computed distances satisfy the triangle inequality up to `4 u s`. -/
theorem Computed.nearMetric (h : Computed p n D u s) (hn : 0 < n) :
    NearMetric (L := Ieee binary64) Ieee.val (4 * u * s) n D := by
  obtain ⟨u0, u1⟩ := h.real
  refine ⟨?_, h.symm, fun x y z hx hy hz => ?_⟩
  · have := h.u_nonneg
    have := h.s_nonneg hn
    positivity
  · have h1 := (h.pair hx hz).2
    have h2 := (h.pair hx hy).1
    have h3 := (h.pair hy hz).1
    have h4 := mul_le_mul_of_nonneg_left (dist_triangle (p x) (p y) (p z)) (show (0 : ℝ) ≤ 1 + u by linarith)
    have h5 := mul_le_mul_of_nonneg_left (h.le x y hx hy) u0
    have h6 := mul_le_mul_of_nonneg_left (h.le y z hy hz) u0
    have : (Ieee.val (conv (D x z) : Ieee binary64) : ℝ) ≤ Ieee.val (conv (D x y) : Ieee binary64) +
        Ieee.val (conv (D y z) : Ieee binary64) + 4 * u * s := by nlinarith
    exact_mod_cast this

/-- The error of the factor five: `k` exchanges with `2 n + 1` roundings each, and the distances. -/
def metricErr (k n : ℕ) (u s : ℚ) : ℚ := k * err64 (2 * n + 1) n ((1 + u) * s) + n * (16 * u * s)

/-- **C102, reported loss**: FasterPAM, any visiting order. -/
theorem C102_rand_fasterpam_loss (h : Computed p n D u s) {mat : Mat N} (hm : IsMatrix mat n D) {med : List Nat}
    (hv : ValidMeds n med) (hnd : med.Nodup) (maxiter : Nat) {seq : List Nat} (hseq : ∀ j ∈ seq, j < n)
    {r : SwapResult (Ieee binary64)} (hr : randFasterpam (Ieee binary64) mat med maxiter seq = .ok r) :
    ∃ q, r.loss = .num q ∧ |(q : ℝ) - metricDev p n r.med| ≤ (u + n / 2 ^ 52 * (1 + u)) * metricDev p n r.med := by
  have hn : 0 < n := Nat.lt_of_lt_of_le hv.sizes.pos hv.sizes.le
  obtain ⟨r', hr', hw⟩ := C04_rand_fasterpam (L := Ieee binary64) hm hv maxiter hseq
  rw [hr] at hr'; cases hr'
  have hne : r.med ≠ [] := List.ne_nil_of_length_pos (hw.medLen ▸ hv.sizes.pos)
  obtain ⟨q, hq, he⟩ := C75_rand_fasterpam (h.wide hn) hm h.dissim hv hnd (fun _ => h.symm) maxiter hseq hr
  refine ⟨q, hq, ?_⟩
  obtain ⟨d1, d2⟩ := h.dev hne hw.medRange
  have he' : |(q : ℝ) - dev64 n D r.med| ≤ n / 2 ^ 52 * dev64 n D r.med := by
    have := (Rat.cast_le (K := ℝ)).2 he
    push_cast at this
    exact this
  have d3 := mul_le_mul_of_nonneg_left d2 (show (0 : ℝ) ≤ n / 2 ^ 52 by positivity)
  rw [abs_le] at he' ⊢
  constructor <;> nlinarith [he'.1, he'.2]

/-- From the computed to the exact distances. -/
theorem Computed.factor (h : Computed p n D u s) {med : List Nat} (hne' : med ≠ []) (hr : ∀ c ∈ med, c < n) {other : List Nat}
    (hne : other ≠ []) (hor : ∀ c ∈ other, c < n) {E : ℚ} (hE : dev64 n D med ≤ 5 * dev64 n D other + E) :
    (1 - u : ℝ) * metricDev p n med ≤ 5 * ((1 + u) * metricDev p n other) + E := by
  have h1 := (h.dev hne' hr).1
  have h2 := (h.dev hne hor).2
  have h3 : (dev64 n D med : ℝ) ≤ 5 * dev64 n D other + E := by exact_mod_cast hE
  linarith

/-- **C102, factor five**: FasterPAM, any visiting order; `r0` is the result with one pass less, which made all exchanges. -/
theorem C102_rand_fasterpam (h : Computed p n D u s) {mat : Mat N} (hm : IsMatrix mat n D) {med : List Nat}
    (hv : ValidMeds n med) (hnd : med.Nodup) (hk : 2 ≤ med.length) (maxiter : Nat) {seq : List Nat}
    (hseq : seq.Perm (List.range n)) {r0 r : SwapResult (Ieee binary64)}
    (h0 : randFasterpam (Ieee binary64) mat med maxiter seq = .ok r0)
    (hr : randFasterpam (Ieee binary64) mat med (maxiter + 1) seq = .ok r)
    (hit : r.nIter = maxiter + 1) (hq : r.nSwap = r0.nSwap)
    {other : List Nat} (hne : other ≠ []) (hor : ∀ c ∈ other, c < n) (ho : other.length ≤ med.length) :
    (1 - u : ℝ) * metricDev p n r.med ≤ 5 * ((1 + u) * metricDev p n other) + metricErr other.length n u s := by
  have hn : 0 < n := Nat.lt_of_lt_of_le hv.sizes.pos hv.sizes.le
  have hw := h.wide hn
  have hW0 := hw.nonneg h.dissim hn
  obtain ⟨r', hr', hwf⟩ := C04_rand_fasterpam (L := Ieee binary64) hm hv (maxiter + 1)
    fun j hj => List.mem_range.mp (hseq.mem_iff.mp hj)
  rw [hr] at hr'; cases hr'
  refine h.factor (List.ne_nil_of_length_pos (hwf.medLen ▸ hv.sizes.pos)) hwf.medRange hne hor ?_
  refine (C70_rand_fasterpam hw.model hm h.dissim hw.bound (h.nearMetric hn)
    (hw.fits h.dissim hv (e_le hv) (by norm_num) le_rfl) hv hnd hk maxiter hseq h0 hr hit hq hne hor ho).trans ?_
  have := mul_le_mul_of_nonneg_left (roundErr_f64 (c := 2) (e := 2 * n + 1) (n := n) (e_le hv) hW0)
    (show (0 : ℚ) ≤ other.length by positivity)
  unfold metricErr err64
  push_cast at this ⊢
  linarith

/-- **C102, PAM and FastPAM1**, if the last iteration made no exchange. -/
theorem C102_pam (h : Computed p n D u s) {mat : Mat N} (hm : IsMatrix mat n D) {med : List Nat}
    (hv : ValidMeds n med) (hnd : med.Nodup) (hk : 2 ≤ med.length) (maxiter : Nat) {r : SwapResult (Ieee binary64)}
    (hr : pamSwap (Ieee binary64) mat med maxiter = .ok r ∨ fastpam1 (Ieee binary64) mat med maxiter = .ok r)
    (hq : r.nSwap < r.nIter)
    {other : List Nat} (hne : other ≠ []) (hor : ∀ c ∈ other, c < n) (ho : other.length ≤ med.length) :
    (1 - u : ℝ) * metricDev p n r.med ≤ 5 * ((1 + u) * metricDev p n other) + metricErr other.length n u s := by
  have hn : 0 < n := Nat.lt_of_lt_of_le hv.sizes.pos hv.sizes.le
  have hw := h.wide hn
  have hW0 := hw.nonneg h.dissim hn
  have hl : (0 : ℚ) ≤ other.length := by positivity
  rcases hr with hr | hr
  · obtain ⟨r', hr', hwf⟩ := C04_pam_swap (L := Ieee binary64) hm hv maxiter
    rw [hr] at hr'; cases hr'
    refine h.factor (List.ne_nil_of_length_pos (hwf.medLen ▸ hv.sizes.pos)) hwf.medRange hne hor ?_
    have he : n + 1 ≤ 2 ^ 53 := by have := e_le hv; omega
    have hf := hw.fits h.dissim hv he (c := 1) (by norm_num) (by norm_num)
    rw [one_mul] at hf
    refine (C70_pam_swap hw.model hm h.dissim hw.bound (h.nearMetric hn) hf hv hnd hk maxiter hr hq hne hor ho).trans ?_
    have h1 := roundErr_f64 (c := 1) (e := n + 1) (n := n) he hW0
    have h2 : ((n + 1 : ℕ) : ℚ) / 2 ^ 52 * ((1 : ℕ) * (n * ((1 + u) * s))) ≤ err64 (2 * n + 1) n ((1 + u) * s) := by
      unfold err64
      refine mul_le_mul (div_le_div_of_nonneg_right ?_ (by norm_num)) ?_ (by positivity) (by positivity)
      · exact_mod_cast (by omega : n + 1 ≤ 2 * n + 1)
      · have : 0 ≤ (n : ℚ) * ((1 + u) * s) := by positivity
        push_cast
        linarith
    have := mul_le_mul_of_nonneg_left (h1.trans h2) hl
    unfold metricErr
    linarith
  · obtain ⟨r', hr', hwf⟩ := C04_fastpam1 (L := Ieee binary64) hm hv maxiter
    rw [hr] at hr'; cases hr'
    refine h.factor (List.ne_nil_of_length_pos (hwf.medLen ▸ hv.sizes.pos)) hwf.medRange hne hor ?_
    refine (C70_fastpam1 hw.model hm h.dissim hw.bound (h.nearMetric hn)
      (hw.fits h.dissim hv (e_le hv) (by norm_num) le_rfl) hv hnd hk maxiter hr hq hne hor ho).trans ?_
    have := mul_le_mul_of_nonneg_left (roundErr_f64 (c := 2) (e := 2 * n + 1) (n := n) (e_le hv) hW0) hl
    unfold metricErr err64
    push_cast at this ⊢
    linarith

end general

/-! ## The MNIST example in `f64` -/

instance : RDist (Ieee binary64) where
  pcmp := pcmp
  zero := .num 0
  isZero a := rge a (.num 0) && rge (.num 0) a
  add := Ieee.add

instance : RFrom (Ieee binary64) (Ieee binary64) := ⟨id⟩

/-- A finite `f64` as an `f64`. -/
def Finite.toIeee (x : Finite binary64) : Ieee binary64 := .num x.q

theorem toIeee_hom : NumHom Finite.toIeee (id : Ieee binary64 → Ieee binary64) where
  distCmp _ _ := rfl
  distZero := rfl
  lossCmp _ _ := rfl
  lossZero := rfl
  lossAdd _ _ := rfl
  lossSub _ _ := rfl
  lossNeg _ := rfl
  lossConv _ := rfl

theorem sqDist_le {size : Nat} {pixels : List Nat} (hb : ∀ b ∈ pixels, b < 256) (x y : Nat) :
    0 ≤ sqDist size pixels x y ∧ sqDist size pixels x y ≤ size * 65536 := by
  unfold sqDist
  rw [sum_map_range]
  refine ⟨Finset.sum_nonneg fun j _ => sq_nonneg _, ?_⟩
  calc _ ≤ ∑ _j ∈ Finset.range size, (65536 : ℤ) := Finset.sum_le_sum fun j _ => by
        have h1 := getD_lt hb (x * size + j)
        have h2 := getD_lt hb (y * size + j)
        generalize pixels.getD (x * size + j) 0 = a at h1
        generalize pixels.getD (y * size + j) 0 = b at h2
        have h3 : -256 ≤ (a : ℤ) - b ∧ (a : ℤ) - b ≤ 256 := by omega
        nlinarith
    _ = _ := by simp

/-- The distances of images with at most `s²` pixels are at most `s`. -/
theorem imageDist_le {size s : Nat} (hs : size ≤ s ^ 2) {pixels : List Nat} (hb : ∀ b ∈ pixels, b < 256) (x y : Nat) :
    dist (imagePoint size pixels x) (imagePoint size pixels y) ≤ s := by
  rw [dist_eq_sqDist]
  refine Real.sqrt_le_iff.2 ⟨Nat.cast_nonneg _, ?_⟩
  have h1 : (sqDist size pixels x y : ℝ) ≤ size * 65536 := by exact_mod_cast (sqDist_le hb x y).2
  have h2 : (size : ℝ) ≤ s ^ 2 := by exact_mod_cast hs
  rw [div_le_iff₀ (by norm_num)]
  nlinarith

/-- The points of a file. -/
noncomputable abbrev mnistDev (rows cols : Nat) (pixels : List Nat) (len : Nat) (med : List Nat) : ℝ :=
  metricDev (imagePoint (rows * cols) pixels) len med

/-- **C102, the MNIST example in `f64`:** it ends normally with ten distinct images; the reported loss is close to the exact sum of
Euclidean distances; and if the last pass made no exchange, the exact sum is at most five times that of any ten images, up to an
error. -/
theorem C102_mnist {dot : List (Ieee binary64) → List (Ieee binary64) → Ieee binary64}
    (hdot : IsDot Ieee.add Ieee.mul (.num 0) dot) {sqrt : Ieee binary64 → Ieee binary64} {root : ℚ → ℚ} {u : ℚ} (hu0 : 0 ≤ u)
    (hu : u < 1) (hroot : SqrtOk sqrt root u) {magic len rows cols : Nat} (h1 : magic < 2 ^ 32) (h2 : len < 2 ^ 32)
    (h3 : rows < 2 ^ 32) (h4 : cols < 2 ^ 32) (hsize : rows * cols ≤ 2 ^ 37) {s : Nat} (hs : rows * cols ≤ s ^ 2)
    (hs' : s ≤ 2 ^ 100) {pixels : List Nat} (hb : ∀ b ∈ pixels, b < 256)
    (hp : pixels.length = len * (rows * cols))
    {sample : Nat → Nat → List Nat} (hv : ValidMeds len (sample len 10)) (hnd : (sample len 10).Nodup)
    (hk : (sample len 10).length = 10) :
    ∃ (mat : Array2 (Ieee binary64)) (r : SwapResult (Ieee binary64)),
      readMnist (f64Ops dot sqrt) (mnistFile magic len rows cols pixels) = .ok mat ∧
      mnistMain (f64Ops dot sqrt) (Ieee binary64) sample (mnistFile magic len rows cols pixels) = .ok r ∧
      r.med.length = 10 ∧ r.med.Nodup ∧ (∀ m ∈ r.med, m < len) ∧
      (∃ q, r.loss = .num q ∧ |(q : ℝ) - mnistDev rows cols pixels len r.med| ≤
        (u + len / 2 ^ 52 * (1 + u)) * mnistDev rows cols pixels len r.med) ∧
      ∀ r0, fasterpam (Ieee binary64) mat.toMat (sample len 10) (r.nIter - 1) = .ok r0 → r0.nSwap = r.nSwap →
        ∀ other : List Nat, other ≠ [] → (∀ c ∈ other, c < len) → other.length ≤ 10 →
          (1 - u : ℝ) * mnistDev rows cols pixels len r.med ≤
            5 * ((1 + u) * mnistDev rows cols pixels len other) + metricErr other.length len u s := by
  obtain ⟨M, Q, e, hM, hsym, hnn, hz, -, herr⟩ := C101_f64 hdot (u := u) (by exact_mod_cast hu) hroot h1 h2 h3 h4 hsize hb hp
  have hq0 : ∀ x y, (0 : ℚ) ≤ sqDist (rows * cols) pixels x y / 65536 := fun x y => by
    have : (0 : ℚ) ≤ sqDist (rows * cols) pixels x y := by exact_mod_cast (sqDist_le hb x y).1
    positivity
  let D : Nat → Nat → Finite binary64 := fun x y =>
    ⟨root (sqDist (rows * cols) pixels x y / 65536), hroot.rep _ (hq0 x y)⟩
  have hDM : ∀ x y, x < len → y < len → M x y = (D x y).toIeee := fun x y hx hy => by
    rw [(hM x y hx hy).1, (hM x y hx hy).2]
    rfl
  have hDQ : ∀ x y, x < len → y < len → (D x y).q = Q x y := fun x y hx hy => (hM x y hx hy).2.symm
  have hmat : Array2.toMat ⟨len, len, M⟩ = (Array2.toMat ⟨len, len, D⟩).map Finite.toIeee := by
    unfold Array2.toMat Mat.map
    congr 1
    funext x y
    by_cases hxy : x < len ∧ y < len
    · simp only [hxy, and_self, if_true]
      rw [hDM x y hxy.1 hxy.2]
      rfl
    · simp only [hxy, if_false]
      rfl
  have hm : IsMatrix (Array2.toMat ⟨len, len, D⟩) len D := by
    refine ⟨rfl, by simp [Array2.toMat], fun x y hx hy => by simp [Array2.toMat, hx, hy]⟩
  have hc : Computed (imagePoint (rows * cols) pixels) len D u s := by
    refine ⟨ieee_floatLoss binary64, ⟨fun x hx => ?_, fun x y hx hy => ?_⟩, fun x y hx hy => ?_, fun x y hx hy => ?_,
      fun x y _ _ => by exact_mod_cast imageDist_le hs hb x y, hu0, hu.le, by exact_mod_cast hs'⟩
    · exact Finite.q_inj (by rw [hDQ x x hx hx]; exact (hz x x hx hx).2 rfl)
    · show (0 : ℚ) ≤ (D x y).q
      rw [hDQ x y hx hy]
      exact hnn x y hx hy
    · exact Finite.q_inj (by rw [hDQ x y hx hy, hDQ y x hy hx]; exact hsym x y hx hy)
    · show |((D x y).q : ℝ) - _| ≤ _
      rw [hDQ x y hx hy]
      exact herr x y hx hy
  have hrun : ∀ m, fasterpam (Ieee binary64) (Array2.toMat ⟨len, len, M⟩) (sample len 10) m =
      fasterpam (Ieee binary64) (Array2.toMat ⟨len, len, D⟩) (sample len 10) m := fun m => by
    rw [hmat, toIeee_hom.fasterpam_hom]
    cases fasterpam (Ieee binary64) (Array2.toMat ⟨len, len, D⟩) (sample len 10) m <;> rfl
  obtain ⟨r, er, hwf⟩ := C04_fasterpam (L := Ieee binary64) hm hv 100
  have hrand : ∀ m, fasterpam (Ieee binary64) (Array2.toMat ⟨len, len, D⟩) (sample len 10) m =
      randFasterpam (Ieee binary64) (Array2.toMat ⟨len, len, D⟩) (sample len 10) m (List.range len) := fun m => by
    rw [fasterpam_eq_rand, hm.len]
  refine ⟨⟨len, len, M⟩, r, e, ?_, hwf.medLen.trans hk, C06_fasterpam hm hc.dissim hv hnd 100 er, hwf.medRange, ?_,
    fun r0 h0 hsw other hne hor hol => ?_⟩
  · unfold mnistMain
    rw [e]
    exact (hrun 100).trans er
  · exact C102_rand_fasterpam_loss hc hm hv hnd 100 (fun j hj => List.mem_range.mp hj) ((hrand 100) ▸ er)
  · have hcnt := C10_fasterpam (L := Ieee binary64) hm hv (by omega) 100 er
    have hle : r.nIter ≤ 100 := hcnt.iter
    have hpos : 1 ≤ r.nIter := by
      have er' := (hrand 100) ▸ er
      rw [randFasterpam_eq hm hv 100 (fun j hj => List.mem_range.mp hj), fpP_many D len (by omega)] at er'
      cases er'
      show 1 ≤ (fpLoopP D (List.range len) (99 + 1) 0 _).2
      unfold fpLoopP
      dsimp only
      split
      · exact le_rfl
      · exact (fpLoopP_counts D _ _ _ _).1
    have hlast : fasterpam (Ieee binary64) (Array2.toMat ⟨len, len, D⟩) (sample len 10) (r.nIter - 1 + 1) = .ok r := by
      rw [Nat.sub_add_cancel hpos]
      rcases Nat.lt_or_ge r.nIter 100 with hlt | hge
      · exact (C60_fasterpam (Ieee binary64) _ _).1 100 r er hlt r.nIter le_rfl
      · rwa [show r.nIter = 100 by omega]
    rw [hrun, hrand] at h0
    rw [hrand] at hlast
    exact C102_rand_fasterpam hc hm hv hnd (by omega) (r.nIter - 1) (List.Perm.refl _) h0 hlast (by omega) hsw.symm hne hor
      (hol.trans_eq hk.symm)

/-- **C102, the training set of MNIST:** at most 60000 images of 28 × 28 pixels, and a square root with the accuracy of IEEE 754. The
reported loss is right up to 1/10000, and if the last pass made no exchange, the exact loss is at most five times that of any ten
images, up to 1/1000. -/
theorem C102_mnist_60000 {dot : List (Ieee binary64) → List (Ieee binary64) → Ieee binary64}
    (hdot : IsDot Ieee.add Ieee.mul (.num 0) dot) {sqrt : Ieee binary64 → Ieee binary64} {root : ℚ → ℚ} {u : ℚ} (hu0 : 0 ≤ u)
    (hu : u ≤ 1 / 2 ^ 52) (hroot : SqrtOk sqrt root u) {magic len : Nat} (h1 : magic < 2 ^ 32) (h2 : len ≤ 60000)
    {pixels : List Nat} (hb : ∀ b ∈ pixels, b < 256) (hp : pixels.length = len * (28 * 28))
    {sample : Nat → Nat → List Nat} (hv : ValidMeds len (sample len 10)) (hnd : (sample len 10).Nodup)
    (hk : (sample len 10).length = 10) :
    ∃ (mat : Array2 (Ieee binary64)) (r : SwapResult (Ieee binary64)),
      readMnist (f64Ops dot sqrt) (mnistFile magic len 28 28 pixels) = .ok mat ∧
      mnistMain (f64Ops dot sqrt) (Ieee binary64) sample (mnistFile magic len 28 28 pixels) = .ok r ∧
      r.med.length = 10 ∧ r.med.Nodup ∧ (∀ m ∈ r.med, m < len) ∧
      (∃ q, r.loss = .num q ∧ |(q : ℝ) - mnistDev 28 28 pixels len r.med| ≤ 1 / 10000) ∧
      ∀ r0, fasterpam (Ieee binary64) mat.toMat (sample len 10) (r.nIter - 1) = .ok r0 → r0.nSwap = r.nSwap →
        ∀ other : List Nat, other ≠ [] → (∀ c ∈ other, c < len) → other.length ≤ 10 →
          mnistDev 28 28 pixels len r.med ≤ 5 * mnistDev 28 28 pixels len other + 1 / 1000 := by
  have hu1 : u < 1 := lt_of_le_of_lt hu (by norm_num)
  have huR : (u : ℝ) ≤ 1 / 2 ^ 52 := by
    have := (Rat.cast_le (K := ℝ)).2 hu
    push_cast at this
    exact this
  have huR0 : (0 : ℝ) ≤ u := by exact_mod_cast hu0
  have hlen : (len : ℝ) ≤ 60000 := by exact_mod_cast h2
  have hdev : ∀ med : List Nat, med ≠ [] → 0 ≤ mnistDev 28 28 pixels len med ∧ mnistDev 28 28 pixels len med ≤ 1680000 := by
    intro med hne
    refine ⟨metricDev_nonneg hne, ?_⟩
    unfold mnistDev metricDev totalDev
    rw [sum_map_range]
    calc _ ≤ ∑ _o ∈ Finset.range len, ((28 : ℕ) : ℝ) := Finset.sum_le_sum fun o ho => by
          obtain ⟨⟨c, hc, e⟩, -⟩ := minDist_spec (fun x y => dist (imagePoint (28 * 28) pixels x) (imagePoint (28 * 28) pixels y)) o
            med hne
          rw [e]
          exact imageDist_le (by norm_num) hb o c
      _ ≤ _ := by rw [Finset.sum_const, Finset.card_range, nsmul_eq_mul]; push_cast; linarith
  obtain ⟨mat, r, g1, g2, g3, g4, g5, ⟨q, g6, g7⟩, g8⟩ := C102_mnist hdot hu0 hu1 hroot h1
    (lt_of_le_of_lt h2 (by norm_num)) (rows := 28) (cols := 28) (by norm_num) (by norm_num) (by norm_num) (s := 28) (by norm_num)
    (by norm_num) hb hp hv hnd hk
  have hne' : r.med ≠ [] := List.ne_nil_of_length_pos (by omega)
  obtain ⟨e0, e1⟩ := hdev r.med hne'
  refine ⟨mat, r, g1, g2, g3, g4, g5, ⟨q, g6, g7.trans ?_⟩, fun r0 h0 hsw other hne hor hol => ?_⟩
  · have hc : (u + len / 2 ^ 52 * (1 + u) : ℝ) ≤ 1 / 2 ^ 52 + 60000 / 2 ^ 52 * (1 + 1 / 2 ^ 52) := by
      refine add_le_add huR (mul_le_mul (div_le_div_of_nonneg_right hlen (by norm_num)) (by linarith) (by linarith) (by norm_num))
    calc _ ≤ (1 / 2 ^ 52 + 60000 / 2 ^ 52 * (1 + 1 / 2 ^ 52) : ℝ) * 1680000 := mul_le_mul hc e1 e0 (by norm_num)
      _ ≤ _ := by norm_num
  · have h := g8 r0 h0 hsw other hne hor hol
    obtain ⟨f0, f1⟩ := hdev other hne
    have hE : metricErr other.length len u ((28 : ℕ) : ℚ) ≤ 9 / 10000 := by
      unfold metricErr err64
      have l1 : (other.length : ℚ) ≤ 10 := by exact_mod_cast hol
      have l2 : (len : ℚ) ≤ 60000 := by exact_mod_cast h2
      have l3 : ((2 * len + 1 : ℕ) : ℚ) / 2 ^ 52 ≤ 120001 / 2 ^ 52 := by
        refine div_le_div_of_nonneg_right ?_ (by norm_num)
        exact_mod_cast (by omega : 2 * len + 1 ≤ 120001)
      have l4 : (1 + u) * ((28 : ℕ) : ℚ) ≤ (1 + 1 / 2 ^ 52) * 28 := by push_cast; linarith
      have l5 : (0 : ℚ) ≤ (1 + u) * ((28 : ℕ) : ℚ) := by positivity
      have l6 := mul_le_mul l2 l4 l5 (by norm_num)
      have l7 := mul_le_mul l3 (mul_le_mul_of_nonneg_left l6 (show (0 : ℚ) ≤ 2 by norm_num)) (by positivity) (by norm_num)
      have l8 := mul_le_mul l1 l7 (by positivity) (by norm_num)
      have l9 : (16 * u * ((28 : ℕ) : ℚ)) ≤ 448 * (1 / 2 ^ 52) := by push_cast; linarith
      have l10 := mul_le_mul l2 l9 (by positivity) (by norm_num)
      refine (add_le_add l8 l10).trans ?_
      norm_num
    have hE' : (metricErr other.length len u ((28 : ℕ) : ℚ) : ℝ) ≤ 9 / 10000 := by
      have := (Rat.cast_le (K := ℝ)).2 hE
      push_cast at this
      exact this
    have k1 := mul_le_mul huR e1 e0 (by norm_num)
    have k2 := mul_le_mul huR f1 f0 (by norm_num)
    norm_num at k1 k2 hE' ⊢
    push_cast at h
    nlinarith

/-! ## Non-vacuity -/

-- Images with one pixel: the hypotheses of `C102_mnist` hold with the example square root.
example := C102_mnist (leftDot_isDot Ieee.add Ieee.mul (.num 0)) (u := 1 / 2 ^ 52) (by norm_num) (by norm_num)
  (by have := exSqrt_ok; push_cast; exact this) (magic := 2051) (len := 12) (rows := 1) (cols := 1) (by norm_num) (by norm_num)
  (by norm_num) (by norm_num) (by norm_num) (s := 1) (by norm_num) (by norm_num)
  (pixels := [0, 1, 2, 30, 40, 50, 60, 70, 100, 200, 250, 255]) (by decide) rfl
  (sample := fun _ k => List.range k) ⟨⟨by decide, by decide, by decide, by decide⟩, by decide⟩ (by decide) rfl

-- The sizes of the training set.
example := C102_mnist_60000 (leftDot_isDot Ieee.add Ieee.mul (.num 0)) (u := 1 / 2 ^ 52) (by norm_num) (by norm_num)
  (by have := exSqrt_ok; push_cast; exact this) (magic := 2051) (len := 60000) (by norm_num) (by norm_num)
  (pixels := List.replicate (60000 * (28 * 28)) 7) (fun b hb => by rw [List.eq_of_mem_replicate hb]; norm_num)
  (List.length_replicate ..)
  (sample := fun _ k => List.range k) ⟨⟨by decide, by decide, by decide, by decide⟩, by decide⟩ (by decide) rfl

/-- Five points on a line. -/
def tenthPoint (i : Nat) : ℚ := ((tenthRows.getD 0 []).getD i 0 : ℕ) / 10

theorem tenth_computed : Computed (fun i => (tenthPoint i : ℝ)) 5 tenthD (1 / 2 ^ 52) (24 / 10) := by
  have hs : ∀ x < 5, ∀ y < 5, tenthD x y = tenthD y x := by decide +kernel
  have he : ∀ x < 5, ∀ y < 5, |(tenthD x y).q - (|tenthPoint x - tenthPoint y|)| ≤
      1 / 2 ^ 52 * |tenthPoint x - tenthPoint y| := by
    decide +kernel
  have hl : ∀ x < 5, ∀ y < 5, |tenthPoint x - tenthPoint y| ≤ 24 / 10 := by decide +kernel
  refine ⟨ieee_floatLoss binary64, tenth_dissim, fun x y hx hy => hs x hx y hy, fun x y hx hy => ?_, fun x y hx hy => ?_, by norm_num,
    by norm_num, by norm_num⟩
  · show |((tenthD x y).q : ℝ) - _| ≤ _
    rw [Real.dist_eq]
    have := (Rat.cast_le (K := ℝ)).2 (he x hx y hy)
    rw [Rat.cast_abs, Rat.cast_sub, Rat.cast_mul, Rat.cast_abs, Rat.cast_sub] at this
    exact this
  · rw [Real.dist_eq]
    have := (Rat.cast_le (K := ℝ)).2 (hl x hx y hy)
    rw [Rat.cast_abs, Rat.cast_sub] at this
    exact this

-- A run whose last pass exchanged nothing: all hypotheses of `C102_rand_fasterpam` hold, and the distances are not exact.
example : ∃ r, randFasterpam (Ieee binary64) (ofRows (tenths tenthRows)) [0, 1] 2 (List.range 5) = .ok r ∧
    ∀ other : List Nat, other ≠ [] → (∀ c ∈ other, c < 5) → other.length ≤ 2 →
      (1 - (1 / 2 ^ 52 : ℚ) : ℝ) * metricDev (fun i => (tenthPoint i : ℝ)) 5 r.med ≤
        5 * ((1 + (1 / 2 ^ 52 : ℚ)) * metricDev (fun i => (tenthPoint i : ℝ)) 5 other) +
          metricErr other.length 5 (1 / 2 ^ 52) (24 / 10) := by
  have h0 : randFasterpam (Ieee binary64) (ofRows (tenths tenthRows)) [0, 1] 1 (List.range 5) =
      .ok ⟨.num (3602879701896397 / 2251799813685248), [1, 1, 1, 1, 0], 1, 3, [4, 1]⟩ := by decide +kernel
  have hr : randFasterpam (Ieee binary64) (ofRows (tenths tenthRows)) [0, 1] 2 (List.range 5) =
      .ok ⟨.num (3602879701896397 / 2251799813685248), [1, 1, 1, 1, 0], 2, 3, [4, 1]⟩ := by decide +kernel
  exact ⟨_, hr, fun other hne hor ho => C102_rand_fasterpam tenth_computed tenth_isMatrix tenth_valid (by decide) (by decide) 1
    (List.Perm.refl _) h0 hr rfl rfl hne hor ho⟩

example : ∃ x < 5, ∃ y < 5, (tenthD x y).q ≠ |tenthPoint x - tenthPoint y| := by decide +kernel

-- FastPAM1 and PAM.
example : ∃ r, fastpam1 (Ieee binary64) (ofRows (tenths tenthRows)) [0, 1] 9 = .ok r ∧ r.nSwap < r.nIter ∧
    ∀ other : List Nat, other ≠ [] → (∀ c ∈ other, c < 5) → other.length ≤ 2 →
      (1 - (1 / 2 ^ 52 : ℚ) : ℝ) * metricDev (fun i => (tenthPoint i : ℝ)) 5 r.med ≤
        5 * ((1 + (1 / 2 ^ 52 : ℚ)) * metricDev (fun i => (tenthPoint i : ℝ)) 5 other) +
          metricErr other.length 5 (1 / 2 ^ 52) (24 / 10) := by
  have h : ∃ r, fastpam1 (Ieee binary64) (ofRows (tenths tenthRows)) [0, 1] 9 = .ok r :=
    ⟨_, (C04_fastpam1 (L := Ieee binary64) tenth_isMatrix tenth_valid 9).choose_spec.1⟩
  have hq : (match fastpam1 (Ieee binary64) (ofRows (tenths tenthRows)) [0, 1] 9 with
    | .ok r => decide (r.nSwap < r.nIter)
    | .error _ => false) = true := by decide +kernel
  obtain ⟨r, hr⟩ := h
  rw [hr] at hq
  have hq := of_decide_eq_true hq
  exact ⟨r, hr, hq, fun other hne hor ho => C102_pam tenth_computed tenth_isMatrix tenth_valid (by decide) (by decide) 9
    (.inr hr) hq hne hor ho⟩

end KMedoids
