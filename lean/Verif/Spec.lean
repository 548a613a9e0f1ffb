import Verif.Model.ArrayAdapter
import Mathlib.Order.Defs.LinearOrder
import Mathlib.Algebra.BigOperators.Group.List.Defs

/-!
# Specification vocabulary

What the properties talk about, independent of how the algorithms work. Only the interface of the
crate (the `ArrayAdapter` record `Mat`) is mentioned.
-/

namespace KMedoids

/-- The adapter `mat` presents the `n × n` matrix `d`. -/
structure IsMatrix {N : Type} (mat : Mat N) (n : Nat) (d : Nat → Nat → N) : Prop where
  len : mat.len = n
  square : mat.isSquare = .ok true
  get : ∀ x y, x < n → y < n → mat.get x y = .ok (d x y)

/-- Sizes accepted by the crate: `1 ≤ k ≤ n ≤ u32::MAX`, `k < u32::MAX`. -/
structure Sizes (n k : Nat) : Prop where
  pos : 1 ≤ k
  le : k ≤ n
  n_le : n ≤ u32Max
  k_lt : k < u32Max

/-- Valid medoid list: valid number, every entry is an object. Duplicates are allowed. -/
structure ValidMeds (n : Nat) (med : List Nat) : Prop where
  sizes : Sizes n med.length
  range : ∀ m ∈ med, m < n

/-- A well-formed answer: every one of the `n` objects has a label below `k`, and there are `k` medoids,
all of them objects. -/
structure WellFormed (n k : Nat) (med assi : List Nat) : Prop where
  assiLen : assi.length = n
  label : ∀ a ∈ assi, a < k
  medLen : med.length = k
  medRange : ∀ m ∈ med, m < n

/-- Zero diagonal, no negative entries. Neither symmetry nor the triangle inequality is required. -/
structure Dissim {N : Type} [LinearOrder N] [Zero N] (n : Nat) (d : Nat → Nat → N) : Prop where
  diag : ∀ x, x < n → d x x = 0
  nonneg : ∀ x y, x < n → y < n → 0 ≤ d x y

/-- Symmetric matrix. -/
def Symm {N : Type} (n : Nat) (d : Nat → Nat → N) : Prop :=
  ∀ x y, x < n → y < n → d x y = d y x

/-- Distance of object `o` to the nearest of the listed medoids. -/
def minDist {N : Type} [LinearOrder N] [Zero N] (d : Nat → Nat → N) (o : Nat) : List Nat → N
  | [] => 0
  | [m] => d o m
  | m :: m' :: ms => min (d o m) (minDist d o (m' :: ms))

/-- The total deviation of a set of medoids: the sum over all objects of the distance to the nearest
medoid, in the loss type. -/
def totalDev {N L : Type} [LinearOrder N] [Zero N] [Add L] [Zero L] (conv : N → L) (n : Nat)
    (d : Nat → Nat → N) (med : List Nat) : L :=
  ((List.range n).map fun o => conv (minDist d o med)).sum

/-- Label `m` is a nearest medoid of object `o`. -/
def IsNearest {N : Type} [LinearOrder N] (d : Nat → Nat → N) (med : List Nat) (o m : Nat) : Prop :=
  ∃ c, med[m]? = some c ∧ ∀ c' ∈ med, d o c ≤ d o c'

/-- `assi` labels all `n` objects with a nearest medoid, and every medoid with its own position. -/
structure NearestAssignment {N : Type} [LinearOrder N] (n : Nat) (d : Nat → Nat → N)
    (med assi : List Nat) : Prop where
  length : assi.length = n
  nearest : ∀ o m : Nat, assi[o]? = some m → IsNearest d med o m
  own : ∀ m c : Nat, med[m]? = some c → assi[c]? = some m

/-- No exchange of one medoid by one object that is not a medoid has a smaller total deviation. -/
def SwapOptimal {N L : Type} [LinearOrder N] [Zero N] [Add L] [Zero L] [LE L] (conv : N → L) (n : Nat)
    (d : Nat → Nat → N) (med : List Nat) : Prop :=
  ∀ m j, m < med.length → j < n → j ∉ med →
    totalDev conv n d med ≤ totalDev conv n d (med.set m j)

/-- Sum of the distances from object `c` to all objects. -/
def distSum {N L : Type} [Add L] [Zero L] (conv : N → L) (n : Nat) (d : Nat → Nat → N) (c : Nat) : L :=
  ((List.range n).map fun o => conv (d c o)).sum

/-- Sum of the distances from `c` to all members of cluster `m`. -/
def clusterSum {N L : Type} [Add L] [Zero L] (conv : N → L) (d : Nat → Nat → N) (assi : List Nat)
    (m c : Nat) : L :=
  ((assi.zipIdx.filter fun p => p.1 = m).map fun p => conv (d c p.2)).sum

/-- Every element of the list is a best choice (smallest `T`) among all objects, given the elements
before it. -/
def Greedy {L : Type} [LE L] (T : List Nat → L) (n : Nat) (meds : List Nat) : Prop :=
  ∀ l c : Nat, meds[l]? = some c → ∀ x, x < n → T (meds.take l ++ [c]) ≤ T (meds.take l ++ [x])

/-- `SwapChain T n c med med'`: `med'` is reached from `med` by `c` exchanges of one medoid by one object
that is not a medoid, each of which strictly decreases `T`. -/
inductive SwapChain {L : Type} [LT L] (T : List Nat → L) (n : Nat) : Nat → List Nat → List Nat → Prop
  | refl (med : List Nat) : SwapChain T n 0 med med
  | step {c : Nat} {med med' : List Nat} (h : SwapChain T n c med med') (b j : Nat)
      (hb : b < med'.length) (hj : j < n) (hjm : j ∉ med') (hT : T (med'.set b j) < T med') :
      SwapChain T n (c + 1) med (med'.set b j)

end KMedoids
