import Verif.Spec
import Mathlib.Algebra.Order.Field.Basic
import Mathlib.Data.List.Sort

/-!
# Specification vocabulary: silhouettes

The textbook definitions (Rousseeuw 1987; Van der Laan et al. 2003 for the medoid version), over an exact
ordered field.
-/

namespace KMedoids

variable {N L : Type}

/-- The members of cluster `c`, without object `i`. -/
def members (assi : List Nat) (i c : Nat) : List Nat :=
  (List.range assi.length).filter fun j => assi[j]? = some c ∧ j ≠ i

/-- Mean distance of object `i` to the other members of cluster `c`. -/
def meanDist [Field L] (conv : N → L) (d : Nat → Nat → N) (assi : List Nat) (i c : Nat) : L :=
  ((members assi i c).map fun j => conv (d i j)).sum / ((members assi i c).length : L)

/-- Silhouette of object `i`, which is in cluster `ai`: `a` is its mean distance to its own cluster, `b`
the smallest mean distance to another (occurring) cluster. -/
def silWith [Field L] [LinearOrder L] (conv : N → L) (d : Nat → Nat → N) (assi : List Nat) (i ai : Nat) : L :=
  if members assi i ai = [] then 0
  else match ((assi.filter (· ≠ ai)).map (meanDist conv d assi i)).min? with
    | none => 0
    | some b =>
      let a := meanDist conv d assi i ai
      if max a b = 0 then 0 else (b - a) / max a b

/-- Silhouettes of all objects. -/
def silList [Field L] [LinearOrder L] (conv : N → L) (d : Nat → Nat → N) (assi : List Nat) : List L :=
  assi.zipIdx.map fun p => silWith conv d assi p.2 p.1

/-- Arithmetic mean. -/
def mean [Field L] (xs : List L) : L := xs.sum / (xs.length : L)

/-- The labels that occur are `0, …, K-1` for some `K`. -/
def NoGap (assi : List Nat) : Prop := ∀ c c', c ≤ c' → c' ∈ assi → c ∈ assi

/-- The distances of object `o` to the medoids, in ascending order. -/
def sortedDist [LinearOrder N] (d : Nat → Nat → N) (o : Nat) (med : List Nat) : List N :=
  (med.map (d o)).insertionSort (· ≤ ·)

/-- Medoid silhouette of object `o`: `1 - d₁/d₂` with `d₁ ≤ d₂` the two smallest distances to medoids,
where `0/0 := 0`. -/
def medSil1 [LinearOrder N] [Zero N] [Field L] (conv : N → L) (d : Nat → Nat → N) (med : List Nat)
    (o : Nat) : L :=
  match sortedDist d o med with
  | d1 :: d2 :: _ => if d1 = 0 then 1 else 1 - conv d1 / conv d2
  | _ => 0

/-- Average medoid silhouette. -/
def medSil [LinearOrder N] [Zero N] [Field L] (conv : N → L) (n : Nat) (d : Nat → Nat → N)
    (med : List Nat) : L :=
  mean ((List.range n).map (medSil1 conv d med))

end KMedoids
