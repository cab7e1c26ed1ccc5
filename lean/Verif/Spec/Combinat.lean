/-
Specification of combinations and permutations as lists, independent of the code.
-/
namespace Spec

/-- `l` is a selection of `k` of the numbers `1..n`, in ascending order. -/
def IsCombination (k n : Nat) (l : List Int) : Prop :=
  l.length = k ∧ l.Pairwise (· < ·) ∧ ∀ x ∈ l, 1 ≤ x ∧ x ≤ n

/-- `l` is an arrangement of the numbers `1..n`. -/
def IsPermutation (n : Nat) (l : List Int) : Prop :=
  l.Perm ((List.range n).map fun i : Nat => (i : Int) + 1)

/-- The first `k` elements of an array in memory. -/
def arr (k : Nat) (mem : Nat → Int) : List Int := (List.range k).map mem

end Spec
