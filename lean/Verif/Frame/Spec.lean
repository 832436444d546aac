import Mathlib.Algebra.Order.Field.Basic
import Mathlib.Algebra.BigOperators.Group.Finset.Basic

/-!
# Specification: lengths along a well

The part two stretches of a well have in common, and frames as increasing measured depths.
-/

namespace Verif.Frame

variable {K : Type} [Field K] [LinearOrder K]

/-- The length which the stretches from `a` to `b` and from `c` to `d` have in common. -/
def overlap (a b c d : K) : K := max 0 (min b d - max a c)

/-- Measured depths of a frame: at least two, and increasing; the `i`th one is `md i`. -/
structure IsFrame (nodes : List K) (md : Nat → K) : Prop where
  two : 2 ≤ nodes.length
  md_eq : ∀ i (h : i < nodes.length), md i = nodes[i]
  increasing : nodes.Pairwise (· < ·)

/-- What the intervals of a frame share with the stretch from `a` to `b` of a well: a list of intervals in their order, each with the
fraction of it in the stretch and the fraction of the stretch in it.  The list has all intervals with some length in the stretch; besides,
it has the interval, other than the last, which ends where the stretch begins. -/
structure Shares (n : Nat) (md : Nat → K) (a b : K) (l : List (Nat × K × K)) : Prop where
  order : (l.map Prod.fst).Pairwise (· < ·)
  which : ∀ i, i ∈ l.map Prod.fst ↔ i + 1 < n ∧ (0 < overlap a b (md i) (md (i + 1)) ∨ (a = md (i + 1) ∧ i + 2 < n))
  fractions : ∀ c ∈ l, c.2.1 = overlap a b (md c.1) (md (c.1 + 1)) / (md (c.1 + 1) - md c.1) ∧
    c.2.2 = overlap a b (md c.1) (md (c.1 + 1)) / (b - a)

/-- The stretches of a well, given by its measured depths, which are in cells: those whose grid index is not negative. -/
def inCells : List K → List Int → List (K × K)
  | a :: b :: mds, g :: gi => if g < 0 then inCells (b :: mds) gi else (a, b) :: inCells (b :: mds) gi
  | _, _ => []

end Verif.Frame
