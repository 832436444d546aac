import Verif.Upscale.Model
import Mathlib.Algebra.BigOperators.Intervals
import Mathlib.Algebra.BigOperators.Ring.Finset

/-! # Specification for upscaling, not using the model's summation -/

namespace Verif.Upscale

variable {K : Type}

/-- values for every cell -/
abbrev Full (K : Type) := Nat → Nat → Nat → K

/-- an array without any not-a-number -/
def lift (a : Full K) : Arr K := fun k j i => some (a k j i)

/-- the first fine index in coarse index `c` along an axis; that of `c + 1` is one beyond the last of `c` -/
def first (r : List Nat) (c : Nat) : Nat := (r.take c).sum

/-- the total over the fine cells in coarse cell (k, j, i) -/
def total [AddCommMonoid K] (cz : Coarsening) (a : Full K) (k j i : Nat) : K :=
  ∑ x ∈ Finset.Ico (first cz.rk k) (first cz.rk (k + 1)),
    ∑ y ∈ Finset.Ico (first cz.rj j) (first cz.rj (j + 1)),
      ∑ z ∈ Finset.Ico (first cz.ri i) (first cz.ri (i + 1)), a x y z

/-- fine cell (x, y, z) is in coarse cell (k, j, i) -/
def InCell (cz : Coarsening) (k j i x y z : Nat) : Prop :=
  (first cz.rk k ≤ x ∧ x < first cz.rk (k + 1)) ∧ (first cz.rj j ≤ y ∧ y < first cz.rj (j + 1)) ∧
    (first cz.ri i ≤ z ∧ z < first cz.ri (i + 1))

/-- the arrays written for one kind of property -/
def arraysOf (kind : Kind) (l : List (Kind × Arr K)) : List (Arr K) := (l.filter fun q => q.1 = kind).map (·.2)

/-- the coarse value of a property lies within any bounds on its values in the fine cells (so it is that value if they all have one value) -/
def Between [LE K] (cz : Coarsening) (k j i : Nat) (s : Full K) (a : Arr K) : Prop :=
  ∀ lo hi, (∀ x y z, InCell cz k j i x y z → lo ≤ s x y z ∧ s x y z ≤ hi) → ∃ v, a k j i = some v ∧ lo ≤ v ∧ v ≤ hi

/-- the sum of the lengths along a line of fine cells through coarse cell (k, j, i): the line in direction `axis` (0 for K, 1 for J and
2 for I) which runs through fine cell (x, y, z) -/
def lineSum [AddCommMonoid K] (cz : Coarsening) (axis : Nat) (a : Full K) (k j i x y z : Nat) : K :=
  if axis = 0 then ∑ x' ∈ Finset.Ico (first cz.rk k) (first cz.rk (k + 1)), a x' y z
  else if axis = 1 then ∑ y' ∈ Finset.Ico (first cz.rj j) (first cz.rj (j + 1)), a x y' z
  else ∑ z' ∈ Finset.Ico (first cz.ri i) (first cz.ri (i + 1)), a x y z'

end Verif.Upscale
