import Verif.Refine.Model
import Verif.FineCoarse.Spec

/-! # What is asked of a refined grid -/

namespace Verif.Refine
open Verif.FineCoarse

variable {V : Type} [AddCommGroup V] [Module ℚ V]

/-- the corner of a cell of a grid without split pillars: layer `k` has its top at the raw index of the layer -/
def corner (g : Grid V) (k j i kp jp ip : Nat) : V := g.pts ((if g.hasGaps then g.raw k else k) + kp) (j + jp) (i + ip)

/-- the K gap arrays of a grid agree with each other: raw indices go up by one from layer to layer, and by two over a gap, and
`k_gaps` is the number of gaps -/
structure GapsSound (g : Grid V) : Prop where
  first : 0 < g.nk → g.raw 0 = 0
  next : ∀ k, k + 1 < g.nk → g.raw (k + 1) = g.raw k + 1 + if g.after k then 1 else 0
  count : g.kGaps = some ((List.range (g.nk - 1)).filter fun k => g.after k).length

/-- trilinear interpolation of the corners of a cell, at fractions `u`, `v` and `w` of the way along K, J and I -/
def trilinear (cp : Nat → Nat → Nat → V) (u v w : ℚ) : V :=
  ((1 - u) * (1 - v) * (1 - w)) • cp 0 0 0 + ((1 - u) * (1 - v) * w) • cp 0 0 1 +
  ((1 - u) * v * (1 - w)) • cp 0 1 0 + ((1 - u) * v * w) • cp 0 1 1 +
  (u * (1 - v) * (1 - w)) • cp 1 0 0 + (u * (1 - v) * w) • cp 1 0 1 +
  (u * v * (1 - w)) • cp 1 1 0 + (u * v * w) • cp 1 1 1

/-- the fraction of the way through a coarse slice at which fine slice number `n` begins, given the proportions of its fine slices;
one at the end -/
def cut (p : List ℚ) (n : Nat) : ℚ := if n = p.length then 1 else (p.take n).sum

/-- Along an axis, fine slice `f` is slice number `l` within coarse slice `c`, whose proportions are `p` -/
structure Within (s : FC) (axis : Fin 3) (c f l : Nat) (p : List ℚ) : Prop where
  coarse : (c : Int) < (s.ax axis).coarse
  base : ∃ b : Nat, s.fineBase axis c = .ok b ∧ f = b + l
  inside : ∃ r : Nat, s.ratio axis c = .ok r ∧ l < r
  proportion : (s.ax axis).proportion c = .ok p

end Verif.Refine
