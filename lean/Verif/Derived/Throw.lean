import Verif.Derived.Unsplit
import Mathlib.Algebra.Order.Field.Rat
import Mathlib.Algebra.Module.Prod
import Mathlib.Algebra.Order.Group.Abs

/-! # Model of `fault_throw_scaling` with a global factor

`resqpy/derived_model/_fault_throw_scaling.py`.  Numbers are rational.  Geometry is defined for every pillar and cell and there are no
K gaps.  Scaling by name of fault (lines 269-306), properties, connection sets, titles and storage are left out, as are checks of the
result which only report (lines 128-130). -/

namespace Verif.Derived
open Verif.Py

/-- x, y and z; for `offsetsOf` (_fault_throw_scaling.py:249-266) -/
abbrev Xyz := ℚ × ℚ × ℚ

/-- _fault_throw_scaling.py:249-266 `_set_offsets_based_on_scaling_factor`; `unsplit` is the reference plane of the unsplit points, by
natural pillar -/
def offsetsOf (tab : Pillars.Grid) (f : ℚ) (plane : Nat → Xyz) (unsplit : Nat → Xyz) (p : Nat) : Xyz :=
  let primaries := (tab.nj + 1) * (tab.ni + 1)
  if p < primaries then if p ∈ tab.spi then (f - 1) • (plane p - unsplit p) else 0
  else (f - 1) • (plane p - unsplit (tab.spi.getD (p - primaries) 0))

/-- _fault_throw_scaling.py:321-348: the pillars which contribute to the adjustment of a node: those of the columns around the node, at
neighbouring nodes which have been adjusted -/
def contributors (nj ni : Nat) (m : Pillars.Mapping) (adjusted : Nat → Nat → Bool) (j i : Nat) : List Nat :=
  (if 0 < i ∧ adjusted j (i - 1) = true then
    (if 0 < j then [m (j - 1) (i - 1) 1 0] else []) ++ (if j < nj then [m j (i - 1) 0 0] else []) else []) ++
  (if 0 < j ∧ adjusted (j - 1) i = true then
    (if 0 < i then [m (j - 1) (i - 1) 0 1] else []) ++ (if i < ni then [m (j - 1) i 0 0] else []) else []) ++
  (if i < ni ∧ adjusted j (i + 1) = true then
    (if 0 < j then [m (j - 1) i 1 1] else []) ++ (if j < nj then [m j i 0 1] else []) else []) ++
  (if j < nj ∧ adjusted (j + 1) i = true then
    (if 0 < i then [m j (i - 1) 1 1] else []) ++ (if i < ni then [m j i 1 0] else []) else [])

/-- _fault_throw_scaling.py:310 -/
def decay (range : Nat) : ℚ := (2 ^ range - 1) / (2 ^ (range + 1) - 1)

/-- points by interface and pillar, offsets by pillar, and flags by node; for `adjustNode` (_fault_throw_scaling.py:314-356) -/
structure TState where
  pts : Nat → Nat → Xyz
  off : Nat → Xyz
  flag : Nat → Nat → Bool

/-- _fault_throw_scaling.py:314-356: one node.  The quotient at 351-352 is zero here where a pillar has no height; numpy has nan. -/
def adjustNode (nk : Nat) (tab : Pillars.Grid) (m : Pillars.Mapping) (adjusted : Nat → Nat → Bool) (range : Nat) (s : TState)
    (node : Nat × Nat) : TState :=
  let j := node.1
  let i := node.2
  let p := j * (tab.ni + 1) + i
  if adjusted j i then s
  else if p ∈ tab.spi then s
  else
    let l := contributors tab.nj tab.ni m adjusted j i
    if l.length = 0 then s
    else
      let a := s.pts nk p
      let b := s.pts 0 p
      let z := decay range * (l.map fun q => (s.off q).2.2).sum / l.length
      let o : Xyz := (z * ((a.1 - b.1) / (a.2.2 - b.2.2)), z * ((a.2.1 - b.2.1) / (a.2.2 - b.2.2)), z)
      { pts := fun k q => if q = p then s.pts k q + o else s.pts k q
        off := fun q => if q = p then o else s.off q
        flag := fun j' i' => if j' = j ∧ i' = i then true else s.flag j' i' }

/-- the nodes in the order of the loops; for `sweep` (_fault_throw_scaling.py:309-357) -/
def nodes (nj ni : Nat) : List (Nat × Nat) := (List.range (nj + 1)).flatMap fun j => (List.range (ni + 1)).map fun i => (j, i)

/-- _fault_throw_scaling.py:309-357 `_neighbourly_adjustment`; `flag` of the result is `newly_adjusted` -/
def sweep (nk : Nat) (tab : Pillars.Grid) (m : Pillars.Mapping) (range : Nat) (s : TState) : TState :=
  (nodes tab.nj tab.ni).foldl (adjustNode nk tab m s.flag range) { s with flag := fun _ _ => false }

/-- _fault_throw_scaling.py:121-126: `flag` is `adjusted` -/
def sweeps (nk : Nat) (tab : Pillars.Grid) (m : Pillars.Mapping) : Nat → TState → TState
  | 0, s => s
  | range + 1, s =>
    let t := sweep nk tab m (range + 1) s
    sweeps nk tab m range { t with flag := fun j i => s.flag j i || t.flag j i }

/-- _fault_throw_scaling.py:88-126, with a scaling factor and no dictionary: the points of the new grid.  `refBase` is
`ref_k_faces == 'base'`.  A negative range is as zero. -/
def throwScaled (g : Grid Xyz) (f : ℚ) (range : Nat) (ref : Nat) (refBase : Bool) : Res (Nat → Nat → Xyz) :=
  if g.tab.hasSplit then
    let ref := if refBase then ref + 1 else ref
    if ref ≤ g.nk then
      match unsplitPoints g false, Pillars.columnPillarMapping g.tab with
      | .ok (u, _), .ok m =>
        let primaries := (g.tab.nj + 1) * (g.tab.ni + 1)
        let off := offsetsOf g.tab f (g.pts ref) fun p => u ref (p / (g.tab.ni + 1)) (p % (g.tab.ni + 1))
        let pts := fun k p => if p < primaries then if p ∈ g.tab.spi then g.pts k p + off p else g.pts k p else g.pts k p + off p
        .ok (sweeps g.nk g.tab m range ⟨pts, off, fun j i => decide (j * (g.tab.ni + 1) + i ∈ g.tab.spi)⟩).pts
      | .error e, _ => .error e
      | _, .error e => .error e
    else .error .assertion
  else .error .assertion

end Verif.Derived
