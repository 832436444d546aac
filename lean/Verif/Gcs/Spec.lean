import Verif.Gcs.Model

/-! # Faces of cells, independent of natural indices and face numbering -/

namespace Verif.Gcs

/-- the cell is within the grid -/
def Inside (e : Ext) (c : Cell) : Prop := c.1 < e.nk ∧ c.2.1 < e.nj ∧ c.2.2 < e.ni

/-- the next cell along an axis: 0 is K, 1 is J, 2 is I -/
def next (axis : Nat) (c : Cell) : Cell :=
  match axis with
  | 0 => (c.1 + 1, c.2.1, c.2.2)
  | 1 => (c.1, c.2.1 + 1, c.2.2)
  | _ => (c.1, c.2.1, c.2.2 + 1)

/-- a face of a cell: the axis and the polarity, 0 for the minus face and 1 for the plus face -/
abbrev Face := Cell × (Nat × Nat)

/-- the plus face of `c` along the axis -/
def plusFace (axis : Nat) (c : Cell) : Face := (c, (axis, 1))
/-- the minus face of the cell after `c` along the axis, which is the same boundary seen from the other side -/
def minusFace (axis : Nat) (c : Cell) : Face := (next axis c, (axis, 0))

/-- the feature of a connection by its position -/
def featureOf (g : Gcs) (n : Nat) : Option Feature :=
  match g.featureIndices, g.featureList with
  | some fi, some fl => (fi[n]?).bind fun x => fl[x]?
  | _, _ => none

/-- a connection set with a feature for every connection -/
structure Featured (g : Gcs) (fi : List Nat) (fl : List Feature) : Prop where
  indices : g.featureIndices = some fi
  list : g.featureList = some fl
  length : fi.length = g.conns.length
  range : ∀ x ∈ fi, x < fl.length

end Verif.Gcs
