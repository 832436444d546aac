import Verif.Decoarsen.Model
import Mathlib.Algebra.BigOperators.Intervals

/-! # Specification for decoarsening -/

namespace Verif.Decoarsen

def InGrid (e : Ext) (c : Cell) : Prop := c.k < e.nk ∧ c.j < e.nj ∧ c.i < e.ni

/-- cell `x` is in the box with first cell `c` and numbers of cells `s` -/
def InBox (c : Cell) (s : Share) (x : Cell) : Prop :=
  (c.k ≤ x.k ∧ x.k < c.k + s.k) ∧ (c.j ≤ x.j ∧ x.j < c.j + s.j) ∧ (c.i ≤ x.i ∧ x.i < c.i + s.i)

instance (c : Cell) (s : Share) (x : Cell) : Decidable (InBox c s x) := by unfold InBox; infer_instance

/-- A division of the grid into boxes, one for each coarse cell: the box of cell `c` has first cell (the host) `host c` and numbers of
cells `size c`; it lies in the grid, contains `c`, and is the box of all of the cells in it. -/
structure Boxes (e : Ext) where
  host : Cell → Cell
  size : Cell → Share
  mem : ∀ c, InGrid e c → InBox (host c) (size c) c
  fits : ∀ c, InGrid e c → ∀ x, InBox (host c) (size c) x → InGrid e x
  same : ∀ c, InGrid e c → ∀ x, InBox (host c) (size c) x → host x = host c ∧ size x = size c

/-- KID values for a division into boxes: 0 for an active host, -3 for the other cells of its box; a cell which is inactive for another
reason (any other value) is alone in its box -/
def KidFor {e : Ext} (b : Boxes e) (kid : Cell → Int) : Prop :=
  ∀ c, InGrid e c → if b.host c = c then kid c = 0 ∨ (kid c ≠ -3 ∧ b.size c = ⟨1, 1, 1⟩) else kid c = -3

/-- the cell following a box, in each direction from its host, is itself a host (as when the grid is divided along planes) -/
def Aligned {e : Ext} (b : Boxes e) : Prop :=
  ∀ c, InGrid e c → b.host c = c → ∀ x ∈ [(⟨c.k + (b.size c).k, c.j, c.i⟩ : Cell), ⟨c.k, c.j + (b.size c).j, c.i⟩, ⟨c.k, c.j, c.i + (b.size c).i⟩],
    InGrid e x → b.host x = x

variable {K : Type}

/-- total over a box -/
def boxTotal [AddCommMonoid K] (c : Cell) (s : Share) (a : Arr K) : K :=
  ∑ k ∈ Finset.Ico c.k (c.k + s.k), ∑ j ∈ Finset.Ico c.j (c.j + s.j), ∑ i ∈ Finset.Ico c.i (c.i + s.i), a ⟨k, j, i⟩

/-- the total along the line of cells of a box, in direction `axis`, through cell `x` -/
def lineTotal [AddCommMonoid K] (axis : Nat) (c : Cell) (s : Share) (a : Arr K) (x : Cell) : K :=
  if axis = 0 then ∑ k ∈ Finset.Ico c.k (c.k + s.k), a ⟨k, x.j, x.i⟩
  else if axis = 1 then ∑ j ∈ Finset.Ico c.j (c.j + s.j), a ⟨x.k, j, x.i⟩
  else ∑ i ∈ Finset.Ico c.i (c.i + s.i), a ⟨x.k, x.j, i⟩

/-- what should become of the values of a property, by its rule: a volume in the host is shared out over the box; a length in the host
along each line of cells in its direction; other values are the host's, for each cell of the box -/
def Spread [AddCommMonoid K] (e : Ext) (b : Boxes e) (r : Rule) (old new : Arr K) : Prop :=
  ∀ c, InGrid e c →
    match r with
    | .volume => boxTotal (b.host c) (b.size c) new = old (b.host c) ∧ ∀ x, InBox (b.host c) (b.size c) x → new x = new c
    | .along a => lineTotal a (b.host c) (b.size c) new c = old (b.host c) ∧ ∀ x, InBox (b.host c) (b.size c) x → new x = new c
    | _ => new c = old (b.host c)

/-- a property which is to be shared out or copied: there is an array, for cells, and it is not one of the special keywords -/
def Wanted (t : Item K) : Prop := t.held = true ∧ t.cells = true ∧ t.keyword.toUpper ∉ ["UID", "ICOARS", "KID", "DAD"]

instance (t : Item K) : Decidable (Wanted t) := by unfold Wanted; infer_instance

/-- what is expected of decoarsening: each wanted property is spread over the boxes by the rule for its kind, the others are as they
were, and if asked for a cell is inactive when its host is -/
def Decoarsened [AddCommMonoid K] {e : Ext} (b : Boxes e) (reactivate : Bool) (items items' : List (Item K)) (inactive inactive' : Arr Bool) : Prop :=
  List.Forall₂ (fun t t' => t' = { t with values := t'.values } ∧
    if Wanted t then Spread e b (rule t.kind t.facetType t.facet) t.values t'.values else t' = t) items items' ∧
  ∀ c, InGrid e c → inactive' c = if reactivate then inactive (b.host c) else inactive c

end Verif.Decoarsen
