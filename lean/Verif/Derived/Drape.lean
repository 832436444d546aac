import Verif.Derived.Unsplit

/-! # Model of `drape_to_surface`

`resqpy/derived_model/_drape_to_surface.py`.  The surface is given by what is found where a line is met with it (see C87 for the meeting
of a line with a triangle); scaling of the surface and change of its coordinate reference system come before.  Geometry is defined
for every pillar and cell.  Properties, titles and storage are left out, as are checks which only report (line 167). -/

namespace Verif.Derived
open Verif.Py

variable {V : Type} [AddCommGroup V] [Module ℚ V]

/-- _drape_to_surface.py:207-220 `_shift_by_translation_vectors`: the translation of a pillar, given those of the natural pillars -/
def translationOf (tab : Pillars.Grid) (translate : Nat → V) (p : Nat) : V :=
  let jip1 := (tab.nj + 1) * (tab.ni + 1)
  if p < jip1 then translate p else translate (tab.spi.getD (p - jip1) 0)

/-- _drape_to_surface.py:96-97, 129-163: the new grid.  `pick p v` is the point at which the line through `p` along `v` is found to meet
the surface, if it does. -/
def drape (pick : V → V → Option V) (g : Grid V) (ref : Nat) (refBase : Bool) : Res (Grid V) :=
  if ref < g.nk then
    match unsplitPoints g true with
    | .error e => .error e
    | .ok (u, g1) =>
      let node (k p : Nat) : V := u k (p / (g.tab.ni + 1)) (p % (g.tab.ni + 1))
      let lineP := node 0
      let lineV := fun p => node g.nkPlusGaps p - lineP p
      let ref := if refBase then ref + 1 else ref
      let picks := fun p => pick (lineP p) (lineV p)
      if (List.range ((g.tab.nj + 1) * (g.tab.ni + 1))).all fun p => (picks p).isSome then
        let translate := fun p => (picks p).getD 0 - node ref p
        .ok { g1 with pts := fun k p => g1.pts k p + translationOf g.tab translate p }
      else .error .assertion
  else .error .assertion

end Verif.Derived
