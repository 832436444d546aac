import Verif.Pinchout.Model

/-! # What a pinchout connection is -/

namespace Verif.Pinchout

/-- layers `a` and `b` of a column are not pinched out, with at least one layer between them and all of those pinched out -/
structure IsPinchout (g : Grid) (j i a b : Nat) : Prop where
  inside : b < g.nk
  between : a + 1 < b
  above : g.po a j i = false
  below : g.po b j i = false
  pinched : ∀ k, a < k → k < b → g.po k j i = true

/-- a connection is wanted across the pinchout: both cells active when inactive ones are to be skipped, and no K gap under
the upper one -/
structure Wanted (g : Grid) (skipInactive : Bool) (j i a b : Nat) : Prop extends IsPinchout g j i a b where
  active : skipInactive = true → g.dead a j i = false ∧ g.dead b j i = false
  noGap : g.gapAfter a = false

end Verif.Pinchout
