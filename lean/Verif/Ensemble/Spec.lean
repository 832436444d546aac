import Verif.Ensemble.Model

/-! # What a user expects of a gathered ensemble -/

namespace Verif.Ensemble

/-- Case number `r` has the property `p` and it is to be gathered: all properties of the first case, and of later ones all, or with shared grids those on a
grid of the case -/
def Gathered (mode : Mode) (cases : List Case) (r : Nat) (p : Property) : Prop :=
  ∃ c, cases[r]? = some c ∧ p ∈ c.props ∧ (mode = .shared → r = 0 ∨ ∃ g ∈ c.grids, g.uuid = p.grid)

/-- No two properties of the cases have the same uuid -/
def Different (cases : List Case) : Prop :=
  ∀ (r s : Nat) (c d : Case), cases[r]? = some c → cases[s]? = some d →
    ∀ p ∈ c.props, ∀ q ∈ d.props, p.uuid = q.uuid → r = s ∧ p = q

/-- Grids and time series of the case `c` have different uuids, and one with the uuid of an object of the first case `d` is such an object, with the same
extent or title -/
def Consistent (d c : Case) : Prop :=
  (c.grids.map (·.uuid)).Nodup ∧ (c.series.map (·.uuid)).Nodup ∧
  (∀ g ∈ c.grids, ∀ t ∈ c.series, g.uuid ≠ t.uuid) ∧
  (∀ g ∈ c.grids, ∀ h ∈ d.grids, g.uuid = h.uuid → g.extent = h.extent) ∧
  (∀ t ∈ c.series, ∀ h ∈ d.series, t.uuid = h.uuid → t.title = h.title) ∧
  (∀ g ∈ c.grids, ∀ t ∈ d.series, g.uuid ≠ t.uuid) ∧ (∀ t ∈ c.series, ∀ g ∈ d.grids, t.uuid ≠ g.uuid)

/-- The later case `c` can be put on the grids and time series of the first case `d`: for each of its grids there is one of the same extent, for each of its
time series one of the same title, and its objects are other ones -/
def Fits (d c : Case) : Prop :=
  (∀ g ∈ c.grids, ∃ h ∈ d.grids, h.extent = g.extent) ∧ (∀ t ∈ c.series, ∃ h ∈ d.series, h.title = t.title) ∧
  (∀ u ∈ c.grids.map (·.uuid) ++ c.series.map (·.uuid), u ∉ d.grids.map (·.uuid) ++ d.series.map (·.uuid))

/-- The property `q` of the composite model, a copy of `p` of the case `c`, is on a grid with the extent of the grid which `p` is on, and its time series has
the title of that of `p` -/
def Placed (out : Composite) (c : Case) (p q : Property) : Prop :=
  (∀ g ∈ c.grids, g.uuid = p.grid → ∃ h ∈ out.grids, h.uuid = q.grid ∧ h.extent = g.extent) ∧
  (∀ t ∈ c.series, p.series = some t.uuid → ∃ h ∈ out.series, q.series = some h.uuid ∧ h.title = t.title)

/-- The property `q` of the composite model, a copy of `p` of the case `c`, is on the same grid, and its time series has the title of that of `p` -/
def Kept (out : Composite) (c : Case) (p q : Property) : Prop :=
  (∀ g ∈ c.grids, g.uuid = p.grid → q.grid = g.uuid) ∧
  (∀ t ∈ c.series, p.series = some t.uuid → ∃ h ∈ out.series, q.series = some h.uuid ∧ h.title = t.title)

end Verif.Ensemble
