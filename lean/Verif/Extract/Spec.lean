import Verif.Extract.Model
import Verif.Pillars.Spec

/-! # What is asked of an extracted grid -/

namespace Verif.Extract
open Verif.Py

/-- The point at a corner of a cell, as a grid gives it: on the pillar used by that corner of the column, at the raw index of the layer
(one more at the base of the layer).  None if the grid cannot tell. -/
def corner {P : Type} (g : Grid P) (k j i kp jp ip : Nat) : Option P :=
  match Pillars.columnPillarMapping g.tables, g.raw[k]? with
  | .ok m, some r => some (g.pts (r + kp) (m j i jp ip))
  | _, _ => none

/-- a box within the extent of a grid -/
def Box.Within {P : Type} (b : Box) (g : Grid P) : Prop :=
  b.k0 ≤ b.k1 ∧ b.j0 ≤ b.j1 ∧ b.i0 ≤ b.i1 ∧ b.k1 < g.nk ∧ b.j1 < g.tables.nj ∧ b.i1 < g.tables.ni

/-- indices of a cell corner within the box, from its lowest cell -/
def Box.Inside (b : Box) (k j i kp jp ip : Nat) : Prop :=
  b.k0 + k ≤ b.k1 ∧ b.j0 + j ≤ b.j1 ∧ b.i0 + i ≤ b.i1 ∧ kp ≤ 1 ∧ jp ≤ 1 ∧ ip ≤ 1

/-- A grid with sound tables: its pillar mapping can be made, extra pillars come from natural pillars, no corner of a column is
listed for two extra pillars, and there is one flag for each pair of adjacent layers if there are K gaps. -/
structure Sound {P : Type} (g : Grid P) : Prop where
  mapping : ∃ m, Pillars.columnPillarMapping g.tables = .ok m
  natural : ∀ p ∈ g.tables.spi, p < (g.tables.nj + 1) * (g.tables.ni + 1)
  once : ∀ n n' j i jp ip, j < g.tables.nj → i < g.tables.ni → jp ≤ 1 → ip ≤ 1 →
    Pillars.Applies g.tables n j i jp ip → Pillars.Applies g.tables n' j i jp ip → n = n'
  flags : ∀ a, g.gaps = some a → a.length + 1 = g.nk

/-- extra pillar `n` is the one used by every column of the box around the natural pillar it comes from -/
def TakesWhole (t : Pillars.Grid) (b : Box) (n : Nat) : Prop :=
  ∃ pj pi, t.spi[n]? = some (pj * (t.ni + 1) + pi) ∧ b.j0 ≤ pj ∧ pj ≤ b.j1 + 1 ∧ b.i0 ≤ pi ∧ pi ≤ b.i1 + 1 ∧
    ∀ j i jp ip, b.j0 ≤ j → j ≤ b.j1 → b.i0 ≤ i → i ≤ b.i1 → jp ≤ 1 → ip ≤ 1 → j + jp = pj → i + ip = pi →
      Pillars.Applies t n j i jp ip

end Verif.Extract
