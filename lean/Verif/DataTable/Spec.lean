import Verif.DataTable.Model

/-! # Specification for data frames kept in a model -/

namespace Verif.DataTable
open Verif.Py

variable {α : Type}

/-- What is given for a data frame: values and names of columns, units, realization, title and, for a time table, a time series. -/
structure Given (α : Type) where
  frame : Frame α
  uoms : Option (List String)
  realization : Option Int
  title : String
  series : Option (Nat × Nat)
deriving DecidableEq

/-- There are rows and columns, a unit for each column if any, and a timestamp for each row of a time table, whose time series is in the model. -/
structure Given.Fits (g : Given α) (s : Store α) : Prop where
  cols : g.frame.cols ≠ []
  rows : g.frame.rows ≠ []
  uoms : ∀ u, g.uoms = some u → u.length = g.frame.cols.length
  series : ∀ t, g.series = some t → t ∈ s.series ∧ t.2 = g.frame.rows.length

/-- A new object is made from what is given, and written; the uuid is that under which it can be found. -/
def writeOne (s : Store α) (g : Given α) : Res (Store α × Option Nat) :=
  let made := match g.series with
    | none => new s none (some g.frame) g.uoms g.realization g.title none none
    | some t => freshTimed s g.frame g.uoms g.realization g.title none none t
  match made with
  | .error e => .error e
  | .ok o => (writeTimed s o).map fun p => (p.1, p.2.mesh)

/-- One after the other. -/
def writeMany (s : Store α) : List (Given α) → Res (Store α × List (Option Nat))
  | [] => .ok (s, [])
  | g :: gs =>
    match writeOne s g with
    | .error e => .error e
    | .ok (s, u) => (writeMany s gs).map fun p => (p.1, u :: p.2)

/-- Identifiers are used once, and those to come are not used. -/
structure Sound (s : Store α) : Prop where
  once : (s.lookups.map Lookup.uuid).Nodup
  lookups : ∀ l ∈ s.lookups, l.uuid < s.next
  series : ∀ t ∈ s.series, t.1 < s.next
  seriesOnce : (s.series.map Prod.fst).Nodup
  apart : ∀ l ∈ s.lookups, ∀ t ∈ s.series, l.uuid ≠ t.1
  meshes : ∀ m ∈ s.meshes, m.uuid < s.next
  related : ∀ m ∈ s.meshes, ∀ u ∈ m.related, u < s.next

end Verif.DataTable
