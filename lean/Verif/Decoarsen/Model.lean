import Verif.Py.Basic
import Mathlib.Algebra.Order.Field.Basic

/-! # Model of `decoarsen_imported_list`, `resqpy/property/grid_property_collection.py`

Arrays are functions of k, j, i read within the extent of the grid.  Values are exact numbers.  Values of the decoarsening array are
natural numbers (ICOARS values below one, which would index from the end, are not modelled). -/

namespace Verif.Decoarsen
open Verif.Py

/-- cell indices; for `Ext.natural` (grid_property_collection.py:488-514) -/
structure Cell where
  k : Nat
  j : Nat
  i : Nat
deriving DecidableEq

/-- extent of the grid; for `Ext.natural` (grid_property_collection.py:488-514) -/
structure Ext where
  nk : Nat
  nj : Nat
  ni : Nat

/-- `cell_count`; for `decoarsen` (grid_property_collection.py:520-608) -/
def Ext.count (e : Ext) : Nat := e.nk * e.nj * e.ni

/-- the natural index of a cell, as counted at grid_property_collection.py:488-514 and 538-555 -/
def Ext.natural (e : Ext) (c : Cell) : Nat := (c.k * e.nj + c.j) * e.ni + c.i

/-- the cell for a position in a flattened array; for `decoarsen` (grid_property_collection.py:520-608) -/
def Ext.cellOf (e : Ext) (n : Nat) : Cell := ⟨n / e.ni / e.nj, n / e.ni % e.nj, n % e.ni⟩

/-- the cells in the order of the loops; for `shares` (grid_property_collection.py:534-555) -/
def Ext.cells (e : Ext) : List Cell := (List.range e.count).map e.cellOf

/-- for `shareStep` (grid_property_collection.py:542-555) -/
abbrev Arr (α : Type) := Cell → α

/-- `e = s; while e < n and test(e): e += 1`, grid_property_collection.py:495-503 and 543-551; the first argument is `n - s` -/
def runEnd (test : Nat → Bool) : Nat → Nat → Nat
  | 0, s => s
  | f + 1, s => if test s then runEnd test f (s + 1) else s

/-- numbers of cells in the three directions; for `runs` (grid_property_collection.py:495-503) -/
structure Share where
  k : Nat
  j : Nat
  i : Nat
deriving DecidableEq

/-- the box from a cell to the ends of the runs of cells passing a test, in each direction from it (495-503, 543-551) -/
def runs (e : Ext) (test : Cell → Bool) (c : Cell) : Share :=
  ⟨runEnd (fun k => test ⟨k, c.j, c.i⟩) (e.nk - (c.k + 1)) (c.k + 1) - c.k,
   runEnd (fun j => test ⟨c.k, j, c.i⟩) (e.nj - (c.j + 1)) (c.j + 1) - c.j,
   runEnd (fun i => test ⟨c.k, c.j, i⟩) (e.ni - (c.i + 1)) (c.i + 1) - c.i⟩

/-- membership of the slice `[k0:ke, j0:je, i0:ie]` -/
def inBox (c : Cell) (s : Share) (x : Cell) : Bool :=
  decide (c.k ≤ x.k ∧ x.k < c.k + s.k) && decide (c.j ≤ x.j ∧ x.j < c.j + s.j) && decide (c.i ≤ x.i ∧ x.i < c.i + s.i)

/-- assignment to a slice; for `shareStep` (grid_property_collection.py:542-555) -/
def assign {α : Type} (a : Arr α) (c : Cell) (s : Share) (v : α) : Arr α := fun x => if inBox c s x then v else a x

/-- loop body at grid_property_collection.py:542-555 -/
def shareStep (e : Ext) (d : Arr Nat) (sh : Arr Share) (c : Cell) : Arr Share :=
  if (sh c).k = 0 then
    let s := runs e (fun x => decide (d x = e.natural c)) c
    assign sh c s s
  else sh

/-- grid_property_collection.py:534-555: the shares -/
def shares (e : Ext) (d : Arr Nat) : Arr Share := e.cells.foldl (shareStep e d) fun _ => ⟨0, 0, 0⟩

/-- loop body at grid_property_collection.py:493-514 for KID data; the decoarsening array has `none` for -1 -/
def kidStep (e : Ext) (kid : Arr Int) (st : Arr (Option Nat) × Arr Share) (c : Cell) : Arr (Option Nat) × Arr Share :=
  if kid c = 0 then
    let s := runs e (fun x => decide (kid x = -3)) c
    (assign st.1 c s (some (e.natural c)), assign st.2 c s s)
  else if kid c = -3 then st
  else (assign st.1 c ⟨1, 1, 1⟩ (some (e.natural c)), assign st.2 c ⟨1, 1, 1⟩ ⟨1, 1, 1⟩)

/-- grid_property_collection.py:478-515: from KID data; the outer `none` if no cell is marked -/
def fromKid (e : Ext) (kid : Arr Int) : Res (Option (Arr Nat × Arr Share)) :=
  if e.cells.any fun c => decide (kid c = -3) then
    let st := e.cells.foldl (kidStep e kid) (fun _ => none, fun _ => ⟨0, 0, 0⟩)
    if e.cells.all fun c => (st.1 c).isSome then .ok (some (fun c => (st.1 c).getD 0, st.2)) else .error .assertion
  else .ok none

/-- an item of the imported list.  `held` is whether there is a cached array, `cells` whether the indexable element is cells; for `redistribute` (grid_property_collection.py:565-596) -/
structure Item (K : Type) where
  keyword : String
  held : Bool
  cells : Bool
  kind : String
  facetType : Option String
  facet : Option String
  values : Arr K

/-- how values are shared out; for `rule` (grid_property_collection.py:458-461) -/
inductive Rule where
  | volume | along (axis : Nat) | copy | skip
deriving DecidableEq

/-- grid_property_collection.py:458-461 and 576-594: how a kind of property is treated -/
def rule (kind : String) (facetType facet : Option String) : Rule :=
  if kind ∈ ["volume", "rock volume", "pore volume", "fluid volume"] then .volume
  else if kind ∈ ["transmissibility"] then .skip
  else if kind ∈ ["length", "cell length", "thickness", "permeability thickness", "permeability length"] then
    let dir := if facetType = some "direction" then facet else none
    if kind ∈ ["thickness", "permeability thickness"] ∨ dir = some "K" then .along 0
    else if dir = some "J" then .along 1
    else if dir = some "I" then .along 2
    else .skip
  else .copy

variable {K : Type} [Field K]

/-- `coarsened[decoarsen_array] / share`: the new values by the rule; for `redistribute` (grid_property_collection.py:565-596) -/
def shareOut (e : Ext) (d : Arr Nat) (sh : Arr Share) (r : Rule) (a : Arr K) : Arr K := fun c =>
  let v := a (e.cellOf (d c))
  match r with
  | .volume => v / (((sh c).k * (sh c).j * (sh c).i : Nat) : K)
  | .along 0 => v / ((sh c).k : K)
  | .along 1 => v / ((sh c).j : K)
  | .along _ => v / ((sh c).i : K)
  | _ => v

/-- loop at grid_property_collection.py:565-596.  `last` is the local variable `redistributed`, which for a skipped property is what it
was for the property before, or has not been assigned. -/
def redistribute (e : Ext) (d : Arr Nat) (sh : Arr Share) : Option (Arr K) → List (Item K) → Res (List (Item K))
  | _, [] => .ok []
  | last, t :: ts =>
    if ¬ t.held ∨ ¬ t.cells ∨ t.keyword.toUpper ∈ ["UID", "ICOARS", "KID", "DAD"] then
      match redistribute e d sh last ts with
      | .error x => .error x
      | .ok r => .ok (t :: r)
    else
      let now := if rule t.kind t.facetType t.facet = .skip then last else some (shareOut e d sh (rule t.kind t.facetType t.facet) t.values)
      match now with
      | none => .error .unbound
      | some a =>
        match redistribute e d sh now ts with
        | .error x => .error x
        | .ok r => .ok ({ t with values := a } :: r)

/-- grid_property_collection.py:520-608 given the decoarsening array, and the shares if they came with it: the properties, the inactive
mask of the grid and whether anything was done.  The arrays have the extent of the grid.  Indices beyond the grid are an error when
there is a property to share out; here they always are. -/
def decoarsen (e : Ext) (d : Arr Nat) (sh : Option (Arr Share)) (reactivate : Bool) (items : List (Item K)) (inactive : Arr Bool) :
    Res (List (Item K) × Arr Bool × Bool) :=
  if e.cells.all fun c => decide (d c = e.natural c) then .ok (items, inactive, false)
  else if e.cells.any fun c => decide (e.count ≤ d c) then .error .index
  else
    match redistribute e d (sh.getD (shares e d)) none items with
    | .error x => .error x
    | .ok r => .ok (r, if reactivate then fun c => inactive (e.cellOf (d c)) else inactive, true)

/-- grid_property_collection.py:431-608 `decoarsen_imported_list` without an array being passed: `icoars` and `kid` are those found in
the imported list.  The search at 468-476 stops at ICOARS, so that KID is used only without it. -/
def decoarsenImported (e : Ext) (icoars : Option (Arr Nat)) (kid : Option (Arr Int)) (reactivate : Bool) (items : List (Item K))
    (inactive : Arr Bool) : Res (List (Item K) × Arr Bool × Bool) :=
  match icoars with
  | some a => decoarsen e (fun c => a c - 1) none reactivate items inactive
  | none =>
    match kid with
    | none => .ok (items, inactive, false)
    | some kd =>
      match fromKid e kd with
      | .error x => .error x
      | .ok none => .ok (items, inactive, false)
      | .ok (some (d, sh)) => decoarsen e d (some sh) reactivate items inactive

end Verif.Decoarsen
