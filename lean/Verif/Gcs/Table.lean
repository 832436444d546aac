import Verif.Gcs.Model
import Mathlib.Algebra.Group.Defs
import Mathlib.Algebra.Group.Int.Defs

/-! # Model of building a connection set from a table of fault faces -/

namespace Verif.Gcs
open Verif.Py

/-- a row of the faces dataframe; for `standardRows` (_gcs_functions.py:476-485) -/
structure TableRow (K : Type) where
  name : String
  face : List Char
  k1 : Int
  k2 : Int
  j1 : Int
  j2 : Int
  i1 : Int
  i2 : Int
  mult : K

/-- _gcs_functions.py:488-499 `standardize_face_indicator_in_faces_df` for one row.  A face of a single character has '+' added, but
is not put in upper case, which only the other rows are. -/
def standardFace (f : List Char) : Res (List Char) :=
  let t := if f.length = 1 then f ++ ['+'] else f.map Char.toUpper
  match t with
  | [a, b] => if (a = 'I' ∨ a = 'J' ∨ a = 'K') ∧ (b = '+' ∨ b = '-') then .ok t else .error .assertion
  | _ => .error .assertion

/-- all rows standardised, with the cell indices zero based, _gcs_functions.py:476-485 -/
def standardRows {K : Type} : List (TableRow K) → Res (List (TableRow K))
  | [] => .ok []
  | r :: rs => match standardFace r.face with
    | .error e => .error e
    | .ok f => match standardRows rs with
      | .error e => .error e
      | .ok rs' => .ok (⟨r.name, f, r.k1 - 1, r.k2 - 1, r.j1 - 1, r.j2 - 1, r.i1 - 1, r.i2 - 1, r.mult⟩ :: rs')

/-- _gcs_functions.py:502-522 `remove_external_faces_from_faces_df`: the test for one row -/
def external {K : Type} (e : Ext) (r : TableRow K) : Bool :=
  (decide (r.i1 ≤ 0) && r.face == ['I', '-']) || (decide (r.j1 ≤ 0) && r.face == ['J', '-']) ||
  (decide (r.k1 ≤ 0) && r.face == ['K', '-']) || (decide ((e.ni : Int) - 1 ≤ r.i2) && r.face == ['I', '+']) ||
  (decide ((e.nj : Int) - 1 ≤ r.j2) && r.face == ['J', '+']) || (decide ((e.nk : Int) - 1 ≤ r.k2) && r.face == ['K', '+'])

/-- Python's range(lo, hi); for `rowConns` (_grid_connection_set.py:2123-2136) -/
def pyRange (lo hi : Int) : List Int := (List.range (hi - lo).toNat).map fun (n : Nat) => lo + n

/-- `grid.natural_cell_index` for integers; for `rowConns` (_grid_connection_set.py:2123-2136) -/
def naturalZ (e : Ext) (c : Int × Int × Int) : Int := (c.1 * e.nj + c.2.1) * e.ni + c.2.2

/-- 'KJI'.index(f[0]) and '-+'.index(f[1]) -/
def faceAxis (f : List Char) : Nat × Nat :=
  ((match f with | 'K' :: _ => 0 | 'J' :: _ => 1 | _ => 2), (match f with | [_, '+'] => 1 | _ => 0))

/-- `neighbour[axis] += 1` or `-= 1` -/
def neighbour (axis p : Nat) (c : Int × Int × Int) : Int × Int × Int :=
  let d : Int := if p = 0 then -1 else 1
  match axis with
  | 0 => (c.1 + d, c.2.1, c.2.2)
  | 1 => (c.1, c.2.1 + d, c.2.2)
  | _ => (c.1, c.2.1, c.2.2 + d)

/-- _grid_connection_set.py:2123-2136: the connections for one row (cell indices which are negative are not modelled) -/
def rowConns {K : Type} (e : Ext) (r : TableRow K) : List Conn :=
  let (axis, p) := faceAxis r.face
  (pyRange r.k1 (r.k2 + 1)).flatMap fun k => (pyRange r.j1 (r.j2 + 1)).flatMap fun j => (pyRange r.i1 (r.i2 + 1)).map fun i =>
    ⟨(naturalZ e (k, j, i)).toNat, (naturalZ e (neighbour axis p (k, j, i))).toNat, faceIndexMap axis p, faceIndexMap axis (1 - p)⟩

/-- _grid_connection_set.py:2079-2084: multiplier from the dictionary; the lower case name takes precedence -/
def dictMult {K : Type} [One K] (dict : List (String × K)) (lower : String → String) (name : String) : K :=
  match dict.lookup (lower name) with
  | some m => m
  | none => (dict.lookup name).getD 1

/-- _grid_connection_set.py:725-730 and 2075-2140, the loop over names: `interps` are the keys of fi_dict, `out` the connections so
far with feature index and multiplier.  When an interpretation already exists the variable fi_root is not set, and its use after
the loop over rows raises. -/
def namesLoop {K : Type} [Mul K] [One K] (e : Ext) (lower : String → String) (dict : List (String × K)) (rows : List (TableRow K)) :
    List String → List String → Nat → List (Nat × Conn × K) → Res (List (Nat × Conn × K))
  | [], _, _, out => .ok out
  | name :: names, interps, fi, out =>
    if lower name ∈ interps then .error .unbound
    else
      let new := (rows.filter fun r => r.name == name).flatMap fun r =>
        (rowConns e r).map fun c => (fi, c, r.mult * dictMult dict lower name)
      namesLoop e lower dict rows names (lower name :: interps) (fi + 1) (out ++ new)

/-- pandas unique(): distinct values in order of first appearance; for `setPairsFromTable` (_grid_connection_set.py:677-742) -/
def unique (l : List String) : List String := l.reverse.dedup.reverse

/-- _grid_connection_set.py:677-742 `set_pairs_from_faces_df`: the titles of the features, and for each connection its feature index
and multiplier.  `interps` are the first words, in lower case, of the titles of existing fault interpretations.  Without creation of
organizing objects the variable tbf_parts_list is not set, and the first call for a name raises.  Reuse of existing features and
xml are not modelled. -/
def setPairsFromTable {K : Type} [Mul K] [One K] (e : Ext) (lower : String → String) (create : Bool) (interps : List String)
    (dict : List (String × K)) (rows : List (TableRow K)) : Res (List String × List (Nat × Conn × K)) :=
  match standardRows rows with
  | .error err => .error err
  | .ok rows =>
    let rows := rows.filter fun r => !external e r
    let names := unique (rows.map (·.name))
    if create = false ∧ names ≠ [] then .error .unbound
    else match namesLoop e lower dict rows names interps 0 [] with
      | .error err => .error err
      | .ok out => .ok (names, out)

end Verif.Gcs
