import Verif.Gcs.Model
import Mathlib.Algebra.Order.Field.Basic

/-! # Model of `GridConnectionSet.grid_face_arrays`, `combined_tr_mult_from_gcs_mults`,
`grid_columns_property_from_gcs_property` and `k_gap_connection_set` -/

namespace Verif.Gcs
open Verif.Py

variable {K : Type}

/-- index into one of the three face arrays: axis, and cell indices increased by one along the axis for the plus face,
_grid_connection_set.py:2278-2291 -/
def gridFace (f : Cell × (Nat × Nat)) : Nat × Cell :=
  match f.2.1 with
  | 0 => (0, (f.1.1 + f.2.2, f.1.2.1, f.1.2.2))
  | 1 => (1, (f.1.1, f.1.2.1 + f.2.2, f.1.2.2))
  | a => (a, (f.1.1, f.1.2.1, f.1.2.2 + f.2.2))

/-- the three arrays, by axis; NaN is none; for `assignSide` (_grid_connection_set.py:2271-2291) -/
abbrev FaceArr (K : Type) := Nat × Cell → Option K

/-- _grid_connection_set.py:2255-2256 `value_array[baffle_mask] = 0`: the mask has been read as integers, so that this is indexing by
the numbers 0 and 1 and not by a mask -/
def applyBaffle [Zero K] (values : List (Option K)) : List Nat → Res (List (Option K))
  | [] => .ok values
  | b :: bs => if b < values.length then applyBaffle (values.set b (some 0)) bs else .error .index

/-- _grid_connection_set.py:2271-2291: assignment of the values of one side to the face arrays (where a face is repeated the last
value stays) -/
def assignSide (e : Ext) (side : Nat) (cs : List (Conn × Option K)) (arr : FaceArr K) : FaceArr K :=
  cs.foldl (fun arr c => fun p => if p = gridFace (if side = 0 then (decode e c.1).1 else (decode e c.1).2) then c.2 else arr p) arr

/-- a connection with its feature index, its entry in the active property (true if there is none) and its value; for `faceArrays` (_grid_connection_set.py:2178-2285) -/
structure FaceValue (K : Type) where
  conn : Conn
  feature : Nat
  active : Bool
  value : Option K

/-- _grid_connection_set.py:2178-2285 `grid_face_arrays`, after the baffle mask has been applied -/
def faceArrays (e : Ext) (default : Option K) (featureIndex : Option Nat) (useActive lazy : Bool) (cs : List (FaceValue K)) : FaceArr K :=
  let cs := match featureIndex with
    | none => cs
    | some f => cs.filter fun c => c.feature == f
  let cs := if useActive then cs.filter (·.active) else cs
  let cv := cs.map fun c => (c.conn, c.value)
  (if lazy then [0] else [0, 1]).foldl (fun arr side => assignSide e side cv arr) (fun _ => default)

/-! ## combined_tr_mult_from_gcs_mults -/

/-- the merge modes; for `mergeValue` (_gcs_functions.py:441-458) -/
inductive Merge where
  | minimum | maximum | multiply | exception
  deriving DecidableEq

/-- merged value at a face, _gcs_functions.py:441-458: `a` is the combined value so far -/
def mergeValue [Mul K] [LinearOrder K] (mode : Merge) (a b : Option K) : Option K :=
  match a, b with
  | a, none => a
  | none, some b => some b
  | some a, some b => match mode with
    | .minimum => some (min a b)
    | .maximum => some (max a b)
    | .multiply => some (a * b)
    | .exception => some a

/-- _gcs_functions.py:405-458: the loop over properties; `dom` lists the indices of the three arrays -/
def combineLoop [Mul K] [LinearOrder K] (dom : List (Nat × Cell)) (mode : Merge) : List (FaceArr K) → FaceArr K → Res (FaceArr K)
  | [], combo => .ok combo
  | a :: as, combo =>
    if mode = .exception ∧ dom.any (fun p => (combo p).isSome && (a p).isSome) = true then .error .value
    else combineLoop dom mode as (fun p => mergeValue mode (combo p) (a p))

/-- _gcs_functions.py:462-464: unused values replaced by the fill value, if there is one -/
def fillFaces (fill : Option K) (combo : FaceArr K) : FaceArr K :=
  match fill with
  | some v => fun p => some ((combo p).getD v)
  | none => combo

/-- _gcs_functions.py:359-469 `combined_tr_mult_from_gcs_mults`, given the face arrays of the individual properties -/
def combinedTrMult [Mul K] [Zero K] [LinearOrder K] (dom : List (Nat × Cell)) (mode : Merge) (fill : Option K) (arrs : List (FaceArr K)) :
    Res (FaceArr K) :=
  if arrs = [] then .error .assertion
  else match combineLoop dom mode arrs (fun _ => none) with
    | .error e => .error e
    | .ok combo =>
      if dom.all (fun p => match fillFaces fill combo p with | none => true | some v => decide (0 ≤ v)) = true then
        .ok (fillFaces fill combo)
      else .error .assertion

/-! ## grid_columns_property_from_gcs_property -/

/-- multiple_handling, after 'default' has been replaced; for `columnsLoop` (_gcs_functions.py:313-330) -/
inductive Multi where
  | mean | min | max | any | exception
  deriving DecidableEq

/-- the map and count arrays, as functions of the column; for `columnsLoop` (_gcs_functions.py:313-330) -/
structure ColMap (K : Type) where
  map : Nat × Nat → K
  count : Nat × Nat → Nat

/-- _gcs_functions.py:313-330: the loop over connections, given as decoded pairs of cell and face with the property value -/
def columnsLoop [Field K] [LinearOrder K] (mode : Multi) :
    List (((Cell × (Nat × Nat)) × (Cell × (Nat × Nat))) × K) → ColMap K → Res (ColMap K)
  | [], st => .ok st
  | (d, v) :: rest, st =>
    if d.1.2.1 ≠ 0 ∨ d.2.2.1 ≠ 0 then columnsLoop mode rest st
    else
      let col := (d.1.1.2.1, d.1.1.2.2)
      let next (x : K) : ColMap K :=
        ⟨fun c => if c = col then x else st.map c, fun c => if c = col then st.count col + 1 else st.count c⟩
      if st.count col = 0 ∨ mode = .any then columnsLoop mode rest (next v)
      else match mode with
        | .mean => columnsLoop mode rest (next ((st.map col * st.count col + v) / ((st.count col + 1 : Nat) : K)))
        | .min => columnsLoop mode rest (next (if v < st.map col then v else st.map col))
        | .max => columnsLoop mode rest (next (if st.map col < v then v else st.map col))
        | _ => .error .value

/-- _gcs_functions.py:283-295: the null value used: NaN is none.  For discrete data `null_value == np.nan` is never true, so that the
default NaN goes on to `int(nan)`, which raises ValueError.  `toInt` is Python's int() on a float. -/
def columnsNull (continuous : Bool) (null : Option K) (toInt : K → K) : Res (Option K) :=
  if continuous then .ok null
  else match null with
    | none => .error .value
    | some x => .ok (some (toInt x))

/-! ## K gaps -/

/-- resqpy/grid/_grid.py:329-340 `_set_k_raw_index_array`: `gaps` is k_gap_after_array, for layers from `k` on -/
def rawIndexLoop : List Bool → Nat → Nat → Nat → List Nat
  | _, _, _, 0 => []
  | gaps, k, gapCount, n + 1 =>
    (k + gapCount) :: match gaps with
      | [] => rawIndexLoop [] (k + 1) gapCount n
      | g :: gs => rawIndexLoop gs (k + 1) (if n ≠ 0 ∧ g = true then gapCount + 1 else gapCount) n

/-- `k_raw_index_array` for a grid of `nk` layers; for `kGapPairs` (_gcs_functions.py:76-130) -/
def rawIndex (nk : Nat) (gaps : List Bool) : List Nat := rawIndexLoop gaps 0 0 nk

/-- _gcs_functions.py:109-117: thickness of the K gap below layer k in a column: the mean over the four pillars of the column of the
z differences, with sign reversed if `flip`; undefined points are none.  `z r p` is the z value at raw interface `r` of pillar `p`,
`pillars` gives the four pillars of a column. -/
def gapThickness [Field K] (raw : List Nat) (z : Nat → Nat → Option K) (pillars : Nat × Nat → Nat × Nat × Nat × Nat) (flip : Bool)
    (k : Nat) (col : Nat × Nat) : Option K :=
  match raw[k]?, raw[k + 1]? with
  | some r0, some r1 =>
    let d (p : Nat) : Option K := match z r1 p, z (r0 + 1) p with
      | some b, some a => some (b - a)
      | _, _ => none
    let q := pillars col
    match d q.1, d q.2.1, d q.2.2.1, d q.2.2.2 with
    | some a, some b, some c, some e =>
      let t := (1 / 4) * (a + b + c + e)
      some (if flip then -t else t)
    | _, _, _, _ => none
  | _, _ => none

/-- _gcs_functions.py:76-130 `k_gap_connection_set`: the cell pairs -/
def kGapPairs [Field K] [LinearOrder K] (e : Ext) (gaps : List Bool) (z : Nat → Nat → Option K)
    (pillars : Nat × Nat → Nat × Nat × Nat × Nat) (flip : Bool) (dead : Option (Cell → Bool)) (tol : K) : List (Nat × Nat) :=
  (List.range (e.nk - 1)).flatMap fun k =>
    if gaps[k]? ≠ some true then []
    else (List.range e.nj).flatMap fun j => (List.range e.ni).filterMap fun i =>
      let thin := match gapThickness (rawIndex e.nk gaps) z pillars flip k (j, i) with
        | none => false
        | some t => decide (t < tol)
      let ok := match dead with
        | none => true
        | some dd => !(dd (k, j, i) || dd (k + 1, j, i))
      if thin && ok then some (natural e (k, j, i), natural e (k + 1, j, i)) else none

end Verif.Gcs
