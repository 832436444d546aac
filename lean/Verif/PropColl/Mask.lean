import Verif.Py.Basic
import Mathlib.Data.Rat.Floor
import Mathlib.Algebra.Order.Ring.Rat

/-!
# Model: masked property arrays, minimum and maximum values, normalized arrays

`resqpy/property/property_collection.py:1677-1723, 2101-2186, 2281-2287`, `_collection_get_attributes.py:19-40, 83-163,
348-406, 639-656`, `_collection_create_xml.py:108-127`.

Simplifications: numbers are exact rationals; `none` as an element is NaN; infinities are left out.  An array is a
shape and an element for each index.
-/

namespace Verif.PropColl
open Verif.Py

/-- a numpy array: property_collection.py:1677-1682 `simple_array` and 1715 `support.inactive` -/
structure Arr (α : Type) where
  shape : List Nat
  elem : List Nat → α

/-- a float: `none` is NaN (property_collection.py:1686) -/
abbrev Num := Option Rat

/-- property_collection.py:1701 `simple_array == exclude_value` for one element: NaN is equal to nothing -/
def numEq (x e : Num) : Bool :=
  match x, e with
  | some a, some b => decide (a = b)
  | _, _ => false

/-- property_collection.py:1700 `if exclude_value:`; None and zero are false, NaN is true -/
def truthy (e : Option Num) : Bool :=
  match e with
  | none => false
  | some none => true
  | some (some v) => decide (v ≠ 0)

/-- numpy broadcasting for the assignment at property_collection.py:1722, shapes with the last axis first: the indices
in the source for indices in the target, or `none` if the shapes do not fit.  An axis of the source beyond those of the
target must have extent one. -/
def broadcast : List Nat → List Nat → List Nat → Option (List Nat)
  | [], _, _ => some []
  | s :: ss, [], _ => if s = 1 then (broadcast ss [] []).map (0 :: ·) else none
  | s :: ss, t :: ts, i =>
    if s = t then (broadcast ss ts i.tail).map (i.headD 0 :: ·)
    else if s = 1 then (broadcast ss ts i.tail).map (0 :: ·)
    else none

/-- property_collection.py:1721-1722: the mask for a points array, `mask[:] = inactive[:, np.newaxis]`; the new axis is
the second one -/
def pointsMask (inactive : Arr Bool) (shape : List Nat) : Res (Arr Bool) :=
  match inactive.shape with
  | [] => .error .index
  | n :: rest =>
    let s := n :: 1 :: rest
    match broadcast s.reverse shape.reverse shape.reverse with
    | none => .error .value
    | some _ =>
      .ok { shape := shape
            elem := fun i =>
              match broadcast s.reverse shape.reverse i.reverse with
              | none => false
              | some j =>
                match j.reverse with
                | a :: _ :: rest => inactive.elem (a :: rest)
                | _ => false }

/-- property_collection.py:1710-1723 `_masked_array_apply_inactive`; `inactive` is None when there is no support, or the
support has no such attribute, or it is None -/
def applyInactive (inactive : Option (Arr Bool)) (excludeInactive points : Bool) (a : Arr Num) :
    Res (Option (Arr Bool)) :=
  match excludeInactive, inactive with
  | true, some b =>
    if points then
      if decide (a.shape.length > 1) && decide (a.shape.getLast? = some 3) then
        if decide (b.shape.length + 1 = a.shape.length) && decide (b.shape = a.shape.dropLast) then
          match pointsMask b a.shape with
          | .ok m => .ok (some m)
          | .error e => .error e
        else .ok none
      else .error .assertion
    else if b.shape = a.shape then .ok (some b) else .ok none
  | _, _ => .ok none

/-- property_collection.py:1699-1708 `masked_array`: the mask of the result; `none` is `nomask` -/
def maskedArray (inactive : Option (Arr Bool)) (excludeInactive : Bool) (exclude : Option Num) (points : Bool)
    (a : Arr Num) : Res (Option (Arr Bool)) :=
  match applyInactive inactive excludeInactive points a with
  | .error e => .error e
  | .ok mask =>
    if truthy exclude then
      let nulls : Arr Bool := { shape := a.shape, elem := fun i => numEq (a.elem i) (exclude.getD none) }
      match mask with
      | none => .ok (some nulls)
      | some m => .ok (some { shape := a.shape, elem := fun i => m.elem i || nulls.elem i })
    else .ok mask

/-- property_collection.py:1087-1099 `null_value_for_part` -/
def nullValue (continuous : Bool) (null : Option Rat) : Option Num :=
  if continuous then some none else null.map some

/-- property_collection.py:1789-1791: the mask of the array from `cached_part_array_ref` with `masked` True -/
def partMask (inactive : Option (Arr Bool)) (continuous : Bool) (null : Option Rat) (excludeNull : Bool) (a : Arr Num) :
    Res (Option (Arr Bool)) :=
  maskedArray inactive true (if excludeNull then nullValue continuous null else none) false a

/-- the indices of the elements of an array of the shape: the elements visited by `np.min` and `np.max` at
_collection_get_attributes.py:23-28 -/
def indices : List Nat → List (List Nat)
  | [] => [[]]
  | n :: t => (List.range n).flatMap fun i => (indices t).map (i :: ·)

/-- whether the mask hides the element: _collection_get_attributes.py:26-28 -/
def hides (m : Option (Arr Bool)) (i : List Nat) : Bool :=
  match m with
  | none => false
  | some b => b.elem i

/-- the numbers (not NaN) at elements not hidden by the mask: _collection_get_attributes.py:27-28, 38-39 -/
def visible (a : Arr Num) (m : Option (Arr Bool)) : List Rat :=
  ((indices a.shape).filter fun i => !hides m i).filterMap a.elem

/-- `np.min`, `np.nanmin`: _collection_get_attributes.py:23, 27, 38; `none` where there is no number -/
def listMin : List Rat → Option Rat
  | [] => none
  | x :: t => some (t.foldl min x)

/-- `np.max`, `np.nanmax`: _collection_get_attributes.py:24, 28, 39 -/
def listMax : List Rat → Option Rat
  | [] => none
  | x :: t => some (t.foldl max x)

/-- _collection_get_attributes.py:19-40 `_min_max_of_cached_array`; the minimum of an empty array without null value
raises ValueError.  Elements of a discrete array are never NaN. -/
def minMaxCached (inactive : Option (Arr Bool)) (a : Arr Num) (null : Option Num) (discrete : Bool) :
    Res (Option Rat × Option Rat) :=
  if discrete then
    match null with
    | none =>
      if visible a none = [] then .error .value
      else .ok (listMin (visible a none), listMax (visible a none))
    | some v =>
      match maskedArray inactive true (some v) false a with
      | .error e => .error e
      | .ok m => .ok (listMin (visible a m), listMax (visible a m))
  else .ok (listMin (visible a none), listMax (visible a none))

/-- property_collection.py:2284-2287: minimum and maximum for a constant in the imported list; `isBool` when the
constant is a bool -/
def minMaxConst (const : Num) (null : Option Num) (isBool discrete : Bool) : Option Rat × Option Rat :=
  if (match null with | none => false | some v => numEq const v) || isBool || (!discrete && decide (const = none)) then
    (none, none)
  else (const, const)

/-- _collection_get_attributes.py:93-99 with the call at 85-86: minimum and maximum in the xml of a constant property;
the collection's own null value is always None -/
def xmlConst (const : Num) (minV maxV : Option Rat) (discrete : Bool) : Option Rat × Option Rat :=
  if discrete || decide (const ≠ none) then
    (if minV = none then const else minV, if maxV = none then const else maxV)
  else (minV, maxV)

/-- _collection_get_attributes.py:115-128: a discrete array; nothing is set for an empty array -/
def xmlDiscrete (a : Arr Num) (minV maxV : Option Rat) : Option Rat × Option Rat :=
  (if minV = none then listMin (visible a none) else minV, if maxV = none then listMax (visible a none) else maxV)

/-- _collection_get_attributes.py:152-163: a continuous array -/
def xmlContinuous (a : Arr Num) (minV maxV : Option Rat) : Option Rat × Option Rat :=
  (if minV = none then listMin (visible a none) else minV, if maxV = none then listMax (visible a none) else maxV)

/-- _collection_get_attributes.py:83-90, 102-112 `_get_property_array_min_max_value`, for what is not categorical
(_collection_create_xml.py:110) -/
def xmlMinMax (a : Option (Arr Num)) (const : Option Num) (minV maxV : Option Rat) (discrete : Bool) :
    Option Rat × Option Rat :=
  match const, a with
  | some v, _ => xmlConst v minV maxV discrete
  | none, some b => if discrete then xmlDiscrete b minV maxV else xmlContinuous b minV maxV
  | none, none => (none, none)

/-- _collection_create_xml.py:110-127: the values of the MinimumValue and MaximumValue nodes, `none` for no node -/
def xmlNodes (addMinMax categorical points : Bool) (a : Option (Arr Num)) (const : Option Num) (minV maxV : Option Rat)
    (discrete : Bool) : Option Rat × Option Rat :=
  if addMinMax && !categorical && !points then
    let r := xmlMinMax a const minV maxV discrete
    if discrete then (r.1.map fun v => ((⌊v⌋ : Int) : Rat), r.2.map fun v => ((⌈v⌉ : Int) : Rat)) else r
  else (none, none)

/-! ### normalized arrays -/

/-- property_collection.py:2104-2107: the arguments of `normalized_part_array` other than `masked` -/
structure NormArgs where
  useLog : Bool := false
  cycle : Option Int := none
  trust : Bool := false
  fixZero : Option Rat := none

/-- a minimum or maximum handed back: None, NaN or a number (property_collection.py:2131, 2143) -/
inductive Lim | missing | nan | num (x : Rat)
  deriving DecidableEq, Repr

/-- an element and whether the mask hides it: property_collection.py:2153 -/
structure Cell where
  hidden : Bool
  value : Num
  deriving DecidableEq, Repr

/-- the numbers that are not hidden: _collection_get_attributes.py:645-654 -/
def seen (l : List Cell) : List Rat := (l.filter fun c => !c.hidden).filterMap (·.value)

/-- change every number of an array: `np.where` on `n_prop`; for `applyCycle` (_collection_get_attributes.py:348-357) -/
def mapCells (f : Rat → Num) (l : List Cell) : List Cell :=
  l.map fun c => { c with value := c.value.bind f }

/-- _collection_get_attributes.py:639-656 `_normalized_part_array_get_minmax`: the limits in the metadata if trusted and
both there, else those of the array -/
def getMinMax (trust : Bool) (metaMin metaMax : Option Rat) (l : List Cell) : Option Rat × Option Rat :=
  if trust && metaMin.isSome && metaMax.isSome then (metaMin, metaMax) else (listMin (seen l), listMax (seen l))

/-- numpy's remainder at _collection_get_attributes.py:351, for a positive divisor -/
def modulus (c : Int) (x : Rat) : Rat := x - (c : Rat) * ((⌊x / (c : Rat)⌋ : Int) : Rat)

/-- _collection_get_attributes.py:348-357 `_normalized_part_array_apply_discrete_cycle` -/
def applyCycle (isInt : Bool) (cycle : Option Int) (l : List Cell) (mn mx : Rat) : Rat × Rat × List Cell :=
  match isInt, cycle with
  | true, some c => (0, (c : Rat) - 1, mapCells (fun x => some (modulus c x)) l)
  | _, _ => (mn, mx, l)

/-- _collection_get_attributes.py:388-406 `_normalized_part_array_fix_zero_at` -/
def fixZeroAt (mn mx : Rat) (l : List Cell) (f : Rat) : Rat × Rat × List Cell :=
  if f ≤ 0 then (0, mx, if mn < 0 then mapCells (fun x => some (if x < 0 then 0 else x)) l else l)
  else if f ≥ 1 then (mn, 0, if mx > 0 then mapCells (fun x => some (if x > 0 then 0 else x)) l else l)
  else
    let upper := mx / (1 - f)
    let lower := -mn / f
    if upper ≥ lower then
      let m := -upper * f
      (m, mx, mapCells (fun x => some (if x < m then m else x)) l)
    else
      let m := lower * (1 - f)
      (mn, m, mapCells (fun x => some (if x > m then m else x)) l)

/-- property_collection.py:2181-2186: the limits mapped onto 0 and 1 -/
def scale (mn mx : Rat) (l : List Cell) : List Cell :=
  if mx = mn then mapCells (fun _ => some (1 / 2)) l else mapCells (fun x => some ((x - mn) / (mx - mn))) l

/-- _collection_get_attributes.py:370-385 `_normalized_part_array_use_logarithm`; `lg` is the logarithm to base ten,
which is not defined (NaN) where it is `none` -/
def useLogarithm (lg : Rat → Num) (mn : Rat) (l : List Cell) : Lim × Lim × List Cell :=
  if seen l = [] then (.nan, .nan, l)
  else
    let l' := mapCells lg (if mn ≤ 0 then mapCells (fun x => some (if x < 1 / 10000 then 1 / 10000 else x)) l else l)
    match listMin (seen l'), listMax (seen l') with
    | some a, some b => (.num a, .num b, l')
    | _, _ => (.nan, .nan, l')

/-- property_collection.py:2150-2186 `normalized_part_array`; `l` is None when there is no array.  A comparison with
NaN (2165, 2174, 2181) is never true, so NaN limits leave an array of NaN values. -/
def normalized (lg : Rat → Num) (points isInt : Bool) (metaMin metaMax : Option Rat) (l : Option (List Cell))
    (o : NormArgs) : Res (Option (List Cell) × Lim × Lim) :=
  if points then .error .assertion
  else if o.fixZero.isSome && o.useLog then .error .assertion
  else match l with
    | none => .ok (none, .missing, .missing)
    | some l =>
      match getMinMax o.trust metaMin metaMax l with
      | (some mn, some mx) =>
        let (mn, mx, l) := applyCycle isInt o.cycle l mn mx
        if mx < mn then .ok (none, .num mn, .num mx)
        else if o.useLog then
          match useLogarithm lg mn l with
          | (.num mn, .num mx, l) => .ok (some (scale mn mx l), .num mn, .num mx)
          | (mn, mx, l) => .ok (some (mapCells (fun _ => none) l), mn, mx)
        else match o.fixZero with
          | none => .ok (some (scale mn mx l), .num mn, .num mx)
          | some f =>
            let (mn, mx, l) := fixZeroAt mn mx l f
            .ok (some (scale mn mx l), .num mn, .num mx)
      | _ => .ok (none, .missing, .missing)

end Verif.PropColl
