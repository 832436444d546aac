import Verif.Py.Basic
import Mathlib.Data.List.Sort
import Mathlib.Data.List.Dedup

/-! # Model of `resqpy/derived_model/_zone_layer_ranges_from_array.py`

A zone array is the list of its layers and a layer the list of its cells; `none` is a masked (inactive) cell. -/

namespace Verif.Zones

open Verif.Py

/-- for `zoneRange` (_zone_layer_ranges_from_array.py:42-60) -/
abbrev Layer := List (Option Int)

/-- `np.any(single_zone_mask[k0])`: some unmasked cell of the layer has the zone value -/
def anyIn (layer : Layer) (z : Int) : Bool := layer.any (· == some z)

/-- `bool(np.all(single_zone_mask[k0]))`: all the unmasked cells have the zone value; with all the cells masked
numpy returns the masked constant, which counts as false -/
def allIn (layer : Layer) (z : Int) : Bool :=
  layer.all (fun c => c == none || c == some z) && layer.any (· != none)

/-- `np.unique(zone_array)`: the unmasked values in increasing order; a masked element in the result of the numpy
function is left out here, as the loop skips it; for `zoneLayerRanges` (_zone_layer_ranges_from_array.py:10-70) -/
def zoneList (layers : List Layer) : List Int := ((layers.flatten.filterMap id).dedup).insertionSort (· ≤ ·)

/-- the layers `min_k0` to `max_k0`, with their indices; an index beyond the array is not modelled -/
def window (layers : List Layer) (lo hi : Nat) : List (Nat × Layer) :=
  (List.range' lo (hi + 1 - lo)).map fun k => (k, layers.getD k [])

/-- _zone_layer_ranges_from_array.py:42-60 the body of the loop over the zones; the inner `none` is `continue` -/
def zoneRange (layers : List Layer) (lo hi : Nat) (z : Int) : Res (Option (Nat × Nat × Int)) :=
  match (window layers lo hi).find? (fun kl => anyIn kl.2 z) with
  | none => .ok none
  | some first =>
    match (window layers lo hi).reverse.find? (fun kl => anyIn kl.2 z) with
    | none => .ok none
    | some last =>
      if (window layers first.1 last.1).all (fun kl => allIn kl.2 z) then .ok (some (first.1, last.1, z))
      else .error .assertion

/-- _zone_layer_ranges_from_array.py:41-60 the loop over the zones -/
def collect (layers : List Layer) (lo hi : Nat) : List Int → Res (List (Nat × Nat × Int))
  | [] => .ok []
  | z :: zs =>
    match zoneRange layers lo hi z with
    | .error e => .error e
    | .ok r =>
      match collect layers lo hi zs with
      | .error e => .error e
      | .ok rs => .ok (r.toList ++ rs)

/-- comparison of tuples; for `zoneLayerRanges` (_zone_layer_ranges_from_array.py:10-70) -/
def tupleLe (a b : Nat × Nat × Int) : Prop :=
  a.1 < b.1 ∨ (a.1 = b.1 ∧ (a.2.1 < b.2.1 ∨ (a.2.1 = b.2.1 ∧ a.2.2 ≤ b.2.2)))

instance : DecidableRel tupleLe := fun a b => by unfold tupleLe; infer_instance

/-- _zone_layer_ranges_from_array.py:63-69 the check of neighbouring ranges; assigning to an element of a tuple
is a TypeError -/
def checkGaps : List (Nat × Nat × Int) → Res Unit
  | a :: b :: l =>
    if b.1 > a.2.1 then
      if b.1 > a.2.1 + 1 then .error .type
      else checkGaps (b :: l)
    else .error .assertion
  | _ => .ok ()

/-- _zone_layer_ranges_from_array.py:10-70 `zone_layer_ranges_from_array` with `use_dominant_zone` False -/
def zoneLayerRanges (layers : List Layer) (lo : Nat) (hi : Option Nat) : Res (List (Nat × Nat × Int)) :=
  let hi := hi.getD (layers.length - 1)
  let zones := zoneList layers
  if zones.length > 0 then
    match collect layers lo hi zones with
    | .error e => .error e
    | .ok rs =>
      if rs.length > 0 then
        let sorted := rs.insertionSort tupleLe
        match checkGaps sorted with
        | .error e => .error e
        | .ok _ => .ok sorted
      else .error .assertion
  else .error .assertion

/-- _zone_layer_ranges_from_array.py:81-85 the loop over the other values of the layer -/
def dominate (layer : List Int) : Int × Nat → List Int → Int × Nat
  | best, [] => best
  | best, c :: cs => if layer.count c > best.2 then dominate layer (c, layer.count c) cs else dominate layer best cs

/-- _zone_layer_ranges_from_array.py:73-87 `_dominant_zone` on one layer of an array which is not masked -/
def dominantLayer (layer : List Int) : List Int :=
  match (layer.dedup).insertionSort (· ≤ ·) with
  | [] => layer
  | [_] => layer
  | z :: zs => List.replicate layer.length (dominate layer (z, layer.count z) zs).1

end Verif.Zones
