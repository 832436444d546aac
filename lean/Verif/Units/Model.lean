import Verif.Py.Str
import Mathlib.Algebra.Order.Field.Basic
import Mathlib.Data.Rat.Cast.CharZero
import Mathlib.Tactic.FieldSimp
import Mathlib.Tactic.Ring
import Mathlib.Tactic.Linarith
import Mathlib.Tactic.Positivity

/-! # Units of measure (weights_and_measures/weights_and_measures.py)

Strings are lists of characters.  `str.casefold` is modelled by lower casing of ASCII letters (all unit names in the
table are ASCII).  Values are elements of a field; a division by zero, which Python would report, does not arise
for tables satisfying `Sound`. -/

namespace Verif.Units
open Verif.Py

/-- One entry of the unit table: the base unit and the dimension are given by number (only their equality matters to
the code), the factors are numerator, denominator pairs.; for `toBase` (weights_and_measures.py:161) -/
structure Row where
  name : String
  base : Nat
  dim : Nat
  a : Int × Nat
  b : Int × Nat
  c : Int × Nat
  d : Int × Nat
deriving DecidableEq, Repr

/-- The loaded data: unit table, aliases (case folded) and names matched whatever the case.; for `valid` (weights_and_measures.py:174-194) -/
structure Data where
  rows : List Row
  aliases : List (String × String)
  caseless : List String

/-- for `valid` (weights_and_measures.py:174-194) -/
abbrev Uom := List Char

/-- the row for a unit; for `valid` (weights_and_measures.py:174-194) -/
def find (D : Data) (u : Uom) : Option Row := D.rows.find? fun r => decide (r.name.toList = u)

/-- `u in valid_uoms()` (weights_and_measures.py:174-194) -/
def valid (D : Data) (u : Uom) : Bool := (find D u).isSome

/-- for `tryParse` (weights_and_measures.py:439-466) -/
def lowerChar (c : Char) : Char := if 'A' ≤ c ∧ c ≤ 'Z' then Char.ofNat (c.toNat + 32) else c

/-- for `tryParse` (weights_and_measures.py:439-466) -/
def lower (u : Uom) : Uom := u.map lowerChar

/-- for `rqUom` (weights_and_measures.py:88-115) -/
def strip (u : Uom) : Uom := ((u.dropWhile isWS).reverse.dropWhile isWS).reverse

/-- `UOM_ALIAS_MAP.get(ul)`; for `tryParse` (weights_and_measures.py:439-466) -/
def aliasOf (D : Data) (ul : Uom) : Option Uom :=
  (D.aliases.find? fun p => decide (p.1.toList = ul)).map fun p => p.2.toList

/-- `units.split('/', 1)` when there is a '/' -/
def splitSlash : Uom → Option (Uom × Uom)
  | [] => none
  | c :: u => if c = '/' then some ([], u) else (splitSlash u).map fun p => (c :: p.1, p.2)

/-- weights_and_measures.py:439-466 `_try_parse_unit`; the recursion is on shorter texts, fuel `length + 1` -/
def tryParse (D : Data) : Nat → Uom → Option Uom
  | 0, _ => none
  | n + 1, u =>
    if valid D u then some u
    else if lower u ∈ D.caseless.map String.toList then some (lower u)
    else match aliasOf D (lower u) with
      | some t => some t
      | none =>
        if valid D (lower u) then some (lower u)
        else if startsWith ['('] u && endsWith [')'] u && !decide ('(' ∈ u.tail) then tryParse D n u.tail.dropLast
        else match splitSlash u with
          | none => none
          | some (p, q) => match tryParse D n p, tryParse D n q with
            | some p', some q' =>
              if p' ≠ [] ∧ q' ≠ [] ∧ valid D (p' ++ '/' :: q') then some (p' ++ '/' :: q') else none
            | _, _ => none

/-- weights_and_measures.py:88-115 `rq_uom`; `quantity` is the list of members of the quantity, if one is given -/
def rqUom (D : Data) (units : Uom) (quantity : Option (List Uom)) : Res Uom :=
  if units = [] then .error .custom
  else match tryParse D ((strip units).length + 1) (strip units) with
    | none => .error .custom
    | some u => match quantity with
      | none => .ok u
      | some members => if u ∈ members then .ok u else .error .custom

variable {K : Type} [Field K]

/-- a factor as a number; for `toBase` (weights_and_measures.py:161) -/
def frac (K : Type) [Field K] (p : Int × Nat) : K := (p.1 : K) / (p.2 : K)

/-- weights_and_measures.py:161: value in the base unit -/
def toBase (r : Row) (x : K) : K := (frac K r.a + frac K r.b * x) / (frac K r.c + frac K r.d * x)

/-- weights_and_measures.py:162: value from the base unit -/
def fromBase (r : Row) (y : K) : K := (frac K r.a - frac K r.c * y) / (frac K r.d * y - frac K r.b)

/-- weights_and_measures.py:165: all of A1, A2, D1, D2 are zero -/
def trivialPair (r s : Row) : Bool :=
  decide (r.a.1 = 0) && decide (s.a.1 = 0) && decide (r.d.1 = 0) && decide (s.d.1 = 0)

/-- weights_and_measures.py:118-170 `convert` -/
def convert (D : Data) (x : K) (unitFrom unitTo : Uom) (quantity : Option (List Uom)) (inplace : Bool) : Res K :=
  match rqUom D unitFrom quantity with
  | .error e => .error e
  | .ok u1 => match rqUom D unitTo quantity with
    | .error e => .error e
    | .ok u2 =>
      if u1 = u2 then .ok x
      else match find D u1, find D u2 with
        | some r, some s =>
          if r.base ≠ s.base ∧ r.dim ≠ s.dim then .error .custom
          else if inplace then
            if trivialPair r s then .ok (x * ((frac K r.b * frac K s.c) / (frac K r.c * frac K s.b)))
            else .error .notImpl
          else .ok (fromBase s (toBase r x))
        | _, _ => .error .value  -- get_conversion_factors: not a valid uom

/-- position of the first "/(" in a text; for `components` (weights_and_measures.py:341-348) -/
def findSlashParen : List Char → Option Nat
  | [] => none
  | c :: u => match u with
    | [] => none
    | c' :: _ => if c = '/' ∧ c' = '(' then some 0 else (findSlashParen u).map (· + 1)

/-- weights_and_measures.py:341-348 `uom_components` (positions -1 for not found never satisfy the assertion) -/
def components (u : List Char) : Res (Uom × Uom × Uom × Uom) :=
  match sfind '.' u, findSlashParen u, rfind '.' u with
  | some pAB, some pBC, some pCD =>
    if 0 < pAB ∧ pAB + 1 < pBC ∧ pBC + 2 < pCD ∧ u.getLast? = some ')' then
      .ok (u.take pAB, (u.take pBC).drop (pAB + 1), (u.take pCD).drop (pBC + 2), (u.drop (pCD + 1)).dropLast)
    else .error .assertion
  | _, _, _ => .error .assertion

/-- one component of the factor: the check of the units and the conversion of 1.0
(weights_and_measures.py:365-383) -/
def partFactor (K : Type) [Field K] (D : Data) (members : List Uom) (u v : Uom) : Res K :=
  if u ∉ members then .error .assertion
  else if u = v then .ok 1
  else if v ∉ members then .error .assertion
  else convert D 1 u v none false

/-- the units of volume, viscosity, pressure and time; for `convertTrans` (weights_and_measures.py:322-385) -/
structure TransQuantities where
  vol : List Uom
  visc : List Uom
  press : List Uom
  time : List Uom

/-- weights_and_measures.py:322-385 `convert_transmissibilities` -/
def convertTrans (D : Data) (Q : TransQuantities) (x : K) (unitFrom unitTo : List Char) : Res K :=
  match components unitFrom with
  | .error e => .error e
  | .ok (v1, m1, p1, t1) => match components unitTo with
    | .error e => .error e
    | .ok (v2, m2, p2, t2) => match partFactor K D Q.vol v1 v2 with
      | .error e => .error e
      | .ok fv => match partFactor K D Q.visc m1 m2 with
        | .error e => .error e
        | .ok fm => match partFactor K D Q.press p1 p2 with
          | .error e => .error e
          | .ok fp => match partFactor K D Q.time t1 t2 with
            | .error e => .error e
            | .ok ft => .ok (x * (1 * fv * fm / fp / ft))

end Verif.Units
