import Verif.Py.Basic

/-! # Equivalence map used when merging models (olio/consolidation.py)

Uuids are their integer values.  The resident model is represented by the list of its uuids; the type of
an object by `typeOf`, which is a property of the uuid (parts keep their type when copied between models).
The overloaded `==` between the immigrant object and a resident object is an arbitrary boolean function. -/

namespace Verif.Consolidation
open Verif.Py

/-- the map and the uuids of the resident model, in the order of `Model.uuids`; for `compare` (consolidation.py:101-127) -/
structure Cons where
  map : Dict Nat Nat
  residents : List Nat

/-- consolidation.py:121-123 `while resident_uuid_int in self.map`: at most `fuel` evaluations of the loop
condition; `none` when the loop is then still running -/
def follow (map : Dict Nat Nat) : Nat → Nat → Option Nat
  | 0, _ => none
  | fuel + 1, u => match map.get? u with
    | none => some u
    | some v => follow map fuel v

/-- What a call of `equivalent_uuid_int_for_part` does.; for `compare` (consolidation.py:101-127) -/
inductive Outcome where
  | returns (s : Cons) (answer : Option Nat)
  | running  -- still in the loop of lines 121-123 when the fuel is spent

/-- consolidation.py:101-127: the comparison with each resident of the type -/
def compare (fuel : Nat) (s : Cons) (imm : Nat) (ignore : Bool) (equal : Nat → Bool) : List Nat → Outcome
  | [] => .returns s none
  | r :: rs =>
    if ignore && (r == imm) then compare fuel s imm ignore equal rs
    else if equal r then
      match follow s.map fuel r with
      | none => .running
      | some t => .returns ⟨s.map.set imm t, s.residents⟩ (some t)
    else compare fuel s imm ignore equal rs

/-- consolidation.py:58-127 `equivalent_uuid_int_for_part` for a non empty part name with uuid `imm`.
`consolidatable` is the membership test of line 72. -/
def findEquiv (fuel : Nat) {T : Type} [DecidableEq T] (typeOf : Nat → T) (consolidatable : T → Bool)
    (s : Cons) (imm : Nat) (ignore : Bool) (equal : Nat → Bool) : Outcome :=
  match s.map.get? imm with
  | some v => .returns s (some v)
  | none =>
    if !consolidatable (typeOf imm) then .returns s none
    else
      let rs := s.residents.filter fun r => typeOf r = typeOf imm
      if rs = [] then .returns s none
      else if !ignore && rs.contains imm then .returns s (some imm)
      else compare fuel s imm ignore equal rs

/-- consolidation.py:143-151 `force_uuid_int_equivalence`; lines 129-141 `force_uuid_equivalence` (whose own
assertion compares a uuid with integers and never fails) and 153-161 lead here -/
def force (s : Cons) (imm res : Nat) : Res Cons :=
  if imm = res then .ok s
  else if s.map.values.contains imm then .error .assertion
  else .ok ⟨s.map.set imm res, s.residents⟩

/-- consolidation.py:163-169 `check_map_integrity` -/
def checkIntegrity (s : Cons) : Res Unit :=
  if s.map.keys.all (fun k => !s.map.values.contains k) && s.map.values.all (fun v => !s.map.keys.contains v)
  then .ok () else .error .assertion

/-- Calls made on a consolidation object, and parts being added to the resident model between them
(model/_forestry.py:566-576: an immigrant part is copied in when it has no equivalent, or always when
`force` is set). -/
inductive Op where
  | find (imm : Nat) (ignore : Bool) (equal : Nat → Bool)
  | force (imm res : Nat)
  | addResident (u : Nat)

/-- One step; a call which raises leaves the object as it was; `none` when a loop is still running. -/
def step (fuel : Nat) {T : Type} [DecidableEq T] (typeOf : Nat → T) (consolidatable : T → Bool) (s : Cons) :
    Op → Option Cons
  | .find imm ignore equal => match findEquiv fuel typeOf consolidatable s imm ignore equal with
    | .returns s' _ => some s'
    | .running => none
  | .force imm res => match force s imm res with
    | .ok s' => some s'
    | .error _ => some s
  | .addResident u => some ⟨s.map, s.residents ++ [u]⟩

/-- A history of calls. -/
def run (fuel : Nat) {T : Type} [DecidableEq T] (typeOf : Nat → T) (consolidatable : T → Bool) :
    Cons → List Op → Option Cons
  | s, [] => some s
  | s, op :: ops => match step fuel typeOf consolidatable s op with
    | none => none
    | some s' => run fuel typeOf consolidatable s' ops

end Verif.Consolidation
