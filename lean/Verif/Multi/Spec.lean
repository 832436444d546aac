import Verif.Multi.Model

/-! # Specification: many workers -/

namespace Verif.Multi
open Verif.Py

/-- Each worker gives back the number it was given, as documented. -/
def GivesIndex {K E U : Type} (work : Nat → K → Result E U) : Prop := ∀ i k, (work i k).index = i

/-- What is on the disk, and in memory. -/
structure State (M : Type) where
  /-- the temporary directory, with the files of the workers -/
  tmp : Bool
  /-- what the recombined epc file holds -/
  saved : M
  /-- what the recombined model holds in memory -/
  inMemory : M

/-- What one action does. -/
def act {M : Type} (s : State M) : Act M → State M
  | .mkTmp => { s with tmp := true }
  | .run => s
  | .live m => { s with inMemory := m }
  | .rmTmp => { s with tmp := false }
  | .store => { s with saved := s.inMemory }

/-- What is there if all stops after some actions. -/
def crash {M : Type} (start : M) (acts : List (Act M)) (n : Nat) : State M := (acts.take n).foldl act ⟨false, start, start⟩

/-- All objects of all workers which have a file, in the order of workers. -/
def wanted {E U : Type} (rs : List (Result E U)) : List (E × U) := rs.flatMap fun r => (r.epc.toList).flatMap fun e => (r.uuids.getD []).map fun u => (e, u)

/-- Copying in turn. -/
def copyInTurn {M E U : Type} (copy : M → E → U → Res M) : List (E × U) → M → Res M
  | [], m => .ok m
  | (e, u) :: l, m =>
    match copy m e u with
    | .error x => .error x
    | .ok m' => copyInTurn copy l m'

/-- Others are in the way for fewer attempts than are made. -/
structure Passing {E U : Type} (luck : Luck E U) : Prop where
  there : ∀ e, ∃ k ≤ 300, luck.there e k = true
  opens : ∀ e, ∃ k < 10, luck.opens e k = true
  copies : ∀ e u, ∃ k < 5, luck.copies e u k = true

/-- Nobody is in the way. -/
def clear {E U : Type} : Luck E U := ⟨fun _ _ => true, fun _ _ => true, fun _ _ _ => true⟩

end Verif.Multi
