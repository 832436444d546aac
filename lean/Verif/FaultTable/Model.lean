import Verif.Py.Basic
import Verif.Py.Text
import Verif.Gcs.Trans

/-! # Model of reading fault multiplier tables

Source: resqpy/olio/read_nexus_fault.py, and the text which `write_simulator` of resqpy/fault/_grid_connection_set.py writes for the lines of `Verif.Gcs`.

Which words are numbers, and their values, are parameters. -/

namespace Verif.FaultTable
open Verif.Py

variable {K : Type}

/-- A word of a line; for `content` (read_nexus_fault.py:50) -/
abbrev Word := List Char

/-- What Python and pandas make of words: `is_number`, and the conversions of the last lines; for `load` (read_nexus_fault.py:19-32, 134-135) -/
structure Reader (K : Type) where
  isNum : Word → Bool
  int? : Word → Option Int
  num? : Word → Option K

/-- A row of the resulting data frame; for `load` (read_nexus_fault.py:68-71) -/
structure Row (K : Type) where
  i1 : Int
  i2 : Int
  j1 : Int
  j2 : Int
  k1 : Int
  k2 : Int
  mult : K
  grid : Word
  name : Word
  face : Word
deriving DecidableEq

/-- The variables ISTABLE, ISRECORD, grid, name, face, chunks and dfs of the loop; for `step` (read_nexus_fault.py:34-44) -/
structure State (K : Type) where
  table : Bool
  record : Bool
  grid : Word
  name : Word
  face : Word
  chunks : List (List Word)
  out : List (Row K)
deriving DecidableEq

/-- read_nexus_fault.py:46-50: the words of a line, or none if it is blank or a comment. -/
def content (line : List Char) : Option (List Word) :=
  match splitWS line with
  | (c :: _) :: _ => if c = '!' ∨ c = 'C' then none else some (splitWS (line.takeWhile fun c => c ≠ '!'))
  | _ => none

/-- read_nexus_fault.py:57-71, 132-135: a row from words.  Rows with another number of values are refused (with numpy from 1.24; before, short ones were filled with zeros).
Conversion to numbers is done later in the code, and by column. -/
def rowOf (R : Reader K) (grid name face : Word) (ws : List Word) : Res (Row K) :=
  match ws with
  | [a, b, c, d, e, f, g] =>
    match R.int? a, R.int? b, R.int? c, R.int? d, R.int? e, R.int? f, R.num? g with
    | some a, some b, some c, some d, some e, some f, some g => .ok ⟨a, b, c, d, e, f, g, grid, name, face⟩
    | _, _, _, _, _, _, _ => .error .value
  | _ => .error .value

/-- The rows of a table; for `close` (read_nexus_fault.py:56-72) -/
def rowsOf (R : Reader K) (grid name face : Word) : List (List Word) → Res (List (Row K))
  | [] => .ok []
  | ws :: rest =>
    match rowOf R grid name face ws with
    | .error e => .error e
    | .ok r => (rowsOf R grid name face rest).map fun rs => r :: rs

/-- read_nexus_fault.py:55-77, 105-127: the end of a table. -/
def close (R : Reader K) (st : State K) : Res (State K) :=
  (rowsOf R st.grid st.name st.face st.chunks).map fun rs => ⟨false, false, st.grid, st.name, st.face, [], st.out ++ rs⟩

/-- `re.match("(.*)k(.*)", w)`; for `inner` (read_nexus_fault.py:80, 83) -/
def contains (k w : Word) : Bool := w.tails.any fun t => k.isPrefixOf t

/-- read_nexus_fault.py:79-92 -/
def inner (st : State K) (t : Word) (ts : List Word) : Res (State K) :=
  if !st.table then .ok st
  else if contains "GRID".toList t then
    match ts with
    | [] => .error .index
    | g :: _ => .ok { st with grid := g }
  else if contains "FNAME".toList t then
    match ts with
    | [] => .error .index
    | n :: _ => .ok { st with name := n }
  else if t = "MULT".toList then .ok { st with table := false, record := false, chunks := [] }
  else .ok { st with chunks := st.chunks ++ [t :: ts] }

/-- read_nexus_fault.py:42 face_dict -/
def faceDict : List (Word × Word) := [("TX".toList, "I".toList), ("TY".toList, "J".toList), ("TZ".toList, "K".toList), ("TI".toList, "I".toList), ("TJ".toList, "J".toList),
  ("TK".toList, "K".toList)]

/-- read_nexus_fault.py:94-101 -/
def start (st : State K) (t : Word) (ts : List Word) : Res (State K) :=
  if t ≠ "MULT".toList then .ok st
  else
    match ts with
    | [] => .error .index
    | d :: _ =>
      match faceDict.lookup d with
      | none => .error .key
      | some f => .ok { st with face := f ++ (if "MINUS".toList ∈ t :: ts then ['-'] else []), grid := "ROOT".toList, name := "NONE".toList, table := true }

/-- read_nexus_fault.py:51-101: the body of the loop for the words of a line. -/
def step (R : Reader K) (st : State K) (words : List Word) : Res (State K) :=
  match words with
  | [] => .error .index
  | t :: ts =>
    let st := if st.table ∧ R.isNum t then { st with record := true } else st
    match if st.table ∧ st.record ∧ R.isNum t = false then close R st else .ok st with
    | .error e => .error e
    | .ok st =>
      match inner st t ts with
      | .error e => .error e
      | .ok st => start st t ts

/-- read_nexus_fault.py:45-101: the loop; for `load` -/
def steps (R : Reader K) (st : State K) : List (List Word) → Res (State K)
  | [] => .ok st
  | ws :: rest =>
    match step R st ws with
    | .error e => .error e
    | .ok st => steps R st rest

/-- read_nexus_fault.py:16-137 load_nexus_fault_mult_table_from_list; an empty data frame is one without rows. -/
def load (R : Reader K) (file : List (List Char)) : Res (List (Row K)) :=
  match steps R ⟨false, false, "ROOT".toList, [], [], [], []⟩ (file.filterMap content) with
  | .error e => .error e
  | .ok st => if st.table ∧ st.record then (close R st).map State.out else .ok st.out

/-- _grid_connection_set.py:1514-1533 write_nexus_header_lines, write_row: the text of the lines, `fmt` being the format of multipliers. -/
def textOf (fmt : K → Word) : Gcs.Line K → List (List Char)
  | .header axis pol name => [['\n'],
      "MULT\tT".toList ++ (if axis = 0 then ['Z'] else if axis = 1 then ['Y'] else ['X']) ++ "\tALL\t".toList ++ (if pol = 0 then "MINUS".toList else "PLUS".toList) ++ "\tMULT\n".toList,
      "\tGRID\tROOT\n".toList,
      "\tFNAME\t".toList ++ name.toList ++ ['\n']]
  | .row i1 i2 j1 j2 k1 k2 m => [(([i1, i2, j1, j2, k1, k2].map fun n => '\t' :: showInt n) ++ ['\t' :: fmt m]).flatten ++ ['\n']]

end Verif.FaultTable
