import Verif.Py.Basic
import Verif.Py.Text
import Verif.Keywords.Model
import Mathlib.Algebra.Order.Floor.Defs
import Mathlib.Data.Rat.Floor

/-! # Model of `resqpy/olio/wellspec_keywords.py`: reading Nexus WELLSPEC files

A file is the list of its lines; a place in the file is the number of lines before it, which stands for `tell()`.  `upper` stands for `str.upper`.  Dates are
elements of an ordered type `D`, `parse` standing for `strptime` in the chosen format; `isoformat` is left out.  A table is a list of names of columns and a list
of rows. -/

namespace Verif.Wellspec
open Verif.Py Verif.Keywords

/-- for `getWellPointers` (wellspec_keywords.py:359) -/
abbrev File := List (List Char)

/-- `line.split()` for each line; for `getWellPointers` (wellspec_keywords.py:365) -/
def wordsOf (file : File) : List Line := file.map splitWS

section
variable (upper : Word → Word) {D : Type} [LinearOrder D]

/-! ## Places of wells -/

/-- wellspec_keywords.py:368-371 get_well_pointers: one more place for a well -/
def addPlace (name : Word) (p : Nat) : List (Word × List Nat) → List (Word × List Nat)
  | [] => [(name, [p])]
  | (n, ps) :: rest => if n = name then (n, ps ++ [p]) :: rest else (n, ps) :: addPlace name p rest

/-- wellspec_keywords.py:360-371 get_well_pointers; each turn reads a line at least, which bounds the number of turns -/
def placeLoop (file : List Line) : Nat → Nat → List (Word × List Nat) → Res (List (Word × List Nat))
  | 0, _, acc => .ok acc
  | fuel + 1, pos, acc =>
    match findKeyword upper file pos "WELLSPEC".toList none with
    | (false, _) => .ok acc
    | (true, p) =>
      match file[p]? with
      | some (_ :: name :: _) => placeLoop file fuel (p + 1) (addPlace name (p + 1) acc)
      | _ => .error .assertion

/-- wellspec_keywords.py:377-401 get_well_pointers: the places of dates.  `date.split('(')[0]` is what comes before the bracket, if any. -/
def timeLoop (parse : Word → Option D) (zero : Option D) (file : List Line) : Nat → Nat → List (Nat × D) → Res (List (Nat × D))
  | 0, _, acc => .ok acc
  | fuel + 1, pos, acc =>
    match findKeyword upper file pos "TIME".toList none with
    | (false, _) => .ok acc
    | (true, p) =>
      match file[p]? with
      | some (_ :: date :: _) =>
        match parse (date.takeWhile fun c => c ≠ '(') with
        | none => .error .value
        | some d => if zero.any fun z => d < z then .error .value else timeLoop parse zero file fuel (p + 1) (acc ++ [(p + 1, d)])
      | _ => .error .assertion

omit [LinearOrder D] in
/-- wellspec_keywords.py:408-412 get_well_pointers: the inner loop -/
def dateAt (times : List (Nat × D)) (p : Nat) (current : Option D) : Option D :=
  match times with
  | [] => current
  | (t, d) :: rest => if p > t then dateAt rest p (some d) else current

omit [LinearOrder D] in
/-- wellspec_keywords.py:407-413 get_well_pointers: the places of one well; the current date is handed on -/
def dateList (times : List (Nat × D)) : List Nat → Option D → List (Nat × Option D) × Option D
  | [], c => ([], c)
  | p :: ps, c =>
    let c' := dateAt times p c
    let r := dateList times ps c'
    ((p, c') :: r.1, r.2)

omit [LinearOrder D] in
/-- wellspec_keywords.py:406-413 get_well_pointers: all wells -/
def dateWells (times : List (Nat × D)) : List (Word × List Nat) → Option D → List (Word × List (Nat × Option D))
  | [], _ => []
  | (n, ps) :: rest, c =>
    let r := dateList times ps c
    (n, r.1) :: dateWells times rest r.2

/-- wellspec_keywords.py:337-415 get_well_pointers -/
def getWellPointers (parse : Word → Option D) (zero : Option D) (file : File) : Res (List (Word × List (Nat × Option D))) :=
  match placeLoop upper (wordsOf file) (file.length + 1) 0 [] with
  | .error e => .error e
  | .ok wells =>
    match timeLoop upper parse zero (wordsOf file) (file.length + 1) 0 [] with
    | .error e => .error e
    | .ok times => .ok (dateWells times wells zero)

/-! ## The table of one well -/

/-- One value of a table.; for `Table` (wellspec_keywords.py:418-535) -/
inductive Cell where
  | nan
  | text (w : Word)
  | int (n : Int)
  | num (q : ℚ)
deriving DecidableEq

/-- for `getWellData` (wellspec_keywords.py:418-535) -/
structure Table where
  cols : List Word
  rows : List (List Cell)
deriving DecidableEq

/-- keyword_files.py:70-84 skip_comments -/
def skipComments : List Line → Nat → Nat
  | [], pos => pos
  | words :: rest, pos => if words ≠ [] ∧ isBlankOrComment '!' true words then skipComments rest (pos + 1) else pos

/-- wellspec_keywords.py:471-472 get_well_data: the four tests, of which each may move on over blank lines -/
def stopNext (file : List Line) : List Word → Nat → Bool × Nat
  | [], pos => (false, pos)
  | k :: ks, pos =>
    match specificNext upper file pos k true '!' with
    | (true, p) => (true, p)
    | (false, p) => stopNext file ks p

/-- wellspec_keywords.py:471-472 get_well_data -/
def stopWords : List Word := ["WELLSPEC".toList, "WELLMOD".toList, "TIME".toList, "INCLUDE".toList]

/-- wellspec_keywords.py:488-493, 498-503 get_well_data: one value; `conv` stands for `wellspec_dtype[…](…)` -/
def cellOf (conv : Word → Word → Res Cell) (col value : Word) : Res Cell :=
  if value = "NA".toList then .ok .nan else if value = "#".toList then .ok (.text "#".toList) else conv col value

/-- wellspec_keywords.py:480-493 get_well_data: the value of a column asked for -/
def selectedCell (conv : Word → Word → Res Cell) (present : List Word) (values : List Word) (col : Word) : Res Cell :=
  if upper col ∈ present then
    match values[present.idxOf (upper col)]? with
    | none => .error .index
    | some v => cellOf conv (upper col) v
  else if upper col = "GRID".toList then .ok (.text "ROOT".toList) else .ok .nan

/-- The values in turn, until the first failure; for `readRow` (wellspec_keywords.py:479-505) -/
def eachCell {α : Type} (f : α → Res Cell) : List α → Res (List Cell)
  | [] => .ok []
  | a :: l =>
    match f a with
    | .error e => .error e
    | .ok c =>
      match eachCell f l with
      | .error e => .error e
      | .ok cs => .ok (c :: cs)

/-- wellspec_keywords.py:478-505 get_well_data: one row; names of columns are not repeated, or pandas would refuse the table -/
def readRow (conv : Word → Word → Res Cell) (present columnList values : List Word) : Res (List Cell) :=
  if values.length < present.length then .error .assertion
  else if columnList ≠ [] then eachCell (selectedCell upper conv present values) columnList
  else eachCell (fun cv : Word × Word => cellOf conv cv.1 cv.2) (present.zip (values.take present.length))

/-- keyword_files.py:103-106 strip_trailing_comment, and `split()` -/
def valuesOf (line : List Char) : List Word := splitWS (splitTrailingComment line '!').1

/-- wellspec_keywords.py:469-505 get_well_data: the rows; each turn reads a line at least -/
def rowLoop (mk : List Word → Res (List Cell)) (file : File) : Nat → Nat → List (List Cell) → Res (List (List Cell))
  | 0, _, acc => .ok acc
  | fuel + 1, pos, acc =>
    match stopNext upper (wordsOf file) stopWords (skipComments ((wordsOf file).drop pos) pos) with
    | (true, _) => .ok acc
    | (false, p) =>
      match file[p]? with
      | none => .ok acc
      | some line =>
        if valuesOf line = [] then .ok acc
        else
          match mk (valuesOf line) with
          | .error e => .error e
          | .ok row => rowLoop mk file fuel (p + 1) (acc ++ [row])

/-- wellspec_keywords.py:455-505 get_well_data: as read.  The header is made upper case word by word. -/
def readTable (conv : Word → Word → Res Cell) (file : File) (pointer : Nat) (columnList : List Word) : Res Table :=
  let p := skipBlank '!' true ((wordsOf file).drop pointer) pointer
  let present := match file[p]? with
    | none => []
    | some line => (valuesOf line).map upper
  match rowLoop upper (readRow upper conv present columnList) file (file.length + 1) (p + 1) [] with
  | .error e => .error e
  | .ok rows => .ok ⟨if columnList ≠ [] then columnList else present, rows⟩

/-- The value of a column in a row; for `finish` (wellspec_keywords.py:511-535) -/
def Table.get (t : Table) (col : Word) (row : List Cell) : Cell := row.getD (t.cols.idxOf col) .nan

/-- wellspec_keywords.py:513-514 get_well_data: columns without any value are dropped -/
def dropNull (t : Table) : Table :=
  let keep := t.cols.filter fun c => t.rows.any fun r => t.get c r ≠ .nan
  ⟨keep, t.rows.map fun r => keep.map fun c => t.get c r⟩

/-- wellspec_keywords.py:516 get_well_data: what tells cells of the grid apart -/
def keyCols : List Word := ["IW".toList, "JW".toList, "L".toList]

/-- `drop_duplicates(keep = 'last')`; for `dropDuplicates` (wellspec_keywords.py:518) -/
def keepLast (key : List Cell → List Cell) : List (List Cell) → List (List Cell)
  | [] => []
  | r :: rs => if rs.any fun s => key s = key r then keepLast key rs else r :: keepLast key rs

/-- wellspec_keywords.py:516-518 get_well_data -/
def dropDuplicates (t : Table) : Res Table :=
  if keyCols.all fun c => c ∈ t.cols then .ok ⟨t.cols, keepLast (fun r => keyCols.map fun c => t.get c r) t.rows⟩ else .error .key

/-- wellspec_keywords.py:520-524 stat_tranformation -/
def status (c : Cell) : Cell := if c = .text "ON".toList then .int 1 else .int 0

/-- `astype` to an integer; for `finish` (wellspec_keywords.py:533).  No value, and text, are refused. -/
def toInt (c : Cell) : Res Cell :=
  match c with
  | .int n => .ok (.int n)
  | .num q => .ok (.int (if 0 ≤ q then ⌊q⌋ else ⌈q⌉))
  | _ => .error .value

/-- wellspec_keywords.py:530 get_well_data -/
def intCols : List Word := ["IW".toList, "JW".toList, "L".toList, "LAYER".toList, "STAT".toList]

/-- wellspec_keywords.py:526-533 get_well_data: one value in the end -/
def finalCell (cv : Word × Cell) : Res Cell :=
  if cv.1 = "STAT".toList then .ok (status cv.2) else if cv.1 ∈ intCols then toInt cv.2 else .ok cv.2

/-- wellspec_keywords.py:526-533 get_well_data: all rows -/
def finalRows (cols : List Word) : List (List Cell) → Res (List (List Cell))
  | [] => .ok []
  | r :: rs =>
    match eachCell finalCell (cols.zip r) with
    | .error e => .error e
    | .ok r' =>
      match finalRows cols rs with
      | .error e => .error e
      | .ok rs' => .ok (r' :: rs')

/-- wellspec_keywords.py:507-535 get_well_data: from the values as read to the table returned -/
def finish (t : Table) (keepDuplicates keepNull : Bool) : Res (Option Table) :=
  if t.rows.all fun r => r.all fun c => c = .nan then .ok none
  else
    let t1 := if keepNull then t else dropNull t
    match if keepDuplicates then .ok t1 else dropDuplicates t1 with
    | .error e => .error e
    | .ok t2 =>
      match finalRows t2.cols t2.rows with
      | .error e => .error e
      | .ok rows => .ok (some ⟨t2.cols, rows⟩)

/-- wellspec_keywords.py:418-535 get_well_data -/
def getWellData (conv : Word → Word → Res Cell) (file : File) (pointer : Nat) (columnList : List Word) (keepDuplicates keepNull : Bool) :
    Res (Option Table) :=
  match readTable upper conv file pointer columnList with
  | .error e => .error e
  | .ok t => finish t keepDuplicates keepNull

/-! ## All wells -/

/-- What is returned for a well: a table, or the tables of all times with their dates, of which `pd.concat` makes one.; for `allTimes` (wellspec_keywords.py:591-606) -/
abbrev Dated (D : Type) := List (Table × Option D)

omit [LinearOrder D] in
/-- wellspec_keywords.py:591-606 get_all_well_data: the tables with any values, with dates; null columns are kept here -/
def allTimes (conv : Word → Word → Res Cell) (file : File) (columnList : List Word) (keepDuplicates : Bool) : List (Nat × Option D) → Res (Dated D)
  | [] => .ok []
  | (p, d) :: rest =>
    match getWellData upper conv file p columnList keepDuplicates true with
    | .error e => .error e
    | .ok t =>
      match allTimes conv file columnList keepDuplicates rest with
      | .error e => .error e
      | .ok l => .ok (t.toList.map (fun x => (x, d)) ++ l)

omit [LinearOrder D] in
/-- wellspec_keywords.py:576-589 get_all_well_data for the last data only -/
def lastTime (conv : Word → Word → Res Cell) (file : File) (columnList : List Word) (keepDuplicates keepNull : Bool) (ps : List (Nat × Option D)) :
    Res (Option Table) :=
  match ps.getLast? with
  | none => .error .index
  | some p => getWellData upper conv file p.1 columnList keepDuplicates keepNull

omit [LinearOrder D] in
/-- wellspec_keywords.py:307-319 load_wellspecs: the dictionary for all wells, last data only; those without values are left out -/
def eachWell (f : List (Nat × Option D) → Res (Option Table)) : List (Word × List (Nat × Option D)) → Res (List (Word × Table))
  | [] => .ok []
  | (n, ps) :: rest =>
    match f ps with
    | .error e => .error e
    | .ok t =>
      match eachWell f rest with
      | .error e => .error e
      | .ok l => .ok (t.toList.map (fun x => (n, x)) ++ l)

/-- wellspec_keywords.py:231-324 load_wellspecs with `last_data_only`; `known` stands for `in wellspec_dict` -/
def loadWellspecs (known : Word → Bool) (parse : Word → Option D) (conv : Word → Word → Res Cell) (file : File) (well : Option Word)
    (columnList : List Word) (keepDuplicates keepNull : Bool) : Res (List (Word × Table)) :=
  if ¬ columnList.all fun c => known (upper c) then .error .assertion
  else
    match getWellPointers upper parse none file with
    | .error e => .error e
    | .ok wells =>
      match well with
      | none => eachWell (lastTime upper conv file columnList keepDuplicates keepNull) wells
      | some w =>
        match wells.lookup w with
        | none => .error .key
        | some ps => eachWell (lastTime upper conv file columnList keepDuplicates keepNull) [(w, ps)]

omit [LinearOrder D] in
/-- wellspec_keywords.py:327-332 _prepare_dates_list: the dates before sorting -/
def datesOf [DecidableEq D] (wells : List (Word × List (Nat × Option D))) : List D :=
  (wells.flatMap fun w => w.2.filterMap Prod.snd).foldl (fun l d => if d ∈ l then l else l ++ [d]) []

end
end Verif.Wellspec
