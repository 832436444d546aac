import Verif.Py.Basic
import Mathlib.Algebra.Order.Field.Rat
import Mathlib.Data.List.Sort
import Mathlib.Data.List.SplitOn

/-! # Model of `resqpy/olio/relperm.py`: tables of relative permeability

Numbers are exact and NaN is `none`; what `pd.to_numeric` makes of a cell is done beforehand, so that a table holds numbers and missing values.  Names of columns
are lists of characters.  A text file is the list of its lines. -/

namespace Verif.RelPerm
open Verif.Py

/-- A word or a name; for `Frame` (relperm.py:73) -/
abbrev Word := List Char

/-- A number, or NaN; for `Frame` (relperm.py:96) -/
abbrev Val := Option ℚ

/-- A dataframe: names of columns and rows; for `newRel` (relperm.py:29-133) -/
structure Frame where
  cols : List Word
  rows : List (List Val)
deriving DecidableEq

/-- `df[col]`, for one row; for `newRel` (relperm.py:98-118) -/
def Frame.get (t : Frame) (col : Word) (row : List Val) : Val := row.getD (t.cols.idxOf col) none

/-- `df[col]`; for `newRel` (relperm.py:98-118) -/
def Frame.column (t : Frame) (col : Word) : List Val := t.rows.map (t.get col)

/-- `str.capitalize`, for ASCII; for `newRel` (relperm.py:73) -/
def capitalize : Word → Word
  | [] => []
  | c :: cs => c.toUpper :: cs.map Char.toLower

/-! ## Creating a table -/

/-- `str.strip`, for blanks; for `phasesIn` (relperm.py:84) -/
def strip (w : Word) : Word := ((w.dropWhile (· = ' ')).reverse.dropWhile (· = ' ')).reverse

/-- relperm.py:84 __init__: the phases named. -/
def phasesIn (combo : Option Word) : List Word := ((combo.getD "None".toList).splitOn '-').map strip

/-- Equality of two sets; for `checkFor` (relperm.py:84-86) -/
def sameSet (a b : List Word) : Bool := a.all (· ∈ b) && b.all (· ∈ a)

/-- Names expected and names of saturations; for `checkFor` (relperm.py:142-155) -/
structure Check where
  expected : List Word
  sats : List Word

/-- relperm.py:142-145 __water_oil_error_check -/
def waterOil : Check := ⟨["Sw".toList, "So".toList, "Krw".toList, "Kro".toList, "Pc".toList], ["Sw".toList, "So".toList]⟩

/-- relperm.py:147-150 __gas_oil_error_check -/
def gasOil : Check := ⟨["Sg".toList, "So".toList, "Krg".toList, "Kro".toList, "Pc".toList], ["Sg".toList, "So".toList]⟩

/-- relperm.py:152-155 __gas_water_error_check -/
def gasWater : Check := ⟨["Sg".toList, "Sw".toList, "Krg".toList, "Krw".toList, "Pc".toList], ["Sg".toList, "Sw".toList]⟩

/-- relperm.py:135-140 __error_check; columns[0] fails if there are none. -/
def errorCheck (c : Check) (cols : List Word) : Res Unit :=
  match cols.head? with
  | none => .error .index
  | some first =>
    if first ∉ c.sats ∨ (c.sats.filter (· ∈ cols)).length ≠ 1 then .error .value
    else if cols.all (· ∈ c.expected) then .ok () else .error .value

/-- relperm.py:157-167 __no_phase_combo_error_check: the combination found from the columns; names are taken to be distinct. -/
def inferred (cols : List Word) : Res Word :=
  match cols.head? with
  | none => .error .index
  | some first =>
    let sats := ["Sw".toList, "Sg".toList, "So".toList]
    if first ∉ sats ∨ (sats.filter (· ∈ cols)).length ≠ 1 then .error .value
    else if cols.all (· ∈ waterOil.expected) ∧ 3 ≤ cols.length then .ok "water-oil".toList
    else if cols.all (· ∈ gasOil.expected) ∧ 3 ≤ cols.length then .ok "gas-oil".toList
    else if cols.all (· ∈ gasWater.expected) ∧ 3 ≤ cols.length then .ok "gas-water".toList
    else .error .custom

/-- relperm.py:77-91 __init__: the combination is known, the index is from 1, the columns are as expected; the combination of the new table. -/
def comboOf (combo : Option Word) (index : Option Int) (cols : List Word) : Res Word :=
  let p := phasesIn combo
  let known := sameSet p ["oil".toList, "water".toList] || sameSet p ["gas".toList, "oil".toList] || sameSet p ["gas".toList, "water".toList] ||
    sameSet p ["None".toList]
  if !known then .error .value
  else if index.any fun i => decide (i < 1) then .error .value
  else if sameSet p ["oil".toList, "water".toList] then (errorCheck waterOil cols).map fun _ => combo.getD "None".toList
  else if sameSet p ["gas".toList, "oil".toList] then (errorCheck gasOil cols).map fun _ => combo.getD "None".toList
  else if sameSet p ["gas".toList, "water".toList] then (errorCheck gasWater cols).map fun _ => combo.getD "None".toList
  else inferred cols

/-- `is_monotonic_increasing`; for `monotonic` (relperm.py:107-114) -/
def increasing : List ℚ → Bool
  | a :: b :: l => decide (a ≤ b) && increasing (b :: l)
  | _ => true

/-- `is_monotonic_decreasing`; for `monotonic` (relperm.py:107-114) -/
def decreasing : List ℚ → Bool
  | a :: b :: l => decide (b ≤ a) && decreasing (b :: l)
  | _ => true

/-- `dropna`; for `monotonic` (relperm.py:113) -/
def present (l : List Val) : List ℚ := l.filterMap id

/-- relperm.py:104 __init__: the first column of saturations. -/
def satCol (cols : List Word) : Option Word := cols.find? fun x => x.head? = some 'S'

/-- relperm.py:105 __init__: the column of the same phase. -/
def sameCol (cols : List Word) (sat : Word) : Option Word := cols.find? fun x => x = "Kr".toList ++ sat.getLast?.toList

/-- relperm.py:106 __init__: the column of the other phase. -/
def otherCol (cols : List Word) (sat : Word) : Option Word := cols.find? fun x => x.take 2 = "Kr".toList ∧ x.getLast? ≠ sat.getLast?

/-- relperm.py:103-114 __init__: saturations and permeabilities rise or fall together, and capillary pressures rise or fall. -/
def monotonic (t : Frame) : Res Unit :=
  match satCol t.cols with
  | none => .error .index
  | some s =>
    match sameCol t.cols s with
    | none => .error .index
    | some a =>
      match otherCol t.cols s with
      | none => .error .index
      | some b =>
        let xs := present (t.column s)
        let as := present (t.column a)
        let bs := present (t.column b)
        if !(increasing xs && increasing as && decreasing bs) && !(decreasing xs && decreasing as && increasing bs) then .error .value
        else
          let ps := present (t.column "Pc".toList)
          if "Pc".toList ∈ t.cols ∧ (!increasing ps && !decreasing ps) = true then .error .value else .ok ()

/-- relperm.py:115-118 __init__: columns of saturations and permeabilities; for `inRange`. -/
def unitCols : List Word := ["Sw".toList, "Sg".toList, "So".toList, "Krw".toList, "Krg".toList, "Kro".toList]

/-- relperm.py:115-118 __init__: no value is below 0 or above 1; without rows there is no least value to compare. -/
def inRange (t : Frame) : Bool := unitCols.all fun c => decide (c ∉ t.cols) || (present (t.column c)).all fun v => decide (0 ≤ v) && decide (v ≤ 1)

/-- relperm.py:97-101 __init__: missing values in a column other than that of capillary pressure. -/
def missing (t : Frame) : Bool := t.cols.any fun c => decide (c ≠ "Pc".toList) && (t.column c).any Option.isNone

/-- Whether a table is for low salinity: a boolean, or the text found when it is loaded; for `reload` (relperm.py:64) -/
inductive Flag where
  | bool (b : Bool)
  | text (w : Word)
deriving DecidableEq

/-- A table of relative permeability.; for `newRel` (relperm.py:29-133) -/
structure Rel where
  frame : Frame
  combo : Word
  low : Flag
deriving DecidableEq

/-- relperm.py:67-118 __init__: a table from a dataframe; the frame given is changed too, which is left out. -/
def newRel (combo : Option Word) (low : Bool) (index : Option Int) (df : Frame) : Res Rel :=
  let t : Frame := ⟨df.cols.map capitalize, df.rows⟩
  if "Pc".toList ∈ t.cols ∧ t.cols.getLast? ≠ some "Pc".toList then .error .value
  else
    match comboOf combo index t.cols with
    | .error e => .error e
    | .ok c =>
      if missing t then .error .custom
      else
        match monotonic t with
        | .error e => .error e
        | .ok _ => if inRange t then .ok ⟨t, c, .bool low⟩ else .error .value

/-! ## Interpolation -/

/-- `np.interp` at a value which is not below the first; for `interpolatePoint` (relperm.py:195) -/
def interp (x : ℚ) : List (ℚ × Val) → Val
  | [] => none
  | [p] => p.2
  | p :: q :: l =>
    if q.1 ≤ x then interp x (q :: l)
    else if p.1 = x then p.2
    else
      match p.2, q.2 with
      | some y, some z => some ((z - y) / (q.1 - p.1) * (x - p.1) + y)
      | _, _ => none

/-- relperm.py:189-191 interpolate_point: pairs of saturation and value, sorted by saturation; rows of the same saturation are left in their order. -/
def pairs (t : Frame) (sat col : Word) (rows : List (List Val)) : List (ℚ × Val) :=
  (rows.filterMap fun r => (t.get sat r).map fun s => (s, t.get col r)).insertionSort fun a b => a.1 ≤ b.1

/-- relperm.py:169-196 interpolate_point: the value found; a frame without the column `PC` fails where rows are to be dropped. -/
def interpolatePoint (t : Frame) (x : ℚ) (col : Word) : Res Val :=
  match t.cols.head? with
  | none => .error .value
  | some sat =>
    if capitalize col ∉ t.cols ∨ capitalize col = sat then .error .value
    else if col = "PC".toList ∧ "PC".toList ∉ t.cols then .error .key
    else
      let rows := if col = "PC".toList then t.rows.filter fun r => (t.get col r).isSome else t.rows
      if col ∉ t.cols then .error .key
      else
        let l := pairs t sat col rows
        if l.all (fun p => decide (x < p.1)) || l.all (fun p => decide (p.1 < x)) then .error .value else .ok (interp x l)

/-! ## Text -/

/-- `bool(self.low_sal)`; for `keyword` (relperm.py:216) -/
def Flag.truthy : Flag → Bool
  | .bool b => b
  | .text w => decide (w ≠ [])

/-- `str.upper`; for `renamed` (relperm.py:214) -/
def upper (w : Word) : Word := w.map Char.toUpper

/-- relperm.py:215-228 df_to_text: the words of the first line and the names of columns. -/
def headings (r : Rel) : Res (List Word × List Word) :=
  let names := r.frame.cols.map upper
  if "KRW".toList ∈ names ∧ "KRO".toList ∈ names then
    .ok (if r.low.truthy then ["WOTABLE".toList, "(LOW_SAL)".toList] else ["WOTABLE".toList],
      names.map fun n => if n = "KRO".toList then "KROW".toList else if n = "PC".toList then "PCWO".toList else n)
  else if "KRG".toList ∈ names ∧ "KRO".toList ∈ names then
    .ok (["GOTABLE".toList], names.map fun n => if n = "KRO".toList then "KROG".toList else if n = "PC".toList then "PCGO".toList else n)
  else if "KRW".toList ∈ names then
    .ok (["GWTABLE".toList], names.map fun n => if n = "KRW".toList then "KRWG".toList else if n = "PC".toList then "PCGW".toList else n)
  else .error .custom

/-- A line of words; columns are separated by one blank instead of being aligned; for `tableLines` (relperm.py:233) -/
def lineOf (ws : List Word) : List Char := [' '].intercalate ws

/-- relperm.py:232-234 df_to_text: the lines of a table; a missing value is left blank.  A table without rows, which pandas describes in words, is left out. -/
def tableLines (fmt : ℚ → Word) (r : Rel) : Res (List (List Char)) :=
  match headings r with
  | .error e => .error e
  | .ok (first, names) => .ok (lineOf first :: lineOf names :: r.frame.rows.map fun row => lineOf ((present row).map fmt))

/-- relperm.py:230-244 df_to_text: a new file, or a table after those which are there. -/
def toText (fmt : ℚ → Word) (file : Option (List (List Char))) (r : Rel) : Res (List (List Char)) :=
  match tableLines fmt r with
  | .error e => .error e
  | .ok ls =>
    match file with
    | none => .ok ls
    | some old => .ok (old ++ [[]] ++ ls)

/-- relperm.py:275-276 text_to_relperm_dict: characters 1 to 31 are taken off at the ends. -/
def stripControl (l : List Char) : List Char :=
  ((l.dropWhile fun c => 1 ≤ c.toNat ∧ c.toNat < 32).reverse.dropWhile fun c => 1 ≤ c.toNat ∧ c.toNat < 32).reverse

/-- relperm.py:274-278 text_to_relperm_dict: the words of each line which is not empty and has no comment. -/
def dataOf (file : List (List Char)) : List (List Word) :=
  (file.filter fun l => l ≠ [] ∧ '!' ∉ l).map fun l => ((stripControl l).splitOn ' ').filter (· ≠ [])

/-- Words by which a table starts; for `isStart` (relperm.py:281) -/
def keywords : List Word := ["WOTABLE".toList, "GOTABLE".toList, "GWTABLE".toList]

/-- relperm.py:280-282 text_to_relperm_dict: does a table start here? -/
def isStart (l : List Word) : Bool := (keywords.filter (· ∈ l)).length == 1

/-- relperm.py:298-318 text_to_relperm_dict: for each table its first line, the line after it and the lines from there to the next table. -/
def blocks : List (List Word) → List (List Word × Option (List Word) × List (List Word))
  | [] => []
  | l :: rest => if isStart l then (l, rest.head?, (rest.takeWhile fun m => !isStart m).drop 1) :: blocks rest else blocks rest

/-- relperm.py:283-295 text_to_relperm_dict: names of columns. -/
def columnNames : List (Word × Word) :=
  [("SW".toList, "Sw".toList), ("SG".toList, "Sg".toList), ("KRW".toList, "Krw".toList), ("KRG".toList, "Krg".toList), ("KROW".toList, "Kro".toList),
   ("KROG".toList, "Kro".toList), ("KRWG".toList, "Krw".toList), ("PCWO".toList, "Pc".toList), ("PCGO".toList, "Pc".toList), ("PCGW".toList, "Pc".toList),
   ("PC".toList, "Pc".toList)]

/-- Over a list, until the first which is missing; for `makeFrame` (relperm.py:320-321) -/
def allSome {α β : Type} (f : α → Option β) : List α → Option (List β)
  | [] => some []
  | a :: l =>
    match f a with
    | none => none
    | some b => (allSome f l).map (b :: ·)

/-- relperm.py:319-323 text_to_relperm_dict: the longest row must be as long as the names, shorter ones are filled up; a name not known is NaN, in which no letter can
be sought; rows without saturation are dropped. -/
def makeFrame (num : Word → Val) (names : List Word) (rows : List (List Word)) : Res Frame :=
  if rows ≠ [] ∧ rows.foldr (fun r n => max r.length n) 0 ≠ names.length then .error .value
  else
    match allSome (fun n => columnNames.lookup n) names with
    | none => .error .type
    | some cols =>
      match cols.find? fun x => 'S' ∈ x with
      | none => .error .index
      | some sat =>
        let t : Frame := ⟨cols, rows.map fun r => (List.range names.length).map fun i => (r[i]?).bind num⟩
        .ok ⟨cols, t.rows.filter fun r => (t.get sat r).isSome⟩

/-- relperm.py:302-312 text_to_relperm_dict: the combination of phases. -/
def comboIn (l : List Word) : Res Word :=
  if "WOTABLE".toList ∈ l then .ok "water-oil".toList
  else if "GOTABLE".toList ∈ l then .ok "gas-oil".toList
  else if "GWTABLE".toList ∈ l then .ok "gas-water".toList
  else .error .custom

/-- relperm.py:298-325 text_to_relperm_dict: the tables, in the order in which they are numbered. -/
def readBlocks (num : Word → Val) : List (List Word × Option (List Word) × List (List Word)) → Res (List (Word × Frame))
  | [] => .ok []
  | (l, names, rows) :: rest =>
    match comboIn l with
    | .error e => .error e
    | .ok c =>
      match names with
      | none => .error .index
      | some names =>
        match makeFrame num names rows with
        | .error e => .error e
        | .ok t =>
          match readBlocks num rest with
          | .error e => .error e
          | .ok ts => .ok ((c, t) :: ts)

/-- relperm.py:254-325 text_to_relperm_dict -/
def readText (num : Word → Val) (file : List (List Char)) : Res (List (Word × Frame)) := readBlocks num (blocks (dataOf file))

/-! ## Storing -/

/-- What is kept of a table in a model; for `store` (relperm.py:128-133) -/
structure Stored where
  frame : Frame
  combo : Word
  low : Word

/-- relperm.py:128-133, 246-251: the flag is stored as text. -/
def store (r : Rel) : Stored :=
  ⟨r.frame, r.combo, match r.low with
    | .bool b => if b then "true".toList else "false".toList
    | .text w => w.map Char.toLower⟩

/-- relperm.py:60-65 __init__: the flag stays text. -/
def reload (s : Stored) : Rel := ⟨s.frame, s.combo, .text s.low⟩

end Verif.RelPerm
