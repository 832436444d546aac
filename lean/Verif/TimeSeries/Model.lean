import Verif.Py.Basic
import Verif.Py.Text
import Mathlib.Data.List.Lex
import Mathlib.Data.Char
import Mathlib.Data.List.Sort

/-! # Time series (time_series/_time_series.py, _time_duration.py, _any_time_series.py, _functions.py)

Timestamps are strings, compared as Python compares strings (lexicographically by code point).  The part of
Python's `datetime` that the code uses is modelled here too: the proleptic Gregorian calendar,
`fromisoformat`, `isoformat`, differences, and addition of a non negative timedelta. -/

namespace Verif.TimeSeries
open Verif.Py

/-- for `stripZ` (_time_series.py:233-234) -/
abbrev Stamp := List Char

/-! ### the datetime library -/

/-- a datetime: `sec` is the second within the day, `us` the microsecond; for `duration` (_time_duration.py:28-37) -/
structure DateTime where
  year : Nat
  month : Nat
  day : Nat
  sec : Nat
  us : Nat
deriving DecidableEq, Repr

/-- for `duration` (_time_duration.py:28-37) -/
def leap (y : Nat) : Bool := y % 4 = 0 && (y % 100 ≠ 0 || y % 400 = 0)

/-- days in a month; for `duration` (_time_duration.py:28-37) -/
def dim (y m : Nat) : Nat :=
  if m = 2 then (if leap y then 29 else 28)
  else if m = 4 ∨ m = 6 ∨ m = 9 ∨ m = 11 then 30 else 31

/-- days in the year before the first of a month; for `duration` (_time_duration.py:28-37) -/
def beforeMonth (y : Nat) : Nat → Nat
  | 0 => 0
  | 1 => 0
  | m + 1 => beforeMonth y m + dim y m

/-- days before the first of January; for `duration` (_time_duration.py:28-37) -/
def beforeYear (y : Nat) : Nat := (y - 1) * 365 + (y - 1) / 4 - (y - 1) / 100 + (y - 1) / 400

/-- `toordinal`; for `duration` (_time_duration.py:28-37) -/
def ordinal (t : DateTime) : Nat := beforeYear t.year + beforeMonth t.year t.month + t.day

/-- microseconds since the calendar's origin; for `duration` (_time_duration.py:28-37) -/
def usTime (t : DateTime) : Int := ((ordinal t * 86400 + t.sec) * 1000000 + t.us : Nat)

/-- fields in range, as checked by the constructor of datetime; for `checkTimestamp` (_time_series.py:231-235) -/
def Valid (t : DateTime) : Prop :=
  1 ≤ t.year ∧ t.year ≤ 9999 ∧ 1 ≤ t.month ∧ t.month ≤ 12 ∧ 1 ≤ t.day ∧ t.day ≤ dim t.year t.month ∧
  t.sec < 86400 ∧ t.us < 1000000

instance (t : DateTime) : Decidable (Valid t) := by unfold Valid; infer_instance

/-- a number written with `w` digits; for `stampAfter` (_time_duration.py:49-57) -/
def pad : Nat → Nat → List Char
  | 0, _ => []
  | w + 1, n => digitChar (n / 10 ^ w) :: pad w (n % 10 ^ w)

/-- the date part of `isoformat`; for `stampAfter` (_time_duration.py:49-57) -/
def isoDate (t : DateTime) : Stamp := pad 4 t.year ++ '-' :: pad 2 t.month ++ '-' :: pad 2 t.day

/-- `isoformat()`; for `stampAfter` (_time_duration.py:49-57) -/
def isoformat (t : DateTime) : Stamp :=
  isoDate t ++ 'T' :: pad 2 (t.sec / 3600) ++ ':' :: pad 2 (t.sec / 60 % 60) ++ ':' :: pad 2 (t.sec % 60) ++
    if t.us = 0 then [] else '.' :: pad 6 t.us

/-- two digits; for `checkTimestamp` (_time_series.py:231-235) -/
def two (a b : Char) : Option Nat :=
  match digitVal? a, digitVal? b with
  | some x, some y => some (10 * x + y)
  | _, _ => none

/-- fraction of a second: nothing, three digits or six digits; for `checkTimestamp` (_time_series.py:231-235) -/
def readFraction : List Char → Option Nat
  | [] => some 0
  | ['.', a, b, c] => match digitVal? a, two b c with
    | some x, some y => some ((100 * x + y) * 1000)
    | _, _ => none
  | ['.', a, b, c, d, e, f] => match two a b, two c d, two e f with
    | some x, some y, some z => some (10000 * x + 100 * y + z)
    | _, _, _ => none
  | _ => none

/-- time of day: seconds and microseconds; for `checkTimestamp` (_time_series.py:231-235) -/
def readTime : List Char → Option (Nat × Nat)
  | [] => some (0, 0)
  | _ :: a :: b :: ':' :: c :: d :: ':' :: e :: f :: r =>
    match two a b, two c d, two e f, readFraction r with
    | some h, some m, some s, some u => if h < 24 ∧ m < 60 ∧ s < 60 then some (h * 3600 + m * 60 + s, u) else none
    | _, _, _, _ => none
  | _ => none

/-- `datetime.fromisoformat`; simplification: of the forms accepted for the time of day, only those with
hours, minutes and seconds (and optionally three or six digits of fraction) are modelled, and no time zone.; for `checkTimestamp` (_time_series.py:231-235) -/
def fromisoformat : List Char → Option DateTime
  | a :: b :: c :: d :: '-' :: e :: f :: '-' :: g :: h :: r =>
    match two a b, two c d, two e f, two g h, readTime r with
    | some y1, some y2, some m, some dd, some (s, u) =>
      let t : DateTime := ⟨100 * y1 + y2, m, dd, s, u⟩
      if Valid t then some t else none
    | _, _, _, _, _ => none
  | _ => none

/-- the following day; for `stampAfter` (_time_duration.py:49-57) -/
def nextDay (t : DateTime) : DateTime :=
  if t.day < dim t.year t.month then ⟨t.year, t.month, t.day + 1, t.sec, t.us⟩
  else if t.month < 12 then ⟨t.year, t.month + 1, 1, t.sec, t.us⟩
  else ⟨t.year + 1, 1, 1, t.sec, t.us⟩

/-- for `stampAfter` (_time_duration.py:49-57) -/
def addDays : Nat → DateTime → DateTime
  | 0, t => t
  | n + 1, t => addDays n (nextDay t)

/-- `t + timedelta` for a non negative timedelta in microseconds; OverflowError (here `.value`) after the
year 9999 -/
def addDuration (t : DateTime) (d : Nat) : Res DateTime :=
  let u := t.sec * 1000000 + t.us + d
  let t' := addDays (u / 86400000000) t
  if t'.year ≤ 9999 then .ok ⟨t'.year, t'.month, t'.day, u / 1000000 % 86400, u % 1000000⟩ else .error .value

/-! ### resqpy -/

/-- `if timestamp.endswith('Z'): timestamp = timestamp[:-1]` (_time_series.py:233-234 and elsewhere) -/
def stripZ (s : Stamp) : Stamp := if s.getLast? = some 'Z' then s.dropLast else s

/-- the datetime of a timestamp; for `checkTimestamp` (_time_series.py:231-235) -/
def parse (s : Stamp) : Option DateTime := fromisoformat (stripZ s)

/-- _time_series.py:231-235 `check_timestamp` -/
def checkTimestamp (s : Stamp) : Res Unit := if (parse s).isSome then .ok () else .error .value

/-- _time_duration.py:28-37: duration in microseconds between two timestamps -/
def duration (earlier later : Stamp) : Res Int :=
  match parse earlier, parse later with
  | some a, some b => .ok (usTime b - usTime a)
  | _, _ => .error .value

/-- _time_series.py:112-114: the loop, `n` being `index + 1` -/
def notLaterLoop (ts : List Stamp) (t : Stamp) : Nat → Option Nat
  | 0 => none
  | n + 1 => match ts[n]? with
    | none => none
    | some s => if t < s then notLaterLoop ts t n else some n

/-- _time_series.py:106-117 `index_for_timestamp_not_later_than` -/
def notLater (ts : List Stamp) (t : Stamp) : Res (Option Nat) :=
  match checkTimestamp t with
  | .error e => .error e
  | .ok _ => .ok (notLaterLoop ts t ts.length)

/-- _time_series.py:125-130: the loop over the timestamps from position `n` -/
def notEarlierLoop (t : Stamp) : Nat → List Stamp → Option Nat
  | _, [] => none
  | n, s :: ts => if s < t then notEarlierLoop t (n + 1) ts else some n

/-- _time_series.py:119-130 `index_for_timestamp_not_earlier_than` -/
def notEarlier (ts : List Stamp) (t : Stamp) : Res (Option Nat) :=
  match checkTimestamp t with
  | .error e => .error e
  | .ok _ => .ok (notEarlierLoop t 0 ts)

/-- _time_series.py:144-148 -/
def nearer (before : Nat) (s s' t : Stamp) : Res (Option Nat) :=
  match duration s t, duration t s' with
  | .ok early, .ok late => .ok (some (if early ≤ late then before else before + 1))
  | .error e, _ => .error e
  | _, .error e => .error e

/-- _time_series.py:132-148 `index_for_timestamp_closest_to` -/
def closest (ts : List Stamp) (t : Stamp) : Res (Option Nat) :=
  match checkTimestamp t with
  | .error e => .error e
  | .ok _ =>
    if ts = [] then .ok none
    else match notLaterLoop ts t ts.length with
      | none => .ok (some 0)
      | some 0 => .ok (some 0)  -- `if not before` holds for index zero too
      | some before => match ts[before]?, ts[before + 1]? with
        | some s, some s' => if s = t then .ok (some before) else nearer before s s' t
        | _, _ => .ok (some before)  -- `before == len(self.timestamps) - 1`

/-- `list.insert` at a position within the list; for `addTimestamp` (_time_series.py:198-213) -/
def insertAt (ts : List Stamp) (i : Nat) (t : Stamp) : List Stamp := ts.take i ++ t :: ts.drop i

/-- _time_series.py:198-213 `add_timestamp` -/
def addTimestamp (ts : List Stamp) (t : Stamp) (allowInsertion : Bool) : Res (List Stamp) :=
  match checkTimestamp t with
  | .error e => .error e
  | .ok _ =>
    if allowInsertion then
      match notLaterLoop ts t ts.length with
      | none => .ok (insertAt ts 0 t)
      | some i => .ok (insertAt ts (i + 1) t)
    else match ts.getLast? with
      | none => .ok (ts ++ [t])
      | some last => if last < t then .ok (ts ++ [t]) else .error .assertion

/-- _time_duration.py:49-57 `timestamp_after_duration`, for a non negative duration in microseconds -/
def stampAfter (s : Stamp) (d : Nat) : Res Stamp :=
  match parse s with
  | none => .error .value
  | some t => match addDuration t d with
    | .error e => .error e
    | .ok t' => .ok (isoformat t' ++ ['Z'])

/-- _time_series.py:215-219 `extend_by_duration`, with the duration in microseconds; 221-224
`extend_by_days` is the case of a whole number of days -/
def extend (ts : List Stamp) (d : Int) : Res (List Stamp) :=
  if d < 0 then .error .assertion
  else match ts.getLast? with
    | none => .error .assertion
    | some s => match stampAfter s d.toNat with
      | .error e => .error e
      | .ok s' => .ok (ts ++ [s'])

/-- Operations which change a series (calls made by the user: models no lines of its own). -/
inductive Op where
  | add (t : Stamp) (allowInsertion : Bool)
  | extend (d : Int)

/-- one call (models no lines of its own) -/
def apply (ts : List Stamp) : Op → Res (List Stamp)
  | .add t b => addTimestamp ts t b
  | .extend d => TimeSeries.extend ts d

/-- An operation that raises leaves the series as it was. -/
def step (ts : List Stamp) (op : Op) : List Stamp :=
  match apply ts op with
  | .ok ts' => ts'
  | .error _ => ts

/-- a history of calls (models no lines of its own) -/
def run (ts : List Stamp) (ops : List Op) : List Stamp := ops.foldl step ts

/-- _time_series.py:150-158 `duration_between_timestamps`; `none` for `None` -/
def durationBetween (ts : List Stamp) (i j : Int) : Res (Option Int) :=
  if i < 0 ∨ (ts.length : Int) ≤ j ∨ j < i then .ok none
  else match ts[i.toNat]?, ts[j.toNat]? with
    | some a, some b => match duration a b with
      | .ok d => .ok (some d)
      | .error e => .error e
    | _, _ => .error .index

/-- _time_series.py:180-187 `step_duration` -/
def stepDuration (ts : List Stamp) (i : Int) : Res (Option Int) :=
  if i < 1 ∨ (ts.length : Int) ≤ i then .ok none else durationBetween ts (i - 1) i

/-- _functions.py:45-56 `cleaned_timestamp` for a string -/
def cleaned (s : Stamp) : Res Stamp :=
  match checkTimestamp s with
  | .error e => .error e
  | .ok _ =>
    if s.length < 19 ∨ (s.drop 11).take 8 = ['0', '0', ':', '0', '0', ':', '0', '0'] then .ok (s.take 10)
    else .ok (s.take 10 ++ 'T' :: (s.drop 11).take 8 ++ ['Z'])

/-- the loop at _functions.py:81-83 -/
def addCleaned : List Stamp → List Stamp → Res (List Stamp)
  | ts, [] => .ok ts
  | ts, s :: ss => match cleaned s with
    | .error e => .error e
    | .ok c => match addTimestamp ts c false with
      | .error e => .error e
      | .ok ts' => addCleaned ts' ss

/-- _functions.py:59-84 `time_series_from_list` for strings; `sorted` is an insertion sort (any sorting
of strings gives the same list) -/
def fromList (l : List Stamp) : Res (List Stamp) :=
  match l.insertionSort (· ≤ ·) with
  | [] => .error .assertion
  | s :: ss => match cleaned s with
    | .error e => .error e
    | .ok c => match checkTimestamp c with
      | .error e => .error e
      | .ok _ => addCleaned [c] ss

end Verif.TimeSeries
