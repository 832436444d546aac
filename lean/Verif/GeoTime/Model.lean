import Verif.Py.Basic
import Mathlib.Data.List.Sort

/-! # Geologic time series (time_series/_geologic_time_series.py, _any_time_series.py, _functions.py)

Times are years from present, as Python integers.  Time series with dates are in `Verif/TimeSeries`. -/

namespace Verif.GeoTime
open Verif.Py

/-- the two timeframes, for `load` (_any_time_series.py:38-44) -/
inductive Timeframe where
  | human
  | geologic
deriving DecidableEq

/-- a Time node of a time series in xml: text of DateTime, and YearOffset if there is one; for `load` (_any_time_series.py:33-44) -/
structure TimeNode where
  date : String
  offset : Option Int
deriving DecidableEq

/-- the xml of a time series: timeframe in extra metadata if there, and Time nodes; for `load` (_any_time_series.py:27-45) -/
structure Xml where
  meta? : Option Timeframe
  times : List TimeNode

/-- _geologic_time_series.py:58-64 one year -/
def before (y : Int) : Int := if 0 < y then -y else y

/-- _geologic_time_series.py:46-70 from_year_list: the timestamps; `sorted` is an insertion sort (any sorting of integers gives the same list) -/
def fromYearList (l : List Int) : Res (List Int) :=
  if l.length = 0 then .error .assertion else .ok ((l.map before).insertionSort (· ≤ ·))

/-- _functions.py:59-76 time_series_from_list for integers -/
def fromList (l : List Int) : Res (List Int) :=
  if ¬ 0 < l.length then .error .assertion else .ok ((l.map fun t => if 0 < t then -t else t).insertionSort (· ≤ ·))

/-- _any_time_series.py:33-45 the loop over Time nodes for a geologic time series, sorting after each; `date` empty stands for a missing one too -/
def loadLoop : List Int → List TimeNode → Res (List Int)
  | ts, [] => .ok ts
  | ts, n :: ns =>
    if n.date = "" then .error .assertion
    else match n.offset with
      | some y => loadLoop ((ts ++ [y]).insertionSort (· ≤ ·)) ns
      | none => .error .assertion

/-- _any_time_series.py:27-45 _load_from_xml with _geologic_time_series.py:34-43 -/
def load (x : Xml) : Res (List Int) :=
  match loadLoop [] x.times with
  | .error e => .error e
  | .ok ts => if x.meta? = some .human then .error .value else .ok ts

/-- _any_time_series.py:150-169 create_xml for a geologic time series, where no equivalent part is reused -/
def createXml (ts : List Int) : Xml := ⟨some .geologic, ts.map fun y => ⟨"0000-01-01T00:00:00Z", some y⟩⟩

/-- _functions.py:133-152 timeframe_for_time_series_uuid, for a time series of the model -/
def timeframeOf (x : Xml) : Res Timeframe :=
  match x.meta? with
  | some f => .ok f
  | none => match x.times with
    | [] => .error .assertion
    | n :: _ => .ok (if n.offset = none then .human else .geologic)

/-- the string form of a geologic time: a number of millions of years, as it is printed, before the suffix; for `timeStr` (_functions.py:126-129) -/
inductive Label where
  | whole (n : Int)
  | thousandths (n : Int)
deriving DecidableEq

/-- _functions.py:121-130 geologic_time_str; `round` is how many thousandths of a million years the formatting of a float gives for that many years.
Simplified: numbers are not turned into characters -/
def timeStr (round : Nat → Nat) (years : Int) : Label :=
  let y := years.natAbs
  if y < 10000000 ∧ y % 1000000 ≠ 0 then .thousandths (-(round y : Int))
  else .whole (Int.fdiv (-(y : Int)) 1000000)

/-- _any_time_series.py:73-99 timestamp, as an integer -/
def timestamp (ts : List Int) (index : Int) : Option Int :=
  if ¬ (-(ts.length : Int) ≤ index ∧ index < ts.length) then none
  else if 0 ≤ index then ts[index.toNat]? else ts[(ts.length + index).toNat]?

/-- _any_time_series.py:109-114 last_timestamp, as an integer -/
def lastTimestamp (ts : List Int) : Option Int := if ts.length ≠ 0 then timestamp ts (-1) else none

/-- _any_time_series.py:126-129 index_for_timestamp: the loop, over times compared in the form `f` -/
def indexLoop {α : Type} [DecidableEq α] (f : Int → α) (t : α) : Nat → List Int → Option Nat
  | _, [] => none
  | i, y :: ys => if f y = t then some i else indexLoop f t (i + 1) ys

/-- _any_time_series.py:116-129 index_for_timestamp for an integer -/
def indexForYear (ts : List Int) (y : Int) : Option Nat := indexLoop id y 0 ts

/-- _any_time_series.py:116-129 index_for_timestamp for a string -/
def indexForLabel (round : Nat → Nat) (ts : List Int) (s : Label) : Option Nat := indexLoop (timeStr round) s 0 ts

/-- a time series as compared, for `isEquivalent` (_any_time_series.py:47-60): uuid, timeframe and timestamps -/
structure Series where
  uuid : Nat
  timeframe : Timeframe
  stamps : List Int

/-- _geologic_time_series.py:72-78 is_equivalent with _any_time_series.py:47-60.  Simplified: one object is one uuid; times of a series with dates
stand for strings, which are not compared -/
def isEquivalent (a : Series) (b : Option Series) : Bool :=
  match b with
  | none => false
  | some b =>
    if a.uuid = b.uuid then true
    else if a.stamps.length ≠ b.stamps.length then false
    else if a.timeframe ≠ b.timeframe then false
    else decide (a.stamps = b.stamps)

/-- _functions.py:28 an item of a list by a Python index -/
def item (ts : List Int) (i : Int) : Res Int :=
  match (if 0 ≤ i then ts[i.toNat]? else if 0 ≤ ts.length + i then ts[(ts.length + i).toNat]? else none) with
  | some y => .ok y
  | none => .error .index

/-- _functions.py:17-29 selected_time_series: the timestamps -/
def selected (ts : List Int) (indices : List Int) : Res (List Int) := (indices.insertionSort (· ≤ ·)).mapM (item ts)

/-- _functions.py:87-118 merge_timeseries_from_uuid for geologic time series: `datetimes` is a method of TimeSeries only (_time_series.py:226-228), so
the call for the first one fails; with none at all the list is empty -/
def merge : List Xml → Res (List Int)
  | [] => fromList []
  | x :: _ => match timeframeOf x with
    | .error e => .error e
    | .ok _ => match load x with
      | .error e => .error e
      | .ok _ => .error .attribute

end Verif.GeoTime
