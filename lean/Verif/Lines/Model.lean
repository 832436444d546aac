import Verif.Py.Basic
import Mathlib.Algebra.Order.Field.Basic
import Mathlib.Algebra.Order.Group.Abs

/-! # Model of `resqpy/olio/simple_lines.py`

Floats are elements of a linearly ordered field.  A line is the list of its vertices and a vertex the list of its
coordinates. -/

namespace Verif.Lines

section
variable {K : Type} [Field K] [LinearOrder K]

/-- simple_lines.py:82-84, 116-118: the sum over the coordinates of the absolute differences -/
def manhattan : List K → List K → K
  | a :: l, b :: m => |a - b| + manhattan l m
  | _, _ => 0

/-- simple_lines.py:63-87 `polygon_line` -/
def polygonLine (line : List (List K)) (tolerance : K) : List (List K) :=
  match line with
  | [] => line
  | [_] => line
  | first :: rest =>
    match rest.getLast? with
    | none => line
    | some last => if manhattan first last > tolerance then line else line.dropLast

/-- simple_lines.py:114-121 the loop: the vertices kept after the one last kept, which is `cur` -/
def whittle (tolerance : K) (cur : List K) : List (List K) → List (List K)
  | [] => []
  | v :: l => if manhattan v cur > tolerance then v :: whittle tolerance v l else whittle tolerance cur l

/-- simple_lines.py:90-124 `duplicate_vertices_removed` -/
def duplicateVerticesRemoved (line : List (List K)) (tolerance : K) : List (List K) :=
  if line.length < 3 then line
  else
    match line with
    | [] => line
    | v :: l =>
      let whittled := v :: whittle tolerance v l
      if whittled.length = line.length then line
      else whittled.dropLast ++ [(v :: l).getLast (List.cons_ne_nil v l)]

end

section read
variable {K : Type}

/-- the lines read so far, and the points of the line being read; for `readStep` (simple_lines.py:39-56) -/
structure ReadState (K : Type) where
  lines : List (List (List K))
  points : List (List K)

/-- simple_lines.py:39-56: one line of the file, given as its words.  `parse` is `float()` (`none` for a
ValueError) and `isEnd` the comparison with the null marker.  `none` stands for an exception. -/
def readStep (parse : String → Option K) (isEnd : List K → Bool) (s : ReadState K) (words : List String) :
    Option (ReadState K) :=
  if words.length = 0 then some s
  else if words.length = 3 then
    match words.mapM parse with
    | none => none
    | some point =>
      if isEnd point then
        if s.points.length ≠ 0 then some ⟨s.lines ++ [s.points], []⟩ else some s
      else some ⟨s.lines, s.points ++ [point]⟩
  else none

/-- simple_lines.py:31-59 the loop over the file and the check made at its end -/
def readLoop (parse : String → Option K) (isEnd : List K → Bool) :
    ReadState K → List (List String) → Option (List (List (List K)))
  | s, [] => if s.points.length = 0 then some s.lines else none
  | s, w :: rest =>
    match readStep parse isEnd s w with
    | none => none
    | some s' => readLoop parse isEnd s' rest

/-- simple_lines.py:12-60 `read_lines` on the lines of the file split into words; any exception gives no lines at all -/
def readLines (parse : String → Option K) (isEnd : List K → Bool) (file : List (List String)) : List (List (List K)) :=
  match readLoop parse isEnd ⟨[], []⟩ file with
  | none => []
  | some l => l

end read

end Verif.Lines
