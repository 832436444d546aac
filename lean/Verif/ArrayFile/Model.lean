import Verif.Py.Basic
import Verif.Py.Text
import Verif.Keywords.Model
import Mathlib.Algebra.Order.Floor.Ring
import Mathlib.Data.Rat.Floor

/-!
# Arrays in text files and their binary copies

Model of `resqpy/olio/write_data.py` and of `load_array_from_ascii_file` and `load_array_from_file` of `resqpy/olio/load_data.py`.

A file is its characters; lines end with a newline character.  An array with three axes is a function of three numbers; an array which has
been read is the list of its elements in the order of numpy (the last index changing fastest).  Floating point numbers are exact; a missing
number (NaN) is `none`.  The number texts which are read are plain decimals (no exponents); what numpy does with a text which is not a
number depends on its version and is an error here.  A failure while writing is only logged by the code; it is not modelled.
-/

namespace Verif.ArrayFile

open Verif.Py

/-! ### Writing -/

/-- The whole number nearest to a number which is not negative, the even one of two: part of `'{0:.3f}'.format`,
resqpy/olio/write_data.py:50,83 write_array_to_ascii_file -/
def roundEven (x : ℚ) : Nat :=
  let f := ⌊x⌋.toNat
  if x - f < 1 / 2 then f else if 1 / 2 < x - f then f + 1 else if f % 2 = 0 then f else f + 1

/-- A number with `d` digits, with leading zeros: part of `'{0:.3f}'.format`, resqpy/olio/write_data.py:50,83 write_array_to_ascii_file -/
def padded : Nat → Nat → List Char
  | 0, _ => []
  | d + 1, n => padded d (n / 10) ++ [digitChar (n % 10)]

/-- `'{0:.' + str(decimals) + 'f}'` for a number, resqpy/olio/write_data.py:50,83 write_array_to_ascii_file.  A missing number is `nan`. -/
def fmtReal (decimals : Nat) : Option ℚ → List Char
  | none => ['n', 'a', 'n']
  | some q =>
    let m := roundEven (|q| * 10 ^ decimals)
    (if q < 0 then ['-'] else []) ++ showNat (m / 10 ^ decimals) ++ (if decimals = 0 then [] else '.' :: padded decimals m)

/-- resqpy/olio/write_data.py:81-83 write_array_to_ascii_file -/
def fmtRealSub (decimals : Nat) (sub : Option ℚ) (v : Option ℚ) : List Char :=
  fmtReal decimals (v.or sub)

/-- resqpy/olio/write_data.py:85-88 write_array_to_ascii_file -/
def fmtBool (b : Bool) : List Char := if b then ['1'] else ['0']

/-- The arguments of resqpy/olio/write_data.py:25-40 write_array_to_ascii_file which shape the text. -/
structure WriteArgs where
  headers : Bool
  keyword : Option (List Char)
  columns : Nat
  blankI : Bool
  blankJ : Bool
  spaceSeparated : Bool

/-- resqpy/olio/write_data.py:61-65 write_array_to_ascii_file -/
def headerText (w : WriteArgs) (nk nj ni : Nat) : List Char :=
  if w.headers then
    "! Data written by write_array_to_ascii_file() python function\n".toList ++
    ("! Extent of array is: [".toList ++ showNat ni ++ [',', ' '] ++ showNat nj ++ [',', ' '] ++ showNat nk ++ [']', '\n']) ++
    ("! Maximum ".toList ++ showNat w.columns ++ " data items per line\n".toList)
  else []

/-- resqpy/olio/write_data.py:67-68 write_array_to_ascii_file -/
def keywordText (w : WriteArgs) : List Char :=
  match w.keyword with
  | some s => s ++ ['\n']
  | none => []

/-- resqpy/olio/write_data.py:73-78 write_array_to_ascii_file: what precedes an element. -/
def before (w : WriteArgs) (i : Nat) : Char :=
  if i % w.columns = 0 then '\n' else if w.spaceSeparated then ' ' else '\t'

/-- resqpy/olio/write_data.py:72-92 write_array_to_ascii_file -/
def rowText (w : WriteArgs) (ni : Nat) (row : Nat → List Char) : List Char :=
  ((List.range ni).flatMap fun i => before w i :: row i) ++ (if w.blankI then ['\n'] else [])

/-- resqpy/olio/write_data.py:70-97 write_array_to_ascii_file -/
def dataText (w : WriteArgs) (nk nj ni : Nat) (text : Nat → Nat → Nat → List Char) : List Char :=
  ((List.range nk).flatMap fun k => ((List.range nj).flatMap fun j => rowText w ni (text k j)) ++ (if w.blankJ then ['\n'] else [])) ++
  (if !(w.blankI || w.blankJ) then ['\n'] else [])

/-- resqpy/olio/write_data.py:43-97 write_array_to_ascii_file: what is written, for the texts of the elements. -/
def writeText (w : WriteArgs) (nk nj ni : Nat) (text : Nat → Nat → Nat → List Char) : Res (List Char) :=
  if w.columns = 0 then .error .assertion
  else .ok (headerText w nk nj ni ++ keywordText w ++ dataText w nk nj ni text)

/-! ### Reading -/

/-- Digits and a decimal point as a number: `float(word)`, resqpy/olio/load_data.py:349 load_array_from_ascii_file -/
def readUnsigned (s : List Char) : Option ℚ :=
  let whole := s.takeWhile (· ≠ '.')
  match s.dropWhile (· ≠ '.') with
  | [] => (readNat? whole).map fun n => (n : ℚ)
  | _ :: frac => (readNat? (whole ++ frac)).map fun n => (n : ℚ) / 10 ^ frac.length

/-- A word as a floating point number, resqpy/olio/load_data.py:349 load_array_from_ascii_file -/
def readReal (s : List Char) : Option (Option ℚ) :=
  if s = ['n', 'a', 'n'] then some none
  else match s with
    | '-' :: r => (readUnsigned r).map fun q => some (-q)
    | '+' :: r => (readUnsigned r).map some
    | r => (readUnsigned r).map some

/-- A word as a boolean, resqpy/olio/load_data.py:293,407-408 load_array_from_ascii_file -/
def readBool (s : List Char) : Option Bool := (readInt? s).map fun n => decide (n ≠ 0)

/-- The lines of a file, with their newlines: `readline`, resqpy/olio/keyword_files.py:42 find_keyword -/
def splitLines : List Char → List (List Char)
  | [] => []
  | c :: cs =>
    if c = '\n' then [c] :: splitLines cs
    else match splitLines cs with
      | [] => [[c]]
      | l :: ls => (c :: l) :: ls

/-- resqpy/olio/keyword_files.py:238 guess_comment_char -/
def marks : List (List Char) := [['!'], ['C'], ['#'], ['-', '-']]

/-- resqpy/olio/keyword_files.py:227-242 guess_comment_char: `n` lines may be looked at. -/
def guess : Nat → List (List Char) → Option (List Char)
  | 0, _ => none
  | _, [] => none
  | n + 1, l :: ls =>
    match splitWS l with
    | w :: _ => if w ∈ marks then some w else guess n ls
    | [] => guess n ls

/-- resqpy/olio/keyword_files.py:59-65 skip_blank_lines_and_comments: whether a line is passed over.  The mark is the empty list for
`None`, which no character equals. -/
def skipLine (mark : List Char) (skipC : Bool) (line : List Char) : Bool :=
  match splitWS line with
  | [] => true
  | w :: _ => decide (w.take 1 = mark) || (skipC && (w == ['C'] || w == ['c']))

/-- resqpy/olio/keyword_files.py:52-67 skip_blank_lines_and_comments: the lines from the new position on. -/
def skipLines (mark : List Char) (skipC : Bool) (ls : List (List Char)) : List (List Char) := ls.dropWhile (skipLine mark skipC)

/-- resqpy/olio/load_data.py:335-347 load_array_from_ascii_file: comments are replaced by spaces, up to the end of the line.  The flag says
whether a comment has begun.  The mark is not empty and has no white space (with a space the loop of the code does not end). -/
def stripComments (mark : List Char) : Bool → List Char → List Char
  | _, [] => []
  | inside, c :: cs =>
    if c = '\n' then c :: stripComments mark false cs
    else if inside || mark.isPrefixOf (c :: cs) then ' ' :: stripComments mark true cs
    else c :: stripComments mark false cs

/-- `np.fromstring` and `np.fromfile` with `sep = ' '`, resqpy/olio/load_data.py:317,349 load_array_from_ascii_file: the given number of
numbers, or all of them; fewer than asked for are an error (in the case of `fromfile`, when the array is reshaped, line 405). -/
def numbers {V : Type} (parse : List Char → Option V) (count : Option Nat) (words : List (List Char)) : Res (List V) :=
  match count with
  | some n =>
    if words.length < n then .error .value
    else match (words.take n).mapM parse with
      | some vs => .ok vs
      | none => .error .value
  | none =>
    match words.mapM parse with
    | some vs => .ok vs
    | none => .error .value

/-- What is left of a text after some words and the white space after them; the flag says whether a word has begun: the position of the
file after `np.fromfile`, resqpy/olio/load_data.py:317 load_array_from_ascii_file -/
def afterWords : Bool → Nat → List Char → List Char
  | _, _, [] => []
  | true, n, c :: cs => if isWS c then afterWords false (n - 1) cs else afterWords true n cs
  | false, n, c :: cs =>
    if isWS c then afterWords false n cs
    else if n = 0 then c :: cs
    else afterWords true n cs

/-- The arguments of resqpy/olio/load_data.py:227-235 load_array_from_ascii_file.  An empty text for a keyword or comment mark acts as
none. -/
structure ReadArgs where
  count : Option Nat
  keyword : Option (List Char)
  maxLines : Option Nat
  comment : Option (List Char)
  dataFree : Bool
  skipC : Bool

/-- resqpy/olio/load_data.py:301-304 load_array_from_ascii_file -/
def commentMark (r : ReadArgs) (ls : List (List Char)) : List Char :=
  match r.comment with
  | some m => m
  | none => if r.dataFree then [] else (guess 10 ls).getD ['!']

/-- resqpy/olio/load_data.py:306-309 load_array_from_ascii_file: the lines after that with the keyword. -/
def afterKeyword (upper : List Char → List Char) (r : ReadArgs) (ls : List (List Char)) : List (List Char) :=
  match r.keyword with
  | none => ls
  | some kw =>
    match Keywords.findKeyword upper (ls.map splitWS) 0 kw r.maxLines with
    | (true, p) => ls.drop (p + 1)
    | (false, _) => ls

/-- resqpy/olio/load_data.py:299-410 load_array_from_ascii_file: the elements read. -/
def loadAscii {V : Type} (upper : List Char → List Char) (parse : List Char → Option V) (r : ReadArgs) (file : List Char) : Res (List V) :=
  let ls := splitLines file
  let mark := commentMark r ls
  let rest := (skipLines mark r.skipC (afterKeyword upper r ls)).flatten
  if r.dataFree then
    match numbers parse r.count (splitWS rest) with
    | .error e => .error e
    | .ok vs =>
      if skipLines mark r.skipC (splitLines (afterWords false vs.length rest)) = [] then .ok vs
      else .error .assertion
  else numbers parse r.count (splitWS (stripComments mark false rest))

/-! ### Binary copies -/

/-- A file with the time at which it was written, as `os.path.getmtime` gives it, resqpy/olio/load_data.py:30 file_exists -/
structure Stamped (α : Type) where
  content : α
  time : Nat

/-- The text file and its binary copy, resqpy/olio/load_data.py:173-178 load_array_from_file -/
structure Disk (α β : Type) where
  ascii : Stamped α
  copy : Option (Stamped β)

/-- resqpy/olio/load_data.py:19-30 file_exists: for the copy, which must be more recent than the text file. -/
def copyUsable {α β : Type} (d : Disk α β) : Bool :=
  match d.copy with
  | none => false
  | some c => decide (d.ascii.time < c.time)

/-- resqpy/olio/load_data.py:180-196 load_array_from_file: what is read from a copy; the given number of elements or all of them; too
few are an error, which leads to the text file being read. -/
def fromCopy {V : Type} (count : Option Nat) (c : List V) : Option (List V) :=
  match count with
  | none => some c
  | some n => if c.length < n then none else some (c.take n)

/-- resqpy/olio/load_data.py:155-214 load_array_from_file with `use_binary`, at a time: the elements and the files afterwards. -/
def loadFile {V : Type} (upper : List Char → List Char) (parse : List Char → Option V) (r : ReadArgs) (now : Nat)
    (d : Disk (List Char) (List V)) : Res (List V) × Disk (List Char) (List V) :=
  let viaText : Res (List V) × Disk (List Char) (List V) :=
    match loadAscii upper parse r d.ascii.content with
    | .error e => (.error e, d)
    | .ok vs => (.ok vs, { d with copy := some ⟨vs, now⟩ })
  if copyUsable d then
    match d.copy with
    | none => viaText
    | some c => match fromCopy r.count c.content with
      | some vs => (.ok vs, d)
      | none => viaText
  else viaText

/-- The text file is written again at a time; an earlier copy stays: resqpy/olio/write_data.py:59-97 write_array_to_ascii_file without
`use_binary` -/
def rewrite {V : Type} (text : List Char) (now : Nat) (d : Disk (List Char) (List V)) : Disk (List Char) (List V) :=
  { d with ascii := ⟨text, now⟩ }

/-- The bytes of a whole number in `size` bytes, the lowest first: `tofile`, resqpy/olio/write_data.py:118 write_array_to_ascii_file -/
def bytes : Nat → Int → List Nat
  | 0, _ => []
  | size + 1, n => (n % 256).toNat :: bytes size (n / 256)

/-- resqpy/olio/load_data.py:183 load_array_from_file for booleans, each in one byte. -/
def boolsFrom (count : Nat) (bs : List Nat) : List Bool := (bs.take count).map fun b => decide (b ≠ 0)

end Verif.ArrayFile
