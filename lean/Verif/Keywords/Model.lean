import Verif.Py.Basic

/-! # Model of `resqpy/olio/keyword_files.py`

A file is the list of its lines, each given as its words (`line.split()`), and the file position is the number of lines
before it; `tell`, `seek` and `readline` act on it accordingly.  A loop of `readline` calls is a recursion over the lines from the
position on.  Words are lists of characters and `upper` stands for `str.upper`. -/

namespace Verif.Keywords

/-- for `startsWith` (keyword_files.py:47) -/
abbrev Word := List Char
/-- for `startsWith` (keyword_files.py:47) -/
abbrev Line := List Word

section
variable (upper : Word → Word)

/-- keyword_files.py:47, 118, 134: the first word of the line is the keyword, in any case -/
def startsWith (keyword : Word) (words : Line) : Bool :=
  match words with
  | [] => false
  | w :: _ => upper w == upper keyword

/-- keyword_files.py:35-49 the loop of `find_keyword`: the position found, if any -/
def findLoop (keyword : Word) : List Line → Nat → Option Nat → Option Nat
  | [], _, _ => none
  | words :: rest, pos, maxLines =>
    match maxLines with
    | some 0 => none
    | some (m + 1) => if startsWith upper keyword words then some pos else findLoop keyword rest (pos + 1) (some m)
    | none => if startsWith upper keyword words then some pos else findLoop keyword rest (pos + 1) none

/-- keyword_files.py:32-49 `find_keyword`: the result and the file position afterwards.  A negative `max_lines` acts as zero. -/
def findKeyword (file : List Line) (pos : Nat) (keyword : Word) (maxLines : Option Nat) : Bool × Nat :=
  match findLoop upper keyword (file.drop pos) pos maxLines with
  | some p => (true, p)
  | none => (false, pos)

/-- keyword_files.py:109-123 `find_keyword_without_passing` -/
def findWithoutPassing (keyword noPass : Word) : List Line → Nat → Bool × Nat
  | [], pos => (false, pos)
  | words :: rest, pos =>
    if startsWith upper keyword words then (true, pos)
    else if startsWith upper noPass words then (false, pos)
    else findWithoutPassing keyword noPass rest (pos + 1)

/-- keyword_files.py:126-138 `find_keyword_with_copy`; the last component is what is written to the output file -/
def findWithCopy (keyword : Word) : List Line → Nat → List Line → Bool × Nat × List Line
  | [], pos, out => (false, pos, out)
  | words :: rest, pos, out =>
    if startsWith upper keyword words then (true, pos, out)
    else findWithCopy keyword rest (pos + 1) (out ++ [words])

/-- keyword_files.py:150-151 the second word of the line is the keyword -/
def secondIs (keyword : Word) (words : Line) : Bool :=
  match words with
  | _ :: w :: _ => upper w == upper keyword
  | _ => false

/-- keyword_files.py:141-153 `find_keyword_pair`; each turn of the loop reads at least one line, so that the number of lines left
bounds the number of turns -/
def findPair (file : List Line) (primary secondary : Word) : Nat → Nat → Bool × Nat
  | 0, pos => (false, pos)
  | fuel + 1, pos =>
    match findKeyword upper file pos primary none with
    | (false, p) => (false, p)
    | (true, p) =>
      match file[p]? with
      | none => (false, p)
      | some words => if secondIs upper secondary words then (true, p) else findPair file primary secondary fuel (p + 1)

/-- keyword_files.py:59-65 the line is blank or a comment; `skip_c_space` is the test for a lone letter C -/
def isBlankOrComment (commentChar : Char) (skipC : Bool) (words : Line) : Bool :=
  match words with
  | [] => true
  | w :: _ => w.head? == some commentChar || (skipC && (w == ['C'] || w == ['c']))

/-- keyword_files.py:52-67 `skip_blank_lines_and_comments`: the file position afterwards -/
def skipBlank (commentChar : Char) (skipC : Bool) : List Line → Nat → Nat
  | [], pos => pos
  | words :: rest, pos => if isBlankOrComment commentChar skipC words then skipBlank commentChar skipC rest (pos + 1) else pos

/-- keyword_files.py:177-190 the loop of `specific_keyword_next`; `filePos` is the python variable `file_pos` -/
def specificLoop (keyword : Word) (skip : Bool) (commentChar : Char) : List Line → Nat → Nat → Bool × Nat
  | [], pos, filePos => (false, if skip then pos else filePos)
  | words :: rest, pos, filePos =>
    let fp := if skip then pos else filePos
    if isBlankOrComment commentChar false words then specificLoop keyword skip commentChar rest (pos + 1) fp
    else (startsWith upper keyword words, fp)

/-- keyword_files.py:174-190 `specific_keyword_next`: the result and the file position afterwards -/
def specificNext (file : List Line) (pos : Nat) (keyword : Word) (skip : Bool) (commentChar : Char) : Bool × Nat :=
  specificLoop upper keyword skip commentChar (file.drop pos) pos pos

end

/-- keyword_files.py:92-93 removal of trailing newlines -/
def stripNewlines (line : List Char) : List Char := (line.reverse.dropWhile fun c => c == '\n' || c == '\r').reverse

/-- keyword_files.py:87-100 `split_trailing_comment`, for a comment mark of one character -/
def splitTrailingComment (line : List Char) (commentChar : Char) : List Char × List Char :=
  let local_ := stripNewlines line
  if commentChar ∈ local_ then
    let pling := local_.idxOf commentChar
    (local_.take pling, if pling + 2 < local_.length then local_.drop (pling + 1) else [])
  else (local_, [])

end Verif.Keywords
