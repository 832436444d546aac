import Verif.Keywords.Model

/-! # What is asked of the searches in keyword files

A file is a list of lines, a line a list of words. -/

namespace Verif.Keywords

/-- the first word of the line is the keyword, whatever the case of the letters -/
def firstWordIs (upper : Word → Word) (keyword : Word) (l : Line) : Bool := decide (l[0]?.map upper = some (upper keyword))

/-- the second word of the line is the keyword, whatever the case of the letters -/
def secondWordIs (upper : Word → Word) (keyword : Word) (l : Line) : Bool := decide (l[1]?.map upper = some (upper keyword))

/-- the line has no words, or its first word begins with the comment mark or, if wanted, is the letter C in either case -/
def toSkip (mark : Char) (skipC : Bool) (l : Line) : Bool :=
  decide (l[0]? = none ∨ (l[0]?.getD [])[0]? = some mark ∨ skipC = true ∧ (l[0]? = some ['C'] ∨ l[0]? = some ['c']))

/-- `i` is the first line at or after `pos`, and before `stop`, for which `p` holds -/
def First (p : Line → Bool) (file : List Line) (pos stop i : Nat) : Prop :=
  pos ≤ i ∧ i < stop ∧ (∃ l : Line, file[i]? = some l ∧ p l = true) ∧
    ∀ (j : Nat) (l : Line), pos ≤ j → j < i → file[j]? = some l → p l = false

/-- no line at or after `pos`, and before `stop`, has `p` -/
def NoneFrom (p : Line → Bool) (file : List Line) (pos stop : Nat) : Prop :=
  ∀ (j : Nat) (l : Line), pos ≤ j → j < stop → file[j]? = some l → p l = false

/-- the number of the line a search with a limit does not reach -/
def stopAt (file : List Line) (pos : Nat) (maxLines : Option Nat) : Nat :=
  match maxLines with
  | none => file.length
  | some m => pos + m

end Verif.Keywords
