import Verif.ArrayFile.Model

/-!
# What is expected of arrays in text files
-/

namespace Verif.ArrayFile

/-- A list holds the elements of an array with three axes, the last index changing fastest. -/
def Holds {V : Type} (vs : List V) (nk nj ni : Nat) (a : Nat → Nat → Nat → V) : Prop :=
  vs.length = nk * nj * ni ∧ ∀ k j i, k < nk → j < nj → i < ni → vs[(k * nj + j) * ni + i]? = some (a k j i)

/-- A number is another one to a number of decimals, no nearer one to so many decimals being possible. -/
def Rounded (decimals : Nat) (q r : ℚ) : Prop := (∃ z : Int, r = z / 10 ^ decimals) ∧ 2 * |r - q| ≤ 1 / 10 ^ decimals

/-- The first word of a line is the one given, in either case of letters. -/
def StartsWith (upper : List Char → List Char) (kw line : List Char) : Prop := ∃ w ws, Py.splitWS line = w :: ws ∧ upper w = upper kw

/-- The keyword an array is read with is that it was written with: the first word of the line written, which does not look like a comment
mark, if there is one. -/
def SameKeyword (upper : List Char → List Char) (w : WriteArgs) (r : ReadArgs) : Prop :=
  (w.keyword = none ∧ r.keyword = none) ∨
  ∃ s w0 ws kw, w.keyword = some s ∧ '\n' ∉ s ∧ Py.splitWS s = w0 :: ws ∧ w0 ∉ marks ∧ r.keyword = some kw ∧ upper kw = upper w0 ∧
    (w.headers = true → upper ['!'] ≠ upper w0) ∧
    ∀ m, r.maxLines = some m → (if w.headers then 3 else 0) < m

/-- The comment mark of the file is given, or can be guessed, or is not needed. -/
def MarkKnown (w : WriteArgs) (r : ReadArgs) : Prop :=
  r.comment = some ['!'] ∨ (r.comment = none ∧ (r.dataFree = false ∨ w.headers = false))

end Verif.ArrayFile
