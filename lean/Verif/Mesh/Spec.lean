import Verif.Mesh.Model

/-!
# What meshes should be
-/

namespace Verif.Mesh
open Verif.Py

/-- the point reached from the origin by i steps along I and j steps along J -/
def node (l : Lat) (j i : Nat) (c : Fin 3) : ℝ := l.origin c + (i : ℝ) * l.di c + (j : ℝ) * l.dj c

/-- an array of points has these coordinates -/
def Holds (p : Pts) (nj ni : Nat) (x y z : Nat → Nat → Option ℝ) : Prop :=
  p.width = 3 ∧ ∀ j i, j < nj → i < ni → p.val j i 0 = x j i ∧ p.val j i 1 = y j i ∧ p.val j i 2 = z j i

/-- the z value given for a node -/
def zGiven (ni : Nat) : ZIn → Nat → Nat → Option ℝ
  | .grid _ _ z, j, i => z j i
  | .flat _ z, j, i => z (j * ni + i)

/-- what a mesh shows of itself apart from its points -/
def look (m : Mesh) : String × Nat × Nat × Flavour × Nat := (m.role, m.nj, m.ni, m.flavour, m.crs)

/-- nothing is stored yet under a uuid -/
def Fresh (s : Store) (u : Nat) : Prop := s.nodes.lookup u = none ∧ s.points.lookup u = none ∧ s.zs.lookup u = none

/-- nothing is stored -/
def nothing : Store := ⟨[], [], []⟩

/-- evenly spaced numbers from one to another, both included -/
noncomputable def spaced (a b : ℝ) (n i : Nat) : ℝ := a + (b - a) * ((i : ℝ) / ((n : ℝ) - 1))

/-- words with commas between -/
def joinComma : List (List Char) → List Char
  | [] => []
  | [w] => w
  | w :: v :: ws => w ++ ',' :: joinComma (v :: ws)

/-- a text which does not begin or end with a character of a kind -/
def Bare (p : Char → Bool) (s : List Char) : Prop := (∀ c, s.head? = some c → p c = false) ∧ (∀ c, s.getLast? = some c → p c = false)

/-- a line of a zmap header holds these fields: perhaps blanks, '@', the fields with commas between, '@' and blanks -/
def Row (l : Line) (ws : List (List Char)) : Prop :=
  ws ≠ [] ∧ (∀ w ∈ ws, ',' ∉ w) ∧ Bare isWS (joinComma ws) ∧ Bare (fun c => decide (c = '@')) (joinComma ws) ∧
    ∃ b1 a1 a2 b2 : List Char, (∀ c ∈ b1 ++ b2, isWS c = true) ∧ (∀ c ∈ a1 ++ a2, c = '@') ∧ l = b1 ++ a1 ++ joinComma ws ++ a2 ++ b2

/-- what a word of the data stands for: nothing if it is the null value, as text or as number -/
def Stands (num : List Char → Option ℝ) (null : List Char) (w : List Char) (v : Option ℝ) : Prop :=
  (w = null ∧ v = none) ∨ (w ≠ null ∧ ∃ x y, num w = some x ∧ num null = some y ∧ ((x = y ∧ v = none) ∨ (x ≠ y ∧ v = some x)))

/-- a header line which is not a comment -/
def isRow (l : Line) : Bool := decide (l.head? ≠ some '!')

/-- what is to be read from a header -/
structure Facts where
  rows : Nat
  cols : Nat
  minx : ℝ
  maxx : ℝ
  miny : ℝ
  maxy : ℝ
  null : List Char

/-- the header of a zmap file: comments, a line which begins with '@', lines of which the first that is not a comment has the null value as its
second field (or its third, if the second is blank), and the next one the numbers of rows and columns and the extents in x and y, a line which
begins with '@', and perhaps one which begins with '+'; then data -/
def ZmapFile (num : List Char → Option ℝ) (file data : List Line) (k : Facts) : Prop :=
  ∃ pre first mid last rest, file = pre ++ first :: (mid ++ last :: rest) ∧ (∀ l ∈ pre, l.head? = some '!') ∧ first.head? = some '@' ∧
    (∀ l ∈ mid, l.head? ≠ some '@') ∧ last.head? = some '@' ∧
    ((∃ plus, rest = plus :: data ∧ plus.head? = some '+') ∨ (rest = data ∧ ∃ l ls, data = l :: ls ∧ l.head? ≠ some '+')) ∧
    ∃ l1 l2 more r1 r2, mid.filter isRow = l1 :: l2 :: more ∧ Row l1 r1 ∧ Row l2 r2 ∧
      (∃ w0 w1 w2 ws, r1 = w0 :: w1 :: w2 :: ws ∧ k.null = if strip w1 = [] then strip w2 else strip w1) ∧
      (∃ t0 t1 t2 t3 t4 t5 ts, r2 = t0 :: t1 :: t2 :: t3 :: t4 :: t5 :: ts ∧ readInt? (strip t0) = some (k.rows : Int) ∧
        readInt? (strip t1) = some (k.cols : Int) ∧ num (strip t2) = some k.minx ∧ num (strip t3) = some k.maxx ∧ num (strip t4) = some k.miny ∧
        num (strip t5) = some k.maxy)

/-- an RMS text file: four lines of words, the first with the mark and the number of rows, the second with the extents in x and y, the third with
the number of columns; then data -/
def RmsFile (num : List Char → Option ℝ) (file data : List Line) (k : Facts) : Prop :=
  ∃ l0 l1 l2 l3, file = l0 :: l1 :: l2 :: l3 :: data ∧ k.null = "9999900.0000".toList ∧
    (∃ t ts, splitWS l0 = "-996".toList :: t :: ts ∧ readInt? t = some (k.rows : Int)) ∧
    (∃ t0 t1 t2 t3 ts, splitWS l1 = t0 :: t1 :: t2 :: t3 :: ts ∧ num t0 = some k.minx ∧ num t1 = some k.maxx ∧ num t2 = some k.miny ∧
      num t3 = some k.maxy) ∧
    (∃ t ts, splitWS l2 = t :: ts ∧ readInt? t = some (k.cols : Int))

end Verif.Mesh
