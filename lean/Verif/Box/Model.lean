import Verif.Py.Basic
import Verif.Py.Text

/-!
# Model of `resqpy/olio/box_utilities.py`

A box is a numpy int array of shape (2, 3): `[[min_k, min_j, min_i], [max_k, max_j, max_i]]`,
maximum included (file header, lines 1-8).  Checks on numpy `ndim`, `shape` and `dtype` are not
modelled (they hold by typing here).
-/

namespace Verif.Box

open Verif.Py

/-- An index triple, axes named in kji order.; for `extentOfBox` (box_utilities.py:18-29) -/
structure V3 where
  k : Int
  j : Int
  i : Int
deriving DecidableEq, Repr

/-- `a[d]` for `d` in 0, 1, 2 (any other `d` never occurs in the code). -/
def V3.get (a : V3) (d : Nat) : Int := if d = 0 then a.k else if d = 1 then a.j else a.i

/-- `a[d] = x` for `d` in 0, 1, 2. -/
def V3.set (a : V3) (d : Nat) (x : Int) : V3 :=
  if d = 0 then { a with k := x } else if d = 1 then { a with j := x } else { a with i := x }

/-- for `extentOfBox` (box_utilities.py:18-29) -/
structure Box where
  lo : V3
  hi : V3
deriving DecidableEq, Repr

/-- box_utilities.py:18-29 `extent_of_box` -/
def extentOfBox (b : Box) : V3 :=
  ⟨b.hi.k - b.lo.k + 1, b.hi.j - b.lo.j + 1, b.hi.i - b.lo.i + 1⟩

/-- box_utilities.py:32-43 `volume_of_box` -/
def volumeOfBox (b : Box) : Int :=
  (b.hi.k - b.lo.k + 1) * (b.hi.j - b.lo.j + 1) * (b.hi.i - b.lo.i + 1)

/-- box_utilities.py:46-48 `central_cell` (floor division by 2) -/
def centralCell (b : Box) : V3 :=
  ⟨b.lo.k + (b.hi.k - b.lo.k) / 2, b.lo.j + (b.hi.j - b.lo.j) / 2, b.lo.i + (b.hi.i - b.lo.i) / 2⟩

/-- box_utilities.py:68-84 `spaced_string_iijjkk1_for_box_kji0` -/
def spacedString (b : Box) (sep : List Char) : List Char :=
  showInt (b.lo.i + 1) ++ sep ++ showInt (b.hi.i + 1) ++ [' ', ' '] ++
  showInt (b.lo.j + 1) ++ sep ++ showInt (b.hi.j + 1) ++ [' ', ' '] ++
  showInt (b.lo.k + 1) ++ sep ++ showInt (b.hi.k + 1)

/-- `int(words[n])`: IndexError cannot occur after the length assertion; a word that is not an
integer raises ValueError.; for `boxFromWords` (box_utilities.py:87-114) -/
def intWord (words : List (List Char)) (n : Nat) : Res Int :=
  match words[n]? with
  | none => .error .index
  | some w => match readInt? w with
    | none => .error .value
    | some z => .ok z

/-- box_utilities.py:87-114 `box_kji0_from_words_iijjkk1` -/
def boxFromWords (words : List (List Char)) : Res Box := do
  pyAssert (words.length ≥ 6)
  let k0 ← intWord words 4
  let k1 ← intWord words 5
  let j0 ← intWord words 2
  let j1 ← intWord words 3
  let i0 ← intWord words 0
  let i1 ← intWord words 1
  let b : Box := ⟨⟨k0 - 1, j0 - 1, i0 - 1⟩, ⟨k1 - 1, j1 - 1, i1 - 1⟩⟩
  pyAssert (b.lo.k ≤ b.hi.k && b.lo.j ≤ b.hi.j && b.lo.i ≤ b.hi.i)
  return b

/-- box_utilities.py:117-132 `cell_in_box` -/
def cellInBox (c : V3) (b : Box) : Bool :=
  (b.lo.k ≤ c.k && c.k ≤ b.hi.k) && (b.lo.j ≤ c.j && c.j ≤ b.hi.j) && (b.lo.i ≤ c.i && c.i ≤ b.hi.i)

/-- box_utilities.py:135-156 `valid_box` (shape and dtype tests hold by typing) -/
def validBox (b : Box) (host : V3) : Bool :=
  (List.range 3).all fun d =>
    !(b.lo.get d < 0 || b.lo.get d > b.hi.get d || b.hi.get d ≥ host.get d)

/-- box_utilities.py:159-174 `single_cell_box` -/
def singleCellBox (c : V3) : Box := ⟨c, c⟩

/-- box_utilities.py:177-191 `full_extent_box0` -/
def fullExtentBox0 (e : V3) : Box := ⟨⟨0, 0, 0⟩, ⟨e.k - 1, e.j - 1, e.i - 1⟩⟩

/-- box_utilities.py:194-207 `union`; `None` is `none` -/
def union (a b : Option Box) : Option Box :=
  match a, b with
  | none, none => none
  | none, some b => some b
  | some a, none => some a
  | some a, some b =>
    some ⟨⟨min a.lo.k b.lo.k, min a.lo.j b.lo.j, min a.lo.i b.lo.i⟩,
          ⟨max a.hi.k b.hi.k, max a.hi.j b.hi.j, max a.hi.i b.hi.i⟩⟩

/-- box_utilities.py:210-230 `parent_cell_from_local_box_cell` -/
def parentFromLocal (b : Box) (c : V3) (base : Int := 0) : V3 :=
  ⟨b.lo.k + c.k - base, b.lo.j + c.j - base, b.lo.i + c.i - base⟩

/-- box_utilities.py:233-256 `local_box_cell_from_parent_cell` -/
def localFromParent (b : Box) (c : V3) (base : Int := 0) : Option V3 :=
  if (b.lo.k ≤ c.k ∧ b.lo.j ≤ c.j ∧ b.lo.i ≤ c.i) ∧ (c.k ≤ b.hi.k ∧ c.j ≤ b.hi.j ∧ c.i ≤ b.hi.i) then
    some ⟨c.k - b.lo.k + base, c.j - b.lo.j + base, c.i - b.lo.i + base⟩
  else none

/-- box_utilities.py:259-275 `boxes_overlap` -/
def boxesOverlap (a b : Box) : Bool :=
  !((a.hi.k < b.lo.k) || (a.lo.k > b.hi.k) || (a.hi.j < b.lo.j) ||
    (a.lo.j > b.hi.j) || (a.hi.i < b.lo.i) || (a.lo.i > b.hi.i))

/-- state of the direction loop at box_utilities.py:318-324 -/
structure TrimScan where
  overlap : Box
  minCost : Int
  dir : Int

/-- box_utilities.py:309-311: number of cells in a slice of the new box -/
def newBoxArea (n : Box) (d : Nat) : Int :=
  if d = 0 then (n.hi.j - n.lo.j + 1) * (n.hi.i - n.lo.i + 1)
  else if d = 1 then (n.hi.k - n.lo.k + 1) * (n.hi.i - n.lo.i + 1)
  else (n.hi.k - n.lo.k + 1) * (n.hi.j - n.lo.j + 1)

/-- one pass of the loop body, box_utilities.py:319-324 -/
def trimStep (e n : Box) (s : TrimScan) (d : Nat) : TrimScan :=
  let o : Box := ⟨s.overlap.lo.set d (max (e.lo.get d) (n.lo.get d)),
                  s.overlap.hi.set d (min (e.hi.get d) (n.hi.get d))⟩
  let cost := (o.hi.get d - o.lo.get d + 1) * newBoxArea n d
  if cost < s.minCost then ⟨o, cost, d⟩ else ⟨o, s.minCost, s.dir⟩

/-- box_utilities.py:278-335 `overlapping_boxes`; returns the pair (return value, trim_box) -/
def overlappingBoxes (e n : Box) : Res (Bool × Box) :=
  let zero : Box := ⟨⟨0, 0, 0⟩, ⟨0, 0, 0⟩⟩
  if !boxesOverlap e n then .ok (false, zero)
  else
    let s := (List.range 3).foldl (trimStep e n) ⟨zero, volumeOfBox n + 1, -1⟩
    if 0 ≤ s.dir ∧ s.dir ≤ 2 then
      let d := s.dir.toNat
      let a := (d + 1) % 3
      let b := (d + 2) % 3
      let lo := ((zero.lo.set d (s.overlap.lo.get d)).set a (n.lo.get a)).set b (n.lo.get b)
      let hi := ((zero.hi.set d (s.overlap.hi.get d)).set a (n.hi.get a)).set b (n.hi.get b)
      .ok (true, ⟨lo, hi⟩)
    else .error .assertion

/-- A boolean array of shape `shape`; only `at c` with `0 ≤ c < shape` is meaningful. -/
structure Mask where
  shape : V3
  «at» : V3 → Bool

/-- `mask[lo.k:hi.k+1, lo.j:hi.j+1, lo.i:hi.i+1]` for `0 ≤ lo`, `lo ≤ hi + 1`, `hi < shape` (as is the
case at both uses). -/
def Mask.slice (m : Mask) (b : Box) : Mask :=
  ⟨extentOfBox b, fun c => m.at ⟨b.lo.k + c.k, b.lo.j + c.j, b.lo.i + c.i⟩⟩

/-- box_utilities.py:338-396 `trim_box_by_box_returning_new_mask`; returns (modified box, new mask) -/
def trimBoxByBox (b t : Box) (m : Mask) : Res (Box × Mask) := do
  let ext := extentOfBox b
  let l : Box := ⟨⟨0, 0, 0⟩, ⟨ext.k - 1, ext.j - 1, ext.i - 1⟩⟩
  let (b', l') ←
    (if t.lo = b.lo then
      if t.hi.k ≠ b.hi.k then do
        pyAssert (t.hi.j = b.hi.j && t.hi.i = b.hi.i)
        pure ({ b with lo := { b.lo with k := t.hi.k + 1 } },
              { l with lo := { l.lo with k := t.hi.k - b.lo.k + 1 } })
      else if t.hi.j ≠ b.hi.j then do
        pyAssert (t.hi.i = b.hi.i)
        pure ({ b with lo := { b.lo with j := t.hi.j + 1 } },
              { l with lo := { l.lo with j := t.hi.j - b.lo.j + 1 } })
      else do
        pyAssert (t.hi.i ≠ b.hi.i)
        pure ({ b with lo := { b.lo with i := t.hi.i + 1 } },
              { l with lo := { l.lo with i := t.hi.i - b.lo.i + 1 } })
    else if t.hi = b.hi then
      if t.lo.k ≠ b.lo.k then do
        pyAssert (t.lo.j = b.lo.j && t.lo.i = b.lo.i)
        pure ({ b with hi := { b.hi with k := t.lo.k - 1 } },
              { l with hi := { l.hi with k := l.hi.k - (b.hi.k - t.lo.k + 1) } })
      else if t.lo.j ≠ b.lo.j then do
        pyAssert (t.lo.i = b.lo.i)
        pure ({ b with hi := { b.hi with j := t.lo.j - 1 } },
              { l with hi := { l.hi with j := l.hi.j - (b.hi.j - t.lo.j + 1) } })
      else do
        pyAssert (t.lo.i ≠ b.lo.i)
        pure ({ b with hi := { b.hi with i := t.lo.i - 1 } },
              { l with hi := { l.hi with i := l.hi.i - (b.hi.i - t.lo.i + 1) } })
    else .error .assertion : Res (Box × Box))
  pyAssert (b'.lo.k ≤ b'.hi.k && b'.lo.j ≤ b'.hi.j && b'.lo.i ≤ b'.hi.i)
  return (b', m.slice l')

/-- indices `0, 1, …, n - 1` as produced by `range(n)` -/
def intRange (n : Int) : List Int := (List.range n.toNat).map fun (x : Nat) => (x : Int)

/-- the scan for one axis, box_utilities.py:414-418 (and the two similar loops): first and last index
`x` in `range(n)` with `p x`; starts from `(n, -1)`. -/
def axisScan (n : Int) (p : Int → Bool) : Int × Int :=
  (intRange n).foldl (fun s x => if p x then (if s.1 = n then x else s.1, x) else s) (n, -1)

/-- box_utilities.py:399-438 `trim_box_to_mask_returning_new_mask`; returns (modified box, new mask) -/
def trimBoxToMask (b : Box) (m : Mask) : Res (Box × Mask) := do
  let e := extentOfBox b
  pyAssert (m.shape = e)
  pyAssert ((intRange e.k).any fun k => (intRange e.j).any fun j => (intRange e.i).any fun i => m.at ⟨k, j, i⟩)
  let sk := axisScan e.k fun k => (intRange e.j).any fun j => (intRange e.i).any fun i => m.at ⟨k, j, i⟩
  let sj := axisScan e.j fun j => (intRange e.k).any fun k => (intRange e.i).any fun i => m.at ⟨k, j, i⟩
  let si := axisScan e.i fun i => (intRange e.k).any fun k => (intRange e.j).any fun j => m.at ⟨k, j, i⟩
  let l : Box := ⟨⟨sk.1, sj.1, si.1⟩, ⟨sk.2, sj.2, si.2⟩⟩
  pyAssert (0 ≤ l.lo.k && 0 ≤ l.lo.j && 0 ≤ l.lo.i && 0 ≤ l.hi.k && 0 ≤ l.hi.j && 0 ≤ l.hi.i)
  pyAssert (l.hi.k ≥ l.lo.k && l.hi.j ≥ l.lo.j && l.hi.i ≥ l.lo.i)
  pyAssert (l.hi.k < e.k && l.hi.j < e.j && l.hi.i < e.i)
  let b' : Box := ⟨⟨b.lo.k + l.lo.k, b.lo.j + l.lo.j, b.lo.i + l.lo.i⟩,
    ⟨b.hi.k - (e.k - l.hi.k - 1), b.hi.j - (e.j - l.hi.j - 1), b.hi.i - (e.i - l.hi.i - 1)⟩⟩
  pyAssert (b'.lo.k ≤ b'.hi.k && b'.lo.j ≤ b'.hi.j && b'.lo.i ≤ b'.hi.i)
  return (b', m.slice l)

end Verif.Box
