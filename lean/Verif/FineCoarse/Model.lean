import Verif.Py.Seq
import Verif.Box.Model

/-!
# Model of `resqpy/olio/fine_coarse.py`, class FineCoarse

The object holds, per axis (0 = K, 1 = J, 2 = I), the extents, the refinement ratios (constant or
vector), the proportions, and a lazily built fine-to-coarse mapping.  `within_fine_box` and
`within_coarse_box` are "not really used internally" (line 40) and are omitted, as is the writing of
CARTREF text.  Axis arguments are `Fin 3` (the setters assert `0 <= axis < 3`).  numpy dtype checks
hold by typing.  Floats are exact rationals.
-/

namespace Verif.FineCoarse
open Verif.Py Verif.Box

/-- The attributes of one axis: `fine_extent_kji[axis]`, `coarse_extent_kji[axis]`,
`constant_ratios[axis]`, `vector_ratios[axis]`, `equal_proportions[axis]`, `vector_proportions[axis]`
(fine_coarse.py:46-63). -/
structure Axis where
  fine : Int
  coarse : Int
  const : Option Int
  vec : Option (List Int)
  equal : Bool
  props : Option (List (List Rat))
deriving DecidableEq

/-- An axis vector of the mapping: `none` elements are not yet written (`np.empty`).; for `FC` (fine_coarse.py:65) -/
abbrev AxisMap := List (Option Int)

/-- A FineCoarse object. `map` is `fine_to_coarse_mapping` (line 65): `none` until first use, then a
list of three entries each `None` or a vector. -/
structure FC where
  ax : Fin 3 → Axis
  map : Option (Fin 3 → Option AxisMap)

/-- replacing the value at one axis; for `fillAxes` (fine_coarse.py:384-391) -/
def upd {α : Type} (f : Fin 3 → α) (a : Fin 3) (x : α) : Fin 3 → α := fun b => if b = a then x else f b

/-- fine_coarse.py:375-380 `_assert_extents_valid` -/
def extentsValid (fine coarse : Fin 3 → Int) : Bool :=
  [0, 1, 2].all fun a => decide (fine a > 0) && decide (coarse a ≤ fine a)

/-- fine_coarse.py:19-65 `__init__` -/
def init (fine coarse : Fin 3 → Int) : Res FC := do
  pyAssert (extentsValid fine coarse)
  return { ax := fun a => ⟨fine a, coarse a, none, none, true, none⟩, map := none }

/-- fine_coarse.py:102-107 `ratio`; an unset axis subscripts `None` -/
def Axis.ratio (a : Axis) (c0 : Int) : Res Int :=
  match a.const with
  | some r => .ok r
  | none => match a.vec with
    | none => .error .type
    | some v => pyGet v c0

/-- fine_coarse.py:102-107 `ratio` -/
def FC.ratio (s : FC) (axis : Fin 3) (c0 : Int) : Res Int := (s.ax axis).ratio c0

/-- fine_coarse.py:143-148 `fine_base_for_coarse_axial` -/
def Axis.fineBase (a : Axis) (c0 : Int) : Res Int :=
  match a.const with
  | some r => .ok (c0 * r)
  | none => match a.vec with
    | none => .error .type
    | some v => .ok (pyTake v c0).sum

/-- fine_coarse.py:143-148 `fine_base_for_coarse_axial` -/
def FC.fineBase (s : FC) (axis : Fin 3) (c0 : Int) : Res Int := (s.ax axis).fineBase c0

/-- fine_coarse.py:158-168 `fine_box_for_coarse` (with `fine_base_for_coarse` 150-156 and
`ratios` 109-112) -/
def FC.fineBox (s : FC) (c : V3) : Res Box := do
  let bk ← s.fineBase 0 c.k
  let bj ← s.fineBase 1 c.j
  let bi ← s.fineBase 2 c.i
  let rk ← s.ratio 0 c.k
  let rj ← s.ratio 1 c.j
  let ri ← s.ratio 2 c.i
  return ⟨⟨bk, bj, bi⟩, ⟨bk + rk - 1, bj + rj - 1, bi + ri - 1⟩⟩

/-- loop at fine_coarse.py:387-390; the vector is updated in place, so it is returned even when an
exception stops the loop -/
def fillLoop (a : Axis) : List Nat → Int → AxisMap → AxisMap × Res Int
  | [], f0, arr => (arr, .ok f0)
  | c :: cs, f0, arr =>
    match a.ratio c with
    | .error e => (arr, .error e)
    | .ok r => fillLoop a cs (f0 + r) (pySetSlice arr f0 (f0 + r) (some (c : Int)))

/-- body of the axis loop at fine_coarse.py:385-391 -/
def fillAxis (a : Axis) : AxisMap × Res Unit :=
  match fillLoop a (List.range a.coarse.toNat) 0 (List.replicate a.fine.toNat none) with
  | (arr, .error e) => (arr, .error e)
  | (arr, .ok f0) => (arr, pyAssert (f0 == a.fine))

/-- axis loop at fine_coarse.py:384-391 for a list of axes still to do; an exception leaves the
object with a partly built mapping -/
def fillAxes (s : FC) : List (Fin 3) → (Fin 3 → Option AxisMap) → (Fin 3 → Option AxisMap) × Res Unit
  | [], m => (m, .ok ())
  | a :: as, m =>
    match fillAxis (s.ax a) with
    | (arr, .error e) => (upd m a (some arr), .error e)
    | (arr, .ok _) => fillAxes s as (upd m a (some arr))

/-- fine_coarse.py:382-391 `_set_fine_to_coarse_mapping` -/
def setMapping (s : FC) : FC × Res Unit :=
  match fillAxes s [0, 1, 2] (fun _ => none) with
  | (m, r) => ({ s with map := some m }, r)

/-- `if self.fine_to_coarse_mapping is None: self._set_fine_to_coarse_mapping()`; for `coarseForFineAxial` (fine_coarse.py:129-134) -/
def ensureMapping (s : FC) : FC × Res Unit :=
  match s.map with
  | some _ => (s, .ok ())
  | none => setMapping s

/-- `self.fine_to_coarse_mapping[axis][f0]`; a missing vector is a TypeError -/
def mapEntry (s : FC) (axis : Fin 3) (f0 : Int) : Res (Option Int) :=
  match s.map with
  | none => .error .type
  | some m => match m axis with
    | none => .error .type
    | some v => pyGet v f0

/-- fine_coarse.py:129-134 `coarse_for_fine_axial`; `none` inside the result is an uninitialised
number -/
def coarseForFineAxial (s : FC) (axis : Fin 3) (f0 : Int) : FC × Res (Option Int) :=
  match ensureMapping s with
  | (s', .error e) => (s', .error e)
  | (s', .ok _) => (s', mapEntry s' axis f0)

/-- fine_coarse.py:121-127 `coarse_for_fine_kji0` -/
def coarseForFine (s : FC) (f : V3) : FC × Res (Option Int × Option Int × Option Int) :=
  match ensureMapping s with
  | (s', .error e) => (s', .error e)
  | (s', .ok _) => (s', do
      let k ← mapEntry s' 0 f.k
      let j ← mapEntry s' 1 f.j
      let i ← mapEntry s' 2 f.i
      return (k, j, i))

/-- fine_coarse.py:136-141 `coarse_for_fine_axial_vector` -/
def coarseForFineAxialVector (s : FC) (axis : Fin 3) : FC × Res (Option AxisMap) :=
  match ensureMapping s with
  | (s', .error e) => (s', .error e)
  | (s', .ok _) => (s', match s'.map with
      | none => .error .type
      | some m => .ok (m axis))

/-- fine_coarse.py:219-226 `set_constant_ratio`; `divmod` by zero raises -/
def Axis.setConst (a : Axis) : Res Axis :=
  if a.coarse = 0 then .error .zeroDiv
  else do
    pyAssert (Int.fmod a.fine a.coarse == 0)
    return { a with const := some (Int.fdiv a.fine a.coarse), vec := none }

/-- `np.min` of a vector, ValueError when empty; for `Axis.setVec` (fine_coarse.py:240-260) -/
def vmin : List Int → Res Int
  | [] => .error .value
  | x :: xs => .ok (xs.foldl min x)

/-- `np.max` of a vector; for `Axis.setVec` (fine_coarse.py:240-260) -/
def vmax : List Int → Res Int
  | [] => .error .value
  | x :: xs => .ok (xs.foldl max x)

/-- fine_coarse.py:240-260 `set_ratio_vector` -/
def Axis.setVec (a : Axis) (v : List Int) : Res Axis := do
  pyAssert ((v.length : Int) == a.coarse)
  pyAssert (v.sum == a.fine)
  let mn ← vmin v
  pyAssert (mn > 0)
  let mx ← vmax v
  if mn = mx then do
    let a' ← a.setConst
    pyAssert (a'.const == some mn)
    return a'
  else return { a with vec := some v, const := none }

/-- fine_coarse.py:262-267 `set_equal_proportions` -/
def Axis.setEqual (a : Axis) : Axis := { a with equal := true, props := none }

/-- `np.min` / `np.max` of a non-empty float vector; for `normalise` (fine_coarse.py:284-299) -/
def rmin : List Rat → Res Rat
  | [] => .error .value
  | x :: xs => .ok (xs.foldl min x)

/-- for `normalise` (fine_coarse.py:284-299) -/
def rmax : List Rat → Res Rat
  | [] => .error .value
  | x :: xs => .ok (xs.foldl max x)

/-- body of the loop at fine_coarse.py:284-299 for one coarse slice: the normalised fractions and
whether they are (nearly) equal.  The message of the length assertion adds an int to a str, so a
wrong length raises TypeError.  NaN is not modelled. -/
def normalise (a : Axis) (c0 : Nat) (vector : List Rat) : Res (List Rat × Bool) := do
  let count ← a.ratio c0
  if (vector.length : Int) ≠ count then .error .type
  else do
    pyAssert (vector.all (fun x => decide (x > 0)))
    let total := vector.sum
    let fractions := vector.map (· / total)
    let mx ← rmax fractions
    let mn ← rmin fractions
    return (fractions, decide ¬ (mx - mn > (1 : Rat) / 1000000))

/-- loop at fine_coarse.py:284-299 -/
def normaliseAll (a : Axis) : Nat → List (List Rat) → Res (List (List Rat) × Bool)
  | _, [] => .ok ([], true)
  | c, v :: vs => do
    let (f, e) ← normalise a c v
    let (fs, es) ← normaliseAll a (c + 1) vs
    return (f :: fs, e && es)

/-- fine_coarse.py:275-306 `set_proportions_list_of_vectors` -/
def Axis.setProps (a : Axis) (vs : List (List Rat)) : Res Axis := do
  pyAssert ((vs.length : Int) == a.coarse)
  let (fs, eq) ← normaliseAll a 0 vs
  if eq then return { a with equal := true, props := none }
  else return { a with equal := false, props := some fs }

/-- fine_coarse.py:170-181 `proportion` -/
def Axis.proportion (a : Axis) (c0 : Int) : Res (List Rat) :=
  if a.equal then do
    let count ← a.ratio c0
    if count = 0 then .error .zeroDiv
    else if count < 0 then .error .value
    else return List.replicate count.toNat (1 / (count : Rat))
  else match a.props with
    | none => .error .type
    | some ps => pyGet ps c0

/-- loop at fine_coarse.py:209-211: running sum of the proportions, IndexError if they run out -/
def interpLoop : List Rat → Nat → Rat → Res (List Rat)
  | _, 0, _ => .ok []
  | [], _ + 1, _ => .error .index
  | p :: ps, n + 1, x => do
    let rest ← interpLoop ps n (x + p)
    return (x + p) :: rest

/-- fine_coarse.py:203-212 `interpolation` (count 0 gives an empty vector, negative ValueError) -/
def Axis.interpolation (a : Axis) (c0 : Int) : Res (List Rat) := do
  let count ← a.ratio c0
  if count < 0 then .error .value
  else do
    let p ← a.proportion c0
    if count = 0 then return []
    else do
      let rest ← interpLoop p (count.toNat - 1) 0
      return 0 :: rest

/-- fine_coarse.py:183-201 `proportions_for_axis`, the loop over coarse slices for a vector of ratios
with equal proportions -/
def equalFractions : List Int → List Rat
  | [] => []
  | r :: rs => List.replicate r.toNat (1 / (r : Rat)) ++ equalFractions rs

/-- fine_coarse.py:183-201 `proportions_for_axis`.  The vector branch writes consecutive slices of
a vector of fine extent, which they fill as the ratios add up to the fine extent. -/
def Axis.proportionsForAxis (a : Axis) : Res (List Rat) :=
  if a.equal then
    match a.const with
    | none => match a.vec with
      | none => .error .assertion
      | some v => do
        pyAssert ((v.length : Int) == a.coarse)
        return equalFractions v
    | some r => if r = 0 then .error .zeroDiv else .ok (List.replicate a.fine.toNat (1 / (r : Rat)))
  else match a.props with
    | none => .error .type
    | some ps => .ok ps.flatten

/-- fine_coarse.py:311-321 one axis of the natural index conversions: `if ratio is None: if j: j =
sum(vector[0:j]) else j *= ratio` -/
def Axis.scaleIndex (a : Axis) (j : Int) : Res Int :=
  match a.const with
  | some r => .ok (j * r)
  | none => if j = 0 then .ok 0 else
    match a.vec with
    | none => .error .type
    | some v => .ok (pySlice v 0 j).sum

/-- fine_coarse.py:307-322 `fine_for_coarse_natural_column_index` -/
def FC.fineColumn (s : FC) (col : Int) : Res Int :=
  if (s.ax 2).coarse = 0 then .error .zeroDiv
  else do
    let j ← (s.ax 1).scaleIndex (Int.fdiv col (s.ax 2).coarse)
    let i ← (s.ax 2).scaleIndex (Int.fmod col (s.ax 2).coarse)
    return j * (s.ax 2).fine + i

/-- fine_coarse.py:324-339 `fine_for_coarse_natural_pillar_index` -/
def FC.finePillar (s : FC) (p : Int) : Res Int :=
  if (s.ax 2).coarse + 1 = 0 then .error .zeroDiv
  else do
    let j ← (s.ax 1).scaleIndex (Int.fdiv p ((s.ax 2).coarse + 1))
    let i ← (s.ax 2).scaleIndex (Int.fmod p ((s.ax 2).coarse + 1))
    return j * ((s.ax 2).fine + 1) + i

/-- ratio part of the axis loop of `assert_valid`, fine_coarse.py:76-86 -/
def Axis.ratiosValid (a : Axis) : Bool :=
  match a.const with
  | none => match a.vec with
    | none => false
    | some v => ((v.length : Int) == a.coarse) && v.all (fun x => decide (x > 0)) && (v.sum == a.fine)
  | some r => decide (r > 0) && a.vec.isNone && (a.coarse * r == a.fine)

/-- proportions part of the axis loop of `assert_valid`, fine_coarse.py:87-100 -/
def Axis.propsValid (a : Axis) : Bool :=
  if a.equal then a.props.isNone
  else match a.props with
    | none => false
    | some ps => ((ps.length : Int) == a.coarse) &&
        (List.range a.coarse.toNat).all fun c =>
          match ps[c]? with
          | none => false
          | some p => (a.ratio c == .ok (p.length : Int)) && p.all (fun x => decide (x > 0)) &&
              decide ((p.sum - 1).abs < (1 : Rat) / 1000000)

/-- fine_coarse.py:67-100 `assert_valid`, true when no assertion fails -/
def FC.valid (s : FC) : Bool :=
  extentsValid (fun a => (s.ax a).fine) (fun a => (s.ax a).coarse) &&
  [0, 1, 2].all fun a => (s.ax a).ratiosValid && (s.ax a).propsValid

/-- The calls a user can make on the object (models no lines of its own). -/
inductive Op where
  | setConst (a : Fin 3)
  | setVec (a : Fin 3) (v : List Int)
  | setEqual (a : Fin 3)
  | setProps (a : Fin 3) (vs : List (List Rat))
  | lookup (a : Fin 3) (f0 : Int)

/-- effect of a setter on one axis, for `step` -/
def setAxis (s : FC) (a : Fin 3) (r : Res Axis) : FC × Res (Option Int) :=
  match r with
  | .error e => (s, .error e)
  | .ok a' => ({ s with ax := upd s.ax a a' }, .ok none)

/-- one call; only `lookup` has a result (models no lines of its own) -/
def step (s : FC) : Op → FC × Res (Option Int)
  | .setConst a => setAxis s a (s.ax a).setConst
  | .setVec a v => setAxis s a ((s.ax a).setVec v)
  | .setEqual a => setAxis s a (.ok (s.ax a).setEqual)
  | .setProps a vs => setAxis s a ((s.ax a).setProps vs)
  | .lookup a f0 => coarseForFineAxial s a f0

/-- the state after a history of calls (exceptions caught by the caller) -/
def run (s : FC) : List Op → FC
  | [] => s
  | o :: os => run (step s o).1 os

end Verif.FineCoarse
