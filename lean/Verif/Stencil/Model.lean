import Verif.Py.Basic
import Mathlib.Algebra.Order.Field.Basic

/-! # Model of `resqpy/surface/_tri_mesh_stencil.py`

Numbers are the elements of any ordered field; NaN is `none`.  Arrays of z values are functions of their indices. -/

namespace Verif.Stencil
open Verif.Py

variable {K : Type*} [Field K] [LinearOrder K]

/-! ## Making a stencil -/

/-- _tri_mesh_stencil.py:65-67: the sum of the stencil -/
def hexTotal (p : List K) : K := (List.range (p.length - 1)).foldl (fun t k => t + 6 * ((k + 1 : ℕ) : K) * p.getD (k + 1) 0) (p.getD 0 0)

/-- _tri_mesh_stencil.py:62-75: normalization.  `maths.isclose(t, 0.0)` holds for nought only. -/
def normalized (p : List K) (normalize : Option K) (flat : Bool) : Res (List K) :=
  match normalize with
  | none => .ok p
  | some v =>
    if v = 0 then .error .assertion
    else if flat then
      let t := hexTotal p
      if t = 0 then .error .assertion else .ok (p.map fun x => x * (v / t))
    else
      let t := p.sum
      if t = 0 then .error .assertion
      else .ok ((p.map fun x => x * (v / t)).mapIdx fun i x => if i = 0 then x else x / ((6 * i : ℕ) : K))

/-- _tri_mesh_stencil.py:53-77: the pattern of a new stencil -/
def newPattern (pattern : List (Option K)) (normalize : Option K) (flat : Bool) : Res (List K) :=
  if ¬ pattern.length > 1 then .error .assertion
  else if pattern.any Option.isNone then .error .assertion
  else normalized (pattern.map fun x => x.getD 0) normalize flat

/-- _tri_mesh_stencil.py:81, 85: the length of a row of half the stencil -/
def rowLength (n jp : ℕ) : ℕ := 2 * n - 1 - jp

/-- _tri_mesh_stencil.py:82, 84: where a row starts -/
def startIp (n jp : ℕ) : ℤ := -((n : ℤ) - 1) + ((jp / 2 : ℕ) : ℤ)

/-- `row[-len(sub):] = sub`, _tri_mesh_stencil.py:90 -/
def setLast (row sub : List K) : List K := row.take (row.length - sub.length) ++ sub

/-- `row[:len(sub)] = sub`, _tri_mesh_stencil.py:91 -/
def setFirst (row sub : List K) : List K := sub ++ row.drop sub.length

/-- _tri_mesh_stencil.py:79-92: the values of a row -/
def rowV (p : List K) (jp : ℕ) : List K :=
  if jp = 0 then (p.drop 1).reverse ++ p
  else
    let row := List.replicate (rowLength p.length jp) (p.getD jp 0)
    if jp < p.length - 1 then
      let sub := p.drop (jp + 1)
      setFirst (setLast row sub) sub.reverse
    else row

/-! ## Patterns -/

/-- _tri_mesh_stencil.py:114-116 for_constant_normalized; `for_constant_unnormalized`, _tri_mesh_stencil.py:132-134, is the same but for the
value and the normalization -/
def constantPattern (n : ℕ) (c : K) : Res (List (Option K)) := if ¬ n > 1 then .error .assertion else .ok (List.replicate n (some c))

/-- _tri_mesh_stencil.py:149-150 for_linear_normalized -/
def linearPattern (n : ℕ) : Res (List (Option K)) :=
  if ¬ n > 1 then .error .assertion else .ok ((List.range n).map fun (k : ℕ) => some ((k + 1 : ℕ) : K)).reverse

/-- _tri_mesh_stencil.py:167-168 for_linear_unnormalized -/
def linearBetween (n : ℕ) (centre outer : K) : Res (List (Option K)) :=
  if ¬ n > 1 then .error .assertion
  else .ok ((List.range n).map fun (k : ℕ) => some ((k : K) * (centre - outer) / ((n - 1 : ℕ) : K) + outer)).reverse

/-! ## Applying it -/

/-- The values of an array at the node which the indices name, a negative index counting from the end; for `simpleAt`
(_tri_mesh_stencil.py:309-331). -/
def pyAt {V : Type*} (nj ni : ℕ) (f : ℕ → ℕ → V) (j i : ℤ) : Res V :=
  let j := if j < 0 then j + nj else j
  let i := if i < 0 then i + ni else i
  if 0 ≤ j ∧ j < nj ∧ 0 ≤ i ∧ i < ni then .ok (f j.toNat i.toNat) else .error .index

/-- _tri_mesh_stencil.py:316-330: the nodes visited for one node, with the values of the stencil, in order -/
def visits (p : List K) (j i : ℤ) : List ((ℤ × ℤ) × Option K) :=
  (List.range p.length).flatMap fun (jp : ℕ) => (List.range (rowLength p.length jp)).flatMap fun (ip : ℕ) =>
    let jsOdd := ((jp % 2 : ℕ) : ℤ) * (j % 2)
    let iS := i + startIp p.length jp + (ip : ℤ) + jsOdd
    let s := (rowV p jp)[ip]?
    ((j - (jp : ℤ), iS), s) :: if jp ≠ 0 then [((j + (jp : ℤ), iS), s)] else []

/-- Addition where NaN stays NaN; for `simpleAt` (_tri_mesh_stencil.py:309-331). -/
def addN : Option K → Option K → Option K
  | some a, some b => some (a + b)
  | _, _ => none

/-- Multiplication where NaN stays NaN; for `simpleAt` (_tri_mesh_stencil.py:309-331). -/
def mulN : Option K → Option K → Option K
  | some a, some b => some (a * b)
  | _, _ => none

/-- _tri_mesh_stencil.py:315-331 _apply_stencil_simple: at one node -/
def simpleAt (look : ℤ → ℤ → Res (Option K)) (a : Option K) : List ((ℤ × ℤ) × Option K) → Res (Option K)
  | [] => .ok a
  | (b, s) :: rest =>
    match look b.1 b.2 with
    | .error e => .error e
    | .ok v => simpleAt look (addN a (mulN v s)) rest

/-- _tri_mesh_stencil.py:341-361 _apply_stencil_nanmean: at one node -/
def nanmeanAt (look : ℤ → ℤ → Res (Option K)) (a ws : Option K) : List ((ℤ × ℤ) × Option K) → Res (Option K)
  | [] =>
    match a, ws with
    | some x, some w => .ok (if w ≠ 0 then some (x / w) else none)
    | _, _ => .ok none
  | (b, s) :: rest =>
    match look b.1 b.2 with
    | .error e => .error e
    | .ok none => nanmeanAt look a ws rest
    | .ok (some v) => nanmeanAt look (addN a (mulN (some v) s)) (addN ws s) rest

/-- _tri_mesh_stencil.py:240-242 apply: the width of the border -/
def borderOf (n : ℕ) : ℕ := if n % 2 = 1 then n + 1 else n

/-- _tri_mesh_stencil.py:245, 252 apply: the values with a border around them -/
def bordered (border nj ni : ℕ) (borderValue : Option K) (z : ℕ → ℕ → Option K) (j i : ℕ) : Option K :=
  if border ≤ j ∧ j < border + nj ∧ border ≤ i ∧ i < border + ni then z (j - border) (i - border) else borderValue

/-- The attributes of a mesh: _tri_mesh.py:91-107; `z` is what `full_array_ref` has for z. -/
structure TM (K : Type*) where
  t : K
  nj : ℕ
  ni : ℕ
  origin : Option (K × K × K)
  zUom : Option String
  title : Option String
  role : String
  crs : ℕ
  z : ℕ → ℕ → Option K

/-- _tri_mesh.py:69-107 __init__, without a uuid, with z values of the right shape and an origin without NaN -/
def newTM (t : K) (nj ni : ℕ) (origin : Option (K × K × K)) (zUom title : Option String) (role : String) (crs : ℕ)
    (z : ℕ → ℕ → Option K) : Res (TM K) :=
  if ¬ 0 < t then .error .assertion
  else if ¬ (nj > 1 ∧ ni > 1) then .error .assertion
  else
    .ok ⟨t, nj, ni, origin.map fun o => (o.1, o.2.1, 0), zUom, title, role, crs,
      fun j i => (z j i).map fun v => v + (origin.map fun o => o.2.2).getD 0⟩

/-- _tri_mesh_stencil.py:255-260 apply: the new value at one node -/
def appliedAt (p : List K) (m : TM K) (handleNan : Bool) (borderValue : Option K) (j i : ℕ) : Res (Option K) :=
  let border := borderOf p.length
  let look := pyAt (m.nj + 2 * border) (m.ni + 2 * border) (bordered border m.nj m.ni borderValue m.z)
  let vs := visits p (j + border : ℕ) (i + border : ℕ)
  if handleNan then nanmeanAt look (some 0) (some 0) vs else simpleAt look (some 0) vs

/-- _tri_mesh_stencil.py:213-279 apply -/
def apply (p : List K) (m : TM K) (handleNan : Bool) (borderValue : Option K) (preserveNan : Bool) (title : Option String) : Res (TM K) :=
  if ¬ ((List.range m.nj).all fun j => (List.range m.ni).all fun i => (appliedAt p m handleNan borderValue j i).toBool) then .error .index
  else
    newTM m.t m.nj m.ni m.origin m.zUom title m.role m.crs fun j i =>
      if preserveNan ∧ (m.z j i).isNone then none
      else match appliedAt p m handleNan borderValue j i with
        | .ok v => v
        | .error _ => none

end Verif.Stencil
