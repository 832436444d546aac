import Verif.Py.Basic

/-! # Storing arrays in hdf5 and reading them back (olio/write_hdf5.py, model/_hdf5.py)

An array is a shape and its elements in row-major order, as a function of the position of the element.
Only integer and boolean element types are modelled.  The conversion of values to a narrower element type
(numpy's `astype`, and the conversion made by hdf5 when writing or reading) is a parameter: all that is
assumed of it is in `Hdf5.Spec`. -/

namespace Verif.Hdf5
open Verif.Py

/-- element types; for `register` (write_hdf5.py:103-109) -/
inductive DType where
  | bool | uint8 | int32 | int64
deriving DecidableEq, Repr

/-- a numpy array or hdf5 dataset -/
structure Arr where
  dtype : DType
  shape : List Nat
  flat : Nat → Int

/-- number of elements; for `readArray` (_hdf5.py:228-243) -/
def size (shape : List Nat) : Nat := shape.prod

/-- extent of the last axis; for `readArray` (_hdf5.py:228-243) -/
def lastDim (shape : List Nat) : Nat := shape.getLastD 0

/-- conversion of elements to another element type; for `register` (write_hdf5.py:103-109) -/
abbrev Conv := DType → DType → Int → Int

/-- `a.astype(dtype)`; for `register` (write_hdf5.py:103-109) -/
def astype (conv : Conv) (d : DType) (a : Arr) : Arr := ⟨d, a.shape, fun k => conv a.dtype d (a.flat k)⟩

/-- the bit a boolean array contributes at place `t` of a byte; for `register` (write_hdf5.py:103-109) -/
def bit (b : Bool) (t : Nat) : Nat := if b then 2 ^ (7 - t) else 0

/-- one byte of `np.packbits`: eight consecutive elements, the first in the most significant place, padded
with zeros after the last element; for `register` (write_hdf5.py:103-109) -/
def packByte (f : Nat → Bool) : Nat :=
  bit (f 0) 0 + bit (f 1) 1 + bit (f 2) 2 + bit (f 3) 3 + bit (f 4) 4 + bit (f 5) 5 + bit (f 6) 6 + bit (f 7) 7

/-- `np.packbits(a, axis = -1)` -/
def packbits (a : Arr) : Arr :=
  let n := lastDim a.shape
  let s := (n + 7) / 8
  ⟨.uint8, a.shape.dropLast ++ [s], fun k =>
    packByte fun t => decide (8 * (k % s) + t < n) && decide (a.flat (k / s * n + (8 * (k % s) + t)) ≠ 0)⟩

/-- `np.unpackbits(a, axis = -1).astype(bool)[..., :n]` -/
def unpackbits (a : Arr) (n : Nat) : Arr :=
  let s := lastDim a.shape
  ⟨.bool, a.shape.dropLast ++ [n], fun k =>
    (a.flat (k / n * s + k % n / 8) / 2 ^ (7 - k % n % 8)) % 2⟩

/-- the dtype argument of `register_dataset`; for `register` (write_hdf5.py:103-109) -/
inductive RegType where
  | none
  | pack
  | as (d : DType)

/-- write_hdf5.py:103-109: the array kept by `register_dataset`, and the dtype kept beside it -/
def register (conv : Conv) (a : Arr) : RegType → Arr × Option DType
  | .pack => (packbits a, some .uint8)
  | .as d => (astype conv d a, some d)
  | .none => (a, Option.none)

/-- write_hdf5.py:162-167: the type of the dataset written; `write_bool_as_uint8` is True -/
def storedType (useInt32 : Bool) (a : Arr) (d : Option DType) : DType :=
  let d := match d with
    | some d => d
    | none => if useInt32 && (a.dtype == .int64) then .int32 else a.dtype
  if d = .bool then .uint8 else d

/-- write_hdf5.py:103-109, 162-170: registering an array and writing it -/
def store (conv : Conv) (useInt32 : Bool) (a : Arr) (r : RegType) : Arr :=
  let (b, d) := register conv a r
  astype conv (storedType useInt32 b d) b

/-- _hdf5.py:228-243: reading a whole dataset into an array of type `d` and shape `required`; `none` is the
shape of the dataset.  The values of a dataset are converted to the type of the array, and unpacked bits
that do not fit the array's shape raise ValueError, as does a reshape to a different number of elements. -/
def readArray (conv : Conv) (h : Arr) (d : DType) (required : Option (List Nat)) : Res Arr :=
  let req := required.getD h.shape
  if h.shape = req then .ok (astype conv d h)
  else if h.shape.length = req.length ∧ (d = .bool ∨ d = .uint8) ∧
      8 * ((lastDim h.shape : Int) - 1) < lastDim req ∧ (lastDim req : Int) ≤ 8 * lastDim h.shape then
    let a := unpackbits h (lastDim req)
    if a.shape = req then .ok (astype conv d a) else .error .value
  else if size h.shape = size req then .ok ⟨d, req, fun k => conv h.dtype d (h.flat k)⟩
  else .error .value

/-! ### one element, by an index into a required shape -/

/-- _hdf5.py:193-197: the loop over the axes from last to first, giving the position and the extent -/
def natural : List Nat → List Nat → Nat × Nat
  | i :: is, d :: ds => let r := natural is ds; (r.1 + i * r.2, r.2 * d)
  | _, _ => (0, 1)

/-- _hdf5.py:198-201: `r_extent`, the products of the trailing extents -/
def extents : List Nat → List Nat
  | [] => []
  | [d] => [d]
  | d :: d' :: ds => match extents (d' :: ds) with
    | [] => [d]
    | e :: es => d * e :: e :: es

/-- _hdf5.py:202-205: successive division by the extents of the axes that follow -/
def divide : Nat → List Nat → List Nat
  | _, [] => []
  | n, [_] => [n]
  | n, _ :: e :: es => n / e :: divide (n % e) (e :: es)

/-- _hdf5.py:189-206 `reshaped_index(index, shape_tuple, required_shape)`, called with the required shape as
`shape_tuple` and the shape of the dataset as `required_shape`.  Indices are non negative; both shapes are
tuples; more indices than axes is excluded (numpy would raise). -/
def reshapedIndex (index req stored : List Nat) : Res (List Nat) :=
  let tail := req.length - index.length
  if tail > 0 ∧ req.drop (req.length - tail) ≠ stored.drop (stored.length - tail) then .error .assertion
  else
    let lead := stored.take (stored.length - tail)
    if lead = [] then .error .index
    else .ok (divide (natural index (req.take (req.length - tail))).1 (extents lead))

end Verif.Hdf5
