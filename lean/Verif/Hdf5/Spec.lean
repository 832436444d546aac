import Verif.Hdf5.Model

/-! # What storage should preserve -/

namespace Verif.Hdf5

/-- the values an element type can hold -/
def Holds : DType → Int → Prop
  | .bool, v => v = 0 ∨ v = 1
  | .uint8, v => 0 ≤ v ∧ v ≤ 255
  | .int32, v => -2147483648 ≤ v ∧ v ≤ 2147483647
  | .int64, v => -9223372036854775808 ≤ v ∧ v ≤ 9223372036854775807

/-- What is assumed of conversions: the result is a value of the target type; a value which the target type
holds is unchanged; conversion to boolean is the test for non-zero.  (Whether values out of range wrap
around, as with numpy, or saturate, as with hdf5, is left open.) -/
structure Faithful (conv : Conv) : Prop where
  holds : ∀ d d' v, Holds d v → Holds d' (conv d d' v)
  same : ∀ d d' v, Holds d v → Holds d' v → conv d d' v = v
  bool : ∀ d v, conv d .bool v = if v = 0 then 0 else 1

/-- The array is one that can exist: its elements are values of its type. -/
def Proper (a : Arr) : Prop := ∀ k, k < size a.shape → Holds a.dtype (a.flat k)

/-- Two arrays have the same shape and the same elements. -/
def SameValues (a b : Arr) : Prop := a.shape = b.shape ∧ ∀ k, k < size a.shape → a.flat k = b.flat k

/-- A position in an array of the given shape. -/
def ValidIndex : List Nat → List Nat → Prop
  | [], [] => True
  | i :: is, d :: ds => i < d ∧ ValidIndex is ds
  | _, _ => False

/-- Row-major position of an element. -/
def position : List Nat → List Nat → Nat
  | i :: is, _ :: ds => i * ds.prod + position is ds
  | _, _ => 0

/-- The element at an index. -/
def Arr.at (a : Arr) (index : List Nat) : Int := a.flat (position index a.shape)

/-- `a.reshape(shape)`: the same elements in the same row-major order. -/
def reshape (a : Arr) (shape : List Nat) : Arr := ⟨a.dtype, shape, a.flat⟩

end Verif.Hdf5
