import Verif.Py.Basic

/-!
# Python sequence indexing and slicing

`l[i]`, `l[:b]` and `l[a:b] = v` with Python's treatment of negative indices.
-/

namespace Verif.Py

/-- `l[i]`: negative indices count from the end; IndexError outside. -/
def pyGet {α : Type u} (l : List α) (i : Int) : Res α :=
  let j := if i < 0 then i + l.length else i
  if j < 0 then .error .index
  else match l[j.toNat]? with
    | some x => .ok x
    | none => .error .index

/-- a slice bound: negative counts from the end, then clipped below at zero -/
def sliceBound (len : Nat) (i : Int) : Nat := (if i < 0 then i + len else i).toNat

/-- `l[:b]` -/
def pyTake {α : Type u} (l : List α) (b : Int) : List α := l.take (sliceBound l.length b)

/-- `l[a:b]` -/
def pySlice {α : Type u} (l : List α) (a b : Int) : List α :=
  (l.take (sliceBound l.length b)).drop (sliceBound l.length a)

/-- `a[a:b] = v` for a numpy vector and a scalar `v` -/
def pySetSlice {α : Type u} (l : List α) (a b : Int) (v : α) : List α :=
  l.mapIdx fun n x => if sliceBound l.length a ≤ n ∧ n < sliceBound l.length b then v else x

theorem pyGet_nat {α : Type u} (l : List α) (n : Nat) (h : n < l.length) : pyGet l n = .ok l[n] := by
  have h1 : ¬ ((n : Int) < 0) := by omega
  simp [pyGet, h1, h]

theorem pyGet_ok_nat {α : Type u} (l : List α) (i : Int) (x : α) (h0 : 0 ≤ i) :
    pyGet l i = .ok x ↔ l[i.toNat]? = some x := by
  have h1 : ¬ (i < 0) := by omega
  simp only [pyGet, h1, if_false]
  split <;> simp_all

theorem pyGet_err_nat {α : Type u} (l : List α) (i : Int) (h0 : (l.length : Int) ≤ i) :
    pyGet l i = .error .index := by
  have h1 : ¬ (i < 0) := by omega
  have h2 : l[i.toNat]? = none := by simp; omega
  simp [pyGet, h1, h2]

theorem pyTake_nat {α : Type u} (l : List α) (n : Nat) : pyTake l n = l.take n := by
  have h1 : ¬ ((n : Int) < 0) := by omega
  simp [pyTake, sliceBound, h1]

@[simp] theorem pySetSlice_length {α : Type u} (l : List α) (a b : Int) (v : α) :
    (pySetSlice l a b v).length = l.length := by simp [pySetSlice]

theorem pySetSlice_getElem? {α : Type u} (l : List α) (a b : Int) (v : α) (n : Nat)
    (ha : 0 ≤ a) (hb : 0 ≤ b) :
    (pySetSlice l a b v)[n]? =
      if a ≤ n ∧ (n : Int) < b ∧ n < l.length then some v else l[n]? := by
  have h1 : ¬ (a < 0) := by omega
  have h2 : ¬ (b < 0) := by omega
  simp only [pySetSlice, sliceBound, h1, h2, if_false, List.getElem?_mapIdx]
  by_cases hn : n < l.length
  · simp only [List.getElem?_eq_getElem hn, Option.map_some, hn, and_true]
    by_cases hc : a.toNat ≤ n ∧ n < b.toNat
    · rw [if_pos hc, if_pos (by omega)]
    · rw [if_neg hc, if_neg (by omega)]
  · have : l[n]? = none := by simp; omega
    simp [hn]

end Verif.Py
