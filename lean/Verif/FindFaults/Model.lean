import Verif.Py.Basic
import Mathlib.Algebra.Order.Ring.Rat
import Mathlib.Algebra.Order.Group.Abs
import Mathlib.Data.List.Sort
import Mathlib.Data.List.Dedup

/-! # Model of finding the faults of a grid

Source: resqpy/grid/_faults.py.  `p j i jp ip` is the pillar for a corner of a column (`pillars_for_column`). -/

namespace Verif.FindFaults
open Verif.Py

/-- A face between neighbouring columns: between (j, i) and (j + 1, i), or between (j, i) and (j, i + 1); for `findFaults` (_faults.py:41-42) -/
inductive Face where
  | j (j i : Nat)
  | i (j i : Nat)
deriving DecidableEq

/-- `pillars_for_column`; for `split` (_faults.py:49-50, 60-61) -/
abbrev Pillars := Nat → Nat → Nat → Nat → Nat

/-- _faults.py:49-50, 60-61: the columns do not share both pillars. -/
def split (p : Pillars) : Face → Bool
  | .j j i => decide (p j i 1 0 ≠ p (j + 1) i 0 0 ∨ p j i 1 1 ≠ p (j + 1) i 0 1)
  | .i j i => decide (p j i 0 1 ≠ p j (i + 1) 0 0 ∨ p j i 1 1 ≠ p j (i + 1) 1 0)

/-- kelp_j and kelp_i together, and last_fault_id; for `number` (_faults.py:41-44) -/
structure Numbers where
  id : Face → Nat
  last : Nat

/-- Assignment to an element; for `numberStep` (_faults.py:52, 55) -/
def setId (id : Face → Nat) (f : Face) (v : Nat) : Face → Nat := fun g => if g = f then v else id g

/-- _faults.py:49-55, 60-66: one face, with the face before it in the row if there is one. -/
def numberStep (p : Pillars) (st : Numbers) (x : Face × Option Face) : Numbers :=
  if split p x.1 then
    if x.2.any fun g => 0 < st.id g then ⟨setId st.id x.1 ((x.2.map st.id).getD 0), st.last⟩
    else ⟨setId st.id x.1 (st.last + 1), st.last + 1⟩
  else st

/-- A row of faces, each with the one before; for `number` (_faults.py:48, 59) -/
def row (mk : Nat → Face) (n : Nat) : List (Face × Option Face) := (List.range n).map fun b => (mk b, if 0 < b then some (mk (b - 1)) else none)

/-- _faults.py:46-66: J faces by rows, then I faces by columns. -/
def number (p : Pillars) (nj ni : Nat) : Numbers :=
  let st := ((List.range (nj - 1)).flatMap fun j => row (fun i => .j j i) ni).foldl (numberStep p) ⟨fun _ => 0, 0⟩
  ((List.range (ni - 1)).flatMap fun i => row (fun j => .i j i) nj).foldl (numberStep p) st

/-- _faults.py:72-79: at a pillar where one J face and one I face meet the number of the I face is replaced everywhere. -/
def mergeStep (id : Face → Nat) (x : Nat × Nat) : Face → Nat :=
  if (decide (id (.j x.1 x.2) ≠ 0) ≠ decide (id (.j x.1 (x.2 + 1)) ≠ 0)) ∧ (decide (id (.i x.1 x.2) ≠ 0) ≠ decide (id (.i (x.1 + 1) x.2) ≠ 0)) then
    let jId := id (.j x.1 x.2) + id (.j x.1 (x.2 + 1))
    let iId := id (.i x.1 x.2) + id (.i (x.1 + 1) x.2)
    if jId = iId then id else fun f => if id f = iId then jId else id f
  else id

/-- _faults.py:68-79; without faces of one kind the loops are empty. -/
def merge (nj ni : Nat) (id : Face → Nat) : Face → Nat :=
  ((List.range (nj - 1)).flatMap fun j => (List.range (ni - 1)).map fun i => (j, i)).foldl mergeStep id

/-- All faces of a grid, for `faultIds` (_faults.py:81-88) -/
def faces (nj ni : Nat) : List Face :=
  ((List.range (nj - 1)).flatMap fun j => (List.range ni).map fun i => Face.j j i) ++ (List.range nj).flatMap fun j => (List.range (ni - 1)).map fun i => Face.i j i

/-- np.unique: the sorted list of distinct values; for `faultIds` (_faults.py:81-82) -/
def unique (l : List Nat) : List Nat := l.dedup.insertionSort (· ≤ ·)

/-- _faults.py:81-82: the first number is taken for that of faces which are not split. -/
def faultIds (nj ni : Nat) (id : Face → Nat) : List Nat := (unique ((faces nj ni).map id)).drop 1

/-- _faults.py:33-90 find_faults: numbers of faces, and the faces for each fault.  The grid has split pillars; earlier results and face sets are left out. -/
def findFaults (p : Pillars) (nj ni : Nat) : (Face → Nat) × List (Nat × List Face) :=
  let id := merge nj ni (number p nj ni).id
  (id, (faultIds nj ni id).map fun n => (n, (faces nj ni).filter fun f => id f = n))

/-- Sum over the corners of a face; for `throwJ` (_faults.py:122, 124) -/
def corners (f : Nat → Nat → ℚ) : ℚ := f 0 0 + f 0 1 + f 1 0 + f 1 1

/-- _faults.py:121-122 fault_throws: J faces; `z k j i kp jp ip` are depths of corner points. -/
def throwJ (id : Face → Nat) (z : Nat → Nat → Nat → Nat → Nat → Nat → ℚ) (k j i : Nat) : ℚ :=
  if id (.j j i) = 0 then 0 else 1 / 4 * corners fun kp ip => z k (j + 1) i kp 0 ip - z k j i kp 1 ip

/-- _faults.py:123-124 fault_throws: I faces; the last column is subtracted from all others. -/
def throwI (ni : Nat) (id : Face → Nat) (z : Nat → Nat → Nat → Nat → Nat → Nat → ℚ) (k j i : Nat) : ℚ :=
  if id (.i j i) = 0 then 0 else 1 / 4 * corners fun kp jp => z k j (i + 1) kp jp 0 - z k j (ni - 1) kp jp 1

/-- The modes of fault_throws_per_edge_per_column (_faults.py:158) -/
inductive Mode where
  | maximum | mean | minimum

/-- np.nanmin over layers, for values without NaN; for `edgeThrow` (_faults.py:187, 189) -/
def least : List ℚ → ℚ
  | [] => 0
  | x :: l => l.foldl min x

/-- np.nanmax over layers; for `edgeThrow` (_faults.py:188, 190) -/
def greatest : List ℚ → ℚ
  | [] => 0
  | x :: l => l.foldl max x

/-- _faults.py:183-200: the throw for an edge from the separations, over layers, at its two pillars. -/
def edgeThrow (mode : Mode) (a b : List ℚ) : ℚ :=
  let mn := (least a + least b) / 2
  let mx := (greatest a + greatest b) / 2
  match mode with
  | .mean => (a.sum + b.sum) / (a.length + b.length)
  | .maximum => if |mn| > |mx| then mn else mx
  | .minimum => if |mn| > |mx| then mx else mn

/-- _faults.py:168-171: separations in z at a pillar of an I edge (`simple_z`); `z k n` is the depth of point k of pillar n. -/
def sepI (p : Pillars) (z : Nat → Nat → ℚ) (nk j i jp : Nat) : List ℚ := (List.range (nk + 1)).map fun k => z k (p j i jp 1) - z k (p j (i + 1) jp 0)

/-- _faults.py:172-173: the same for a J edge -/
def sepJ (p : Pillars) (z : Nat → Nat → ℚ) (nk j i ip : Nat) : List ℚ := (List.range (nk + 1)).map fun k => z k (p j i 1 ip) - z k (p (j + 1) i 0 ip)

/-- _faults.py:203-208: axis 0 is J and axis 1 is I.  For a grid with split coordinate lines and `simple_z`; elsewhere zeros or lengths, left out. -/
def edgeThrows (mode : Mode) (p : Pillars) (z : Nat → Nat → ℚ) (nk nj ni j i axis pol : Nat) : ℚ :=
  if axis = 0 then
    if pol = 0 then (if 0 < j then -edgeThrow mode (sepJ p z nk (j - 1) i 0) (sepJ p z nk (j - 1) i 1) else 0)
    else (if j + 1 < nj then edgeThrow mode (sepJ p z nk j i 0) (sepJ p z nk j i 1) else 0)
  else
    if pol = 0 then (if 0 < i then -edgeThrow mode (sepI p z nk j (i - 1) 0) (sepI p z nk j (i - 1) 1) else 0)
    else (if i + 1 < ni then edgeThrow mode (sepI p z nk j i 0) (sepI p z nk j i 1) else 0)

/-- _faults.py:210-216: edges in the order I-, J+, I+, J- -/
def edgeThrowsResqml (mode : Mode) (p : Pillars) (z : Nat → Nat → ℚ) (nk nj ni j i e : Nat) : ℚ :=
  if e = 0 then (if 0 < i then -edgeThrow mode (sepI p z nk j (i - 1) 0) (sepI p z nk j (i - 1) 1) else 0)
  else if e = 1 then (if j + 1 < nj then edgeThrow mode (sepJ p z nk j i 0) (sepJ p z nk j i 1) else 0)
  else if e = 2 then (if i + 1 < ni then edgeThrow mode (sepI p z nk j i 0) (sepI p z nk j i 1) else 0)
  else (if 0 < j then -edgeThrow mode (sepJ p z nk (j - 1) i 0) (sepJ p z nk (j - 1) i 1) else 0)

end Verif.FindFaults
