import Verif.Py.Basic

/-! # String lookup tables (property/string_lookup.py)

Keys are Python ints; strings are lists of characters. -/

namespace Verif.Lookup
open Verif.Py

/-- for `Table` (string_lookup.py:44-48) -/
abbrev Str := List Char

/-- what the attributes `min_index` and `max_index` can hold; for `Table` (string_lookup.py:44-48) -/
inductive Limit where
  | none
  | int (i : Int)
  | str (s : Str)
deriving DecidableEq

/-- string_lookup.py:44-48 -/
structure Table where
  min : Limit
  max : Limit
  list : List (Option Str)
  dict : Dict Int Str
  asList : Bool

/-- string_lookup.py:44-48, 54-55 with `int_to_str_dict = None` -/
def empty : Table := ⟨.none, .none, [], [], false⟩

/-- for `ofDict` (string_lookup.py:70-79) -/
def minKey : Int → List Int → Int
  | k, [] => k
  | k, k' :: ks => minKey (if k' < k then k' else k) ks

/-- for `ofDict` (string_lookup.py:70-79) -/
def maxKey : Int → List Int → Int
  | k, [] => k
  | k, k' :: ks => maxKey (if k < k' then k' else k) ks

/-- string_lookup.py:99-110 `set_list_from_dict_conditionally`, when both limits are integers.
(`10 * len // max` is only evaluated for `max` of at least 50.) -/
def setList (t : Table) (lo hi : Int) : Table :=
  if 0 ≤ lo ∧ (hi < 50 ∨ (10 * (t.dict.length : Int)) / hi > 8) then
    ⟨t.min, t.max, (List.range (hi.toNat + 1)).map fun (k : Nat) => t.dict.get? (k : Int), t.dict, true⟩
  else ⟨t.min, t.max, [], t.dict, false⟩

/-- string_lookup.py:70-79 `load_from_dict` for a dictionary; the empty one fails the assertion -/
def ofDict (d : Dict Int Str) : Res Table :=
  match d with
  | [] => .error .assertion
  | (k, _) :: rest =>
    let lo := minKey k (Dict.keys rest)
    let hi := maxKey k (Dict.keys rest)
    .ok (setList ⟨.int lo, .int hi, [], d, false⟩ lo hi)

/-- string_lookup.py:65-66 -/
def lowered (l : Limit) (k : Int) : Limit :=
  match l with
  | .int m => if k < m then .int k else l
  | _ => .int k

/-- string_lookup.py:67-68 -/
def raised (l : Limit) (k : Int) : Limit :=
  match l with
  | .int m => if m < k then .int k else l
  | _ => .int k

/-- one pass of the loop at string_lookup.py:59-68 -/
def loadOne (t : Table) (kv : Int × Str) : Res Table :=
  if t.dict.has kv.1 then .error .assertion
  else
    .ok ⟨lowered t.min kv.1, raised t.max kv.1, t.list, t.dict.set kv.1 kv.2, t.asList⟩

/-- string_lookup.py:57-68 `_load_from_xml`, given the keys and values found in the xml -/
def loadXml : Table → List (Int × Str) → Res Table
  | t, [] => .ok t
  | t, kv :: kvs => match loadOne t kv with
    | .error e => .error e
    | .ok t' => loadXml t' kvs

/-- string_lookup.py:201-213: the keys and values written by `create_xml` -/
def written (t : Table) : List (Int × Str) := t.dict

/-- `value < limit` for a string value; comparing a string with an int raises TypeError; for `setString` (string_lookup.py:112-127) -/
def strBelow (v : Str) : Limit → Res Bool
  | .none => .error .type
  | .int _ => .error .type
  | .str s => .ok (decide (v < s))

/-- string_lookup.py:112-127 `set_string`: the table afterwards, and the exception if one is raised -/
def setString (t : Table) (key : Int) (v : Str) : Table × Option PyErr :=
  let t1 : Table := ⟨t.min, t.max, t.list, t.dict.set key v, t.asList⟩
  -- lines 117-119
  match (if t.min = .none then .ok true else strBelow v t.min : Res Bool) with
  | .error e => (t1, some e)
  | .ok lower =>
    let t2 : Table := if lower then ⟨.str v, t1.max, t1.list, t1.dict, t1.asList⟩ else t1
    -- lines 120-122: `value > self.max_index`
    match (match t2.max with
        | .none => .ok true
        | .str s => .ok (decide (s < v))
        | .int _ => .error .type : Res Bool) with
    | .error e => (t2, some e)
    | .ok upper =>
      let t3 : Table := if upper then ⟨t2.min, .str v, t2.list, t2.dict, t2.asList⟩ else t2
      if t3.asList then
        if lower || upper then
          (t3, some .type)  -- `self.min_index >= 0` with a string
        else if 0 ≤ key ∧ key.toNat < t3.list.length then
          (⟨t3.min, t3.max, t3.list.set key.toNat (some v), t3.dict, true⟩, none)
        else (t3, some .index)  -- simplification: negative keys, which Python counts from the end, raise too
      else (t3, none)

/-- string_lookup.py:129-141 `get_string` for an integer key -/
def getString (t : Table) (key : Int) : Res (Option Str) :=
  match t.min, t.max with
  | .int lo, .int hi =>
    if key < lo ∨ hi < key then .ok none
    else if t.asList then
      match t.list[key.toNat]? with  -- simplification: see above for negative keys
      | some s => .ok s
      | none => .error .index
    else .ok (t.dict.get? key)
  | _, _ => .error .type  -- comparison of an int with None or a string

/-- first position holding a string; for `getIndex` (string_lookup.py:163-180) -/
def indexOf (s : Str) : List (Option Str) → Option Nat
  | [] => none
  | o :: os => if o = some s then some 0 else (indexOf s os).map (· + 1)

/-- first key holding a string; for `getIndex` (string_lookup.py:163-180) -/
def keyOf (s : Str) : Dict Int Str → Option Int
  | [] => none
  | (k, v) :: d => if v = s then some k else keyOf s d

/-- string_lookup.py:163-180 `get_index_for_string` -/
def getIndex (t : Table) (s : Str) : Option Int :=
  if t.asList then (indexOf s t.list).map fun (n : Nat) => (n : Int)
  else keyOf s t.dict

/-- insertion of a pair into a list ordered by key; for `getList` (string_lookup.py:143-151) -/
def insertKey (kv : Int × Str) : List (Int × Str) → List (Int × Str)
  | [] => [kv]
  | kv' :: l => if kv.1 < kv'.1 then kv :: kv' :: l else kv' :: insertKey kv l

/-- `sorted(d.items())` for a dictionary (keys are distinct, so values are never compared); for `getList` (string_lookup.py:143-151) -/
def sortKeys (d : Dict Int Str) : List (Int × Str) := d.foldr insertKey []

/-- string_lookup.py:143-151 `get_list` -/
def getList (t : Table) : List (Option Str) :=
  if t.asList then t.list else (sortKeys t.dict).map fun kv => some kv.2

/-- string_lookup.py:153-161 `length` -/
def length (t : Table) : Nat := if t.asList then t.list.length else t.dict.length

end Verif.Lookup
