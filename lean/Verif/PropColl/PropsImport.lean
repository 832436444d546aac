import Verif.PropColl.Import
import Verif.Hdf5.Props
import Verif.Gcs.Model
import Mathlib.Tactic.IntervalCases

/-! # C107–C109: order of faces and edges; writing the imported list; similar properties -/

namespace Verif.PropColl
open Verif.Py

/-- The two arrangements of values at the six faces of cells, in words: the top and base faces, J minus, I plus, J plus
and I minus in the RESQML order are the K minus, K plus, J minus, I plus, J plus and I minus in the logical order. -/
theorem C107_faces_order {α : Type} (a : Arr α) (lead : List Nat) (hs : a.shape = lead ++ [6]) :
    ∃ b, combobulated a = .ok b ∧ b.shape = lead ++ [3, 2] ∧ ∀ l : List Nat,
      b.elem (l ++ [0, 0]) = a.elem (l ++ [0]) ∧ b.elem (l ++ [0, 1]) = a.elem (l ++ [1]) ∧
      b.elem (l ++ [1, 0]) = a.elem (l ++ [2]) ∧ b.elem (l ++ [2, 1]) = a.elem (l ++ [3]) ∧
      b.elem (l ++ [1, 1]) = a.elem (l ++ [4]) ∧ b.elem (l ++ [2, 0]) = a.elem (l ++ [5]) := by
  refine ⟨_, by unfold combobulated; rw [hs]; simp only [List.getLast?_append, List.getLast?_singleton,
    Option.some_or, if_true]; rfl, by simp, ?_⟩
  intro l
  simp [faceOf]

/-- Going to the logical order and back leaves an array as it was, and the same the other way round; the shapes too. -/
theorem C107_faces_round_trip {α : Type} (lead : List Nat) :
    (∀ a : Arr α, a.shape = lead ++ [6] → ∃ b c, combobulated a = .ok b ∧ discombobulated b = .ok c ∧
      c.shape = a.shape ∧ ∀ (l : List Nat) (f : Nat), f < 6 → c.elem (l ++ [f]) = a.elem (l ++ [f])) ∧
    (∀ b : Arr α, b.shape = lead ++ [3, 2] → ∃ a c, discombobulated b = .ok a ∧ combobulated a = .ok c ∧
      c.shape = b.shape ∧ ∀ (l : List Nat) (x p : Nat), x < 3 → p < 2 → c.elem (l ++ [x, p]) = b.elem (l ++ [x, p])) := by
  constructor
  · intro a hs
    have h1 : combobulated a = .ok ⟨lead ++ [3, 2], fun i => match i.reverse with
        | p :: x :: lead => a.elem (lead.reverse ++ [faceOf x p])
        | _ => a.elem i⟩ := by
      unfold combobulated; rw [hs]; simp <;> rfl
    refine ⟨_, _, h1, by unfold discombobulated; simp only [List.reverse_append, List.reverse_cons, List.reverse_nil,
      List.nil_append, List.cons_append]; rfl, by simp [hs], ?_⟩
    intro l f hf
    interval_cases f <;> simp [axisOf, faceOf]
  · intro b hs
    have h1 : discombobulated b = .ok ⟨lead ++ [6], fun i => match i.reverse with
        | f :: l => b.elem (l.reverse ++ [(axisOf f).1, (axisOf f).2])
        | _ => b.elem i⟩ := by
      unfold discombobulated; rw [hs]; simp <;> rfl
    refine ⟨_, _, h1, by unfold combobulated; simp only [List.getLast?_append, List.getLast?_singleton,
      Option.some_or, if_true]; rfl, by simp [hs], ?_⟩
    intro l x p hx hp
    interval_cases x <;> interval_cases p <;> simp [axisOf, faceOf]

/-- Arrays without six faces last, or without three axes and two polarities last, are refused. -/
theorem C107_faces_refused {α : Type} (a : Arr α) :
    ((∃ n, a.shape.getLast? = some n ∧ n ≠ 6) → combobulated a = .error .assertion) ∧
    ((¬ ∃ lead, a.shape = lead ++ [3, 2]) → discombobulated a = .error .assertion) := by
  constructor
  · rintro ⟨n, hn, h6⟩
    unfold combobulated
    rw [hn]; simp [h6]
  · intro h
    unfold discombobulated
    split
    · rename_i lead hl
      exfalso
      apply h
      refine ⟨lead.reverse, ?_⟩
      have := congrArg List.reverse hl
      simpa using this
    · rfl

/-- The numbering of faces is the one used by grid connection sets. -/
theorem C107_same_faces : (∀ axis p, faceOf axis p = Gcs.faceIndexMap axis p) ∧ ∀ f, axisOf f = Gcs.faceIndexInverse f := by
  constructor
  · intro axis p
    match axis, p with
    | 0, 0 => rfl
    | 0, _ + 1 => rfl
    | 1, 0 => rfl
    | 1, _ + 1 => rfl
    | _ + 2, 0 => rfl
    | _ + 2, _ + 1 => rfl
  · intro f
    match f with
    | 0 => rfl
    | 1 => rfl
    | 2 => rfl
    | 3 => rfl
    | 4 => rfl
    | _ + 5 => rfl

/-- Edges of columns: the four edges in the RESQML order are the (axis, polarity) pairs (1, 0), (0, 1), (1, 1) and
(0, 0); there and back leaves every element as it was, both ways. -/
theorem C107_edges {α : Type} :
    (∀ (a : Nat → Nat → Nat → Nat → α) (j i : Nat), edgesTo a j i 0 = a j i 1 0 ∧ edgesTo a j i 1 = a j i 0 1 ∧
      edgesTo a j i 2 = a j i 1 1 ∧ edgesTo a j i 3 = a j i 0 0) ∧
    (∀ (a : Nat → Nat → Nat → Nat → α) (j i x p : Nat), x < 2 → p < 2 → edgesFrom (edgesTo a) j i x p = a j i x p) ∧
    (∀ (a : Nat → Nat → Nat → α) (j i e : Nat), e < 4 → edgesTo (edgesFrom a) j i e = a j i e) := by
  refine ⟨fun a j i => ⟨rfl, rfl, rfl, rfl⟩, ?_, ?_⟩
  · intro a j i x p hx hp
    interval_cases x <;> interval_cases p <;> rfl
  · intro a j i e he
    interval_cases e <;> rfl

example : ∃ b c, combobulated ({ shape := [2, 6], elem := fun i => i.sum } : Arr Nat) = .ok b ∧ discombobulated b = .ok c ∧
    b.elem [1, 1, 1] = 5 ∧ c.elem [1, 4] = 5 := ⟨_, _, rfl, rfl, rfl, rfl⟩

/-! ### C108 -/

/-- the dtype for an array alone: packed when it is boolean and packing is asked for -/
def ownType (usePack : Bool) (a : Hdf5.Arr) : Hdf5.RegType := if usePack = true ∧ a.dtype = .bool then .pack else .none

/-- what is written when every array is treated on its own -/
def ownDatasets (conv : Hdf5.Conv) (useInt32 usePack : Bool) (l : List Entry) : List (Option Hdf5.Arr) :=
  l.map fun e => match e with | .const _ => none | .array a => some (Hdf5.store conv useInt32 a (ownType usePack a))

/-- no array that is not boolean comes after one that is -/
def BooleansLast : List Entry → Prop
  | [] => True
  | .const _ :: t => BooleansLast t
  | .array a :: t => (a.dtype = .bool → ∀ b, .array b ∈ t → b.dtype = .bool) ∧ BooleansLast t

theorem write_packed (conv : Hdf5.Conv) (useInt32 : Bool) (shape : List Nat) : ∀ l : List Entry,
    (∀ b, .array b ∈ l → b.dtype = .bool) →
    writeImported conv useInt32 true false shape .pack l = .ok (ownDatasets conv useInt32 true l)
  | [], _ => rfl
  | .const v :: t, h => by
    unfold writeImported
    rw [if_neg (by simp), write_packed conv useInt32 shape t (fun b hb => h b (List.mem_cons_of_mem _ hb))]
    rfl
  | .array a :: t, h => by
    have ha := h a List.mem_cons_self
    unfold writeImported
    simp only [dtypeAfter, if_true]
    rw [write_packed conv useInt32 shape t (fun b hb => h b (List.mem_cons_of_mem _ hb))]
    simp [ownDatasets, ownType, ha]

/-- Without a dtype, and constants left to the xml: each array is written as it would be on its own, as long as packing
is not asked for, or no array that is not boolean follows one that is. -/
theorem C108_written_partial (conv : Hdf5.Conv) (useInt32 usePack : Bool) (shape : List Nat) : ∀ l : List Entry,
    (usePack = true → BooleansLast l) →
    writeImported conv useInt32 usePack false shape .none l = .ok (ownDatasets conv useInt32 usePack l)
  | [], _ => rfl
  | .const v :: t, h => by
    unfold writeImported
    rw [if_neg (by simp), C108_written_partial conv useInt32 usePack shape t h]
    rfl
  | .array a :: t, h => by
    unfold writeImported
    by_cases hp : usePack = true
    · subst hp
      have hb := h rfl
      simp only [dtypeAfter, if_true]
      by_cases ha : a.dtype = .bool
      · simp only [ha, if_true]
        rw [write_packed conv useInt32 shape t (hb.1 ha)]
        simp [ownDatasets, ownType, ha]
      · simp only [ha, if_false]
        rw [C108_written_partial conv useInt32 true shape t (fun _ => hb.2)]
        simp [ownDatasets, ownType, ha]
    · have hf : usePack = false := by simpa using hp
      subst hf
      simp only [dtypeAfter, Bool.false_eq_true, if_false]
      rw [C108_written_partial conv useInt32 false shape t (fun h => by cases h)]
      simp [ownDatasets, ownType]

/-- So each array can be read back, given its shape: boolean arrays always, others when 64 bit integers are kept as
such. -/
theorem C108_read_back_partial (conv : Hdf5.Conv) (hc : Hdf5.Faithful conv) (usePack : Bool) (shape : List Nat)
    (l : List Entry) (hl : usePack = true → BooleansLast l) (i : Nat) (a : Hdf5.Arr) (hi : l[i]? = some (.array a))
    (ha : Hdf5.Proper a) (hsh : a.shape ≠ []) :
    ∃ ds h b, writeImported conv false usePack false shape .none l = .ok ds ∧ ds[i]? = some (some h) ∧
      Hdf5.readArray conv h a.dtype (some a.shape) = .ok b ∧ Hdf5.SameValues b a := by
  refine ⟨ownDatasets conv false usePack l, Hdf5.store conv false a (ownType usePack a), ?_⟩
  have hw := C108_written_partial conv false usePack shape l hl
  have hget : (ownDatasets conv false usePack l)[i]? = some (some (Hdf5.store conv false a (ownType usePack a))) := by
    unfold ownDatasets
    rw [List.getElem?_map, hi]; rfl
  unfold ownType at *
  by_cases hb : usePack = true ∧ a.dtype = .bool
  · rw [if_pos hb]
    obtain ⟨b, h1, h2⟩ := Hdf5.C17_packed_roundtrip conv hc false a ha hb.2 hsh
    rw [if_pos hb] at hget
    exact ⟨b, hw, hget, by rw [hb.2]; exact h1, h2⟩
  · rw [if_neg hb]
    obtain ⟨b, h1, -, h2⟩ := Hdf5.C16_full_storage conv hc a ha false .none (Or.inr ⟨rfl, Or.inl rfl⟩)
    rw [if_neg hb] at hget
    refine ⟨b, hw, hget, ?_, h2⟩
    have hshape : (Hdf5.store conv false a .none).shape = a.shape := rfl
    simp only [Hdf5.readArray, Option.getD_none, if_true] at h1
    simp only [Hdf5.readArray, Option.getD_some, hshape, if_true]
    exact h1

/-- Packing, once started, goes on: an integer array added after a boolean one is packed to bits as well, and cannot be
read back. -/
theorem C108_packing_violated (conv : Hdf5.Conv) : ∃ (b a : Hdf5.Arr) (h : List (Option Hdf5.Arr)) (d : Hdf5.Arr),
    b.dtype = .bool ∧ a.dtype = .int32 ∧ Hdf5.Proper a ∧
    writeImported conv true true false [9] .none [.array b, .array a] = .ok h ∧ h[1]? = some (some d) ∧
    d.shape = [2] ∧ Hdf5.readArray conv d .int32 (some a.shape) = .error .value := by
  refine ⟨⟨.bool, [9], fun _ => 1⟩, ⟨.int32, [9], fun k => k⟩, _, _, rfl, rfl, ?_, rfl, rfl, rfl, rfl⟩
  intro k hk
  have : k < 9 := by simpa [Hdf5.size] using hk
  simp only [Hdf5.Holds]
  omega

/-- and a constant array to be written in full after a boolean array raises a TypeError -/
theorem C108_constant_violated (conv : Hdf5.Conv) :
    writeImported conv true true true [9] .none [.array ⟨.bool, [9], fun _ => 1⟩, .const 3] = .error .type ∧
    ∃ h, writeImported conv true true true [9] .none [.const 3, .array ⟨.bool, [9], fun _ => 1⟩] = .ok h :=
  ⟨rfl, _, rfl⟩

/-- A part written by itself does not suffer from that. -/
theorem C108_part (conv : Hdf5.Conv) (usePack : Bool) (e : Entry) :
    ownDatasets conv true usePack [e] = [writePart conv usePack e] := by
  cases e with
  | const v => rfl
  | array a =>
    cases usePack <;> simp [ownDatasets, ownType, writePart]

example : BooleansLast [.array ⟨.int32, [2], fun _ => 4⟩, .const 3, .array ⟨.bool, [9], fun _ => 1⟩] := by
  refine ⟨by simp, ⟨?_, trivial⟩⟩
  intro _ b hb
  cases hb

/-! ### C109 -/

/-- the value a field should have: the one given, none if 'none' is given, else that of the similar property -/
def Inherits {α : Type} (given : Given α) (similar result : Option α) : Prop :=
  match given with
  | .omitted => result = similar
  | .noneText => result = none
  | .val v => result = some v

theorem getArg_inherits {α : Type} (g : Given α) (s : Option α) : Inherits g s (getArg g s) := by
  cases g <;> rfl

/-- All metadata but the string lookup and the discrete flag is as given or else as for the similar property. -/
theorem C109_metadata_partial (hasArray hasConst : Bool) (keyword : Given Str) (discrete : Given Bool) (g : Meta Given)
    (continuous : Bool) (s r : Meta Option) (d : Bool) (h : addSimilar hasArray hasConst keyword discrete g continuous s = .ok (r, d)) :
    (∃ t, r.title = some t ∧ (keyword = .omitted → Inherits g.title s.title r.title) ∧
      (∀ k, keyword = .val k → t = k)) ∧
    Inherits g.uom s.uom r.uom ∧ Inherits g.timeIndex s.timeIndex r.timeIndex ∧
    Inherits g.nullValue s.nullValue r.nullValue ∧ Inherits g.kind s.kind r.kind ∧
    Inherits g.localKind s.localKind r.localKind ∧ Inherits g.facetType s.facetType r.facetType ∧
    Inherits g.facet s.facet r.facet ∧ Inherits g.realization s.realization r.realization ∧
    Inherits g.indexable s.indexable r.indexable ∧ Inherits g.count s.count r.count ∧
    Inherits g.points s.points r.points ∧ Inherits g.timeSeries s.timeSeries r.timeSeries ∧
    Inherits g.source s.source r.source ∧
    (g.timeSeries = .omitted → r.stringLookup = s.stringLookup) ∧
    (g.uom = .omitted → d = !continuous) := by
  unfold addSimilar at h
  split at h
  · cases h
  · simp only at h
    split at h
    · cases h
    · rename_i ht
      split at h
      · cases h
      · split at h
        · cases h
        · cases h
        · simp only [Except.ok.injEq, Prod.mk.injEq] at h
          obtain ⟨rfl, rfl⟩ := h
          refine ⟨?_, getArg_inherits _ _, getArg_inherits _ _, getArg_inherits _ _, getArg_inherits _ _,
            getArg_inherits _ _, getArg_inherits _ _, getArg_inherits _ _, getArg_inherits _ _, getArg_inherits _ _,
            getArg_inherits _ _, getArg_inherits _ _, getArg_inherits _ _, getArg_inherits _ _, ?_, ?_⟩
          · obtain ⟨t, ht⟩ := Option.ne_none_iff_exists'.mp ht
            refine ⟨t, ht, ?_, ?_⟩
            · intro hk
              have := getArg_inherits g.title s.title
              simpa [similarArgs, hk, getArg] using this
            · intro k hk
              simp only [similarArgs, hk, getArg, Option.some.injEq] at ht
              exact ht.symm
          · intro hts
            simp [similarArgs, hts, getArg]
          · intro hu
            simp [similarArgs, hu, Flag.truth]

/-- the arguments, all left out -/
def noArgs : Meta Given :=
  { title := .omitted, uom := .omitted, timeIndex := .omitted, nullValue := .omitted, kind := .omitted, localKind := .omitted, facetType := .omitted, facet := .omitted, realization := .omitted, indexable := .omitted, count := .omitted, points := .omitted, timeSeries := .omitted, stringLookup := .omitted, source := .omitted }

/-- a porosity -/
def exMeta : Meta Option :=
  { title := some ['p'], uom := some ['%'], timeIndex := none, nullValue := none, kind := some ['p'], localKind := none, facetType := none, facet := none, realization := none, indexable := some ['c'], count := some 1, points := some false, timeSeries := none, stringLookup := none, source := none }

/-- The argument for discrete has no effect whatever, and a unit given for a property similar to a continuous one makes
it discrete. -/
theorem C109_discrete_violated :
    (∀ (a c : Bool) (k : Given Str) (d d' : Given Bool) (g : Meta Given) (ct : Bool) (s : Meta Option),
      addSimilar a c k d g ct s = addSimilar a c k d' g ct s) ∧
    (∃ r, addSimilar true false .omitted (.val true) noArgs true exMeta = .ok (r, false)) ∧
    (∃ r, addSimilar true false .omitted .omitted { noArgs with uom := .val ['f'] } true exMeta = .ok (r, true)) :=
  ⟨fun _ _ _ _ _ _ _ _ => rfl, ⟨_, rfl⟩, ⟨_, rfl⟩⟩

/-- The string lookup given is not used, and the time series given takes its place. -/
theorem C109_lookup_violated :
    (∃ r, addSimilar true false .omitted .omitted { noArgs with stringLookup := .val 7 } false exMeta = .ok (r, true) ∧
      r.stringLookup = none) ∧
    (∃ r, addSimilar true false .omitted .omitted { noArgs with timeSeries := .val 5 } false exMeta = .ok (r, true) ∧
      r.stringLookup = some 5) :=
  ⟨⟨_, rfl, rfl⟩, ⟨_, rfl, rfl⟩⟩

example : ∃ r, addSimilar true false (.val ['q']) .omitted { noArgs with realization := .val 3, uom := .noneText } true exMeta
    = .ok (r, false) ∧ r.realization = some 3 ∧ r.uom = none ∧ r.title = some ['q'] ∧ r.indexable = some ['c'] :=
  ⟨_, rfl, rfl, rfl, rfl, rfl⟩

end Verif.PropColl
