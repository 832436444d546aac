import Verif.Unstruct.Lemmas
import Mathlib.Data.List.Sort

/-!
# C119: the topology of an unstructured grid
-/

namespace Verif.Unstruct
open Verif.Py

/-- **C119** a row read from a packed array is the row that was packed, for every array of lists (empty rows included), and its count is its
length; a row that is not there is an IndexError -/
theorem C119_rows (a : Jagged) (rows : List (List Nat)) (h : Packs a rows) (n : Nat) :
    (∀ hn : n < rows.length, a.row n = .ok rows[n] ∧ a.count n = .ok (rows[n].length : Int)) ∧
    (rows.length ≤ n → a.row n = .error .index) :=
  ⟨fun hn => ⟨row_packed h hn, count_packed h hn⟩, fun hn => row_outside h hn⟩

/-- the cumulative lengths of rows -/
def cumulative : Nat → List (List Nat) → List Nat
  | _, [] => []
  | s, r :: rs => (s + r.length) :: cumulative (s + r.length) rs

theorem cumulative_length : ∀ (rows : List (List Nat)) (s : Nat), (cumulative s rows).length = rows.length
  | [], _ => rfl
  | r :: rs, s => by simp [cumulative, cumulative_length rs]

theorem cumulative_get : ∀ (rows : List (List Nat)) (s n : Nat) (h : n < (cumulative s rows).length),
    (cumulative s rows)[n] = s + (rows.take (n + 1)).flatten.length
  | [], _, n, h => by simp [cumulative] at h
  | r :: rs, s, 0, h => by simp [cumulative]
  | r :: rs, s, n + 1, h => by
    have := cumulative_get rs (s + r.length) n (by simpa [cumulative] using h)
    simp only [cumulative, List.getElem_cons_succ]
    rw [this]
    simp only [List.take_succ_cons, List.flatten_cons, List.length_append]
    omega

theorem packs_cl {a : Jagged} {rows : List (List Nat)} (h : Packs a rows) : a.cl = cumulative 0 rows := by
  apply List.ext_getElem
  · rw [h.length, cumulative_length]
  · intro n h1 h2
    rw [h.cl n h1, cumulative_get]
    omega

/-- **C119** every array of lists can be packed -/
theorem C119_packable (rows : List (List Nat)) : Packs ⟨rows.flatten, cumulative 0 rows⟩ rows :=
  ⟨rfl, cumulative_length rows 0, fun n h => by rw [cumulative_get]; omega⟩

example : Packs ⟨[5, 6, 7, 8, 9, 5], [3, 3, 6]⟩ [[5, 6, 7], [], [8, 9, 5]] := C119_packable [[5, 6, 7], [], [8, 9, 5]]

theorem diffs_cumulative : ∀ (rows : List (List Nat)) (s : Nat), diffs (s :: cumulative s rows) = rows.map fun r => (r.length : Int)
  | [], _ => rfl
  | r :: rs, s => by
    have ih := diffs_cumulative rs (s + r.length)
    simp only [cumulative, diffs, List.map_cons]
    rw [ih]
    congr 1
    push_cast
    omega

theorem foldl_max (l : List Int) : ∀ d : Int, d ≤ l.foldl max d ∧ (∀ x ∈ l, x ≤ l.foldl max d) ∧ (l.foldl max d = d ∨ l.foldl max d ∈ l) := by
  induction l with
  | nil => intro d; simp
  | cons y l ih =>
    intro d
    obtain ⟨h1, h2, h3⟩ := ih (max d y)
    simp only [List.foldl_cons]
    refine ⟨le_trans (le_max_left _ _) h1, ?_, ?_⟩
    · intro x hx
      rcases List.mem_cons.mp hx with rfl | hx
      · exact le_trans (le_max_right _ _) h1
      · exact h2 x hx
    · rcases h3 with h3 | h3
      · rcases le_total d y with hd | hd
        · right; rw [h3, max_eq_right hd]; simp
        · left; rw [h3, max_eq_left hd]
      · right; simp [h3]

/-- **C119** (missing: arrays with fewer than two rows, see `C119_max_count_violated`) the largest count reported is the length of a
row, and no row is longer -/
theorem C119_max_count_partial (a : Jagged) (rows : List (List Nat)) (h : Packs a rows) (h2 : 2 ≤ rows.length) :
    ∃ m : Int, a.maxCount = .ok m ∧ (∃ r ∈ rows, (r.length : Int) = m) ∧ ∀ r ∈ rows, (r.length : Int) ≤ m := by
  have hc := packs_cl h
  match rows, h2 with
  | r :: q :: rs, _ =>
    have hcl : a.cl = r.length :: cumulative r.length (q :: rs) := by rw [hc]; simp [cumulative]
    have hd := diffs_cumulative (q :: rs) r.length
    refine ⟨max (r.length : Int) ((rs.map fun r => (r.length : Int)).foldl max (q.length : Int)), ?_, ?_, ?_⟩
    · unfold Jagged.maxCount
      rw [hcl]
      simp only
      rw [hd]
      rfl
    · obtain ⟨h1, h2, h3⟩ := foldl_max (rs.map fun r => (r.length : Int)) (q.length : Int)
      rcases le_total (r.length : Int) ((rs.map fun r => (r.length : Int)).foldl max (q.length : Int)) with hle | hle
      · rw [max_eq_right hle]
        rcases h3 with h3 | h3
        · exact ⟨q, by simp, h3.symm⟩
        · obtain ⟨x, hx, hx'⟩ := List.mem_map.mp h3
          exact ⟨x, by simp [hx], hx'⟩
      · rw [max_eq_left hle]
        exact ⟨r, by simp, rfl⟩
    · obtain ⟨h1, h2, h3⟩ := foldl_max (rs.map fun r => (r.length : Int)) (q.length : Int)
      intro x hx
      rcases List.mem_cons.mp hx with rfl | hx
      · exact le_max_left _ _
      · rcases List.mem_cons.mp hx with rfl | hx
        · exact le_trans h1 (le_max_right _ _)
        · exact le_trans (h2 _ (List.mem_map.mpr ⟨x, hx, rfl⟩)) (le_max_right _ _)

/-- **C119** for a grid of one cell there is no largest number of faces: ValueError, whatever its faces -/
theorem C119_max_count_violated (a : Jagged) (row : List Nat) (h : Packs a [row]) : a.maxCount = .error .value := by
  have hc := packs_cl h
  unfold Jagged.maxCount
  rw [hc]
  rfl

example : Packs ⟨[0, 1, 2, 3], [4]⟩ [[0, 1, 2, 3]] := C119_packable [[0, 1, 2, 3]]

/-- the grid has given faces for its cells -/
structure HasFaces (g : Grid) (rows : List (List Nat)) : Prop where
  packs : Packs g.facesPerCell rows
  count : g.cellCount = rows.length

/-- **C119** the table of the cells using each face: it is produced exactly when every face of a cell exists and no face is used more than
twice (and, if asked for, every face is used); each face then has its users in order of cell, and nothing where there is none -/
theorem C119_cells_per_face (g : Grid) (rows : List (List Nat)) (h : HasFaces g rows) (check : Bool) (t : Table) :
    (setCellsPerFace g check none).1 = .ok t ↔
      Valid rows g.faceCount nobody ∧ (check = true → ∀ f, f < g.faceCount → users rows nobody f ≠ []) ∧
      IsTable rows g.faceCount nobody t := by
  have hs := scan_spec h.packs nobody g.faceCount
  have hnb : (fun _ => false : Nat → Bool) = nobody := rfl
  unfold setCellsPerFace
  rw [h.count]
  simp only [hnb]
  rcases hsc : scanCells g.facesPerCell nobody (List.range rows.length) (emptyTable g.faceCount) with ⟨t', _ | e⟩
  · rw [hsc] at hs
    have hv := hs.1.mp rfl
    have ht := hs.2 rfl
    have hall : (t'.all fun r => r.1.isSome) = true ↔ ∀ f, f < g.faceCount → users rows nobody f ≠ [] := by
      simp only at ht
      rw [ht]
      simp only [List.all_eq_true, List.mem_map, List.mem_range]
      constructor
      · intro h1 f hf he
        have := h1 _ ⟨f, hf, rfl⟩
        rw [he] at this
        simp at this
      · rintro h1 r ⟨f, hf, rfl⟩
        rcases hu : users rows nobody f with _ | ⟨a, l⟩
        · exact absurd hu (h1 f hf)
        · simp
    simp only
    constructor
    · intro h1
      split_ifs at h1 with hc
      simp only [Except.ok.injEq] at h1
      subst h1
      refine ⟨hv, ?_, ht⟩
      intro hck
      rw [← hall]
      rw [hck, Bool.true_and, Bool.not_eq_true, Bool.not_eq_false'] at hc
      exact hc
    · rintro ⟨_, h2, h3⟩
      have hc : (check && !(t'.all fun r => r.1.isSome)) = false := by
        cases check with
        | false => rfl
        | true =>
          rw [hall.mpr (h2 rfl)]; rfl
      rw [hc]
      simp only [Bool.false_eq_true, if_false, Except.ok.injEq]
      unfold IsTable at ht h3
      rw [h3]; exact ht
  · rw [hsc] at hs
    simp only
    constructor
    · intro h1; simp at h1
    · rintro ⟨h1, _⟩
      have := hs.1.mpr h1
      simp at this

/-- a grid of two tetrahedra sharing face 3 -/
def twoTetra : Grid := ⟨2, 7, ⟨[0, 1, 2, 3, 3, 4, 5, 6], [4, 8]⟩, ⟨[], []⟩⟩

theorem twoTetra_faces : HasFaces twoTetra [[0, 1, 2, 3], [3, 4, 5, 6]] := ⟨C119_packable [[0, 1, 2, 3], [3, 4, 5, 6]], rfl⟩

example : (setCellsPerFace twoTetra true none).1 = .ok [(some 0, none), (some 0, none), (some 0, none), (some 0, some 1),
    (some 1, none), (some 1, none), (some 1, none)] := by decide

/-- **C119** the same for the cells not left out, without the check -/
theorem C119_masked_cells_per_face (g : Grid) (rows : List (List Nat)) (h : HasFaces g rows) (leftOut : Nat → Bool) (t : Table) :
    maskedCellsPerFace g leftOut = .ok t ↔ Valid rows g.faceCount leftOut ∧ IsTable rows g.faceCount leftOut t := by
  have hs := scan_spec h.packs leftOut g.faceCount
  unfold maskedCellsPerFace
  rw [h.count]
  rcases hsc : scanCells g.facesPerCell leftOut (List.range rows.length) (emptyTable g.faceCount) with ⟨t', _ | e⟩
  · rw [hsc] at hs
    have hv := hs.1.mp rfl
    have ht := hs.2 rfl
    simp only [Except.ok.injEq]
    constructor
    · rintro rfl; exact ⟨hv, ht⟩
    · rintro ⟨_, h3⟩
      unfold IsTable at ht h3
      rw [h3]; exact ht
  · rw [hsc] at hs
    simp only
    constructor
    · intro h1; simp at h1
    · rintro ⟨h1, _⟩
      have := hs.1.mpr h1
      simp at this

/-- **C119** (missing: tables cached by a call without the check or by a failed call, see below) the external faces are exactly those used
once, in order -/
theorem C119_external_partial (g : Grid) (rows : List (List Nat)) (h : HasFaces g rows) (l : List Nat) :
    (externalFaces g none).1 = .ok l ↔
      Valid rows g.faceCount nobody ∧ (∀ f, f < g.faceCount → users rows nobody f ≠ []) ∧
      l = (List.range g.faceCount).filter fun f => (users rows nobody f).length = 1 := by
  have hk := fun t => C119_cells_per_face g rows h true t
  have key : ∀ t, (setCellsPerFace g true none).1 = .ok t →
      whereTable t (fun r => r.2.isNone) = (List.range g.faceCount).filter fun f => (users rows nobody f).length = 1 := by
    intro t ht
    obtain ⟨h1, h2, h3⟩ := (hk t).mp ht
    rw [h3, whereTable_map]
    apply List.filter_congr
    intro f hf
    have hne := h2 rfl f (by simpa using hf)
    rcases hu : users rows nobody f with _ | ⟨a, _ | ⟨b, l⟩⟩
    · exact absurd hu hne
    · simp
    · simp
  unfold externalFaces
  rcases hsc : setCellsPerFace g true none with ⟨e | t, c⟩
  · simp only [reduceCtorEq, false_iff]
    rintro ⟨h1, h2, -⟩
    have := (hk _).mpr ⟨h1, fun _ => h2, rfl⟩
    rw [hsc] at this
    simp at this
  · have ht : (setCellsPerFace g true none).1 = .ok t := by rw [hsc]
    simp only [Except.ok.injEq]
    rw [key t ht]
    have := (hk t).mp ht
    constructor
    · rintro rfl; exact ⟨this.1, this.2.1 rfl, rfl⟩
    · rintro ⟨_, _, rfl⟩; rfl

example : (externalFaces twoTetra none).1 = .ok [0, 1, 2, 4, 5, 6] := by decide

/-- **C119** the external faces of the cells not left out are exactly those used once by them, the internal ones exactly those used twice,
both in order -/
theorem C119_masked_faces (g : Grid) (rows : List (List Nat)) (h : HasFaces g rows) (leftOut : Nat → Bool)
    (hv : Valid rows g.faceCount leftOut) :
    externalFacesMasked g leftOut = .ok ((List.range g.faceCount).filter fun f => (users rows leftOut f).length = 1) ∧
    internalFacesMasked g leftOut = .ok ((List.range g.faceCount).filter fun f => (users rows leftOut f).length = 2) := by
  have hk := (C119_masked_cells_per_face g rows h leftOut _).mpr ⟨hv, rfl⟩
  unfold externalFacesMasked internalFacesMasked
  rw [hk]
  simp only [Except.ok.injEq, whereTable_map]
  constructor
  · apply List.filter_congr
    intro f hf
    rcases users rows leftOut f with _ | ⟨a, _ | ⟨b, l⟩⟩ <;> simp
  · apply List.filter_congr
    intro f hf
    have := hv.2 f (by simpa using hf)
    rcases hu : users rows leftOut f with _ | ⟨a, _ | ⟨b, _ | ⟨c, l⟩⟩⟩
    · simp
    · simp
    · simp
    · rw [hu] at this; simp only [List.length_cons] at this; omega

/-- **C119** a topology that is not valid is refused by both masked listings -/
theorem C119_masked_faces_refused (g : Grid) (rows : List (List Nat)) (h : HasFaces g rows) (leftOut : Nat → Bool)
    (hv : ¬ Valid rows g.faceCount leftOut) :
    (∀ l, externalFacesMasked g leftOut ≠ .ok l) ∧ ∀ l, internalFacesMasked g leftOut ≠ .ok l := by
  have hk := fun t => C119_masked_cells_per_face g rows h leftOut t
  unfold externalFacesMasked internalFacesMasked
  rcases hm : maskedCellsPerFace g leftOut with e | t
  · simp
  · exact absurd ((hk t).mp hm).1 hv

example : externalFacesMasked twoTetra (fun c => c == 0) = .ok [3, 4, 5, 6] := by decide
example : internalFacesMasked twoTetra (fun _ => false) = .ok [3] := by decide

/-- three cells using face 0 -/
def overused : Grid := ⟨3, 1, ⟨[0, 0, 0], [1, 2, 3]⟩, ⟨[], []⟩⟩

/-- **C119** a grid in which three cells use a face is refused, but only once: the second call returns the table as far as it was filled -/
theorem C119_refused_once_violated :
    (setCellsPerFace overused true none).1 = .error .assertion ∧
    (setCellsPerFace overused true (setCellsPerFace overused true none).2).1 = .ok [(some 0, some 1)] := by decide

/-- two faces, the second one not used -/
def unusedFace : Grid := ⟨1, 2, ⟨[0], [1]⟩, ⟨[], []⟩⟩

/-- **C119** after the table was made without the check, a face used by no cell is reported as external (used by only one cell) -/
theorem C119_external_unused_violated :
    (externalFaces unusedFace none).1 = .error .assertion ∧
    (externalFaces unusedFace (setCellsPerFace unusedFace false none).2).1 = .ok [0, 1] ∧ users [[0]] nobody 1 = [] := by decide

/-! ## nodes and edges -/

theorem insertNode_mem (x y : Nat) (l : List Nat) : y ∈ insertNode x l ↔ y = x ∨ y ∈ l := by
  induction l with
  | nil => simp [insertNode]
  | cons z l ih =>
    unfold insertNode
    split_ifs with h1 h2
    · simp
    · subst h2; simp
    · simp only [List.mem_cons, ih]; tauto

theorem insertNode_sorted (x : Nat) (l : List Nat) (h : l.Pairwise (· < ·)) : (insertNode x l).Pairwise (· < ·) := by
  induction l with
  | nil => simp [insertNode]
  | cons z l ih =>
    rw [List.pairwise_cons] at h
    unfold insertNode
    split_ifs with h1 h2
    · rw [List.pairwise_cons]
      refine ⟨?_, List.pairwise_cons.mpr h⟩
      intro a ha
      rcases List.mem_cons.mp ha with rfl | ha
      · exact h1
      · exact lt_trans h1 (h.1 a ha)
    · exact List.pairwise_cons.mpr h
    · rw [List.pairwise_cons]
      refine ⟨?_, ih h.2⟩
      intro a ha
      rcases (insertNode_mem x a l).mp ha with rfl | ha
      · omega
      · exact h.1 a ha

theorem unionNodes_spec (a b : List Nat) : (unionNodes a b).Pairwise (· < ·) ∧ ∀ x, x ∈ unionNodes a b ↔ x ∈ a ∨ x ∈ b := by
  unfold unionNodes
  have : ∀ l : List Nat, (l.foldr insertNode []).Pairwise (· < ·) ∧ ∀ x, x ∈ l.foldr insertNode [] ↔ x ∈ l := by
    intro l
    induction l with
    | nil => simp
    | cons y l ih =>
      refine ⟨insertNode_sorted _ _ ih.1, ?_⟩
      intro x
      simp only [List.foldr_cons, insertNode_mem, ih.2, List.mem_cons]
  obtain ⟨h1, h2⟩ := this (a ++ b)
  exact ⟨h1, fun x => by rw [h2, List.mem_append]⟩

/-- **C119** the distinct nodes of a cell with two faces or more: each node of a face once, in increasing order -/
theorem C119_distinct_nodes (faces : List (List Nat)) (h : 2 ≤ faces.length) :
    ∃ l, distinctNodes faces = .ok l ∧ l.Pairwise (· < ·) ∧ ∀ x, x ∈ l ↔ ∃ f ∈ faces, x ∈ f := by
  match faces, h with
  | f :: g :: fs, _ =>
    refine ⟨_, rfl, ?_⟩
    have key : ∀ (fs : List (List Nat)) (s : List Nat), s.Pairwise (· < ·) →
        (fs.foldl unionNodes s).Pairwise (· < ·) ∧ ∀ x, x ∈ fs.foldl unionNodes s ↔ x ∈ s ∨ ∃ f ∈ fs, x ∈ f := by
      intro fs
      induction fs with
      | nil => intro s hs; simp [hs]
      | cons q fs ih =>
        intro s hs
        obtain ⟨h1, h2⟩ := ih (unionNodes s q) (unionNodes_spec s q).1
        refine ⟨h1, ?_⟩
        intro x
        simp only [List.foldl_cons, h2, (unionNodes_spec s q).2, List.mem_cons, exists_eq_or_imp]
        tauto
    obtain ⟨h1, h2⟩ := key fs (unionNodes f g) (unionNodes_spec f g).1
    refine ⟨h1, ?_⟩
    intro x
    simp only [List.foldl_cons, h2, (unionNodes_spec f g).2, List.mem_cons, exists_eq_or_imp]
    tauto

example : distinctNodes [[3, 1, 2], [1, 0, 2], [3, 2, 0]] = .ok [0, 1, 2, 3] := by decide

theorem getElem_edges (nodes : List Nat) (i : Nat) (hi : i < nodes.length) :
    (edgesForFace nodes)[i]? = some (nodes[(i + nodes.length - 1) % nodes.length]'(Nat.mod_lt _ (by omega)), nodes[i]) := by
  have hne : nodes ≠ [] := by intro h; subst h; simp at hi
  unfold edgesForFace
  rw [List.getLast?_eq_some_getLast hne]
  simp only [List.getElem?_zip_eq_some]
  refine ⟨?_, List.getElem?_eq_getElem hi⟩
  rcases i with _ | i
  · simp only [List.getElem?_cons_zero, Option.some.injEq]
    rw [List.getLast_eq_getElem]
    congr 1
    rw [Nat.mod_eq_of_lt (by omega)]
    omega
  · have hm : (i + 1 + nodes.length - 1) % nodes.length = i := by
      rw [show i + 1 + nodes.length - 1 = i + nodes.length by omega, Nat.add_mod_right, Nat.mod_eq_of_lt (by omega)]
    simp only [List.getElem?_cons_succ, hm]
    rw [List.getElem?_dropLast, if_pos (by omega), List.getElem?_eq_getElem (by omega)]

/-- **C119** the edges of a face join each node to the one before it, the first one to the last: as many as there are nodes, in their
order -/
theorem C119_edges (nodes : List Nat) :
    (edgesForFace nodes).length = nodes.length ∧
    ∀ i, (hi : i < nodes.length) →
      (edgesForFace nodes)[i]? = some (nodes[(i + nodes.length - 1) % nodes.length]'(Nat.mod_lt _ (by omega)), nodes[i]) := by
  refine ⟨?_, getElem_edges nodes⟩
  unfold edgesForFace
  rcases List.eq_nil_or_concat nodes with rfl | ⟨l, x, rfl⟩
  · rfl
  · simp

example : edgesForFace [4, 7, 5] = [(5, 4), (4, 7), (7, 5)] := by decide

theorem ordered_le (e : Nat × Nat) : (ordered e).1 ≤ (ordered e).2 := by
  unfold ordered
  split_ifs with h
  · exact h.le
  · omega

/-- **C119** with nodes ordered within pairs: the same edges in the same places, the lower node first -/
theorem C119_ordered_edges (nodes : List Nat) (i : Nat) (a b : Nat) (h : (edgesForFace nodes)[i]? = some (a, b)) :
    (orderedEdgesForFace nodes)[i]? = some (min a b, max a b) ∧ (orderedEdgesForFace nodes).length = nodes.length := by
  refine ⟨?_, by unfold orderedEdgesForFace; rw [List.length_map, (C119_edges nodes).1]⟩
  unfold orderedEdgesForFace
  rw [List.getElem?_map, h]
  simp only [Option.map_some, Option.some.injEq, ordered]
  split_ifs with hlt
  · rw [min_eq_right hlt.le, max_eq_left hlt.le]
  · rw [min_eq_left (by omega), max_eq_right (by omega)]

theorem mem_edges (nodes : List Nat) (a b : Nat) : (a, b) ∈ edgesForFace nodes ↔ IsEdge nodes a b := by
  constructor
  · intro h
    obtain ⟨i, hi, he⟩ := List.getElem_of_mem h
    have hi' : i < nodes.length := by rw [← (C119_edges nodes).1]; exact hi
    have := getElem_edges nodes i hi'
    rw [List.getElem?_eq_getElem hi, he] at this
    simp only [Option.some.injEq, Prod.mk.injEq] at this
    refine ⟨i, by rw [List.getElem?_eq_getElem hi', this.2], ?_⟩
    rw [List.getElem?_eq_getElem (Nat.mod_lt _ (by omega)), this.1]
  · rintro ⟨i, h1, h2⟩
    have hi : i < nodes.length := by
      by_contra hc
      rw [List.getElem?_eq_none (by omega)] at h1
      simp at h1
    have := getElem_edges nodes i hi
    rw [List.getElem?_eq_getElem hi] at h1
    rw [List.getElem?_eq_getElem (Nat.mod_lt _ (by omega))] at h2
    simp only [Option.some.injEq] at h1 h2
    rw [h1, h2] at this
    exact List.mem_of_getElem? this

theorem appendNew_fold (es : List (Nat × Nat)) : ∀ l : List (Nat × Nat), l.Nodup →
    (es.foldl appendNew l).Nodup ∧ ∀ x, x ∈ es.foldl appendNew l ↔ x ∈ l ∨ ∃ e ∈ es, ordered e = x := by
  induction es with
  | nil => intro l hl; simp [hl]
  | cons e es ih =>
    intro l hl
    have h1 : (appendNew l e).Nodup := by
      unfold appendNew
      split_ifs with h
      · exact hl
      · rw [List.nodup_append]
        refine ⟨hl, by simp, ?_⟩
        intro a ha b hb
        simp only [List.mem_singleton] at hb
        subst hb
        intro hab; subst hab; exact h ha
    have h2 : ∀ x, x ∈ appendNew l e ↔ x ∈ l ∨ ordered e = x := by
      intro x
      unfold appendNew
      split_ifs with h
      · constructor
        · exact Or.inl
        · rintro (h' | rfl)
          · exact h'
          · exact h
      · simp only [List.mem_append, List.mem_singleton]
        constructor
        · rintro (h' | rfl)
          · exact Or.inl h'
          · exact Or.inr rfl
        · rintro (h' | rfl)
          · exact Or.inl h'
          · exact Or.inr rfl
    obtain ⟨h3, h4⟩ := ih _ h1
    refine ⟨h3, ?_⟩
    intro x
    simp only [List.foldl_cons, h4, h2, List.mem_cons, exists_eq_or_imp]
    tauto

/-- **C119** the distinct edges of a cell: no edge twice, the lower node first, and a pair is listed exactly when one of the faces has it as an
edge in one direction or the other -/
theorem C119_distinct_edges (faces : List (List Nat)) :
    (distinctEdges faces).Nodup ∧
    ∀ a b, (a, b) ∈ distinctEdges faces ↔ a ≤ b ∧ ∃ f ∈ faces, IsEdge f a b ∨ IsEdge f b a := by
  obtain ⟨h1, h2⟩ := appendNew_fold (faces.flatMap edgesForFace) [] (by simp)
  refine ⟨h1, ?_⟩
  intro a b
  unfold distinctEdges
  rw [h2]
  simp only [List.not_mem_nil, false_or, List.mem_flatMap]
  constructor
  · rintro ⟨⟨p, q⟩, ⟨f, hf, he⟩, ho⟩
    rw [mem_edges] at he
    have hle := ordered_le (p, q)
    rw [ho] at hle
    refine ⟨hle, f, hf, ?_⟩
    unfold ordered at ho
    simp only at ho
    split_ifs at ho with h
    · simp only [Prod.mk.injEq] at ho; right; rw [← ho.1, ← ho.2]; exact he
    · simp only [Prod.mk.injEq] at ho; left; rw [← ho.1, ← ho.2]; exact he
  · rintro ⟨hle, f, hf, h | h⟩
    · refine ⟨(a, b), ⟨f, hf, (mem_edges f a b).mpr h⟩, ?_⟩
      unfold ordered
      rw [if_neg (by simp only; omega)]
    · refine ⟨(b, a), ⟨f, hf, (mem_edges f b a).mpr h⟩, ?_⟩
      unfold ordered
      by_cases hab : a < b
      · rw [if_pos hab]
      · have : a = b := by omega
        subst this
        simp

example : distinctEdges [[0, 1, 2], [2, 1, 3]] = [(0, 2), (0, 1), (1, 2), (2, 3), (1, 3)] := by decide

/-! ## pyramids -/

theorem pyramidScan_spec {α : Type} : ∀ (l : List (α × Nat)) (q : Option α) (ts : List α) (q' : Option α) (ts' : List α),
    pyramidScan l q ts = .ok (q', ts') ↔
      (∀ x ∈ l, x.2 = 3 ∨ x.2 = 4) ∧ q'.toList = q.toList ++ (l.filter fun x => x.2 == 4).map (·.1) ∧
      ts' = ts ++ (l.filter fun x => x.2 == 3).map (·.1) ∧ (l.filter fun x => x.2 == 3).length + ts.length ≤ max 4 ts.length
  | [], q, ts, q', ts' => by
    simp only [pyramidScan, Except.ok.injEq, Prod.mk.injEq]
    constructor
    · rintro ⟨rfl, rfl⟩; simp
    · rintro ⟨-, h1, h2, -⟩
      refine ⟨?_, by simpa using h2.symm⟩
      cases q <;> cases q' <;> simp_all
  | (f, nc) :: l, q, ts, q', ts' => by
    unfold pyramidScan
    by_cases h3 : nc = 3
    · subst h3
      rw [if_pos rfl]
      by_cases hlt : ts.length + 1 < 5
      · rw [if_pos hlt, pyramidScan_spec l q (ts ++ [f]) q' ts']
        simp only [List.mem_cons, forall_eq_or_imp, List.filter_cons, List.length_append, List.length_cons, List.length_nil]
        simp only [Nat.reduceBEq, Bool.false_eq_true, if_false, BEq.rfl, if_true, List.map_cons, List.length_cons,
          List.append_assoc, List.singleton_append, true_or, true_and]
        constructor
        · rintro ⟨a, b, c, d⟩; exact ⟨a, b, c, by omega⟩
        · rintro ⟨a, b, c, d⟩; exact ⟨a, b, c, by omega⟩
      · rw [if_neg hlt]
        simp only [reduceCtorEq, false_iff]
        rintro ⟨-, -, -, d⟩
        simp only [List.filter_cons, BEq.rfl, if_true, List.length_cons] at d
        omega
    · rw [if_neg h3]
      by_cases h4 : nc = 4
      · subst h4
        rw [if_pos rfl]
        cases q with
        | none =>
          simp only
          rw [pyramidScan_spec l (some f) ts q' ts']
          simp
        | some g =>
          simp only [reduceCtorEq, false_iff]
          rintro ⟨-, b, -, -⟩
          cases q' <;> simp at b
      · rw [if_neg h4]
        simp only [reduceCtorEq, false_iff]
        rintro ⟨a, -⟩
        have := a (f, nc) (by simp)
        simp only at this
        omega

/-- **C119** the faces of a pyramid: accepted exactly when there are one quadrilateral and four triangles, in whatever order; the
quadrilateral is returned first and the triangles keep their order -/
theorem C119_pyramid_faces {α : Type} (faces : List (α × Nat)) (r : List α) :
    pyramidFaces faces = .ok r ↔
      faces.length = 5 ∧ (faces.filter fun x => x.2 == 4).length = 1 ∧ (faces.filter fun x => x.2 == 3).length = 4 ∧
      r = ((faces.filter fun x => x.2 == 4) ++ (faces.filter fun x => x.2 == 3)).map (·.1) := by
  unfold pyramidFaces
  by_cases h5 : faces.length = 5
  · rw [if_neg (by simpa using h5)]
    have hk := fun q' ts' => pyramidScan_spec faces none ([] : List α) q' ts'
    have hsum : (∀ x ∈ faces, x.2 = 3 ∨ x.2 = 4) ↔
        (faces.filter fun x => x.2 == 4).length + (faces.filter fun x => x.2 == 3).length = faces.length := by
      clear hk h5
      induction faces with
      | nil => simp
      | cons x l ih =>
        have hle : (l.filter fun x => x.2 == 4).length + (l.filter fun x => x.2 == 3).length ≤ l.length := by
          clear ih
          induction l with
          | nil => simp
          | cons y l ih =>
            simp only [List.filter_cons]
            by_cases h3 : y.2 = 3
            · simp [h3]; omega
            · by_cases h4 : y.2 = 4
              · simp [h4]; omega
              · simp [h3, h4]; omega
        simp only [List.mem_cons, forall_eq_or_imp, ih, List.filter_cons, List.length_cons]
        by_cases h3 : x.2 = 3
        · simp [h3]; omega
        · by_cases h4 : x.2 = 4
          · simp [h4]; omega
          · simp [h3, h4]; omega
    rcases hp : pyramidScan faces none [] with e | ⟨_ | q, ts⟩
    · simp only [reduceCtorEq, false_iff]
      rintro ⟨-, h1, h2, -⟩
      obtain ⟨y, hy⟩ := List.length_eq_one_iff.mp h1
      have := (hk (some y.1) ((faces.filter fun x => x.2 == 3).map (·.1))).mpr
        ⟨hsum.mpr (by omega), by rw [hy]; rfl, by simp, by simp only [List.length_nil]; omega⟩
      rw [hp] at this
      simp at this
    · simp only [reduceCtorEq, false_iff]
      rintro ⟨-, h1, -⟩
      obtain ⟨-, h3, -⟩ := (hk none ts).mp hp
      have := congrArg List.length h3
      simp [h1] at this
    · obtain ⟨h1, h2, h3, h4⟩ := (hk (some q) ts).mp hp
      have hq : (faces.filter fun x => x.2 == 4).length = 1 := by
        have := congrArg List.length h2
        simp at this
        omega
      have ht : (faces.filter fun x => x.2 == 3).length = 4 := by
        have := hsum.mp h1
        omega
      have hr : q :: ts = ((faces.filter fun x => x.2 == 4) ++ (faces.filter fun x => x.2 == 3)).map (·.1) := by
        rw [List.map_append, h3]
        simp only [Option.toList_some, Option.toList_none, List.nil_append] at h2
        rw [← h2]
        rfl
      simp only [Except.ok.injEq]
      rw [hr]
      constructor
      · rintro rfl; exact ⟨h5, hq, ht, rfl⟩
      · rintro ⟨-, -, -, rfl⟩; rfl
  · rw [if_pos (by simpa using h5)]
    simp [h5]

example : pyramidFaces [(10, 3), (11, 3), (12, 4), (13, 3), (14, 3)] = .ok [12, 10, 11, 13, 14] := by decide
example : pyramidFaces [(10, 3), (11, 4), (12, 4), (13, 3), (14, 3)] = .error .assertion := by decide

end Verif.Unstruct
