import Verif.Unstruct.PropsPrism

/-!
# C123: the topology of vertical prism grids made from surfaces
-/

namespace Verif.Unstruct.Prism
open Verif.Py Verif.Unstruct
open Verif.TriEdges (Tri Edge sorted edges before uses Proper sides rimEdges allEdges)
open Verif.Unstruct.Hexa (rank_inj rank_lt unrank getElem_flatMap_const packs_const rowsOf)

theorem res_bind {α β : Type} (x : α) (f : α → Res β) : ((Except.ok x : Res α) >>= f) = f x := rfl

theorem uses_side {ts : List Tri} {a b : Nat} (h : 0 < uses ts a b) : ∃ t ∈ ts, ∃ d ∈ sides t, d = (a, b) ∨ d = (b, a) := by
  by_contra hno
  have : uses ts a b = 0 := by
    unfold uses
    apply List.sum_eq_zero
    intro x hx
    obtain ⟨t, ht, rfl⟩ := List.mem_map.mp hx
    rw [List.length_eq_zero_iff, List.filter_eq_nil_iff]
    intro d hd he
    exact hno ⟨t, ht, d, hd, by simpa using he⟩
  omega

/-! ## the grid made -/

/-- the nodes of the faces of the grid made -/
def faceNodes (ts : List Tri) (p s : Nat) : List (List Nat) := nodeRows ts (colEdges ts) p s

/-- the grid which is made when no assertion fails -/
def made (ts : List Tri) (p s : Nat) : Grid where
  cellCount := ts.length * (s - 1)
  faceCount := ts.length * s + (colEdges ts).length * (s - 1)
  facesPerCell := ⟨(cellFaces ts s).flatten, (List.range (ts.length * (s - 1))).map fun n => 5 * (1 + n)⟩
  nodesPerFace := ⟨(faceNodes ts p s).flatten, ((List.range (ts.length * s)).map fun n => 3 * (1 + n)) ++
    (List.range ((colEdges ts).length * (s - 1))).map fun n => 3 * (ts.length * s) + 4 * (1 + n)⟩

theorem colEdges_corners {ts : List Tri} {p : Nat} (h : ∀ t ∈ ts, t.1 < p ∧ t.2.1 < p ∧ t.2.2 < p) : ∀ d ∈ colEdges ts, d.1 < p ∧ d.2 < p := by
  rintro ⟨a, b⟩ hd
  have h1 := ((mem_colEdges ts a b).mp hd).2
  obtain ⟨⟨x, y, z⟩, ht, d, hs, he⟩ := uses_side h1
  have h2 := h _ ht
  simp only [sides, List.mem_cons, List.not_mem_nil, or_false] at hs
  simp only at h2 ⊢
  rcases hs with rfl | rfl | rfl <;> rcases he with he | he <;> simp only [Prod.mk.injEq] at he <;> omega

theorem colEdges_ne {ts : List Tri} (h : ts ≠ []) : colEdges ts ≠ [] := by
  obtain ⟨t, ht⟩ := List.exists_mem_of_ne_nil _ h
  exact List.ne_nil_of_mem (sorted_mem ht (d := (t.2.2, t.1)) (by simp [triEdges]))

theorem nodes_last {ts : List Tri} {p s : Nat} (h : ts ≠ []) (hs : 2 ≤ s) (hp : 0 < p) : 0 < (faceNodes ts p s).flatten.getLastD 0 := by
  obtain ⟨ce, d, hce⟩ := (List.eq_nil_or_concat (colEdges ts)).resolve_left (colEdges_ne h)
  have e : s - 1 = (s - 2) + 1 := by omega
  unfold faceNodes nodeRows
  rw [hce, e, List.range_succ]
  simp only [List.concat_eq_append, List.flatMap_append, List.map_append, List.map_cons, List.map_nil, List.flatMap_cons, List.flatMap_nil,
    List.append_nil, List.flatten_append, List.flatten_cons, List.flatten_nil]
  simp only [← List.append_assoc]
  rw [List.getLastD_eq_getLast?, List.getLast?_append]
  simp only [List.getLast?_cons_cons, List.getLast?_singleton, Option.or_some, Option.getD_some]
  have : p ≤ (s - 2 + 1) * p := Nat.le_mul_of_pos_left p (by omega)
  exact Nat.lt_of_lt_of_le hp (Nat.le_trans this (Nat.le_add_left _ _))

theorem nodes_all {ts : List Tri} {p s : Nat} (hc : ∀ t ∈ ts, t.1 < p ∧ t.2.1 < p ∧ t.2.2 < p) : ∀ r ∈ faceNodes ts p s, ∀ n ∈ r, n < p * s := by
  have bound : ∀ x k, x < p → k < s → x + k * p < p * s := by
    intro x k hx hk
    have := rank_lt hk hx
    rw [Nat.mul_comm s] at this
    omega
  intro r hr
  unfold faceNodes nodeRows at hr
  simp only [List.mem_append, List.mem_flatMap, List.mem_map, List.mem_range] at hr
  rcases hr with ⟨k, hk, t, ht, rfl⟩ | ⟨k, hk, d, hd, rfl⟩
  · obtain ⟨h1, h2, h3⟩ := hc t ht
    simp only [List.mem_cons, List.not_mem_nil, or_false, forall_eq_or_imp, forall_eq]
    exact ⟨bound _ k h1 hk, bound _ k h2 hk, bound _ k h3 hk⟩
  · obtain ⟨h1, h2⟩ := colEdges_corners hc d hd
    simp only [List.mem_cons, List.not_mem_nil, or_false, forall_eq_or_imp, forall_eq]
    exact ⟨bound _ k h1 (by omega), bound _ k h2 (by omega), bound _ (k + 1) h2 (by omega), bound _ (k + 1) h1 (by omega)⟩

theorem faces_nonzero {ts : List Tri} {s : Nat} (h : ts ≠ []) (hs : 2 ≤ s) :
    (cellFaces ts s).flatten.countP (· ≠ 0) = (cellFaces ts s).flatten.length - 1 := by
  have h1 := total_triangle ts s 0 0 (List.length_pos_iff.mpr h) (by omega)
  rw [← total_flatten] at h1
  simp only [Nat.zero_mul, Nat.add_zero, Nat.lt_irrefl, if_false, Nat.zero_add] at h1
  rw [if_pos (by omega)] at h1
  have h2 := List.length_eq_countP_add_countP (fun x => decide (x ≠ 0)) (l := (cellFaces ts s).flatten)
  have h3 : (cellFaces ts s).flatten.countP (fun a => decide ¬ (decide (a ≠ 0)) = true) = 1 := by
    rw [← h1, List.count]
    apply List.countP_congr
    intro x _
    simp
  omega

theorem fromSurfaces_ok {ts : List Tri} {p s : Nat} (h : ts ≠ []) (hs : 2 ≤ s) (hc : ∀ t ∈ ts, t.1 < p ∧ t.2.1 < p ∧ t.2.2 < p) :
    fromSurfaces ts p s = .ok (made ts p s) := by
  have hp : 0 < p := by
    obtain ⟨t, ht⟩ := List.exists_mem_of_ne_nil _ h
    have := hc t ht
    omega
  have h1 := nodes_last h hs hp
  have h2 := allSides_ok ts ts (fun t ht => ht)
  have h3 := faces_nonzero h hs
  have h4 : (faceNodes ts p s).flatten.all (fun n => decide (n < p * s)) = true := by
    rw [List.all_eq_true]
    intro n hn
    obtain ⟨r, hr, hn⟩ := List.mem_flatten.mp hn
    simpa using nodes_all hc r hr n hn
  unfold fromSurfaces
  rw [if_neg (by omega), if_neg (by rw [List.length_eq_zero_iff]; exact h)]
  simp only
  have hce : (edges ts).map (·.1) = colEdges ts := rfl
  have hfn : nodeRows ts (colEdges ts) p s = faceNodes ts p s := rfl
  have hcf : faceRows ts.length s (colEdges ts).length (ts.map (sideNos ts)) = cellFaces ts s := rfl
  rw [hce, hfn, if_neg (by omega), h2, res_bind, hcf, if_neg (by omega), h4]
  rfl

theorem sideNos_length (ts : List Tri) (t : Tri) : (sideNos ts t).length = 3 := rfl

theorem cellFaces_length (ts : List Tri) (s : Nat) : (cellFaces ts s).length = ts.length * (s - 1) := by
  unfold cellFaces faceRows
  rw [(getElem_flatMap_const ts.length _ (by simp) (s - 1)).1, Nat.mul_comm]

theorem cellFaces_get {ts : List Tri} {s l c : Nat} {t : Tri} (hl : l < s - 1) (ht : ts[c]? = some t) :
    (cellFaces ts s)[l * ts.length + c]? = some (cellRow ts.length s (colEdges ts).length l c (sideNos ts t)) := by
  have hc : c < ts.length := (List.getElem?_eq_some_iff.mp ht).1
  unfold cellFaces faceRows
  rw [(getElem_flatMap_const ts.length _ (by simp) (s - 1)).2 l c hl hc]
  obtain ⟨_, rfl⟩ := List.getElem?_eq_some_iff.mp ht
  simp [hc]

theorem cellFaces_row {ts : List Tri} {s : Nat} {r : List Nat} (hr : r ∈ cellFaces ts s) :
    ∃ (l c : Nat) (t : Tri), l < s - 1 ∧ ts[c]? = some t ∧ r = cellRow ts.length s (colEdges ts).length l c (sideNos ts t) := by
  unfold cellFaces faceRows at hr
  simp only [List.mem_flatMap, List.mem_map, List.mem_range] at hr
  obtain ⟨l, hl, c, hc, rfl⟩ := hr
  refine ⟨l, c, ts[c], hl, List.getElem?_eq_getElem hc, ?_⟩
  simp [hc]

theorem made_faces (ts : List Tri) (p s : Nat) : HasFaces (made ts p s) (cellFaces ts s) := by
  refine ⟨packs_const _ 5 _ (cellFaces_length ts s) ?_, (cellFaces_length ts s).symm⟩
  intro r hr
  obtain ⟨l, c, t, -, -, rfl⟩ := cellFaces_row hr
  simp [cellRow, sideNos_length]

/-- the nodes of triangles, surface by surface -/
def triangleRows (ts : List Tri) (p s : Nat) : List (List Nat) :=
  (List.range s).flatMap fun k => ts.map fun t => [t.1 + k * p, t.2.1 + k * p, t.2.2 + k * p]

/-- the nodes of quadrilaterals, layer by layer -/
def quadRows (ce : List Edge) (p n : Nat) : List (List Nat) :=
  (List.range n).flatMap fun layer => ce.map fun d => [d.1 + layer * p, d.2 + layer * p, d.2 + (layer + 1) * p, d.1 + (layer + 1) * p]

theorem triangleRows_length (ts : List Tri) (p s : Nat) : (triangleRows ts p s).length = ts.length * s := by
  unfold triangleRows
  rw [(getElem_flatMap_const ts.length _ (by simp) s).1, Nat.mul_comm]

theorem quadRows_length (ce : List Edge) (p n : Nat) : (quadRows ce p n).length = ce.length * n := by
  unfold quadRows
  rw [(getElem_flatMap_const ce.length _ (by simp) n).1, Nat.mul_comm]

theorem flatten_const (m : Nat) (l : List (List Nat)) (hl : ∀ r ∈ l, r.length = m) : l.flatten.length = m * l.length := by
  induction l with
  | nil => simp
  | cons r l ih =>
    rw [List.flatten_cons, List.length_append, ih (fun r hr => hl r (by simp [hr])), hl r (by simp), List.length_cons]
    ring

theorem triangleRows_row {ts : List Tri} {p s : Nat} : ∀ r ∈ triangleRows ts p s, r.length = 3 := by
  intro r hr
  unfold triangleRows at hr
  simp only [List.mem_flatMap, List.mem_map] at hr
  obtain ⟨_, _, _, _, rfl⟩ := hr
  rfl

theorem quadRows_row {ce : List Edge} {p n : Nat} : ∀ r ∈ quadRows ce p n, r.length = 4 := by
  intro r hr
  unfold quadRows at hr
  simp only [List.mem_flatMap, List.mem_map] at hr
  obtain ⟨_, _, _, _, rfl⟩ := hr
  rfl

theorem faceNodes_eq (ts : List Tri) (p s : Nat) : faceNodes ts p s = triangleRows ts p s ++ quadRows (colEdges ts) p (s - 1) := rfl

theorem made_nodes (ts : List Tri) (p s : Nat) : Packs (made ts p s).nodesPerFace (faceNodes ts p s) := by
  have hT := triangleRows_length ts p s
  have hQ := quadRows_length (colEdges ts) p (s - 1)
  refine ⟨rfl, ?_, ?_⟩
  · rw [faceNodes_eq, List.length_append, hT, hQ]
    simp [made]
  · intro n hn
    have hn' : n < ts.length * s + (colEdges ts).length * (s - 1) := by simpa [made] using hn
    simp only [made]
    rw [faceNodes_eq, List.take_append, List.flatten_append, List.length_append,
      flatten_const 3 _ (fun r hr => triangleRows_row r (List.mem_of_mem_take hr)),
      flatten_const 4 _ (fun r hr => quadRows_row r (List.mem_of_mem_take hr)), List.length_take, List.length_take, hT, hQ]
    by_cases h1 : n < ts.length * s
    · rw [List.getElem_append_left (by simpa using h1), List.getElem_map, List.getElem_range]
      omega
    · rw [List.getElem_append_right (by simp; omega), List.getElem_map, List.getElem_range, List.length_map, List.length_range]
      omega

theorem node_triangle {ts : List Tri} {p s k c : Nat} {t : Tri} (hk : k < s) (ht : ts[c]? = some t) :
    (made ts p s).nodesPerFace.row (k * ts.length + c) = .ok [t.1 + k * p, t.2.1 + k * p, t.2.2 + k * p] := by
  have hc : c < ts.length := (List.getElem?_eq_some_iff.mp ht).1
  have hT := triangleRows_length ts p s
  have hlt : k * ts.length + c < ts.length * s := by rw [Nat.mul_comm ts.length]; exact rank_lt hk hc
  have hg : (faceNodes ts p s)[k * ts.length + c]? = some [t.1 + k * p, t.2.1 + k * p, t.2.2 + k * p] := by
    rw [faceNodes_eq, List.getElem?_append_left (by omega)]
    unfold triangleRows
    rw [(getElem_flatMap_const ts.length _ (by simp) s).2 k c hk hc]
    simp [ht]
  obtain ⟨h1, h2⟩ := List.getElem?_eq_some_iff.mp hg
  rw [row_packed (made_nodes ts p s) h1, h2]

theorem node_side {ts : List Tri} {p s l n : Nat} {d : Edge} (hl : l < s - 1) (hn : (colEdges ts)[n]? = some d) :
    (made ts p s).nodesPerFace.row (ts.length * s + n + l * (colEdges ts).length) =
      .ok [d.1 + l * p, d.2 + l * p, d.2 + (l + 1) * p, d.1 + (l + 1) * p] := by
  have hc : n < (colEdges ts).length := (List.getElem?_eq_some_iff.mp hn).1
  have hT := triangleRows_length ts p s
  have hg : (faceNodes ts p s)[ts.length * s + n + l * (colEdges ts).length]? =
      some [d.1 + l * p, d.2 + l * p, d.2 + (l + 1) * p, d.1 + (l + 1) * p] := by
    rw [faceNodes_eq, List.getElem?_append_right (by omega), hT]
    have e : ts.length * s + n + l * (colEdges ts).length - ts.length * s = l * (colEdges ts).length + n := by omega
    rw [e]
    unfold quadRows
    rw [(getElem_flatMap_const (colEdges ts).length _ (by simp) (s - 1)).2 l n hl hc]
    simp [hn]
  obtain ⟨h1, h2⟩ := List.getElem?_eq_some_iff.mp hg
  rw [row_packed (made_nodes ts p s) h1, h2]

theorem faces_row {ts : List Tri} {p s l c : Nat} {t : Tri} (hl : l < s - 1) (ht : ts[c]? = some t) :
    (made ts p s).facesPerCell.row (l * ts.length + c) = .ok (cellRow ts.length s (colEdges ts).length l c (sideNos ts t)) := by
  obtain ⟨h1, h2⟩ := List.getElem?_eq_some_iff.mp (cellFaces_get hl ht)
  rw [row_packed (made_faces ts p s).packs h1, h2]

theorem side_get {ts : List Tri} {t : Tri} (ht : t ∈ ts) {d : Edge} (hd : d ∈ triEdges t) :
    (colEdges ts)[(colEdges ts).idxOf (sorted d)]? = some (sorted d) := by
  have hm := sorted_mem ht hd
  rw [List.getElem?_eq_getElem (List.idxOf_lt_length_of_mem hm), List.getElem_idxOf]

/-! ## theorems -/

/-- a triangle on a surface: its corners, numbered as nodes of the grid -/
def triangleAt (p k : Nat) (t : Tri) : List Nat := [t.1 + k * p, t.2.1 + k * p, t.2.2 + k * p]

/-- the vertical face below an edge of the triangulation, between a surface and the next: its nodes going round the face -/
def curtain (p layer : Nat) (d : Edge) : List Nat :=
  [d.1 + layer * p, d.2 + layer * p, d.2 + (layer + 1) * p, d.1 + (layer + 1) * p]

/-- **C123** a grid is made for all triangles, as long as there is one and the corners are points, and for all numbers of surfaces from two;
it has a cell for each triangle and layer -/
theorem C123_made (ts : List Tri) (p s : Nat) (h : ts ≠ []) (hs : 2 ≤ s) (hc : ∀ t ∈ ts, t.1 < p ∧ t.2.1 < p ∧ t.2.2 < p) :
    ∃ g, fromSurfaces ts p s = .ok g ∧ g.cellCount = ts.length * (s - 1) ∧
      g.faceCount = ts.length * s + (edges ts).length * (s - 1) := by
  refine ⟨_, fromSurfaces_ok h hs hc, rfl, ?_⟩
  simp [made, colEdges]

/-- **C123** the five faces of every cell: the triangle on the surface above, that on the surface below, and the faces below the three edges
of the triangle, the edge at place `e` being that between the corner there and the one before -/
theorem C123_faces (ts : List Tri) (p s : Nat) (hs : 2 ≤ s) (hc : ∀ t ∈ ts, t.1 < p ∧ t.2.1 < p ∧ t.2.2 < p) (g : Grid)
    (hg : fromSurfaces ts p s = .ok g) (layer c : Nat) (hl : layer + 1 < s) (x y z : Nat) (ht : ts[c]? = some (x, y, z)) :
    ∃ faces, g.facesPerCell.row (layer * ts.length + c) = .ok faces ∧
      rowsOf g.nodesPerFace faces = .ok [triangleAt p layer (x, y, z), triangleAt p (layer + 1) (x, y, z),
        curtain p layer (min z x, max z x), curtain p layer (min x y, max x y), curtain p layer (min y z, max y z)] := by
  have hm : (x, y, z) ∈ ts := List.mem_iff_getElem?.mpr ⟨c, ht⟩
  rw [fromSurfaces_ok (List.ne_nil_of_mem hm) hs hc, Except.ok.injEq] at hg
  subst hg
  refine ⟨_, faces_row (by omega) ht, ?_⟩
  have hsd := fun d hd => node_side (p := p) (s := s) (l := layer) (by omega) (side_get (ts := ts) hm (d := d) hd)
  simp only [cellRow, sideNos, triEdges, List.map_cons, List.map_nil, List.cons_append, List.nil_append, rowsOf]
  rw [node_triangle (by omega) ht, node_triangle (by omega) ht, hsd (z, x) (by simp [triEdges]), hsd (x, y) (by simp [triEdges]),
    hsd (y, z) (by simp [triEdges])]
  have e : ∀ a b : Nat, sorted (a, b) = (min a b, max a b) := by
    intro a b
    unfold sorted
    simp only
    split_ifs <;> simp only [Prod.mk.injEq] <;> omega
  simp only [e]
  rfl

/-- the edge of a triangle at a place 0, 1 or 2: the lower corner first -/
def edgeOf (t : Tri) : Nat → Edge
  | 0 => (min t.2.2 t.1, max t.2.2 t.1)
  | 1 => (min t.1 t.2.1, max t.1 t.2.1)
  | _ => (min t.2.1 t.2.2, max t.2.1 t.2.2)

theorem sorted_min (a b : Nat) : sorted (a, b) = (min a b, max a b) := by
  unfold sorted
  simp only
  split_ifs <;> simp only [Prod.mk.injEq] <;> omega

theorem sideNos_get {ts : List Tri} {t : Tri} (ht : t ∈ ts) {e : Nat} (he : e < 3) :
    ∃ n, (sideNos ts t)[e]? = some n ∧ (colEdges ts)[n]? = some (edgeOf t e) := by
  obtain ⟨x, y, z⟩ := t
  have h := fun d hd => side_get (ts := ts) ht (d := d) hd
  interval_cases e
  · exact ⟨_, rfl, by rw [h (z, x) (by simp [triEdges]), sorted_min]; rfl⟩
  · exact ⟨_, rfl, by rw [h (x, y) (by simp [triEdges]), sorted_min]; rfl⟩
  · exact ⟨_, rfl, by rw [h (y, z) (by simp [triEdges]), sorted_min]; rfl⟩

/-- two places in cells are the same face: a base and the top of the cell below (or the same top or base), or in one layer the sides on one
edge of the triangulation -/
def SameFace (l c d : Nat) (t : Tri) (l' c' d' : Nat) (t' : Tri) : Prop :=
  (d < 2 ∧ d' < 2 ∧ c = c' ∧ l + d = l' + d') ∨ (2 ≤ d ∧ 2 ≤ d' ∧ l = l' ∧ edgeOf t (d - 2) = edgeOf t' (d' - 2))

theorem row_small {c s e l col d : Nat} {sd : List Nat} (hd : d < 2) : (cellRow c s e l col sd)[d]? = some ((l + d) * c + col) := by
  unfold cellRow
  interval_cases d <;> rfl

theorem row_large {c s e l col d : Nat} {sd : List Nat} {n : Nat} (hd : 2 ≤ d) (hn : sd[d - 2]? = some n) :
    (cellRow c s e l col sd)[d]? = some (c * s + n + l * e) := by
  unfold cellRow
  rw [List.getElem?_append_right (by simpa using hd)]
  simp [hn]

/-- **C123** cells share faces exactly where they touch -/
theorem C123_shared (ts : List Tri) (p s : Nat) (hs : 2 ≤ s) (hc : ∀ t ∈ ts, t.1 < p ∧ t.2.1 < p ∧ t.2.2 < p) (g : Grid)
    (hg : fromSurfaces ts p s = .ok g) (l c d l' c' d' : Nat) (t t' : Tri) (hl : l + 1 < s) (hl' : l' + 1 < s)
    (ht : ts[c]? = some t) (ht' : ts[c']? = some t') (hd : d < 5) (hd' : d' < 5) :
    ∃ fs gs, g.facesPerCell.row (l * ts.length + c) = .ok fs ∧ g.facesPerCell.row (l' * ts.length + c') = .ok gs ∧
      fs.length = 5 ∧ gs.length = 5 ∧ (fs[d]? = gs[d']? ↔ SameFace l c d t l' c' d' t') := by
  have hm : t ∈ ts := List.mem_iff_getElem?.mpr ⟨c, ht⟩
  have hm' : t' ∈ ts := List.mem_iff_getElem?.mpr ⟨c', ht'⟩
  have hcl : c < ts.length := (List.getElem?_eq_some_iff.mp ht).1
  have hcl' : c' < ts.length := (List.getElem?_eq_some_iff.mp ht').1
  rw [fromSurfaces_ok (List.ne_nil_of_mem hm) hs hc, Except.ok.injEq] at hg
  subst hg
  refine ⟨_, _, faces_row (by omega) ht, faces_row (by omega) ht', by simp [cellRow, sideNos_length], by simp [cellRow, sideNos_length], ?_⟩
  have small : ∀ l d c, l + 1 < s → d < 2 → c < ts.length → (l + d) * ts.length + c < ts.length * s := by
    intro l d c h1 h2 h3
    rw [Nat.mul_comm ts.length]
    exact rank_lt (by omega) h3
  unfold SameFace
  by_cases h1 : d < 2
  · rw [row_small h1]
    have := small l d c hl h1 hcl
    by_cases h2 : d' < 2
    · rw [row_small h2, Option.some.injEq]
      constructor
      · intro h
        obtain ⟨e1, e2⟩ := rank_inj hcl hcl' h
        exact Or.inl ⟨h1, h2, e2, e1⟩
      · rintro (⟨-, -, rfl, e⟩ | h)
        · rw [e]
        · omega
    · obtain ⟨n, hn, hce⟩ := sideNos_get hm' (e := d' - 2) (by omega)
      rw [row_large (by omega) hn, Option.some.injEq]
      constructor <;> intro h <;> omega
  · obtain ⟨n, hn, hce⟩ := sideNos_get hm (e := d - 2) (by omega)
    rw [row_large (by omega) hn]
    by_cases h2 : d' < 2
    · have := small l' d' c' hl' h2 hcl'
      rw [row_small h2, Option.some.injEq]
      constructor <;> intro h <;> omega
    · obtain ⟨n', hn', hce'⟩ := sideNos_get hm' (e := d' - 2) (by omega)
      rw [row_large (by omega) hn', Option.some.injEq]
      have b1 : n < (colEdges ts).length := (List.getElem?_eq_some_iff.mp hce).1
      have b2 : n' < (colEdges ts).length := (List.getElem?_eq_some_iff.mp hce').1
      constructor
      · intro h
        obtain ⟨e1, e2⟩ := rank_inj b1 b2 (by omega : l * (colEdges ts).length + n = l' * (colEdges ts).length + n')
        subst e2
        rw [hce, Option.some.injEq] at hce'
        exact Or.inr ⟨by omega, by omega, e1, hce'⟩
      · rintro (h | ⟨-, -, e1, e2⟩)
        · omega
        · rw [e2] at hce
          rw [ordered_unique (colEdges_ordered ts) hce hce', e1]

/-- every face number is that of a triangle on a surface or of a side in a layer -/
theorem face_cases {ts : List Tri} {s f : Nat} (h : ts ≠ []) (hf : f < ts.length * s + (colEdges ts).length * (s - 1)) :
    (∃ k c, k < s ∧ c < ts.length ∧ f = k * ts.length + c) ∨
    ∃ l n d, l < s - 1 ∧ (colEdges ts)[n]? = some d ∧ f = ts.length * s + n + l * (colEdges ts).length := by
  have hT := List.length_pos_iff.mpr h
  have hE := List.length_pos_iff.mpr (colEdges_ne h)
  by_cases h1 : f < ts.length * s
  · refine Or.inl ⟨f / ts.length, f % ts.length, ?_, Nat.mod_lt _ hT, unrank _ f hT⟩
    rw [Nat.div_lt_iff_lt_mul hT, Nat.mul_comm]
    exact h1
  · right
    have hm := Nat.mod_lt (f - ts.length * s) hE
    refine ⟨(f - ts.length * s) / (colEdges ts).length, (f - ts.length * s) % (colEdges ts).length,
      (colEdges ts)[(f - ts.length * s) % (colEdges ts).length], ?_, List.getElem?_eq_getElem hm, ?_⟩
    · rw [Nat.div_lt_iff_lt_mul hE, Nat.mul_comm (s - 1)]
      omega
    · have := unrank (colEdges ts).length (f - ts.length * s) hE
      omega

theorem uses_pos {ts : List Tri} {n : Nat} {d : Edge} (h : (colEdges ts)[n]? = some d) : 0 < uses ts d.1 d.2 :=
  ((mem_colEdges ts d.1 d.2).mp (List.mem_iff_getElem?.mpr ⟨n, h⟩)).2

/-- **C123** the topology is that of a grid exactly when no edge of the triangulation belongs to more than two triangles: then every face is
used, by one cell or two; if some edge belongs to more the grid is made all the same -/
theorem C123_valid (ts : List Tri) (p s : Nat) (h : ts ≠ []) (hs : 2 ≤ s) (hc : ∀ t ∈ ts, t.1 < p ∧ t.2.1 < p ∧ t.2.2 < p) (g : Grid)
    (hg : fromSurfaces ts p s = .ok g) :
    ∃ rows, HasFaces g rows ∧ (∀ f, f < g.faceCount → users rows nobody f ≠ []) ∧
      (Valid rows g.faceCount nobody ↔ ∀ a b, uses ts a b ≤ 2) ∧
      ∃ nodes, Packs g.nodesPerFace nodes ∧ nodes.length = g.faceCount ∧ ∀ r ∈ nodes, ∀ n ∈ r, n < p * s := by
  rw [fromSurfaces_ok h hs hc, Except.ok.injEq] at hg
  subst hg
  have hfc : (made ts p s).faceCount = ts.length * s + (colEdges ts).length * (s - 1) := rfl
  refine ⟨cellFaces ts s, made_faces ts p s, ?_, ?_, faceNodes ts p s, made_nodes ts p s, ?_, nodes_all hc⟩
  · intro f hf hu
    have hz := users_length (cellFaces ts s) f
    rw [hu, List.length_nil] at hz
    rcases face_cases h (by rw [← hfc]; exact hf) with ⟨k, c, hk, hcl, rfl⟩ | ⟨l, n, ⟨a, b⟩, hl, hn, rfl⟩
    · rw [total_triangle ts s k c hcl hk] at hz
      split_ifs at hz <;> omega
    · rw [total_side ts s l n a b hl hn] at hz
      have := uses_pos hn
      simp only at this
      omega
  · constructor
    · intro hv a b
      by_contra hgt
      rcases Nat.le_total a b with hab | hab
      · obtain ⟨n, hn⟩ := List.mem_iff_getElem?.mp ((mem_colEdges ts a b).mpr ⟨hab, by omega⟩)
        have h1 := total_side ts s 0 n a b (by omega) hn
        have hb := (List.getElem?_eq_some_iff.mp hn).1
        have h2 := hv.2 (ts.length * s + n + 0 * (colEdges ts).length) (by
          rw [hfc]
          have : (colEdges ts).length * 1 ≤ (colEdges ts).length * (s - 1) := Nat.mul_le_mul_left _ (by omega)
          omega)
        rw [users_length, h1] at h2
        exact hgt h2
      · obtain ⟨n, hn⟩ := List.mem_iff_getElem?.mp ((mem_colEdges ts b a).mpr ⟨hab, by rw [Verif.TriEdges.uses_comm]; omega⟩)
        have h1 := total_side ts s 0 n b a (by omega) hn
        have hb := (List.getElem?_eq_some_iff.mp hn).1
        have h2 := hv.2 (ts.length * s + n + 0 * (colEdges ts).length) (by
          rw [hfc]
          have : (colEdges ts).length * 1 ≤ (colEdges ts).length * (s - 1) := Nat.mul_le_mul_left _ (by omega)
          omega)
        rw [users_length, h1, Verif.TriEdges.uses_comm] at h2
        exact hgt h2
    · intro hu
      refine ⟨?_, ?_⟩
      · intro c hcl _ f hf
        have hr : (cellFaces ts s).getD c [] ∈ cellFaces ts s := by simp [hcl]
        obtain ⟨l, col, t, hl, ht, hrow⟩ := cellFaces_row hr
        rw [hrow] at hf
        have hcol := (List.getElem?_eq_some_iff.mp ht).1
        rw [hfc]
        unfold cellRow at hf
        simp only [List.cons_append, List.nil_append, List.mem_cons, List.mem_map] at hf
        have e1 : l * ts.length + col < s * ts.length := rank_lt (by omega) hcol
        have e2 : (l + 1) * ts.length + col < s * ts.length := rank_lt (by omega) hcol
        rw [Nat.mul_comm s] at e1 e2
        rcases hf with rfl | rfl | ⟨n, hn, rfl⟩
        · omega
        · omega
        · have := sideNos_lt (List.mem_iff_getElem?.mpr ⟨col, ht⟩) n hn
          have e3 := rank_lt hl this
          rw [Nat.mul_comm (s - 1)] at e3
          omega
      · intro f hf
        rw [users_length]
        rcases face_cases h (by rw [← hfc]; exact hf) with ⟨k, c, hk, hcl, rfl⟩ | ⟨l, n, ⟨a, b⟩, hl, hn, rfl⟩
        · rw [total_triangle ts s k c hcl hk]
          split_ifs <;> omega
        · rw [total_side ts s l n a b hl hn]
          exact hu a b
  · rw [faceNodes_eq, List.length_append, triangleRows_length, quadRows_length, hfc]

/-- **C123** the external faces of the grid are exactly the tops of the first layer, the bases of the last and the sides on edges of the
triangulation belonging to one triangle -/
theorem C123_external (ts : List Tri) (p s : Nat) (h : ts ≠ []) (hs : 2 ≤ s) (hc : ∀ t ∈ ts, t.1 < p ∧ t.2.1 < p ∧ t.2.2 < p)
    (hu : ∀ a b, uses ts a b ≤ 2) (g : Grid) (hg : fromSurfaces ts p s = .ok g) :
    ∃ l, (externalFaces g none).1 = .ok l ∧
      ∀ f, f ∈ l ↔ ∃ (layer c d : Nat) (t : Tri) (fs : List Nat), layer + 1 < s ∧ ts[c]? = some t ∧
        g.facesPerCell.row (layer * ts.length + c) = .ok fs ∧ fs[d]? = some f ∧
        ((d = 0 ∧ layer = 0) ∨ (d = 1 ∧ layer + 2 = s) ∨ (2 ≤ d ∧ d < 5 ∧ uses ts (edgeOf t (d - 2)).1 (edgeOf t (d - 2)).2 = 1)) := by
  rw [fromSurfaces_ok h hs hc, Except.ok.injEq] at hg
  have hgm := hg
  subst hg
  obtain ⟨h1, h2⟩ : HasFaces (made ts p s) (cellFaces ts s) ∧ True := ⟨made_faces ts p s, trivial⟩
  obtain ⟨rows, g1, g2, g3, -⟩ := C123_valid ts p s h hs hc _ (fromSurfaces_ok h hs hc)
  have hrows : rows = cellFaces ts s := by
    apply List.ext_getElem?
    intro n
    have hlen : rows.length = (cellFaces ts s).length := by rw [← g1.count, ← h1.count]
    by_cases hn : n < rows.length
    · have r1 := row_packed g1.packs hn
      have r2 := row_packed h1.packs (n := n) (by omega)
      rw [r1, Except.ok.injEq] at r2
      rw [List.getElem?_eq_getElem hn, List.getElem?_eq_getElem (by omega), r2]
    · rw [List.getElem?_eq_none (by omega), List.getElem?_eq_none (by omega)]
  subst hrows
  have hfc : (made ts p s).faceCount = ts.length * s + (colEdges ts).length * (s - 1) := rfl
  refine ⟨_, (C119_external_partial _ _ h1 _).mpr ⟨g3.mpr hu, g2, rfl⟩, ?_⟩
  intro f
  rw [List.mem_filter, List.mem_range, decide_eq_true_eq, users_length]
  constructor
  · rintro ⟨hf, hone⟩
    rcases face_cases h (by rw [← hfc]; exact hf) with ⟨k, c, hk, hcl, rfl⟩ | ⟨l, n, ⟨a, b⟩, hl, hn, rfl⟩
    · rw [total_triangle ts s k c hcl hk] at hone
      by_cases h0 : k = 0
      · subst h0
        exact ⟨0, c, 0, ts[c], _, by omega, List.getElem?_eq_getElem hcl, faces_row (by omega) (List.getElem?_eq_getElem hcl),
          by rw [row_small (by omega)], Or.inl ⟨rfl, rfl⟩⟩
      · refine ⟨k - 1, c, 1, ts[c], _, by omega, List.getElem?_eq_getElem hcl, faces_row (by omega) (List.getElem?_eq_getElem hcl), ?_,
          Or.inr (Or.inl ⟨rfl, ?_⟩)⟩
        · rw [row_small (by omega)]
          congr 3
          omega
        · split_ifs at hone <;> omega
    · rw [total_side ts s l n a b hl hn] at hone
      -- a triangle with the edge
      have hpos : 0 < uses ts a b := by omega
      have hab := ((mem_colEdges ts a b).mp (List.mem_iff_getElem?.mpr ⟨n, hn⟩)).1
      obtain ⟨t, ht, d, hsd, he⟩ := uses_side hpos
      obtain ⟨c, hcc⟩ := List.mem_iff_getElem?.mp ht
      have hplace : ∃ e, e < 3 ∧ edgeOf t e = (a, b) := by
        obtain ⟨x, y, z⟩ := t
        simp only [sides, List.mem_cons, List.not_mem_nil, or_false] at hsd
        rcases hsd with rfl | rfl | rfl
        · refine ⟨1, by omega, ?_⟩
          rcases he with he | he <;> simp only [Prod.mk.injEq] at he <;> simp only [edgeOf, Prod.mk.injEq] <;> omega
        · refine ⟨2, by omega, ?_⟩
          rcases he with he | he <;> simp only [Prod.mk.injEq] at he <;> simp only [edgeOf, Prod.mk.injEq] <;> omega
        · refine ⟨0, by omega, ?_⟩
          rcases he with he | he <;> simp only [Prod.mk.injEq] at he <;> simp only [edgeOf, Prod.mk.injEq] <;> omega
      obtain ⟨e, he3, hee⟩ := hplace
      obtain ⟨m, hm, hce⟩ := sideNos_get ht he3
      rw [hee] at hce
      have := ordered_unique (colEdges_ordered ts) hce hn
      subst this
      refine ⟨l, c, e + 2, t, _, by omega, hcc, faces_row hl hcc, row_large (by omega) (by simpa using hm), Or.inr (Or.inr ⟨by omega, by omega, ?_⟩)⟩
      have e2 : e + 2 - 2 = e := by omega
      rw [e2, hee]
      exact hone
  · rintro ⟨layer, c, d, t, fs, hl, ht, hfs, hfd, hcase⟩
    have hcl := (List.getElem?_eq_some_iff.mp ht).1
    rw [faces_row (by omega) ht, Except.ok.injEq] at hfs
    subst hfs
    rcases hcase with ⟨rfl, rfl⟩ | ⟨rfl, h2⟩ | ⟨hd1, hd2, hone⟩
    · rw [row_small (by omega), Option.some.injEq] at hfd
      subst hfd
      have e1 : (0 + 0) * ts.length + c < s * ts.length := rank_lt (by omega) hcl
      rw [Nat.mul_comm s] at e1
      refine ⟨by rw [hfc]; omega, ?_⟩
      rw [total_triangle ts s _ c hcl (by omega)]
      split_ifs <;> omega
    · rw [row_small (by omega), Option.some.injEq] at hfd
      subst hfd
      have e1 : (layer + 1) * ts.length + c < s * ts.length := rank_lt (by omega) hcl
      rw [Nat.mul_comm s] at e1
      refine ⟨by rw [hfc]; omega, ?_⟩
      rw [total_triangle ts s _ c hcl (by omega)]
      split_ifs <;> omega
    · obtain ⟨n, hn, hce⟩ := sideNos_get (List.mem_iff_getElem?.mpr ⟨c, ht⟩) (e := d - 2) (by omega)
      rw [row_large (by omega) hn, Option.some.injEq] at hfd
      subst hfd
      have b1 : n < (colEdges ts).length := (List.getElem?_eq_some_iff.mp hce).1
      have e3 := rank_lt (show layer < s - 1 by omega) b1
      rw [Nat.mul_comm (s - 1)] at e3
      refine ⟨by rw [hfc]; omega, ?_⟩
      rw [total_side ts s layer n _ _ (by omega) hce]
      exact hone

/-- **C123** the corner points of every cell are the triangle on the surface above and that on the surface below, corner by corner on the same
column points -/
theorem C123_corners (ts : List Tri) (p s : Nat) (hs : 2 ≤ s) (hc : ∀ t ∈ ts, t.1 < p ∧ t.2.1 < p ∧ t.2.2 < p) (g : Grid)
    (hg : fromSurfaces ts p s = .ok g) (layer c : Nat) (hl : layer + 1 < s) (t : Tri) (ht : ts[c]? = some t) :
    cornerNodes g (layer * ts.length + c) = .ok (triangleAt p layer t, triangleAt p (layer + 1) t) := by
  have hm : t ∈ ts := List.mem_iff_getElem?.mpr ⟨c, ht⟩
  rw [fromSurfaces_ok (List.ne_nil_of_mem hm) hs hc, Except.ok.injEq] at hg
  subst hg
  unfold cornerNodes
  rw [faces_row (by omega) ht, res_bind]
  simp only [cellRow, List.cons_append, List.nil_append]
  rw [node_triangle (by omega) ht, node_triangle (by omega) ht]
  rfl

theorem topNodes_ok {ts : List Tri} {p s : Nat} (hs : 2 ≤ s) (hc : ∀ t ∈ ts, t.1 < p ∧ t.2.1 < p ∧ t.2.2 < p) (g : Grid)
    (hg : fromSurfaces ts p s = .ok g) : ∀ (cells : List Nat), (∀ c ∈ cells, c < ts.length) →
      topNodes g cells = .ok (cells.map fun c => triangleAt p 0 (ts.getD c (0, 0, 0)))
  | [], _ => rfl
  | c :: cells, h => by
    have hcl := h c (by simp)
    unfold topNodes
    have := C123_corners ts p s hs hc g hg 0 c (by omega) _ (List.getElem?_eq_getElem hcl)
    rw [Nat.zero_mul, Nat.zero_add] at this
    rw [this, res_bind, topNodes_ok hs hc g hg cells (fun c hc => h c (by simp [hc])), res_bind]
    simp [hcl, pure, Except.pure]

/-- **C123** the triangulation of the columns which the grid gives back is the one it was made from, if there are two layers or more -/
theorem C123_triangulation_partial (ts : List Tri) (p s : Nat) (h : ts ≠ []) (hs : 3 ≤ s)
    (hc : ∀ t ∈ ts, t.1 < p ∧ t.2.1 < p ∧ t.2.2 < p) (g : Grid) (hg : fromSurfaces ts p s = .ok g) :
    columnCount g (s - 1) = .ok ts.length ∧
    triangulation g (s - 1) = .ok (ts.map fun t => [t.1, t.2.1, t.2.2]) := by
  have hcol : columnCount g (s - 1) = .ok ts.length := by
    rw [fromSurfaces_ok h (by omega) hc, Except.ok.injEq] at hg
    subst hg
    unfold columnCount
    rw [if_neg (by omega)]
    have e1 : (made ts p s).cellCount = ts.length * (s - 1) := rfl
    rw [e1, Nat.mul_mod_left, Nat.mul_div_cancel _ (by omega)]
    rfl
  refine ⟨hcol, ?_⟩
  unfold triangulation
  rw [hcol, res_bind, topNodes_ok (by omega) hc g hg _ (by simp)]
  congr 1
  apply List.ext_getElem (by simp)
  intro n h1 h2
  simp only [List.length_map] at h1 h2
  simp [h2, triangleAt]

/-- **C123** with a single layer the triangulation cannot be had: the number of columns is refused -/
theorem C123_triangulation_violated (ts : List Tri) (p : Nat) (g : Grid) (_ : fromSurfaces ts p 2 = .ok g) :
    columnCount g 1 = .error .assertion ∧ triangulation g 1 = .error .assertion := ⟨rfl, rfl⟩

/-- **C123** the z value of a point on a surface is that of the last surface at or above it which the vertical line through the point meets -/
theorem C123_z_values {K : Type} (hits : Nat → Nat → Option K) (p s : Nat) (z : K) :
    zValue hits p s = some z ↔ ∃ k, k ≤ s ∧ hits k p = some z ∧ ∀ m, k < m → m ≤ s → hits m p = none := by
  induction s with
  | zero =>
    simp only [zValue, Nat.le_zero]
    constructor
    · intro h
      exact ⟨0, rfl, h, fun m h1 h2 => by omega⟩
    · rintro ⟨k, rfl, h, _⟩
      exact h
  | succ s ih =>
    unfold zValue
    rcases hh : hits (s + 1) p with _ | w
    · simp only
      rw [ih]
      constructor
      · rintro ⟨k, h1, h2, h3⟩
        refine ⟨k, by omega, h2, fun m h4 h5 => ?_⟩
        by_cases hm : m = s + 1
        · rw [hm]; exact hh
        · exact h3 m h4 (by omega)
      · rintro ⟨k, h1, h2, h3⟩
        have : k ≠ s + 1 := by
          rintro rfl
          rw [hh] at h2
          exact absurd h2 (by simp)
        exact ⟨k, by omega, h2, fun m h4 h5 => h3 m h4 (by omega)⟩
    · simp only [Option.some.injEq]
      constructor
      · rintro rfl
        exact ⟨s + 1, le_refl _, hh, fun m h1 h2 => by omega⟩
      · rintro ⟨k, h1, h2, h3⟩
        have : k = s + 1 := by
          by_contra hk
          have := h3 (s + 1) (by omega) (le_refl _)
          rw [hh] at this
          exact absurd this (by simp)
        subst this
        rw [hh] at h2
        simpa using h2

/-- **C123** if the surfaces are in order of depth wherever both are met, no cell has an edge going upwards -/
theorem C123_in_order {K : Type} [LinearOrder K] (hits : Nat → Nat → Option K) (p : Nat)
    (ho : ∀ k m y z, k ≤ m → hits k p = some y → hits m p = some z → y ≤ z) (s : Nat) (y z : K)
    (hy : zValue hits p s = some y) (hz : zValue hits p (s + 1) = some z) : y ≤ z := by
  obtain ⟨k, h1, h2, h3⟩ := (C123_z_values hits p s y).mp hy
  obtain ⟨m, g1, g2, g3⟩ := (C123_z_values hits p (s + 1) z).mp hz
  refine ho k m y z ?_ h2 g2
  by_contra hlt
  have := g3 k (by omega) (by omega)
  rw [h2] at this
  exact absurd this (by simp)

/-! ## cases -/

/-- two triangles side by side -/
def square : List Tri := [(0, 1, 2), (2, 1, 3)]

example : square ≠ [] ∧ (∀ t ∈ square, t.1 < 4 ∧ t.2.1 < 4 ∧ t.2.2 < 4) ∧ (edges square).map (·.1) = [(0, 1), (0, 2), (1, 2), (1, 3), (2, 3)] := by
  decide

theorem square_uses : ∀ a b, uses square a b ≤ 2 := by
  have h : ∀ x ∈ edges square, x.2 ≤ 2 := by decide
  intro a b
  by_contra hgt
  rcases Nat.le_total a b with hab | hab
  · exact hgt (h ((a, b), uses square a b) (((Verif.TriEdges.C121_edges square).2 a b _).mpr ⟨hab, rfl, by omega⟩))
  · rw [Verif.TriEdges.uses_comm] at hgt
    exact hgt (h ((b, a), uses square b a) (((Verif.TriEdges.C121_edges square).2 b a _).mpr ⟨hab, rfl, by omega⟩))

example : ∃ g, fromSurfaces square 4 3 = .ok g ∧ g.cellCount = 4 ∧ g.faceCount = 16 ∧
    g.facesPerCell.row 0 = .ok [0, 2, 7, 6, 8] ∧ g.facesPerCell.row 1 = .ok [1, 3, 10, 8, 9] ∧
    g.facesPerCell.row 2 = .ok [2, 4, 12, 11, 13] ∧ (externalFaces g none).1 = .ok [0, 1, 4, 5, 6, 7, 9, 10, 11, 12, 14, 15] ∧
    triangulation g 2 = .ok [[0, 1, 2], [2, 1, 3]] ∧ cornerNodes g 3 = .ok ([6, 5, 7], [10, 9, 11]) := by
  refine ⟨made square 4 3, fromSurfaces_ok (by decide) (by decide) (by decide), ?_⟩
  decide

example : (fromSurfaces square 4 1).toOption.isNone ∧ (fromSurfaces [] 4 3).toOption.isNone ∧
    (fromSurfaces square 3 2).toOption.isNone ∧ (fromSurfaces square 4 2).toOption.isSome := by decide +kernel

example : zValue (fun k _ => [some (10 : Int), none, some 30].getD k none) 0 1 = some 10 ∧
    zValue (fun k _ => [some (10 : Int), none, some 30].getD k none) 0 2 = some 30 := by decide

end Verif.Unstruct.Prism
