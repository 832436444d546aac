import Verif.Surface.PropsTrim
import Mathlib.Algebra.Order.Field.Basic

namespace Verif.Surface
open Verif.Py Spec

section
variable {K : Type} [Field K] [LinearOrder K] [IsStrictOrderedRing K]

/-- the triangle as seen from above -/
def planView (q : (K × K × K) × (K × K × K) × (K × K × K)) : (K × K) × (K × K) × (K × K) :=
  ((q.1.1, q.1.2.1), (q.2.1.1, q.2.1.2.1), (q.2.2.1, q.2.2.2.1))

/-- **C148** A horizontal plane made for a box and a border: all points are at the depth given, no triangle lacks a point, and every
place within the box widened by the border is in one of the triangles. -/
theorem C148_plane (depth : K) (lo hi : K × K) (border : K) (four : Bool) (hx : lo.1 - border < hi.1 + border)
    (hy : lo.2 - border < hi.2 + border) :
    (∀ p ∈ (horizontalPlane (1 / 2) depth lo hi border four).2, p.2.2 = depth ∧ lo.1 - border ≤ p.1 ∧ p.1 ≤ hi.1 + border ∧
      lo.2 - border ≤ p.2.1 ∧ p.2.1 ≤ hi.2 + border) ∧
    (horizontalPlane (1 / 2) depth lo hi border four).1.length = perQuad four ∧
    (∀ t ∈ (horizontalPlane (1 / 2) depth lo hi border four).1,
      (cornersN (horizontalPlane (1 / 2) depth lo hi border four).2 t).isSome) ∧
    ∀ x y : K, lo.1 - border ≤ x → x ≤ hi.1 + border → lo.2 - border ≤ y → y ≤ hi.2 + border →
      ∃ t ∈ (horizontalPlane (1 / 2) depth lo hi border four).1, ∃ q,
        cornersN (horizontalPlane (1 / 2) depth lo hi border four).2 t = some q ∧ InTriangle (planView q) (x, y) := by
  unfold horizontalPlane
  dsimp only
  generalize lo.1 - border = x0 at hx ⊢
  generalize hi.1 + border = x1 at hx ⊢
  generalize lo.2 - border = y0 at hy ⊢
  generalize hi.2 + border = y1 at hy ⊢
  have dx : 0 < x1 - x0 := by linarith
  have dy : 0 < y1 - y0 := by linarith
  have coords : ∀ x y : K, x0 ≤ x → x ≤ x1 → y0 ≤ y → y ≤ y1 → ∃ u v : K, 0 ≤ u ∧ u ≤ 1 ∧ 0 ≤ v ∧ v ≤ 1 ∧
      x = x0 + u * (x1 - x0) ∧ y = y0 + v * (y1 - y0) := by
    intro x y h1 h2 h3 h4
    refine ⟨(x - x0) / (x1 - x0), (y - y0) / (y1 - y0), div_nonneg (by linarith) dx.le, (div_le_one dx).2 (by linarith),
      div_nonneg (by linarith) dy.le, (div_le_one dy).2 (by linarith), ?_, ?_⟩
    · rw [div_mul_cancel₀ _ dx.ne']; ring
    · rw [div_mul_cancel₀ _ dy.ne']; ring
  have hhalf : (1 / 2 : K) + 1 / 2 = 1 := by norm_num
  cases four with
  | false =>
    simp only [Bool.false_eq_true, if_false]
    refine ⟨?_, rfl, ?_, ?_⟩
    · intro p hp
      simp only [List.mem_cons, List.not_mem_nil, or_false] at hp
      rcases hp with rfl | rfl | rfl | rfl <;> exact ⟨rfl, by linarith, by linarith, by linarith, by linarith⟩
    · intro t ht
      simp only [List.mem_cons, List.not_mem_nil, or_false] at ht
      rcases ht with rfl | rfl <;> rfl
    · intro x y h1 h2 h3 h4
      obtain ⟨u, v, hu, hu', hv, hv', rfl, rfl⟩ := coords x y h1 h2 h3 h4
      rcases le_total u v with h | h
      · refine ⟨(0, 1, 2), by simp, _, rfl, 1 - v, u, v - u, by linarith, hu, by linarith, by ring, ?_, ?_⟩ <;>
          simp only [planView] <;> ring
      · refine ⟨(0, 3, 1), by simp, _, rfl, 1 - u, u - v, v, by linarith, by linarith, hv, by ring, ?_, ?_⟩ <;>
          simp only [planView] <;> ring
  | true =>
    simp only [if_true]
    refine ⟨?_, rfl, ?_, ?_⟩
    · intro p hp
      simp only [List.mem_cons, List.not_mem_nil, or_false] at hp
      rcases hp with rfl | rfl | rfl | rfl | rfl <;> refine ⟨rfl, ?_, ?_, ?_, ?_⟩ <;> dsimp only <;> linarith
    · intro t ht
      simp only [List.mem_cons, List.not_mem_nil, or_false] at ht
      rcases ht with rfl | rfl | rfl | rfl <;> rfl
    · intro x y h1 h2 h3 h4
      obtain ⟨u, v, hu, hu', hv, hv', rfl, rfl⟩ := coords x y h1 h2 h3 h4
      rcases le_total u v with h | h <;> rcases le_total (u + v) 1 with h' | h'
      · -- next to the side with the least x
        refine ⟨(0, 2, 4), by simp, _, rfl, 1 - u - v, v - u, 2 * u, by linarith, by linarith, by linarith, by ring, ?_, ?_⟩ <;>
          simp only [planView] <;> ring
      · refine ⟨(2, 1, 4), by simp, _, rfl, v - u, u + v - 1, 2 * (1 - v), by linarith, by linarith, by linarith, by ring, ?_, ?_⟩ <;>
          simp only [planView] <;> ring
      · refine ⟨(3, 0, 4), by simp, _, rfl, u - v, 1 - u - v, 2 * v, by linarith, by linarith, by linarith, by ring, ?_, ?_⟩ <;>
          simp only [planView] <;> ring
      · refine ⟨(1, 3, 4), by simp, _, rfl, u + v - 1, u - v, 2 * (1 - u), by linarith, by linarith, by linarith, by ring, ?_, ?_⟩ <;>
          simp only [planView] <;> ring

example : ((0 : Rat), (0 : Rat)).1 - 1 < ((10 : Rat), (5 : Rat)).1 + 1 := by norm_num

/-! ## Rescaling -/

omit [Field K] [IsStrictOrderedRing K] in
theorem foldl_min_le (l : List K) (z : K) : (l.foldl min z = z ∨ l.foldl min z ∈ l) ∧ l.foldl min z ≤ z ∧ ∀ y ∈ l, l.foldl min z ≤ y := by
  induction l generalizing z with
  | nil => exact ⟨.inl rfl, le_refl _, by simp⟩
  | cons a l ih =>
    obtain ⟨h1, h2, h3⟩ := ih (min z a)
    rw [List.foldl_cons]
    refine ⟨?_, h2.trans (min_le_left _ _), ?_⟩
    · rcases h1 with h1 | h1
      · rw [h1]
        rcases min_choice z a with h | h <;> rw [h]
        · exact .inl rfl
        · exact .inr List.mem_cons_self
      · exact .inr (List.mem_cons_of_mem _ h1)
    · intro y hy
      rcases List.mem_cons.1 hy with rfl | hy
      · exact h2.trans (min_le_right _ _)
      · exact h3 y hy

/-- the least of all depths of some patches -/
def IsLeastDepth (patches : List (ZPatch K)) (m : K) : Prop :=
  (∃ q ∈ patches, m ∈ q.z) ∧ ∀ q ∈ patches, ∀ z ∈ q.z, m ≤ z

omit [Field K] [IsStrictOrderedRing K] in
theorem findRef_ok (patches : List (ZPatch K)) (hl : ∀ q ∈ patches, q.loaded = true ∧ q.z ≠ []) (ref : Option K) :
    (patches = [] ∧ findRef ref patches = .ok ref) ∨ ∃ m, findRef ref patches = .ok (some m) ∧
      ((∃ q ∈ patches, m ∈ q.z) ∨ ref = some m) ∧ (∀ q ∈ patches, ∀ z ∈ q.z, m ≤ z) ∧ ∀ r, ref = some r → m ≤ r := by
  induction patches generalizing ref with
  | nil => exact .inl ⟨rfl, rfl⟩
  | cons q rest ih =>
    right
    obtain ⟨h1, h2⟩ := hl q List.mem_cons_self
    obtain ⟨z, zs, hz⟩ := List.exists_cons_of_ne_nil h2
    obtain ⟨f1, f2, f3⟩ := foldl_min_le zs z
    have hmem : zs.foldl min z ∈ q.z := by
      rw [hz]
      rcases f1 with f | f
      · rw [f]; exact List.mem_cons_self
      · exact List.mem_cons_of_mem _ f
    have hle : ∀ y ∈ q.z, zs.foldl min z ≤ y := by
      intro y hy
      rw [hz] at hy
      rcases List.mem_cons.1 hy with rfl | hy
      · exact f2
      · exact f3 y hy
    -- the reference after this patch
    obtain ⟨m', e1, e2, e3, e4⟩ : ∃ m', lowerRef ref (zs.foldl min z) = some m' ∧
        (m' ∈ q.z ∨ ref = some m') ∧ (∀ y ∈ q.z, m' ≤ y) ∧ ∀ r, ref = some r → m' ≤ r := by
      cases ref with
      | none => exact ⟨_, rfl, .inl hmem, hle, fun r h => by cases h⟩
      | some r =>
        by_cases hlt : zs.foldl min z < r
        · exact ⟨_, by simp only [lowerRef, if_pos hlt], .inl hmem, hle, fun r' h => by cases h; exact hlt.le⟩
        · exact ⟨r, by simp only [lowerRef, if_neg hlt], .inr rfl, fun y hy => (not_lt.1 hlt).trans (hle y hy), fun r' h => by cases h; exact le_refl _⟩
    have step : findRef ref (q :: rest) = findRef (some m') rest := by
      conv_lhs => unfold findRef
      rw [if_pos h1, hz]
      dsimp only
      exact congrArg (fun x => findRef x rest) e1
    rw [step]
    rcases ih (fun p hp => hl p (List.mem_cons_of_mem _ hp)) (some m') with ⟨r1, r2⟩ | ⟨m, r1, r2, r3, r4⟩
    · subst r1
      refine ⟨m', r2, ?_, ?_, e4⟩
      · rcases e2 with h | h
        · exact .inl ⟨q, List.mem_cons_self, h⟩
        · exact .inr h
      · intro p hp y hy
        rw [List.mem_singleton] at hp
        subst hp
        exact e3 y hy
    · have hmm := r4 m' rfl
      refine ⟨m, r1, ?_, ?_, fun r h => hmm.trans (e4 r h)⟩
      · rcases r2 with ⟨p, hp, h⟩ | h
        · exact .inl ⟨p, List.mem_cons_of_mem _ hp, h⟩
        · cases h
          rcases e2 with h | h
          · exact .inl ⟨q, List.mem_cons_self, h⟩
          · exact .inr h
      · intro p hp y hy
        rcases List.mem_cons.1 hp with rfl | hp
        · exact hmm.trans (e3 y hy)
        · exact r3 p hp y hy

omit [IsStrictOrderedRing K] in
/-- **C149** Rescaling with a reference depth: every depth is moved to `factor` times its distance from the reference, whether or not the
points have been loaded yet. -/
theorem C149_rescale (ref factor : K) (patches : List (ZPatch K)) :
    ∃ l, rescaleSurface (some ref) factor patches = .ok l ∧
      l.map (·.z) = patches.map fun q => q.z.map fun z => ref + factor * (z - ref) := by
  unfold rescaleSurface
  split_ifs with h
  · refine ⟨patches, rfl, List.map_congr_left fun q _ => ?_⟩
    subst h
    have : (fun z : K => ref + 1 * (z - ref)) = id := by
      funext z
      simp
    rw [this, List.map_id]
  · refine ⟨_, rfl, ?_⟩
    rw [List.map_map]
    rfl

/-- **C149** Rescaling without a reference depth, for patches with points, all of which have been loaded: the least depth of the whole
surface is the reference, so that it stays where it is. -/
theorem C149_rescale_least_partial (factor : K) (patches : List (ZPatch K)) (hne : patches ≠ [])
    (hl : ∀ q ∈ patches, q.loaded = true ∧ q.z ≠ []) :
    ∃ m l, IsLeastDepth patches m ∧ rescaleSurface none factor patches = .ok l ∧
      l.map (·.z) = patches.map fun q => q.z.map fun z => m + factor * (z - m) := by
  rcases findRef_ok patches hl none with ⟨h, _⟩ | ⟨m, h1, h2, h3, _⟩
  · exact absurd h hne
  · have hleast : IsLeastDepth patches m := by
      refine ⟨?_, h3⟩
      rcases h2 with h | h
      · exact h
      · cases h
    unfold rescaleSurface
    split_ifs with h
    · refine ⟨m, patches, hleast, rfl, List.map_congr_left fun q _ => ?_⟩
      subst h
      have : (fun z : K => m + 1 * (z - m)) = id := by
        funext z
        simp
      rw [this, List.map_id]
    · refine ⟨m, patches.map (ZPatch.rescale m factor), hleast, ?_, ?_⟩
      · dsimp only
        rw [h1]
      · rw [List.map_map]
        rfl

example : ∀ q ∈ [(⟨[3, 1], true⟩ : ZPatch Rat), ⟨[2], true⟩], q.loaded = true ∧ q.z ≠ [] := by
  intro q hq
  simp only [List.mem_cons, List.not_mem_nil, or_false] at hq
  rcases hq with rfl | rfl <;> simp

omit [IsStrictOrderedRing K] in
/-- **C149** (negation) Rescaling without a reference depth fails for a surface which has just been loaded from a model, as the points of
its first patch are not there yet, though the same surface could be rescaled once its points had been asked for. -/
theorem C149_just_loaded_violated (factor : K) (hf : factor ≠ 1) (z : List K) (rest : List (ZPatch K)) :
    rescaleSurface none factor (⟨z, false⟩ :: rest) = .error .type := by
  unfold rescaleSurface
  rw [if_neg hf]
  rfl

example : (2 : Rat) ≠ 1 := by norm_num

end

/-! ## GOCAD files -/

section tsurf
variable {K : Type}

/-- what a file of this format says, line by line: a vertex, a triangle given by the numbers of its vertices, or something else -/
inductive Item (K : Type) where
  | vertex (p : K × K × K)
  | triangle (a b c : Int)
  | other (words : List String)

/-- the file which says this, with the vertices numbered from `k` on; `showInt` and `showFloat` write numbers -/
def written (showInt : Int → String) (showFloat : K → String) : Int → List (Item K) → List TsLine
  | _, [] => []
  | k, .vertex p :: r => ⟨true, false, ["VRTX", showInt k, showFloat p.1, showFloat p.2.1, showFloat p.2.2]⟩ ::
      written showInt showFloat (k + 1) r
  | k, .triangle a b c :: r => ⟨false, true, ["TRGL", showInt a, showInt b, showInt c]⟩ :: written showInt showFloat k r
  | k, .other w :: r => ⟨false, false, w⟩ :: written showInt showFloat k r

/-- the vertices of a file, in order -/
def vertexList (items : List (Item K)) : List (K × K × K) := items.filterMap fun i => match i with | .vertex p => some p | _ => none

/-- the triangles of a file, in order, by the numbers of the vertices -/
def triangleList (items : List (Item K)) : List (Int × Int × Int) :=
  items.filterMap fun i => match i with | .triangle a b c => some (a, b, c) | _ => none

theorem tsLoop_written (toInt : String → Option Int) (showInt : Int → String) (showFloat : K → String)
    (hi : ∀ n, toInt (showInt n) = some n) (items : List (Item K)) :
    ∀ (s : TsState) (k : Int), (s.last = none ∨ s.last = some (k - 1)) →
      ∃ s', tsLoop toInt s (written showInt showFloat k items) = .ok s' ∧
        s'.vertices = s.vertices ++ (vertexList items).map (fun p => [showFloat p.1, showFloat p.2.1, showFloat p.2.2]) ∧
        s'.triangles = s.triangles ++ (triangleList items).map (fun t => [showInt t.1, showInt t.2.1, showInt t.2.2]) ∧
        s'.offset = (if s.last = none ∧ vertexList items ≠ [] then k else s.offset) := by
  induction items with
  | nil =>
    intro s k _
    exact ⟨s, rfl, by simp [vertexList], by simp [triangleList], by simp [vertexList]⟩
  | cons i r ih =>
    intro s k hs
    cases i with
    | vertex p =>
      have hstep : ∃ s1, tsStep toInt s ⟨true, false, ["VRTX", showInt k, showFloat p.1, showFloat p.2.1, showFloat p.2.2]⟩ = .ok s1 ∧
          s1.vertices = s.vertices ++ [[showFloat p.1, showFloat p.2.1, showFloat p.2.2]] ∧ s1.triangles = s.triangles ∧
          s1.last = some k ∧ s1.offset = (if s.last = none then k else s.offset) := by
        unfold tsStep
        simp only [if_true, List.getElem?_cons_succ, List.getElem?_cons_zero, hi]
        rcases hs with hs | hs
        · rw [hs]
          exact ⟨_, rfl, rfl, rfl, rfl, by simp⟩
        · rw [hs]
          dsimp only
          rw [if_pos (by omega)]
          exact ⟨_, rfl, rfl, rfl, rfl, by simp⟩
      obtain ⟨s1, a1, a2, a3, a4, a5⟩ := hstep
      obtain ⟨s', b1, b2, b3, b4⟩ := ih s1 (k + 1) (.inr (by rw [a4]; congr 1; omega))
      refine ⟨s', ?_, ?_, ?_, ?_⟩
      · rw [written, tsLoop, a1]
        exact b1
      · rw [b2, a2]
        simp [vertexList]
      · rw [b3, a3]
        simp [triangleList]
      · rw [b4, a4, a5]
        simp [vertexList]
    | triangle a b c =>
      obtain ⟨s', b1, b2, b3, b4⟩ := ih { s with triangles := s.triangles ++ [[showInt a, showInt b, showInt c]] } k hs
      exact ⟨s', b1, by rw [b2]; simp [vertexList], by rw [b3]; simp [triangleList], by rw [b4]; simp [vertexList]⟩
    | other w =>
      obtain ⟨s', b1, b2, b3, b4⟩ := ih s k hs
      exact ⟨s', b1, by rw [b2]; simp [vertexList], by rw [b3]; simp [triangleList], by rw [b4]; simp [vertexList]⟩

theorem mapM_rows {L : Type} (parse : String → Option L) (sh : L → String) (h : ∀ x, parse (sh x) = some x) (l : List (L × L × L)) :
    (l.map fun p => [sh p.1, sh p.2.1, sh p.2.2]).mapM (tsRow parse) = some l := by
  induction l with
  | nil => rfl
  | cons p l ih =>
    rw [List.map_cons, List.mapM_cons, ih]
    simp [tsRow, h]

/-- **C150** Reading a GOCAD file: whatever the number of its first vertex, and wherever its triangles stand among the vertices and other
lines, the points are the vertices in order, and each triangle has as its corners the vertices with the numbers it is given with. -/
theorem C150_tsurf (toInt : String → Option Int) (toFloat : String → Option K) (showInt : Int → String) (showFloat : K → String)
    (hi : ∀ n, toInt (showInt n) = some n) (hf : ∀ x, toFloat (showFloat x) = some x) (first : Int) (items : List (Item K))
    (hv : 3 ≤ (vertexList items).length) (ht : triangleList items ≠ [])
    (hr : ∀ t ∈ triangleList items, ∀ n ∈ [t.1, t.2.1, t.2.2], first ≤ n ∧ n < first + (vertexList items).length) :
    ∃ ts, readTsurf toInt toFloat (written showInt showFloat first items) = .ok (ts, vertexList items) ∧
      ts.map (corners (vertexList items)) =
        (triangleList items).map fun t => corners (vertexList items) (t.1 - first, t.2.1 - first, t.2.2 - first) := by
  obtain ⟨s, h1, h2, h3, h4⟩ := tsLoop_written toInt showInt showFloat hi items ⟨[], [], none, 0⟩ first (.inl rfl)
  rw [List.nil_append] at h2 h3
  rw [if_pos ⟨rfl, by intro h; rw [h] at hv; simp at hv⟩] at h4
  refine ⟨(triangleList items).map fun t => (t.1 - first, t.2.1 - first, t.2.2 - first), ?_, by rw [List.map_map]; rfl⟩
  unfold readTsurf
  rw [h1]
  dsimp only
  rw [h2, h3, h4, List.length_map, if_pos hv, List.length_map, if_pos (List.length_pos_iff.2 ht), mapM_rows toInt showInt hi,
    mapM_rows toFloat showFloat hf]
  dsimp only
  rw [if_pos]
  refine ⟨?_, ?_⟩ <;> rw [List.all_eq_true] <;> intro t ht' <;> obtain ⟨q, hq, rfl⟩ := List.mem_map.1 ht' <;>
    have a := hr q hq q.1 (by simp) <;> have b := hr q hq q.2.1 (by simp) <;> have c := hr q hq q.2.2 (by simp) <;>
    apply decide_eq_true <;> dsimp only <;> omega

/-- a reading of single digits, for the example -/
def digit (s : String) : Option Int := (["0", "1", "2", "3", "4", "5", "6", "7", "8", "9"].idxOf? s).map fun n => (n : Int)

/-- there are ways of writing and reading numbers as supposed -/
example : ∃ (toInt : String → Option Int) (showInt : Int → String), ∀ n, toInt (showInt n) = some n :=
  ⟨fun s => some (if s.toList.length % 2 = 0 then ((s.toList.length / 2 : Nat) : Int) else - (((s.toList.length + 1) / 2 : Nat) : Int)),
    fun n => String.ofList (List.replicate (if 0 ≤ n then 2 * n.toNat else 2 * (-n).toNat - 1) 'i'), fun n => by
      simp only [String.toList_ofList, List.length_replicate, Option.some.injEq]
      split_ifs <;> omega⟩

example : readTsurf digit digit [⟨true, false, ["VRTX", "5", "0", "0", "1"]⟩, ⟨true, false, ["VRTX", "6", "9", "0", "2"]⟩,
    ⟨false, false, ["END"]⟩, ⟨true, false, ["VRTX", "7", "0", "9", "3"]⟩, ⟨false, true, ["TRGL", "5", "7", "6"]⟩] =
    .ok ([(0, 2, 1)], [(0, 0, 1), (9, 0, 2), (0, 9, 3)]) := by decide +kernel

/-- **C150** A vertex with a number which does not follow on is refused. -/
theorem C150_out_of_sequence (toInt : String → Option Int) (toFloat : String → Option K) (showInt : Int → String) (showFloat : K → String)
    (hi : ∀ n, toInt (showInt n) = some n) (first : Int) (items : List (Item K)) (hv : vertexList items ≠ []) (n : Int)
    (hn : n ≠ first + (vertexList items).length) (w : List String) (rest : List TsLine) :
    readTsurf toInt toFloat (written showInt showFloat first items ++ ⟨true, false, "VRTX" :: showInt n :: w⟩ :: rest) =
      .error .assertion := by
  have key : ∀ (items : List (Item K)) (s : TsState) (k : Int), (s.last = some (k - 1) ∨ s.last = none ∧ vertexList items ≠ []) →
      n ≠ k + (vertexList items).length →
      tsLoop toInt s (written showInt showFloat k items ++ ⟨true, false, "VRTX" :: showInt n :: w⟩ :: rest) = .error .assertion := by
    intro items
    induction items with
    | nil =>
      intro s k hs hn'
      rcases hs with hs | ⟨_, hs⟩
      · simp only [vertexList, List.filterMap_nil, List.length_nil, Nat.cast_zero, Int.add_zero] at hn'
        show tsLoop toInt s (_ :: rest) = _
        unfold tsLoop tsStep
        simp only [if_true, List.getElem?_cons_succ, List.getElem?_cons_zero, hi, hs]
        rw [if_neg (by omega)]
      · exact absurd rfl hs
    | cons i r ih =>
      intro s k hs hn'
      cases i with
      | vertex p =>
        rw [written, List.cons_append]
        unfold tsLoop
        have hlen : (vertexList (Item.vertex p :: r)).length = (vertexList r).length + 1 := by simp [vertexList]
        rw [hlen] at hn'
        unfold tsStep
        simp only [if_true, List.getElem?_cons_succ, List.getElem?_cons_zero, hi]
        rcases hs with hs | ⟨hs, _⟩
        · rw [hs]
          dsimp only
          rw [if_pos (by omega)]
          exact ih _ (k + 1) (.inl (by simp)) (by push_cast at hn'; omega)
        · rw [hs]
          exact ih _ (k + 1) (.inl (by simp)) (by push_cast at hn'; omega)
      | triangle a b c =>
        exact ih _ k hs hn'
      | other w' =>
        exact ih _ k hs hn'
  unfold readTsurf
  rw [key items _ first (.inr ⟨rfl, hv⟩) hn]

example : vertexList [Item.vertex ((1 : Int), (2 : Int), (3 : Int)), .other ["x"]] ≠ [] := by decide

end tsurf

/-- C150: whatever the lines of a file, if it is read there are three vertices or more and a triangle, and each corner of each triangle is one
of the vertices. -/
theorem C150_in_range (toInt : String → Option Int) (toFloat : String → Option K) {lines : List TsLine} {ts : List (Int × Int × Int)}
    {vs : List (K × K × K)} (h : readTsurf toInt toFloat lines = .ok (ts, vs)) :
    3 ≤ vs.length ∧ ts ≠ [] ∧ ∀ t ∈ ts, ∀ n ∈ [t.1, t.2.1, t.2.2], 0 ≤ n ∧ n < vs.length := by
  have len : ∀ {α β : Type} {f : α → Option β} {l : List α} {m : List β}, l.mapM f = some m → m.length = l.length := by
    intro α β f l
    induction l with
    | nil => intro m hm; simp at hm; simp [hm]
    | cons a l ih =>
      intro m hm
      rw [List.mapM_cons] at hm
      cases e : f a with
      | none => simp [e] at hm
      | some b =>
        cases e2 : l.mapM f with
        | none => simp [e, e2] at hm
        | some bs =>
          simp only [e, e2, Option.bind_eq_bind, Option.bind_some, Option.pure_def, Option.some.injEq] at hm
          subst hm
          simp [ih e2]
  unfold readTsurf at h
  cases e : tsLoop toInt ⟨[], [], none, 0⟩ lines with
  | error x => simp [e] at h
  | ok s =>
    simp only [e] at h
    split_ifs at h with h1 h2
    cases e1 : s.triangles.mapM (tsRow toInt) with
    | none => simp [e1] at h
    | some ts0 =>
      cases e2 : s.vertices.mapM (tsRow toFloat) with
      | none => simp [e1, e2] at h
      | some vs0 =>
        simp only [e1, e2] at h
        split_ifs at h with h3
        simp only [Except.ok.injEq, Prod.mk.injEq] at h
        obtain ⟨rfl, rfl⟩ := h
        refine ⟨by rw [len e2]; exact h1, ?_, ?_⟩
        · intro hnil
          have := congrArg List.length hnil
          rw [List.length_map, len e1] at this
          simp at this
          simp [this] at h2
        · intro t ht n hn
          have a := List.all_eq_true.1 h3.1 t ht
          have b := List.all_eq_true.1 h3.2 t ht
          simp only [decide_eq_true_eq] at a b
          simp only [List.mem_cons, List.not_mem_nil, or_false] at hn
          rcases hn with rfl | rfl | rfl
          · exact ⟨a.1, b.1⟩
          · exact ⟨a.2.1, b.2.1⟩
          · exact ⟨a.2.2, b.2.2⟩

end Verif.Surface
