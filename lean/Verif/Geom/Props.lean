import Verif.Geom.Lemmas
import Mathlib.Data.List.Basic
import Mathlib.Algebra.Order.Ring.Rat

/-! # C87: lines and triangles; C88: lines in the plane -/

namespace Verif.Geom
variable {K : Type} [Field K] [LinearOrder K] [IsStrictOrderedRing K]

omit [IsStrictOrderedRing K] in
/-- C87: a point is returned exactly if the line (or segment) meets the triangle there, and is not parallel to it. -/
theorem C87_line_triangle [IsStrictOrderedRing K] (p v : P3 K) (tri : Tri K) (segment : Bool) (q : P3 K) :
    lineTriangle p v tri segment 0 0 = some q ↔ ¬ Parallel v tri ∧ OnLine p v segment q ∧ InTriangle tri q := by
  rw [lineTriangle_iff, parallel_iff]
  apply and_congr_right
  intro hd
  constructor
  · rintro ⟨t, u, w, ⟨m1, m2, m3⟩, h1, h2, h3, h4, h5, rfl⟩
    refine ⟨⟨t, ?_, rfl, rfl, rfl⟩, 1 - u - w, u, w, by linarith, by linarith, by linarith, by ring, ?_, ?_, ?_⟩
    · intro hs
      have := h1 hs
      constructor <;> linarith
    · dsimp only [P3.along]; rw [m1]; ring
    · dsimp only [P3.along]; rw [m2]; ring
    · dsimp only [P3.along]; rw [m3]; ring
  · rintro ⟨⟨t, ht, a1, a2, a3⟩, f, g, h, hf, hg, hh, hs, b1, b2, b3⟩
    have ef : f = 1 - g - h := by linarith
    subst ef
    refine ⟨t, g, h, ⟨?_, ?_, ?_⟩, ?_, by linarith, by linarith, by linarith, by linarith, ?_⟩
    · rw [← a1, b1]; ring
    · rw [← a2, b2]; ring
    · rw [← a3, b3]; ring
    · intro hs
      have := ht hs
      constructor <;> linarith
    · exact P3.ext a1 a2 a3

/-- C87: there is at most one such point, so that none is missed: `None` is returned exactly if the line is parallel to the plane
or misses the triangle. -/
theorem C87_line_triangle_none (p v : P3 K) (tri : Tri K) (segment : Bool) :
    lineTriangle p v tri segment 0 0 = none ↔ Parallel v tri ∨ ∀ q, OnLine p v segment q → ¬ InTriangle tri q := by
  constructor
  · intro h
    by_contra hc
    push Not at hc
    obtain ⟨h1, q, h2, h3⟩ := hc
    rw [(C87_line_triangle p v tri segment q).mpr ⟨h1, h2, h3⟩] at h
    cases h
  · intro h
    cases hq : lineTriangle p v tri segment 0 0 with
    | none => rfl
    | some q =>
      obtain ⟨h1, h2, h3⟩ := (C87_line_triangle p v tri segment q).mp hq
      rcases h with h | h
      · exact absurd h h1
      · exact absurd h3 (h q h2)

omit [IsStrictOrderedRing K] in
/-- C87: with tolerances, the fractions along the line and the sides of the triangle may be out of range by as much. -/
theorem C87_tolerances (p v : P3 K) (tri : Tri K) (segment : Bool) (lTol tTol : K) (q : P3 K) :
    lineTriangle p v tri segment lTol tTol = some q ↔ ¬ Parallel v tri ∧ ∃ t u w : K,
      (q.x = p.x + t * v.x ∧ q.y = p.y + t * v.y ∧ q.z = p.z + t * v.z) ∧
      (q.x = tri.a.x + u * (tri.b.x - tri.a.x) + w * (tri.c.x - tri.a.x) ∧ q.y = tri.a.y + u * (tri.b.y - tri.a.y) + w * (tri.c.y - tri.a.y) ∧
        q.z = tri.a.z + u * (tri.b.z - tri.a.z) + w * (tri.c.z - tri.a.z)) ∧
      (segment = true → -lTol ≤ t ∧ t ≤ 1 + lTol) ∧ -tTol ≤ u ∧ u ≤ 1 + tTol ∧ -tTol ≤ w ∧ u + w ≤ 1 + tTol := by
  rw [lineTriangle_iff, parallel_iff]
  apply and_congr_right
  intro _
  constructor
  · rintro ⟨t, u, w, ⟨m1, m2, m3⟩, h1, h2, h3, h4, h5, rfl⟩
    exact ⟨t, u, w, ⟨rfl, rfl, rfl⟩, ⟨m1, m2, m3⟩, h1, h2, h3, h4, h5⟩
  · rintro ⟨t, u, w, ⟨a1, a2, a3⟩, ⟨b1, b2, b3⟩, h1, h2, h3, h4, h5⟩
    exact ⟨t, u, w, ⟨by rw [← a1, b1], by rw [← a2, b2], by rw [← a3, b3]⟩, h1, h2, h3, h4, h5, P3.ext a1 a2 a3⟩

omit [IsStrictOrderedRing K] in
/-- C87: the plane of the triangle -/
theorem C87_line_plane (p v : P3 K) (tri : Tri K) (q : P3 K) :
    linePlane p v tri = some q ↔ ¬ Parallel v tri ∧ OnLine p v false q ∧ InPlane tri q := by
  rw [parallel_iff]
  unfold linePlane
  dsimp only
  rw [show dot v.neg (cross (tri.b.sub tri.a) (tri.c.sub tri.a)) = denomOf v tri from rfl]
  by_cases hd : denomOf v tri = 0
  · rw [if_pos hd]
    exact ⟨fun h => (by cases h), fun h => absurd hd h.1⟩
  rw [if_neg hd]
  constructor
  · intro h
    cases h
    obtain ⟨m1, m2, m3⟩ := (meets_iff (p := p) hd _ _ _).mpr ⟨rfl, rfl, rfl⟩
    generalize hg : dot (cross (tri.c.sub tri.a) v.neg) (p.sub tri.a) / denomOf v tri = g at m1 m2 m3
    generalize hh : dot (cross v.neg (tri.b.sub tri.a)) (p.sub tri.a) / denomOf v tri = h at m1 m2 m3
    refine ⟨hd, ⟨_, fun h => (by cases h), rfl, rfl, rfl⟩, 1 - g - h, g, h, by ring, ?_, ?_, ?_⟩
    · dsimp only [P3.along]; rw [m1]; ring
    · dsimp only [P3.along]; rw [m2]; ring
    · dsimp only [P3.along]; rw [m3]; ring
  · rintro ⟨-, ⟨t, -, a1, a2, a3⟩, f, g, h, hs, b1, b2, b3⟩
    have ef : f = 1 - g - h := by linear_combination hs
    subst ef
    have hm : Meets p v tri t g h := ⟨by rw [← a1, b1]; ring, by rw [← a2, b2]; ring, by rw [← a3, b3]; ring⟩
    obtain ⟨e1, -, -⟩ := (meets_iff hd t g h).mp hm
    rw [← e1]
    exact congrArg some (P3.ext a1 a2 a3).symm

omit [IsStrictOrderedRing K] in
/-- the calculation for many at once gives the same -/
theorem oneOfMany_eq (p v : P3 K) (segment : Bool) (tri : Tri K) : oneOfMany p v segment tri = lineTriangle p v tri segment 0 0 := by
  have hc : dot (cross (tri.b.sub tri.a) (tri.c.sub tri.a)) v.neg = denomOf v tri := by
    unfold denomOf dot
    ring
  unfold oneOfMany lineTriangle
  dsimp only
  rw [hc, show dot v.neg (cross (tri.b.sub tri.a) (tri.c.sub tri.a)) = denomOf v tri from rfl]
  simp only [sub_zero, add_zero]
  by_cases hd : denomOf v tri = 0
  · rw [if_pos hd]
    have : ∀ n, nzDivide n (denomOf v tri) = none := fun n => by unfold nzDivide; rw [if_neg (not_not.mpr hd)]
    simp only [this, nanLt, nanGt, nanAdd]
    cases segment <;> rfl
  · rw [if_neg hd]
    have : ∀ n, nzDivide n (denomOf v tri) = some (n / denomOf v tri) := fun n => by unfold nzDivide; rw [if_pos hd]
    simp only [this, nanLt, nanGt, nanAdd]
    generalize dot (cross (tri.b.sub tri.a) (tri.c.sub tri.a)) (p.sub tri.a) / denomOf v tri = t
    generalize dot (cross (tri.c.sub tri.a) v.neg) (p.sub tri.a) / denomOf v tri = u
    generalize dot (cross v.neg (tri.b.sub tri.a)) (p.sub tri.a) / denomOf v tri = w
    by_cases h1 : u < 0 <;> by_cases h2 : 1 < u <;> by_cases h3 : w < 0 <;> by_cases h4 : 1 < u + w <;>
      by_cases h5 : t < 0 <;> by_cases h6 : 1 < t <;> cases segment <;> simp [h1, h2, h3, h4, h5, h6]

/-- C87: for many triangles at once there is a point for a triangle exactly if the line meets it, whatever the other triangles. -/
theorem C87_many_triangles (p v : P3 K) (tris : List (Tri K)) (segment : Bool) (n : Nat) (q : P3 K) :
    (lineTriangles p v tris segment)[n]? = some (some q) ↔
      ∃ tri, tris[n]? = some tri ∧ ¬ Parallel v tri ∧ OnLine p v segment q ∧ InTriangle tri q := by
  unfold lineTriangles
  rw [List.getElem?_map]
  cases tris[n]? with
  | none => simp
  | some tri =>
    rw [Option.map_some, Option.some_inj, oneOfMany_eq, C87_line_triangle]
    simp

/-- C87: for many lines at once, likewise; a place for each line and triangle. -/
theorem C87_many_lines (lines : List (P3 K × P3 K)) (tris : List (Tri K)) (segment : Bool) (l n : Nat) (q : P3 K) :
    (∃ row, (lineSetTriangles lines tris segment)[l]? = some row ∧ row[n]? = some (some q)) ↔
      ∃ line tri, lines[l]? = some line ∧ tris[n]? = some tri ∧ ¬ Parallel line.2 tri ∧ OnLine line.1 line.2 segment q ∧ InTriangle tri q := by
  unfold lineSetTriangles
  rw [List.getElem?_map]
  cases lines[l]? with
  | none => simp
  | some line =>
    have := C87_many_triangles line.1 line.2 tris segment n q
    unfold lineTriangles at this
    constructor
    · rintro ⟨row, h1, h2⟩
      cases h1
      obtain ⟨tri, h⟩ := this.mp h2
      exact ⟨line, tri, rfl, h⟩
    · rintro ⟨line', tri, h1, h⟩
      cases h1
      exact ⟨_, rfl, this.mpr ⟨tri, h⟩⟩

/-! ## Lists of intersections -/

omit [Field K] [LinearOrder K] [IsStrictOrderedRing K] in
theorem mem_found {row : List (Option (P3 K))} {n : Nat} {q : P3 K} : (n, q) ∈ found row ↔ row[n]? = some (some q) := by
  unfold found
  rw [List.mem_filterMap]
  constructor
  · rintro ⟨⟨o, k⟩, h1, h2⟩
    rw [List.mem_zipIdx_iff_getElem?] at h1
    cases o with
    | none => cases h2
    | some q' =>
      cases h2
      exact h1
  · intro h
    exact ⟨(some q, n), List.mem_zipIdx_iff_getElem?.mpr h, rfl⟩

omit [Field K] [LinearOrder K] [IsStrictOrderedRing K] in
theorem zipIdx_pairwise {A : Type} (l : List A) (k : Nat) : (l.zipIdx k).Pairwise fun a b => a.2 < b.2 := by
  induction l generalizing k with
  | nil => exact List.Pairwise.nil
  | cons a l ih =>
    rw [List.zipIdx_cons, List.pairwise_cons]
    refine ⟨?_, ih (k + 1)⟩
    rintro ⟨b, n⟩ h
    have := List.le_snd_of_mem_zipIdx h
    change k < n
    omega

omit [Field K] [LinearOrder K] [IsStrictOrderedRing K] in
theorem found_pairwise (row : List (Option (P3 K))) : (found row).Pairwise fun a b => a.1 < b.1 := by
  unfold found
  rw [List.pairwise_filterMap]
  refine (zipIdx_pairwise row 0).imp ?_
  rintro ⟨o, k⟩ ⟨o', k'⟩ hk b hb b' hb'
  cases o with
  | none => cases hb
  | some q =>
    cases o' with
    | none => cases hb'
    | some q' =>
      cases hb
      cases hb'
      exact hk

omit [Field K] [LinearOrder K] [IsStrictOrderedRing K] in
/-- C87: the list of all intersections has each of them once, ordered by line and then by triangle. -/
theorem C87_distilled (rows : List (List (Option (P3 K)))) :
    (∀ l n q, (l, n, q) ∈ distilled rows ↔ ∃ row, rows[l]? = some row ∧ row[n]? = some (some q)) ∧
    (distilled rows).Pairwise fun a b => a.1 < b.1 ∨ a.1 = b.1 ∧ a.2.1 < b.2.1 := by
  constructor
  · intro l n q
    unfold distilled
    rw [List.mem_flatMap]
    constructor
    · rintro ⟨⟨row, k⟩, h1, h2⟩
      rw [List.mem_map] at h2
      obtain ⟨⟨n', q'⟩, h2, h3⟩ := h2
      cases h3
      exact ⟨row, List.mem_zipIdx_iff_getElem?.mp h1, mem_found.mp h2⟩
    · rintro ⟨row, h1, h2⟩
      exact ⟨(row, l), List.mem_zipIdx_iff_getElem?.mpr h1, List.mem_map.mpr ⟨(n, q), mem_found.mpr h2, rfl⟩⟩
  · unfold distilled
    rw [List.pairwise_flatMap]
    constructor
    · rintro ⟨row, k⟩ _
      rw [List.pairwise_map]
      exact (found_pairwise row).imp fun h => Or.inr ⟨rfl, h⟩
    · refine (zipIdx_pairwise rows 0).imp ?_
      rintro ⟨r, k⟩ ⟨r', k'⟩ hk x hx y hy
      obtain ⟨e, -, rfl⟩ := List.mem_map.mp hx
      obtain ⟨e', -, rfl⟩ := List.mem_map.mp hy
      exact Or.inl hk

omit [Field K] [LinearOrder K] [IsStrictOrderedRing K] in
/-- C87: the triangles for a line and the lines for a triangle are those with an intersection. -/
theorem C87_by_line_and_triangle (rows : List (List (Option (P3 K)))) (l t : Nat) (q : P3 K) :
    ((∃ es, trianglesForLine rows l = some es ∧ (t, q) ∈ es) ↔ ∃ row, rows[l]? = some row ∧ row[t]? = some (some q)) ∧
    ((l, q) ∈ linesForTriangle rows t ↔ ∃ row, rows[l]? = some row ∧ row[t]? = some (some q)) := by
  constructor
  · unfold trianglesForLine
    cases rows[l]? with
    | none => simp
    | some row => simp [mem_found]
  · unfold linesForTriangle
    rw [List.mem_filterMap]
    constructor
    · rintro ⟨⟨row, k⟩, h1, h2⟩
      rw [List.mem_zipIdx_iff_getElem?] at h1
      dsimp only at h2
      rw [Option.map_eq_some_iff] at h2
      obtain ⟨q', h2, h3⟩ := h2
      cases h3
      refine ⟨row, h1, ?_⟩
      rw [List.getD_eq_getElem?_getD] at h2
      cases h : row[t]? with
      | none => rw [h] at h2; cases h2
      | some o => rw [h] at h2; exact congrArg some h2
    · rintro ⟨row, h1, h2⟩
      refine ⟨(row, l), List.mem_zipIdx_iff_getElem?.mpr h1, ?_⟩
      rw [List.getD_eq_getElem?_getD, h2]
      rfl

omit [Field K] [LinearOrder K] [IsStrictOrderedRing K] in
theorem foldl_setAt_length (es : List (Nat × Nat × P3 K)) (pick : List (Option (P3 K))) : (es.foldl setAt pick).length = pick.length := by
  induction es generalizing pick with
  | nil => rfl
  | cons e es ih => rw [List.foldl_cons, ih]; unfold setAt; rw [List.length_set]

omit [Field K] [LinearOrder K] [IsStrictOrderedRing K] in
/-- what is left in a place after all assignments is the last one made there -/
theorem foldl_setAt_get (es : List (Nat × Nat × P3 K)) (hs : es.Pairwise fun a b => a.1 < b.1 ∨ a.1 = b.1 ∧ a.2.1 < b.2.1)
    (pick : List (Option (P3 K))) (l : Nat) (hl : l < pick.length) (o : Option (P3 K)) :
    (es.foldl setAt pick)[l]? = some o ↔
      (∃ n q, (l, n, q) ∈ es ∧ o = some q ∧ ∀ n' q', (l, n', q') ∈ es → n' ≤ n) ∨ (∀ n q, (l, n, q) ∉ es) ∧ pick[l]? = some o := by
  induction es generalizing pick with
  | nil => simp
  | cons e es ih =>
    rw [List.pairwise_cons] at hs
    rw [List.foldl_cons, ih hs.2 _ (by unfold setAt; rw [List.length_set]; exact hl)]
    obtain ⟨k, m, r⟩ := e
    constructor
    · rintro (⟨n, q, h1, h2, h3⟩ | ⟨h1, h2⟩)
      · refine Or.inl ⟨n, q, by simp [h1], h2, ?_⟩
        intro n' q' h
        rcases List.mem_cons.mp h with h | h
        · cases h
          rcases hs.1 _ h1 with h | ⟨_, h⟩
          · exact absurd h (lt_irrefl _)
          · exact le_of_lt h
        · exact h3 n' q' h
      · unfold setAt at h2
        rw [List.getElem?_set] at h2
        split at h2
        · rename_i hk
          dsimp only at hk
          subst hk
          rw [if_pos hl] at h2
          cases h2
          refine Or.inl ⟨m, r, by simp, rfl, ?_⟩
          intro n' q' h
          rcases List.mem_cons.mp h with h | h
          · cases h; exact le_refl _
          · exact absurd h (h1 n' q')
        · rename_i hk
          refine Or.inr ⟨?_, h2⟩
          intro n q h
          rcases List.mem_cons.mp h with h | h
          · cases h; exact hk rfl
          · exact h1 n q h
    · rintro (⟨n, q, h1, h2, h3⟩ | ⟨h1, h2⟩)
      · rcases List.mem_cons.mp h1 with h | h
        · cases h
          refine Or.inr ⟨?_, ?_⟩
          · intro n' q' h
            have a := h3 n' q' (by simp [h])
            rcases hs.1 _ h with h | ⟨_, h⟩
            · exact absurd h (lt_irrefl _)
            · dsimp only at h; omega
          · unfold setAt
            rw [List.getElem?_set, if_pos rfl, if_pos hl, h2]
        · exact Or.inl ⟨n, q, h, h2, fun n' q' h' => h3 n' q' (by simp [h'])⟩
      · refine Or.inr ⟨fun n q h => h1 n q (by simp [h]), ?_⟩
        unfold setAt
        rw [List.getElem?_set, if_neg]
        · exact h2
        · intro hk
          dsimp only at hk
          subst hk
          exact h1 m r (by simp)

omit [Field K] [LinearOrder K] [IsStrictOrderedRing K] in
/-- C87: at most one point for each line: that of the last triangle which it meets, if any. -/
theorem C87_last (rows : List (List (Option (P3 K)))) :
    (lastIntersects rows).length = rows.length ∧ ∀ (l : Nat) (row : List (Option (P3 K))), rows[l]? = some row →
      (∀ q : P3 K, (lastIntersects rows)[l]? = some (some q) ↔
        ∃ n : Nat, row[n]? = some (some q) ∧ ∀ (n' : Nat) q', row[n']? = some (some q') → n' ≤ n) ∧
      ((lastIntersects rows)[l]? = some none ↔ ∀ (n : Nat) q, row[n]? ≠ some (some q)) := by
  obtain ⟨hmem, hpw⟩ := C87_distilled rows
  constructor
  · unfold lastIntersects
    rw [foldl_setAt_length, List.length_replicate]
  intro l row hrow
  have hl : l < rows.length := (List.getElem?_eq_some_iff.mp hrow).1
  have hmem' : ∀ (n : Nat) (q : P3 K), (l, n, q) ∈ distilled rows ↔ row[n]? = some (some q) := by
    intro n q
    rw [hmem]
    constructor
    · rintro ⟨row', h1, h2⟩
      rw [hrow] at h1
      cases h1
      exact h2
    · intro h
      exact ⟨row, hrow, h⟩
  have key := fun o => foldl_setAt_get (distilled rows) hpw (List.replicate rows.length none) l (by rw [List.length_replicate]; exact hl) o
  have hrep : (List.replicate rows.length (none : Option (P3 K)))[l]? = some none := by
    rw [List.getElem?_replicate, if_pos hl]
  constructor
  · intro q
    unfold lastIntersects
    rw [key]
    constructor
    · rintro (⟨n, q', h1, h2, h3⟩ | ⟨_, h⟩)
      · cases h2
        exact ⟨n, (hmem' n q).mp h1, fun n' q' h => h3 n' q' ((hmem' n' q').mpr h)⟩
      · rw [hrep] at h
        cases h
    · rintro ⟨n, h1, h2⟩
      exact Or.inl ⟨n, q, (hmem' n q).mpr h1, rfl, fun n' q' h => h2 n' q' ((hmem' n' q').mp h)⟩
  · unfold lastIntersects
    rw [key]
    constructor
    · rintro (⟨n, q', _, h2, _⟩ | ⟨h, _⟩)
      · cases h2
      · intro n q hq
        exact h n q ((hmem' n q).mpr hq)
    · intro h
      exact Or.inr ⟨fun n q hq => h n q ((hmem' n q).mp hq), hrep⟩

/-! ## The first intersection of a line of points -/

/-- the segment between two points meets the triangle at `q`, and is not parallel to it -/
def Hits (a b : P3 K) (tri : Tri K) (q : P3 K) : Prop := ¬ Parallel (b.sub a) tri ∧ OnLine a (b.sub a) true q ∧ InTriangle tri q

omit [LinearOrder K] [IsStrictOrderedRing K] in
theorem segmentsOf_get (ps : List (P3 K)) (c : Nat) (s : P3 K × P3 K) :
    (segmentsOf ps)[c]? = some s ↔ ∃ a b, ps[c]? = some a ∧ ps[c + 1]? = some b ∧ s = (a, b.sub a) := by
  unfold segmentsOf
  rw [List.getElem?_zipWith, List.getElem?_tail]
  cases h1 : ps[c]? with
  | none => simp
  | some a =>
    cases h2 : ps[c + 1]? with
    | none => simp
    | some b => simp [eq_comm]

omit [IsStrictOrderedRing K] in
theorem firstFrom_spec [IsStrictOrderedRing K] (tris : List (Tri K)) (ss : List (P3 K × P3 K)) (c0 : Nat) :
    (firstFrom tris ss c0 = none ∧ ∀ s ∈ ss, ∀ tri ∈ tris, lineTriangle s.1 s.2 tri true 0 0 = none) ∨
    ∃ c q s, firstFrom tris ss c0 = some (c0 + c, some q) ∧ ss[c]? = some s ∧ (∃ tri ∈ tris, lineTriangle s.1 s.2 tri true 0 0 = some q) ∧
      ∀ c' s', c' < c → ss[c']? = some s' → ∀ tri ∈ tris, lineTriangle s'.1 s'.2 tri true 0 0 = none := by
  induction ss generalizing c0 with
  | nil => exact Or.inl ⟨rfl, fun s hs => (List.not_mem_nil hs).elim⟩
  | cons s ss ih =>
    by_cases hall : (lineTriangles s.1 s.2 tris true).all (·.isNone) = true
    · have hnone : ∀ tri ∈ tris, lineTriangle s.1 s.2 tri true 0 0 = none := by
        intro tri ht
        rw [List.all_eq_true] at hall
        have := hall _ (List.mem_map_of_mem (f := oneOfMany s.1 s.2 true) ht)
        rw [oneOfMany_eq] at this
        exact Option.isNone_iff_eq_none.mp this
      have e : firstFrom tris (s :: ss) c0 = firstFrom tris ss (c0 + 1) := by
        rw [firstFrom, if_pos hall]
      rcases ih (c0 + 1) with ⟨h1, h2⟩ | ⟨c, q, s1, h1, h2, h3, h4⟩
      · refine Or.inl ⟨by rw [e, h1], ?_⟩
        intro s' hs'
        rcases List.mem_cons.mp hs' with rfl | hs'
        · exact hnone
        · exact h2 s' hs'
      · refine Or.inr ⟨c + 1, q, s1, by rw [e, h1, Nat.add_right_comm, Nat.add_assoc], by rw [List.getElem?_cons_succ]; exact h2, h3, ?_⟩
        intro c' s' hc' hs'
        cases c' with
        | zero =>
          cases hs'
          exact hnone
        | succ c' => exact h4 c' s' (by omega) (by rw [List.getElem?_cons_succ] at hs'; exact hs')
    · have e : firstFrom tris (s :: ss) c0 = some (c0, (lastIntersects [lineTriangles s.1 s.2 tris true]).getD 0 none) := by
        rw [firstFrom, if_neg hall]
      obtain ⟨hlen, hrows⟩ := C87_last [lineTriangles s.1 s.2 tris true]
      obtain ⟨h1, h2⟩ := hrows 0 (lineTriangles s.1 s.2 tris true) rfl
      have hget : ∃ o, (lastIntersects [lineTriangles s.1 s.2 tris true])[0]? = some o :=
        ⟨_, List.getElem?_eq_getElem (by rw [hlen]; simp)⟩
      obtain ⟨o, ho⟩ := hget
      cases o with
      | none =>
        exfalso
        apply hall
        rw [List.all_eq_true]
        intro x hx
        obtain ⟨n, hn⟩ := List.mem_iff_getElem?.mp hx
        cases x with
        | none => rfl
        | some q => exact absurd hn (h2.mp ho n q)
      | some q =>
        obtain ⟨n, hn, -⟩ := (h1 q).mp ho
        refine Or.inr ⟨0, q, s, ?_, rfl, ?_, fun c' s' hc' => absurd hc' (Nat.not_lt_zero _)⟩
        · rw [e, List.getD_eq_getElem?_getD, ho]
          rfl
        · have := List.mem_of_getElem? hn
          unfold lineTriangles at this
          obtain ⟨tri, ht, he⟩ := List.mem_map.mp this
          rw [oneOfMany_eq] at he
          exact ⟨tri, ht, he⟩

/-- C87: the first segment of a line of points, from a given one on, which meets any of the triangles is found, with a point at which
it does; nothing is returned exactly if there is none. -/
theorem C87_first (ps : List (P3 K)) (tris : List (Tri K)) (start : Nat) :
    (firstIntersect ps tris start = none ∧ ∀ c a b, start ≤ c → ps[c]? = some a → ps[c + 1]? = some b → ∀ tri ∈ tris, ∀ q, ¬ Hits a b tri q) ∨
    ∃ c q a b, firstIntersect ps tris start = some (c, some q) ∧ start ≤ c ∧ ps[c]? = some a ∧ ps[c + 1]? = some b ∧
      (∃ tri ∈ tris, Hits a b tri q) ∧
      ∀ c' a' b', start ≤ c' → c' < c → ps[c']? = some a' → ps[c' + 1]? = some b' → ∀ tri ∈ tris, ∀ q, ¬ Hits a' b' tri q := by
  have hno : ∀ a b tri, lineTriangle a (b.sub a) tri true (0 : K) 0 = none → ∀ q, ¬ Hits a b tri q := by
    intro a b tri h q hq
    rw [(C87_line_triangle a (b.sub a) tri true q).mpr hq] at h
    cases h
  unfold firstIntersect
  rcases firstFrom_spec tris ((segmentsOf ps).drop start) start with ⟨h1, h2⟩ | ⟨c, q, s, h1, h2, ⟨tri, ht, h3⟩, h4⟩
  · refine Or.inl ⟨h1, ?_⟩
    intro c a b hc ha hb tri ht
    refine hno a b tri (h2 (a, b.sub a) ?_ tri ht)
    apply List.mem_of_getElem? (i := c - start)
    rw [List.getElem?_drop, show start + (c - start) = c by omega]
    exact (segmentsOf_get ps c _).mpr ⟨a, b, ha, hb, rfl⟩
  · rw [List.getElem?_drop] at h2
    obtain ⟨a, b, ha, hb, rfl⟩ := (segmentsOf_get ps _ _).mp h2
    refine Or.inr ⟨start + c, q, a, b, h1, by omega, ha, hb, ⟨tri, ht, (C87_line_triangle _ _ _ _ _).mp h3⟩, ?_⟩
    intro c' a' b' hs hc' ha' hb' tri' ht'
    refine hno a' b' tri' (h4 (c' - start) (a', b'.sub a') (by omega) ?_ tri' ht')
    rw [List.getElem?_drop, show start + (c' - start) = c' by omega]
    exact (segmentsOf_get ps c' _).mpr ⟨a', b', ha', hb', rfl⟩

/-- C87: all segments of a line of points at once: a place for each segment and triangle. -/
theorem C87_poly_line (ps : List (P3 K)) (tris : List (Tri K)) (c n : Nat) (q : P3 K) :
    (∃ row, (polyLineTriangles ps tris)[c]? = some row ∧ row[n]? = some (some q)) ↔
      ∃ a b tri, ps[c]? = some a ∧ ps[c + 1]? = some b ∧ tris[n]? = some tri ∧ Hits a b tri q := by
  unfold polyLineTriangles
  rw [C87_many_lines]
  constructor
  · rintro ⟨line, tri, h1, h2, h3⟩
    obtain ⟨a, b, ha, hb, rfl⟩ := (segmentsOf_get ps c _).mp h1
    exact ⟨a, b, tri, ha, hb, h2, h3⟩
  · rintro ⟨a, b, tri, ha, hb, h2, h3⟩
    exact ⟨(a, b.sub a), tri, (segmentsOf_get ps c _).mpr ⟨a, b, ha, hb, rfl⟩, h2, h3⟩

/-! ## Cases -/

/-- a triangle in the plane z = 0 -/
def exTri : Tri ℚ := ⟨⟨0, 0, 0⟩, ⟨4, 0, 0⟩, ⟨0, 4, 0⟩⟩

/-- a line through it, and one which misses it, neither parallel to it -/
example : lineTriangle (⟨1, 1, 2⟩ : P3 ℚ) ⟨0, 1/2, -1⟩ exTri false 0 0 = some ⟨1, 2, 0⟩ ∧
    lineTriangle (⟨1, 1, 2⟩ : P3 ℚ) ⟨0, 1/2, -1⟩ exTri true 0 0 = none ∧
    lineTriangle (⟨3, 3, 2⟩ : P3 ℚ) ⟨0, 0, -1⟩ exTri false 0 0 = none ∧
    lineTriangle (⟨3, 3, 2⟩ : P3 ℚ) ⟨0, 0, -1⟩ exTri false 0 (1/2) = some ⟨3, 3, 0⟩ ∧
    linePlane (⟨3, 3, 2⟩ : P3 ℚ) ⟨0, 0, -1⟩ exTri = some ⟨3, 3, 0⟩ ∧
    lineTriangle (⟨3, 3, 2⟩ : P3 ℚ) ⟨1, 0, 0⟩ exTri false 0 0 = none := by decide +kernel

/-- a line of points which meets it with its third segment -/
example : firstIntersect ([⟨1, 1, 4⟩, ⟨1, 1, 2⟩, ⟨2, 1, 2⟩, ⟨2, 1, -2⟩] : List (P3 ℚ)) [exTri] 0 = some (2, some ⟨2, 1, 0⟩) ∧
    firstIntersect ([⟨1, 1, 4⟩, ⟨1, 1, 2⟩, ⟨2, 1, 2⟩, ⟨2, 1, -2⟩] : List (P3 ℚ)) [exTri] 3 = none ∧
    lastIntersects [[some (⟨1, 1, 1⟩ : P3 ℚ), none, some ⟨2, 2, 2⟩, none], [none, none]] = [some ⟨2, 2, 2⟩, none] := by decide +kernel

end Verif.Geom
