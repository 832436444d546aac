import Verif.Surface.PropsSparse
import Mathlib.Algebra.Order.Ring.Rat
import Mathlib.Algebra.Field.Rat
import Mathlib.Tactic.Linarith
import Mathlib.Data.List.Nodup

namespace Verif.Surface
open Verif.Py Spec

variable {P α : Type}

theorem filterMap_get {β : Type} (f : α → Option β) (l : List α) (h : ∀ x ∈ l, (f x).isSome) (m : Nat) :
    (l.filterMap f)[m]? = l[m]?.bind f := by
  induction l generalizing m with
  | nil => simp
  | cons x l ih =>
    obtain ⟨y, hy⟩ := Option.isSome_iff_exists.1 (h x List.mem_cons_self)
    rw [List.filterMap_cons_some hy]
    cases m with
    | zero => simp [hy]
    | succ m => simpa using ih (fun z hz => h z (List.mem_cons_of_mem _ hz)) m

theorem filterMap_len {β : Type} (f : α → Option β) (l : List α) (h : ∀ x ∈ l, (f x).isSome) :
    (l.filterMap f).length = l.length := by
  induction l with
  | nil => rfl
  | cons x l ih =>
    obtain ⟨y, hy⟩ := Option.isSome_iff_exists.1 (h x List.mem_cons_self)
    rw [List.filterMap_cons_some hy, List.length_cons, List.length_cons, ih fun z hz => h z (List.mem_cons_of_mem _ hz)]

theorem mem_kept (n : Nat) (ts : List Tri) (k : Nat) :
    k ∈ keptPoints n ts ↔ k < n ∧ ∃ t ∈ ts, t.1 = k ∨ t.2.1 = k ∨ t.2.2 = k := by
  unfold keptPoints uses
  simp [List.mem_filter]

theorem kept_nodup (n : Nat) (ts : List Tri) : (keptPoints n ts).Nodup := List.Nodup.filter _ List.nodup_range

/-- all point numbers of a triangle exist -/
def ValidTri (n : Nat) (t : Tri) : Prop := t.1 < n ∧ t.2.1 < n ∧ t.2.2 < n

theorem range_filterMap_get (points : List P) : (List.range points.length).filterMap (fun k => points[k]?) = points := by
  apply List.ext_getElem?
  intro m
  rw [filterMap_get _ _ (by intro x hx; simpa using hx)]
  by_cases hm : m < points.length
  · simp [hm]
  · rw [List.getElem?_eq_none (by simpa using hm), List.getElem?_eq_none (by omega)]
    rfl

theorem compress_ok (points : List P) (sel : List Tri) (hv : ∀ t ∈ sel, ValidTri points.length t) :
    ∃ ts ps, compress points sel = .ok (ts, ps) ∧ ts.map (corners ps) = sel.map (cornersN points) ∧ ps.Sublist points ∧
      (∀ m : Nat, m < ps.length → ∃ t ∈ ts, t.1 = m ∨ t.2.1 = m ∨ t.2.2 = m) ∧
      (∀ t ∈ ts, (0 ≤ t.1 ∧ t.1 < ps.length) ∧ (0 ≤ t.2.1 ∧ t.2.1 < ps.length) ∧ (0 ≤ t.2.2 ∧ t.2.2 < ps.length)) := by
  let keep := keptPoints points.length sel
  let ps := keep.filterMap (fun k => points[k]?)
  have hsome : ∀ x ∈ keep, (points[x]?).isSome := by
    intro x hx
    simpa using ((mem_kept ..).1 hx).1
  have hlen : ps.length = keep.length := filterMap_len _ _ hsome
  have hget : ∀ k ∈ keep, ∃ m : Nat, pMap keep k = m ∧ m < ps.length ∧ ps[m]? = points[k]? ∧ keep[m]? = some k := by
    intro k hk
    obtain ⟨m, h1, h2⟩ := idxOf?_mem keep k hk
    refine ⟨m, by unfold pMap; rw [h1], ?_, ?_, h2⟩
    · rw [hlen]
      exact (List.getElem?_eq_some_iff.1 h2).1
    · show (keep.filterMap _)[m]? = _
      rw [filterMap_get _ _ hsome, h2]
      rfl
  have hmem : ∀ t ∈ sel, t.1 ∈ keep ∧ t.2.1 ∈ keep ∧ t.2.2 ∈ keep := by
    intro t ht
    obtain ⟨v1, v2, v3⟩ := hv t ht
    exact ⟨(mem_kept ..).2 ⟨v1, t, ht, .inl rfl⟩, (mem_kept ..).2 ⟨v2, t, ht, .inr (.inl rfl)⟩,
      (mem_kept ..).2 ⟨v3, t, ht, .inr (.inr rfl)⟩⟩
  let ts := sel.map fun t => (pMap keep t.1, pMap keep t.2.1, pMap keep t.2.2)
  have hbound : ∀ t ∈ ts, (0 ≤ t.1 ∧ t.1 < ps.length) ∧ (0 ≤ t.2.1 ∧ t.2.1 < ps.length) ∧ (0 ≤ t.2.2 ∧ t.2.2 < ps.length) := by
    intro t ht
    obtain ⟨s, hs, rfl⟩ := List.mem_map.1 ht
    obtain ⟨m1, m2, m3⟩ := hmem s hs
    obtain ⟨a, ha, ha', _⟩ := hget _ m1
    obtain ⟨b, hb, hb', _⟩ := hget _ m2
    obtain ⟨c, hc, hc', _⟩ := hget _ m3
    dsimp only
    rw [ha, hb, hc]
    omega
  refine ⟨ts, ps, ?_, ?_, ?_, ?_, hbound⟩
  · unfold compress
    dsimp only
    rw [if_pos, if_pos]
    · rw [List.all_eq_true]
      intro t ht
      have := hbound t ht
      exact decide_eq_true ⟨this.1.2, this.2.1.2, this.2.2.2⟩
    · rw [List.all_eq_true]
      intro t ht
      have := hbound t ht
      exact decide_eq_true ⟨this.1.1, this.2.1.1, this.2.2.1⟩
  · show (sel.map _).map _ = _
    rw [List.map_map]
    refine List.map_congr_left fun t ht => ?_
    obtain ⟨m1, m2, m3⟩ := hmem t ht
    obtain ⟨a, ha, _, ha', _⟩ := hget _ m1
    obtain ⟨b, hb, _, hb', _⟩ := hget _ m2
    obtain ⟨c, hc, _, hc', _⟩ := hget _ m3
    simp only [Function.comp, corners, cornersN, ha, hb, hc, Int.toNat_natCast, ha', hb', hc']
    rw [if_pos (by omega)]
  · have : ps.Sublist ((List.range points.length).filterMap (fun k => points[k]?)) :=
      List.Sublist.filterMap _ List.filter_sublist
    rwa [range_filterMap_get] at this
  · intro m hm
    rw [hlen] at hm
    have hk : keep[m] ∈ keep := List.getElem_mem hm
    obtain ⟨m', e1, _, _, e2⟩ := hget _ hk
    have hm' : m' = m := by
      obtain ⟨h1, h2⟩ := List.getElem?_eq_some_iff.1 e2
      exact (List.Nodup.getElem_inj_iff (kept_nodup _ _)).1 h2
    subst hm'
    obtain ⟨_, t, ht, h⟩ := (mem_kept ..).1 hk
    refine ⟨_, List.mem_map.2 ⟨t, ht, rfl⟩, ?_⟩
    dsimp only
    rcases h with h | h | h
    · exact .inl (by rw [h]; exact e1)
    · exact .inr (.inl (by rw [h]; exact e1))
    · exact .inr (.inr (by rw [h]; exact e1))

theorem flagsOf_map (f : P → Bool) (points : List P) (t : Tri) :
    flagsOf (points.map f) t = (cornersN points t).map fun q => (f q.1, f q.2.1, f q.2.2) := by
  unfold flagsOf cornersN
  simp only [List.getElem?_map]
  cases points[t.1]? <;> cases points[t.2.1]? <;> cases points[t.2.2]? <;> rfl

theorem cornersN_isSome (points : List P) (t : Tri) : (cornersN points t).isSome ↔ ValidTri points.length t := by
  unfold cornersN ValidTri
  by_cases h1 : t.1 < points.length <;> by_cases h2 : t.2.1 < points.length <;> by_cases h3 : t.2.2 < points.length <;>
    simp [h1, h2, h3]

/-- the triangles selected by a test of their corner points -/
theorem filter_corners (points : List P) (tris : List Tri) (f : P × P × P → Bool) (g : Tri → Bool)
    (hg : ∀ t, g t = match cornersN points t with | some q => f q | none => false) :
    (tris.filter g).map (cornersN points) =
      (tris.map (cornersN points)).filter fun o => match o with | some q => f q | none => false := by
  induction tris with
  | nil => rfl
  | cons t l ih =>
    rw [List.filter_cons, List.map_cons, List.filter_cons, ← hg t]
    by_cases h : g t = true
    · rw [if_pos h, if_pos h, List.map_cons, ih]
    · rw [if_neg h, if_neg h, ih]

/-- which triangles are to be kept when trimming, by their corner points: those with all corners inside, or those with any -/
def wanted (internal : Bool) (inside : P → Bool) (q : P × P × P) : Bool :=
  if internal then inside q.1 && inside q.2.1 && inside q.2.2 else inside q.1 || inside q.2.1 || inside q.2.2

/-- **C144** Trimming keeps exactly the triangles with all (or any) of their corners within the box and the polygon, in their order
and at their place; the points are those used by the triangles kept, each once, in their order. -/
theorem C144_trimmed (inBox inPolygon : Option (P → Bool)) (internal : Bool) (tris : List Tri) (points : List P) (inside : P → Bool)
    (hin : ∀ p, inside p = true ↔ (∀ f, inBox = some f → f p = true) ∧ (∀ f, inPolygon = some f → f p = true))
    (h : inBox ≠ none ∨ inPolygon ≠ none) (hp : points ≠ []) (hv : ∀ t ∈ tris, (cornersN points t).isSome) :
    ∃ ts ps, trimmedPatch inBox inPolygon internal tris points = .ok (ts, ps) ∧
      ts.map (corners ps) = (tris.map (cornersN points)).filter
        (fun o => match o with | some q => wanted internal inside q | none => false) ∧
      ps.Sublist points ∧ (∀ m : Nat, m < ps.length → ∃ t ∈ ts, t.1 = m ∨ t.2.1 = m ∨ t.2.2 = m) := by
  have hfun : (fun p => passes inBox p && passes inPolygon p) =
      inside := by
    funext p
    rw [Bool.eq_iff_iff, hin p]
    cases inBox <;> cases inPolygon <;> simp [passes]
  let sel := selectTris internal (points.map inside) tris
  have hsel : sel.map (cornersN points) = (tris.map (cornersN points)).filter
      (fun o => match o with | some q => wanted internal inside q | none => false) := by
    refine filter_corners points tris _ _ fun t => ?_
    rw [flagsOf_map]
    cases cornersN points t <;> rfl
  obtain ⟨ts, ps, h1, h2, h3, h4, _⟩ := compress_ok points sel (by
    intro t ht
    exact (cornersN_isSome ..).1 (hv t (List.mem_filter.1 ht).1))
  refine ⟨ts, ps, ?_, by rw [h2, hsel], h3, h4⟩
  unfold trimmedPatch
  rw [if_neg (by simpa [Option.isNone_iff_eq_none, imp_iff_not_or] using h), if_neg (by simpa using hp)]
  dsimp only
  rw [hfun, if_pos]
  · exact h1
  · rw [List.all_eq_true]
    intro t ht
    rw [flagsOf_map, Option.isSome_map]
    exact hv t ht

example : trimmedPatch (some fun p : Int => decide (0 ≤ p ∧ p ≤ 10)) none false [(0, 1, 2), (1, 3, 4), (3, 4, 2)] [-5, -3, -2, 4, 40] =
    .ok ([(0, 2, 3), (2, 3, 1)], [-3, -2, 4, 40]) := by decide

/-- **C144** Without a box and a polygon, trimming is refused. -/
theorem C144_refused (internal : Bool) (tris : List Tri) (points : List P) :
    trimmedPatch none none internal tris points = .error .assertion := by
  unfold trimmedPatch
  rw [if_pos (by simp)]

section split
variable {K : Type} [Field K] [LinearOrder K] [IsStrictOrderedRing K]

/-- where a point is as seen along the line: positive on its left, negative on its right (the cross product of the line and the
point, from the start of the line, with the y axis to the left of the x axis) -/
def leftOf (line : (K × K × K) × (K × K × K)) (p : K × K × K) : K :=
  (line.2.1 - line.1.1) * (p.2.1 - line.1.2.1) - (line.2.2.1 - line.1.2.1) * (p.1 - line.1.1)

/-- a triangle moved -/
def moved (d : K × K × K) (q : (K × K × K) × (K × K × K) × (K × K × K)) : (K × K × K) × (K × K × K) × (K × K × K) :=
  ((q.1.1 + d.1, q.1.2.1 + d.2.1, q.1.2.2 + d.2.2), (q.2.1.1 + d.1, q.2.1.2.1 + d.2.1, q.2.1.2.2 + d.2.2),
    (q.2.2.1 + d.1, q.2.2.2.1 + d.2.1, q.2.2.2.2 + d.2.2))

/-- some corner is on the right of the line or on it -/
def touchesRight (line : (K × K × K) × (K × K × K)) (q : (K × K × K) × (K × K × K) × (K × K × K)) : Prop :=
  leftOf line q.1 ≤ 0 ∨ leftOf line q.2.1 ≤ 0 ∨ leftOf line q.2.2 ≤ 0

/-- some corner is on the left of the line or on it -/
def touchesLeft (line : (K × K × K) × (K × K × K)) (q : (K × K × K) × (K × K × K) × (K × K × K)) : Prop :=
  0 ≤ leftOf line q.1 ∨ 0 ≤ leftOf line q.2.1 ∨ 0 ≤ leftOf line q.2.2

instance (line : (K × K × K) × (K × K × K)) : DecidablePred (touchesRight line) := fun _ => by unfold touchesRight; infer_instance
instance (line : (K × K × K) × (K × K × K)) : DecidablePred (touchesLeft line) := fun _ => by unfold touchesLeft; infer_instance

omit [LinearOrder K] [IsStrictOrderedRing K] in
theorem lineSide_eq (line : (K × K × K) × (K × K × K)) (p : K × K × K) : lineSide line p = - leftOf line p := by
  unfold lineSide leftOf
  ring

omit [LinearOrder K] [IsStrictOrderedRing K] in
theorem corners_moved (ps : List (K × K × K)) (d : K × K × K) (t : Int × Int × Int) :
    corners (ps.map (shiftPoint d)) t = (corners ps t).map (moved d) := by
  unfold corners
  split_ifs
  · simp only [List.getElem?_map]
    cases ps[t.1.toNat]? <;> cases ps[t.2.1.toNat]? <;> cases ps[t.2.2.toNat]? <;> rfl
  · rfl

/-- **C145** Splitting a surface along a line gives the triangles with some corner on the right of the line or on it, moved by the first
offset, followed by those with some corner on the left or on it, moved by the second offset. -/
theorem C145_split (line delta : (K × K × K) × (K × K × K)) (tris : List Tri) (points : List (K × K × K))
    (hv : ∀ t ∈ tris, (cornersN points t).isSome) :
    ∃ ts ps, splitSurface line delta tris points = .ok (ts, ps) ∧
      ts.map (corners ps) =
        (((tris.filterMap (cornersN points)).filter (fun q => decide (touchesRight line q))).map (moved delta.1) ++
          ((tris.filterMap (cornersN points)).filter (fun q => decide (touchesLeft line q))).map (moved delta.2)).map some ∧
      (∀ m : Nat, m < ps.length → ∃ t ∈ ts, t.1 = m ∨ t.2.1 = m ∨ t.2.2 = m) := by
  have hvalid : ∀ (g : Tri → Bool), ∀ t ∈ tris.filter g, ValidTri points.length t := by
    intro g t ht
    exact (cornersN_isSome ..).1 (hv t (List.mem_filter.1 ht).1)
  have hsel : ∀ (f : K × K × K → Bool) (R : (K × K × K) × (K × K × K) × (K × K × K) → Bool),
      (∀ q, R q = (f q.1 || f q.2.1 || f q.2.2)) →
      (selectTris false (points.map f) tris).map (cornersN points) =
        ((tris.filterMap (cornersN points)).filter R).map some := by
    intro f R hR
    unfold selectTris
    rw [filter_corners points tris R _ (by
      intro t
      rw [flagsOf_map]
      cases cornersN points t with
      | none => rfl
      | some q => simp [selectTri, hR])]
    clear hvalid
    induction tris with
    | nil => rfl
    | cons t l ih =>
      obtain ⟨q, hq⟩ := Option.isSome_iff_exists.1 (hv t List.mem_cons_self)
      rw [List.map_cons, hq, List.filterMap_cons_some hq, List.filter_cons, List.filter_cons,
        ih fun s hs => hv s (List.mem_cons_of_mem _ hs)]
      cases h : R q <;> simp [h]
  obtain ⟨ta, pa, a1, a2, _, a4, a5⟩ := compress_ok points (selectTris false (points.map fun p => decide (lineSide line p ≥ 0)) tris) (hvalid _)
  obtain ⟨tb, pb, b1, b2, _, b4, b5⟩ := compress_ok points (selectTris false (points.map fun p => decide (lineSide line p ≤ 0)) tris) (hvalid _)
  rw [hsel _ (fun q => decide (touchesRight line q)) (by
    intro q
    rw [Bool.eq_iff_iff, decide_eq_true_iff]
    simp [touchesRight, lineSide_eq, or_assoc])] at a2
  rw [hsel _ (fun q => decide (touchesLeft line q)) (by
    intro q
    rw [Bool.eq_iff_iff, decide_eq_true_iff]
    simp [touchesLeft, lineSide_eq, or_assoc])] at b2
  refine ⟨ta ++ tb.map (fun t => (t.1 + (pa.length : Int), t.2.1 + (pa.length : Int), t.2.2 + (pa.length : Int))),
    pa.map (shiftPoint delta.1) ++ pb.map (shiftPoint delta.2), ?_, ?_, ?_⟩
  · unfold splitSurface
    dsimp only
    rw [if_pos, a1]
    · dsimp only
      rw [b1]
    · rw [List.all_eq_true]
      intro t ht
      rw [flagsOf_map, Option.isSome_map]
      exact hv t ht
  · have e1 : ta.map (corners (pa.map (shiftPoint delta.1) ++ pb.map (shiftPoint delta.2))) =
        (ta.map (corners pa)).map (Option.map (moved delta.1)) := by
      rw [List.map_map]
      refine List.map_congr_left fun t ht => ?_
      obtain ⟨c1, c2, c3⟩ := a5 t ht
      rw [Function.comp, ← corners_moved]
      unfold corners
      rw [if_pos ⟨c1.1, c2.1, c3.1⟩, if_pos ⟨c1.1, c2.1, c3.1⟩,
        List.getElem?_append_left (by rw [List.length_map]; omega), List.getElem?_append_left (by rw [List.length_map]; omega),
        List.getElem?_append_left (by rw [List.length_map]; omega)]
    have e2 : (tb.map (fun t => (t.1 + (pa.length : Int), t.2.1 + (pa.length : Int), t.2.2 + (pa.length : Int)))).map
        (corners (pa.map (shiftPoint delta.1) ++ pb.map (shiftPoint delta.2))) =
        (tb.map (corners pb)).map (Option.map (moved delta.2)) := by
      rw [List.map_map, List.map_map]
      refine List.map_congr_left fun t ht => ?_
      obtain ⟨c1, c2, c3⟩ := b5 t ht
      rw [Function.comp, Function.comp, ← corners_moved]
      unfold corners
      dsimp only
      rw [if_pos (by omega), if_pos ⟨c1.1, c2.1, c3.1⟩,
        List.getElem?_append_right (by rw [List.length_map]; omega), List.getElem?_append_right (by rw [List.length_map]; omega),
        List.getElem?_append_right (by rw [List.length_map]; omega), List.length_map,
        show (t.1 + (pa.length : Int)).toNat - pa.length = t.1.toNat by omega,
        show (t.2.1 + (pa.length : Int)).toNat - pa.length = t.2.1.toNat by omega,
        show (t.2.2 + (pa.length : Int)).toNat - pa.length = t.2.2.toNat by omega]
    rw [List.map_append, e1, e2, a2, b2, List.map_append]
    simp only [List.map_map]
    rfl
  · intro m hm
    rw [List.length_append, List.length_map, List.length_map] at hm
    by_cases h : m < pa.length
    · obtain ⟨t, ht, h'⟩ := a4 m h
      exact ⟨t, List.mem_append_left _ ht, h'⟩
    · obtain ⟨t, ht, h'⟩ := b4 (m - pa.length) (by omega)
      refine ⟨_, List.mem_append_right _ (List.mem_map.2 ⟨t, ht, rfl⟩), ?_⟩
      dsimp only
      omega

example : ∀ t ∈ [((0, 1, 2) : Tri)], (cornersN [((0 : Rat), (0 : Rat), (0 : Rat)), (4, 1, 0), (1, 5, 0)] t).isSome := by decide +kernel

/-- **C145** No triangle is lost, one wholly on one side of the line moves with that side only, and one which the line crosses is in
both halves as a whole. -/
theorem C145_sides (line : (K × K × K) × (K × K × K)) (q : (K × K × K) × (K × K × K) × (K × K × K)) :
    (touchesRight line q ∨ touchesLeft line q) ∧
      (touchesRight line q ∧ ¬ touchesLeft line q ↔ leftOf line q.1 < 0 ∧ leftOf line q.2.1 < 0 ∧ leftOf line q.2.2 < 0) ∧
      (touchesLeft line q ∧ ¬ touchesRight line q ↔ 0 < leftOf line q.1 ∧ 0 < leftOf line q.2.1 ∧ 0 < leftOf line q.2.2) := by
  unfold touchesRight touchesLeft
  refine ⟨?_, ?_, ?_⟩
  · rcases le_total (leftOf line q.1) 0 with h | h
    · exact .inl (.inl h)
    · exact .inr (.inl h)
  · constructor
    · rintro ⟨_, h⟩
      push Not at h
      exact h
    · rintro ⟨h1, h2, h3⟩
      exact ⟨.inl h1.le, by push Not; exact ⟨h1, h2, h3⟩⟩
  · constructor
    · rintro ⟨_, h⟩
      push Not at h
      exact h
    · rintro ⟨h1, h2, h3⟩
      exact ⟨.inl h1.le, by push Not; exact ⟨h1, h2, h3⟩⟩

end split

end Verif.Surface
