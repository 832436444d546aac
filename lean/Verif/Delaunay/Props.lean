import Verif.Delaunay.Frame
import Mathlib.Data.List.Pairwise
import Mathlib.Algebra.Order.Field.Rat

/-! # C98, C99: the simple Delaunay triangulation -/

namespace Verif.Delaunay
open Verif.Py
open Verif.Polygon (Pt orient)

variable {K : Type} [Field K] [LinearOrder K] [IsStrictOrderedRing K]

/-- is a corner of the triangle (triangulation.py:228) -/
def isCorner (i : Nat) (r : Fin 3 → Nat) : Bool := decide (r 0 = i) || decide (r 1 = i) || decide (r 2 = i)

theorem isCorner_iff (i : Nat) (r : Fin 3 → Nat) : isCorner i r = true ↔ ∃ j, r j = i := by
  unfold isCorner
  simp only [Bool.or_eq_true, decide_eq_true_eq]
  constructor
  · rintro ((h | h) | h)
    · exact ⟨0, h⟩
    · exact ⟨1, h⟩
    · exact ⟨2, h⟩
  · rintro ⟨j, h⟩
    fin_cases j
    · exact Or.inl (Or.inl h)
    · exact Or.inl (Or.inr h)
    · exact Or.inr h

/-- has a corner of the container (triangulation.py:227) -/
def isOuter (n : Nat) (r : Fin 3 → Nat) : Bool := decide (n ≤ r 0) || decide (n ≤ r 1) || decide (n ≤ r 2)

theorem isOuter_iff (n : Nat) (r : Fin 3 → Nat) : isOuter n r = true ↔ ∃ j, n ≤ r j := by
  unfold isOuter
  simp only [Bool.or_eq_true, decide_eq_true_eq]
  constructor
  · rintro ((h | h) | h)
    · exact ⟨0, h⟩
    · exact ⟨1, h⟩
    · exact ⟨2, h⟩
  · rintro ⟨j, h⟩
    fin_cases j
    · exact Or.inl (Or.inl h)
    · exact Or.inl (Or.inr h)
    · exact Or.inr h

/-- the edges of the container are edges of triangles -/
theorem DT.outer_edge {n m : Nat} {p : Nat → Pt K} {s : St} (h : DT n m p s) {a b : Nat} (ho : Outer n a b) :
    ∃ k j, k < s.nt ∧ s.t k j = a ∧ s.t k (j + 1) = b := by
  by_contra hn
  push Not at hn
  let g : Nat → Nat → Int := fun x y => (if x = a ∧ y = b then 1 else 0) - (if y = a ∧ x = b then 1 else 0)
  have hg := h.cycle g (fun x y => by simp only [g]; ring)
  have hle : ∀ k j, k < s.nt → g (s.t k j) (s.t k (j + 1)) ≤ 0 := by
    intro k j hk
    have h1 : ¬ (s.t k j = a ∧ s.t k (j + 1) = b) := fun h => hn k j hk h.1 h.2
    simp only [g]
    rw [if_neg h1]
    split <;> simp
  have hs : ∑ k ∈ Finset.range s.nt, around g (s.t k) ≤ 0 := by
    refine Finset.sum_nonpos fun k hk => ?_
    have hk' := Finset.mem_range.mp hk
    have h0 : g (s.t k 0) (s.t k 1) ≤ 0 := hle k 0 hk'
    have h1 : g (s.t k 1) (s.t k 2) ≤ 0 := hle k 1 hk'
    have h2 : g (s.t k 2) (s.t k 0) ≤ 0 := hle k 2 hk'
    unfold around
    omega
  rw [hg] at hs
  rcases ho with ⟨rfl, rfl⟩ | ⟨rfl, rfl⟩ | ⟨rfl, rfl⟩ <;> simp [g] at hs

/-- what comes out in terms of the final arrays -/
theorem dtSimple_eq (po : List (Pt K)) (csf : Option K) (h4 : 4 ≤ po.length) (hnd : po.Nodup)
    (hx : ∃ a ∈ po, ∃ b ∈ po, a.x ≠ b.x) (hy : ∃ a ∈ po, ∃ b ∈ po, a.y ≠ b.y) :
    ∃ s, Frame po.length (withContainer po csf) ∧ DT po.length po.length (withContainer po csf) s ∧
      dtSimple po csf = .ok (some (((List.range s.nt).map s.t).filter (fun r => !isOuter po.length r),
        (List.range po.length).filter fun i => (((List.range s.nt).map s.t).filter (isOuter po.length)).any (isCorner i))) := by
  obtain ⟨a, ha, b, hb, hab⟩ := hx
  obtain ⟨c, hc, d, hd, hcd⟩ := hy
  have hx := extreme_range Pt.x ha hb hab
  have hy := extreme_range Pt.y hc hd hcd
  have hF := frame po csf hnd hx hy
  obtain ⟨s, hs, hD⟩ := insertAll_ok hF (fuel := 3 * po.length + 7) (by omega) po.length 0 (initial po.length) (by omega) (initial_dt hF)
  refine ⟨s, hF, hD, ?_⟩
  unfold dtSimple
  dsimp only
  rw [if_neg (by omega), if_neg (by omega), if_neg (not_not.mpr ⟨hx, hy⟩), List.range_eq_range', hs, Box.ok_bind]
  congr 2
  refine Prod.ext ?_ ?_
  · dsimp only
    rw [List.range_eq_range']
    congr 1
    funext r
    unfold isOuter
    by_cases h0 : r 0 < po.length <;> by_cases h1 : r 1 < po.length <;> by_cases h2 : r 2 < po.length <;>
      simp [h0, h1, h2, not_le.mpr, not_lt.mp]
  · dsimp only
    have hall : ∀ i, po.length ≤ i → i < po.length + 3 →
        (((List.range s.nt).map s.t).filter (isOuter po.length)).any (isCorner i) = true := by
      intro i hi hi'
      have ho : ∃ b, Outer po.length i b := by
        have hc : i = po.length ∨ i = po.length + 1 ∨ i = po.length + 2 := by omega
        rcases hc with rfl | rfl | rfl
        · exact ⟨_, Or.inl ⟨rfl, rfl⟩⟩
        · exact ⟨_, Or.inr (Or.inl ⟨rfl, rfl⟩)⟩
        · exact ⟨_, Or.inr (Or.inr ⟨rfl, rfl⟩)⟩
      obtain ⟨b, ho⟩ := ho
      obtain ⟨k, j, hk, e, -⟩ := hD.outer_edge ho
      rw [List.any_eq_true]
      refine ⟨s.t k, ?_, (isCorner_iff _ _).mpr ⟨j, e⟩⟩
      rw [List.mem_filter]
      exact ⟨List.mem_map.mpr ⟨k, List.mem_range.mpr hk, rfl⟩, (isOuter_iff _ _).mpr ⟨j, e ▸ hi⟩⟩
    have hsplit : (List.range (po.length + 3)).filter (fun i => (((List.range s.nt).map s.t).filter (isOuter po.length)).any (isCorner i)) =
        (List.range po.length).filter (fun i => (((List.range s.nt).map s.t).filter (isOuter po.length)).any (isCorner i)) ++
          [po.length, po.length + 1, po.length + 2] := by
      rw [show po.length + 3 = po.length + 1 + 1 + 1 from rfl, List.range_succ, List.range_succ, List.range_succ, List.filter_append,
        List.filter_append, List.filter_append]
      have one : ∀ i, po.length ≤ i → i < po.length + 3 →
          [i].filter (fun i => (((List.range s.nt).map s.t).filter (isOuter po.length)).any (isCorner i)) = [i] := by
        intro i h1 h2
        rw [List.filter_eq_self]
        intro a ha
        rw [List.mem_singleton.mp ha]
        exact hall i h1 h2
      rw [one _ le_rfl (by omega), one _ (by omega) (by omega), one _ (by omega) (by omega), List.append_assoc, List.append_assoc]
      rfl
    have key : ∀ l : List Nat, (l ++ [po.length, po.length + 1, po.length + 2]).take ((l ++ [po.length, po.length + 1, po.length + 2]).length - 3) = l := by
      intro l
      rw [List.length_append]
      simp
    have := congrArg (fun l : List Nat => l.take (l.length - 3)) hsplit
    simp only [key] at this
    rw [← List.range_eq_range']
    exact this

/-- C98: for four or more different points, not all with the same x nor all with the same y, whatever the container size factor, the triangulation
succeeds; it consists of triangles of the points which are anticlockwise and not flat, no point is within the circle through the corners of a triangle,
and the triangles do not overlap. -/
theorem C98_delaunay (po : List (Pt K)) (csf : Option K) (h4 : 4 ≤ po.length) (hnd : po.Nodup)
    (hx : ∃ a ∈ po, ∃ b ∈ po, a.x ≠ b.x) (hy : ∃ a ∈ po, ∃ b ∈ po, a.y ≠ b.y) :
    ∃ ts bs, dtSimple po csf = .ok (some (ts, bs)) ∧ IsDelaunay po ts ∧ ts.length ≤ 2 * po.length + 1 := by
  obtain ⟨s, hF, hD, e⟩ := dtSimple_eq po csf h4 hnd hx hy
  refine ⟨_, _, e, ?_, ?_⟩
  · have pv : ∀ v a, po[v]? = some a → withContainer po csf v = a := by
      intro v a h
      obtain ⟨hv, rfl⟩ := List.getElem?_eq_some_iff.mp h
      unfold withContainer
      simp only [if_pos hv, List.getElem?_eq_getElem hv, Option.getD_some]
    have hmem : ∀ T ∈ ((List.range s.nt).map s.t).filter (fun r => !isOuter po.length r), ∃ k, k < s.nt ∧ s.t k = T ∧ ∀ j, T j < po.length := by
      intro T hT
      rw [List.mem_filter, List.mem_map] at hT
      obtain ⟨⟨k, hk, rfl⟩, hout⟩ := hT
      refine ⟨k, List.mem_range.mp hk, rfl, fun j => ?_⟩
      by_contra hn
      push Not at hn
      rw [(isOuter_iff _ _).mpr ⟨j, hn⟩] at hout
      simp at hout
    have harea : ∀ T ∈ ((List.range s.nt).map s.t).filter (fun r => !isOuter po.length r), ∀ a b c, Corners po T a b c → 0 < orient a b c := by
      rintro T hT a b c ⟨ha, hb, hc⟩
      obtain ⟨k, hk, rfl, -⟩ := hmem T hT
      have := hD.area k hk
      unfold area at this
      rwa [pv _ _ ha, pv _ _ hb, pv _ _ hc] at this
    refine ⟨?_, harea, ?_, ?_⟩
    · intro T hT
      obtain ⟨k, -, -, hj⟩ := hmem T hT
      exact ⟨_, _, _, List.getElem?_eq_getElem (hj 0), List.getElem?_eq_getElem (hj 1), List.getElem?_eq_getElem (hj 2)⟩
    · rintro T hT a b c ⟨ha, hb, hc⟩ d hd hin
      rw [insideCircle_iff (harea T hT a b c ⟨ha, hb, hc⟩)] at hin
      obtain ⟨k, hk, rfl, -⟩ := hmem T hT
      obtain ⟨v, hv⟩ := List.getElem?_of_mem hd
      obtain ⟨lv, -⟩ := List.getElem?_eq_some_iff.mp hv
      have := hD.empty k v hk (Or.inl lv)
      unfold circ at this
      rw [pv _ _ ha, pv _ _ hb, pv _ _ hc, pv _ _ hv] at this
      exact absurd hin (not_lt.mpr this)
    · refine List.Pairwise.filter _ (List.pairwise_map.mpr ?_)
      refine List.Pairwise.imp_of_mem ?_ (List.pairwise_lt_range (n := s.nt))
      rintro k k' hk hk' hlt a b c a' b' c' ⟨ha, hb, hc⟩ ⟨ha', hb', hc'⟩ x ⟨hx, hx'⟩
      rw [List.mem_range] at hk hk'
      have one : ∀ k, k < s.nt → ∀ a b c, Corners po (s.t k) a b c → Within a b c x → tturn (withContainer po csf) x ⟨1, 0⟩ (s.t k) = 1 := by
        rintro k hk a b c ⟨ha, hb, hc⟩ hx
        have har := hD.area k hk
        unfold area at har
        unfold tturn
        rw [pv _ _ ha, pv _ _ hb, pv _ _ hc] at har ⊢
        obtain ⟨h1, h2, h3⟩ := (within_iff har x).mp hx
        exact (turns har.le x _).inside h1 h2 h3 (Or.inl one_ne_zero)
      have := turns_two_le hD.cycle (fun k l => (hD.area k l).le) hF.container.le x ⟨1, 0⟩ {k, k'} (by
        intro i hi
        rw [Finset.mem_insert, Finset.mem_singleton] at hi
        rcases hi with rfl | rfl
        · exact hk
        · exact hk')
      rw [Finset.sum_pair (by omega), one k hk a b c ⟨ha, hb, hc⟩ hx, one k' hk' a' b' c' ⟨ha', hb', hc'⟩ hx'] at this
      omega
  · refine (List.length_filter_le _ _).trans ?_
    rw [List.length_map, List.length_range, hD.nt]

/-- the value of a result which is not an error -/
def triOf (r : Res (Option (List (Fin 3 → Nat) × List Nat))) : List (List Nat) × List Nat :=
  match r with
  | .ok (some (ts, bs)) => (ts.map fun T => [T 0, T 1, T 2], bs)
  | _ => ([], [])

/-- six points, of which one is inside: five triangles -/
example : triOf (dtSimple (K := Rat) [⟨0, 0⟩, ⟨4, 0⟩, ⟨2, 1⟩, ⟨2, 4⟩, ⟨3, 2⟩, ⟨1, 3⟩] none) =
    ([[2, 1, 4], [0, 1, 2], [2, 4, 5], [3, 5, 4], [0, 2, 5]], [0, 1, 3, 4, 5]) := by decide +kernel

theorem foldl_const (f : K → K → K) (hf : ∀ x, f x x = x) (c : Pt K → K) (v : K) (l : List (Pt K)) (h : ∀ q ∈ l, c q = v) :
    l.foldl (fun m q => f m (c q)) v = v := by
  induction l with
  | nil => rfl
  | cons a l ih =>
    rw [List.foldl_cons, h a (by simp), hf]
    exact ih fun q hq => h q (by simp [hq])

theorem extreme_const (f : K → K → K) (hf : ∀ x, f x x = x) (c : Pt K → K) (l : List (Pt K)) (h : ∀ a ∈ l, ∀ b ∈ l, c a = c b) {a : Pt K}
    (ha : a ∈ l) : extreme f c l = c a := by
  cases l with
  | nil => simp at ha
  | cons b l =>
    show l.foldl (fun m q => f m (c q)) (c b) = c a
    rw [foldl_const f hf c (c b) l fun q hq => h q (by simp [hq]) b (by simp)]
    exact h b (by simp) a ha

/-- C98: four or more points all with the same x, or all with the same y, are an assertion error. -/
theorem C98_straight (po : List (Pt K)) (csf : Option K) (h4 : 4 ≤ po.length)
    (h : (∀ a ∈ po, ∀ b ∈ po, a.x = b.x) ∨ (∀ a ∈ po, ∀ b ∈ po, a.y = b.y)) : dtSimple po csf = .error .assertion := by
  obtain ⟨a, ha⟩ : ∃ a, a ∈ po := by
    cases po with
    | nil => simp at h4
    | cons a l => exact ⟨a, by simp⟩
  unfold dtSimple
  dsimp only
  rw [if_neg (by omega), if_neg (by omega), if_pos]
  rintro ⟨hx, hy⟩
  rcases h with h | h
  · rw [extreme_const max max_self Pt.x po h ha, extreme_const min min_self Pt.x po h ha, sub_self] at hx
    exact lt_irrefl _ hx
  · rw [extreme_const max max_self Pt.y po h ha, extreme_const min min_self Pt.y po h ha, sub_self] at hy
    exact lt_irrefl _ hy

example : dtSimple (K := Rat) [⟨0, 0⟩, ⟨0, 1⟩, ⟨0, 2⟩, ⟨0, 3⟩] none = .error .assertion :=
  C98_straight _ _ (by decide) (Or.inl (by decide +kernel))

/-- C98 fails for three points: the one triangle returned is that of the points in the order given, so that it can be clockwise, and flat. -/
theorem C98_three_points_violated :
    (∃ (po : List (Pt Rat)) (ts : List (Fin 3 → Nat)) (bs : List Nat), po.length = 3 ∧ dtSimple po none = .ok (some (ts, bs)) ∧
      ∃ T ∈ ts, ∃ a b c, Corners po T a b c ∧ orient a b c < 0) ∧
    (∃ (po : List (Pt Rat)) (ts : List (Fin 3 → Nat)) (bs : List Nat), po.length = 3 ∧ po.Nodup ∧ dtSimple po none = .ok (some (ts, bs)) ∧
      ∃ T ∈ ts, ∃ a b c, Corners po T a b c ∧ orient a b c = 0) := by
  refine ⟨⟨[⟨0, 0⟩, ⟨0, 1⟩, ⟨1, 0⟩], [![0, 1, 2]], [0, 1, 2], rfl, rfl, _, List.mem_singleton.mpr rfl, _, _, _, ⟨rfl, rfl, rfl⟩, by decide +kernel⟩,
    ⟨[⟨0, 0⟩, ⟨1, 1⟩, ⟨2, 2⟩], [![0, 1, 2]], [0, 1, 2], rfl, by decide +kernel, rfl, _, List.mem_singleton.mpr rfl, _, _, _, ⟨rfl, rfl, rfl⟩,
      by decide +kernel⟩⟩

/-- C99: no point is lost: every point is a corner of a triangle or in the list of boundary points. -/
theorem C99_every_point (po : List (Pt K)) (csf : Option K) (h4 : 4 ≤ po.length) (hnd : po.Nodup)
    (hx : ∃ a ∈ po, ∃ b ∈ po, a.x ≠ b.x) (hy : ∃ a ∈ po, ∃ b ∈ po, a.y ≠ b.y) :
    ∃ ts bs, dtSimple po csf = .ok (some (ts, bs)) ∧ ∀ i, i < po.length → i ∈ bs ∨ ∃ T ∈ ts, ∃ j, T j = i := by
  obtain ⟨s, hF, hD, e⟩ := dtSimple_eq po csf h4 hnd hx hy
  refine ⟨_, _, e, fun i hi => ?_⟩
  have hnn := fun k (l : k < s.nt) => (hD.area k l).le
  obtain ⟨k, hk, hh⟩ := covered hD.cycle hnn hF.container.le (withContainer po csf i) (fun a b ho => hF.inside i a b hi ho)
  have hc : ∃ j, s.t k j = i := by
    by_contra hn
    push Not at hn
    have hne : ∀ j, withContainer po csf i ≠ withContainer po csf (s.t k j) := by
      intro j hj
      rcases hD.good.corners k j hk with h | h
      · exact hn j (hF.distinct _ _ hi h hj).symm
      · exact hF.ne hi (Nat.zero_le _) (Or.inr h : InUse po.length 0 (s.t k j)) hj
    have := closed_circ_pos (hD.area k hk) (hh 0) (hh 1) (hh 2) (hne 0) (hne 1) (hne 2)
    exact absurd (hD.empty k i hk (Or.inl hi)) (not_le.mpr this)
  obtain ⟨j, hj⟩ := hc
  have hrow : s.t k ∈ (List.range s.nt).map s.t := List.mem_map.mpr ⟨k, List.mem_range.mpr hk, rfl⟩
  by_cases hout : isOuter po.length (s.t k) = true
  · left
    rw [List.mem_filter, List.mem_range]
    exact ⟨hi, List.any_eq_true.mpr ⟨_, List.mem_filter.mpr ⟨hrow, hout⟩, (isCorner_iff _ _).mpr ⟨j, hj⟩⟩⟩
  · right
    refine ⟨s.t k, List.mem_filter.mpr ⟨hrow, by simpa using hout⟩, j, hj⟩

/-- C99: the boundary points are in order, and an edge of a triangle which does not have both ends among them is also, in the opposite direction, an
edge of another of the triangles. -/
theorem C99_boundary (po : List (Pt K)) (csf : Option K) (h4 : 4 ≤ po.length) (hnd : po.Nodup)
    (hx : ∃ a ∈ po, ∃ b ∈ po, a.x ≠ b.x) (hy : ∃ a ∈ po, ∃ b ∈ po, a.y ≠ b.y) :
    ∃ ts bs, dtSimple po csf = .ok (some (ts, bs)) ∧ bs.Pairwise (· < ·) ∧ (∀ i ∈ bs, i < po.length) ∧
      ∀ T ∈ ts, ∀ j, (T j ∉ bs ∨ T (j + 1) ∉ bs) → ∃ U ∈ ts, U ≠ T ∧ ∃ i, U i = T (j + 1) ∧ U (i + 1) = T j := by
  obtain ⟨s, hF, hD, e⟩ := dtSimple_eq po csf h4 hnd hx hy
  refine ⟨_, _, e, List.Pairwise.filter _ List.pairwise_lt_range, fun i hi => List.mem_range.mp (List.mem_filter.mp hi).1, ?_⟩
  intro T hT j hj
  rw [List.mem_filter, List.mem_map] at hT
  obtain ⟨⟨k, hk, rfl⟩, hout⟩ := hT
  rw [List.mem_range] at hk
  have hlt : ∀ j, s.t k j < po.length := by
    intro j
    by_contra hn
    push Not at hn
    rw [(isOuter_iff _ _).mpr ⟨j, hn⟩] at hout
    simp at hout
  cases hw : mate s (k, j) with
  | none =>
    exfalso
    have := hD.good.mate_none (z := (k, j)) hk hw
    have h0 := hlt j
    unfold Outer St.beg at this
    dsimp only at this
    omega
  | some w =>
    obtain ⟨lw, m1, m2, -⟩ := hD.good.mate_some (z := (k, j)) hk hw
    have m1' : s.t w.1 w.2 = s.t k (j + 1) := m1
    have m2' : s.t w.1 (w.2 + 1) = s.t k j := m2
    have hrow : s.t w.1 ∈ (List.range s.nt).map s.t := List.mem_map.mpr ⟨w.1, List.mem_range.mpr lw, rfl⟩
    have hin : ¬ isOuter po.length (s.t w.1) = true := by
      intro hout'
      have hb : ∀ v, v < po.length → (∃ i, s.t w.1 i = v) →
          v ∈ (List.range po.length).filter fun i => (((List.range s.nt).map s.t).filter (isOuter po.length)).any (isCorner i) := by
        intro v hv hi
        rw [List.mem_filter, List.mem_range]
        exact ⟨hv, List.any_eq_true.mpr ⟨_, List.mem_filter.mpr ⟨hrow, hout'⟩, (isCorner_iff _ _).mpr hi⟩⟩
      rcases hj with hj | hj
      · exact hj (hb _ (hlt j) ⟨_, m2'⟩)
      · exact hj (hb _ (hlt (j + 1)) ⟨_, m1'⟩)
    refine ⟨s.t w.1, List.mem_filter.mpr ⟨hrow, by simpa using hin⟩, ?_, w.2, m1', m2'⟩
    intro heq
    have d0 := hD.good.distinct k j hk
    have d1 := hD.good.distinct k (j + 1) hk
    have d2 := hD.good.distinct k (j + 2) hk
    obtain ⟨a1, a2, a3, a4⟩ := fin3_add j
    rw [heq] at m1' m2'
    rw [a1] at d1
    rw [a2] at d2
    rcases fin3_cases j w.2 with e | e | e <;> rw [e] at m1' m2'
    · exact d0 m1'
    · rw [a1] at m2'
      exact d2 m2'
    · exact d1 m1'.symm

/-- a point inside is not on the boundary; its edges are all shared -/
example : triOf (dtSimple (K := Rat) [⟨0, 0⟩, ⟨4, 0⟩, ⟨2, 1⟩, ⟨2, 4⟩] none) = ([[2, 1, 3], [0, 1, 2], [0, 2, 3]], [0, 1, 3]) := by decide +kernel

/-- C99: points on a slanting straight line give no triangles, all of them being boundary points. -/
example : triOf (dtSimple (K := Rat) [⟨0, 0⟩, ⟨1, 1⟩, ⟨2, 2⟩, ⟨3, 3⟩] none) = ([], [0, 1, 2, 3]) := by decide +kernel

/-- C98: the arrays are large enough: after any number of points the counts of triangles and of edges are within the arrays allocated, which are for
2 n + 2 triangles and 3 n + 6 edges, and every index held in them is of a triangle, edge or point there is. -/
theorem C98_arrays (po : List (Pt K)) (csf : Option K) (hnd : po.Nodup)
    (hx : ∃ a ∈ po, ∃ b ∈ po, a.x ≠ b.x) (hy : ∃ a ∈ po, ∃ b ∈ po, a.y ≠ b.y) (m : Nat) (hm : m ≤ po.length) :
    ∃ s, insertAll (withContainer po csf) (3 * po.length + 7) (initial po.length) (List.range m) = .ok s ∧
      s.nt = 2 * m + 1 ∧ s.ne = 3 * m + 3 ∧ s.nt ≤ 2 * po.length + 2 ∧ s.ne ≤ 3 * po.length + 6 ∧
      (∀ k j, k < s.nt → s.t k j < po.length + 3 ∧ s.te k j < s.ne) ∧
      (∀ x sd z, s.e x sd = some z → x < s.ne ∧ z.1 < s.nt) := by
  obtain ⟨a, ha, b, hb, hab⟩ := hx
  obtain ⟨c, hc, d, hd, hcd⟩ := hy
  have hF := frame po csf hnd (extreme_range Pt.x ha hb hab) (extreme_range Pt.y hc hd hcd)
  have key : ∀ (j m : Nat) (O : St), m + j ≤ po.length → DT po.length m (withContainer po csf) O →
      ∃ s, insertAll (withContainer po csf) (3 * po.length + 7) O (List.range' m j) = .ok s ∧ DT po.length (m + j) (withContainer po csf) s := by
    intro j
    induction j with
    | zero => intro m O _ hO; exact ⟨O, rfl, hO⟩
    | succ j ih =>
      intro m O hm hO
      obtain ⟨s, r, h⟩ := insert_ok hF hO (by omega : m < po.length) (fuel := 3 * po.length + 7) (by omega)
      obtain ⟨s', r', h'⟩ := ih (m + 1) s (by omega) h
      refine ⟨s', ?_, by rw [show m + (j + 1) = m + 1 + j by omega]; exact h'⟩
      rw [List.range'_succ, insertAll, r, Box.ok_bind]
      exact r'
  obtain ⟨s, hs, hD⟩ := key m 0 (initial po.length) (by omega) (initial_dt hF)
  rw [Nat.zero_add] at hD
  have h1 := hD.nt
  have h2 := hD.ne
  refine ⟨s, by rw [List.range_eq_range']; exact hs, h1, h2, by omega, by omega, fun k j hk => ⟨?_, hD.good.te_lt k j hk⟩,
    fun x sd z hz => ⟨(hD.good.e_te x sd z hz).1, (hD.good.e_te x sd z hz).2.1⟩⟩
  have := hD.good.corners k j hk
  unfold InUse at this
  omega

end Verif.Delaunay
