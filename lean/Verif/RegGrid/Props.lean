import Verif.RegGrid.Lemmas
import Mathlib.Algebra.Order.Floor.Ring
import Mathlib.Data.Rat.Floor

/-!
# C161–C164: points, corners, centres, boxes of regular grids, and finding cells
-/

namespace Verif.RegGrid
open Verif.Py

variable {K : Type} [Field K] [LinearOrder K]

/-- increments are along x, y, z just if _set_is_aligned finds so -/
theorem isAligned_iff (d : Fin 3 → Vec K) :
    isAligned d = true ↔ d 0 0 = 0 ∧ d 0 1 = 0 ∧ d 1 0 = 0 ∧ d 1 2 = 0 ∧ d 2 1 = 0 ∧ d 2 2 = 0 := by
  unfold isAligned
  rw [decide_eq_true_iff]
  constructor
  · intro h
    refine ⟨?_, ?_, ?_, ?_, ?_, ?_⟩
    · simpa [mask] using h 0 0
    · simpa [mask] using h 0 1
    · simpa [mask] using h 1 0
    · simpa [mask] using h 1 2
    · simpa [mask] using h 2 1
    · simpa [mask] using h 2 2
  · rintro ⟨h1, h2, h3, h4, h5, h6⟩ a c
    fin_cases a <;> fin_cases c <;> simp [mask, h1, h2, h3, h4, h5, h6]

/-- **C161** a grid that was made has the extent, origin and increments asked for, unit cubes if nothing is; it is aligned just if steps along I,
J, K change only x, y, z, unless it is to be stored as an irregular one -/
theorem C161_create (nk nj ni : Nat) (h1 : 0 < nk) (h2 : 0 < nj) (h3 : 0 < ni) (dxyz : Option (Vec K)) (dkji : Option (Fin 3 → Vec K))
    (origin : Vec K) (irregular : Bool) (hb : dxyz = none ∨ dkji = none) :
    ∃ g : RegGrid K, create nk nj ni dxyz dkji none origin irregular = .ok g ∧ Fit g ∧ g.nk = nk ∧ g.nj = nj ∧ g.ni = ni ∧ g.origin = origin ∧
      (∀ d, dkji = some d → g.d = d) ∧
      (∀ v, (dxyz = some v ∨ (dxyz = none ∧ dkji = none ∧ v = fun _ => 1)) →
        g.d 2 = ![v 0, 0, 0] ∧ g.d 1 = ![0, v 1, 0] ∧ g.d 0 = ![0, 0, v 2]) ∧
      (g.aligned = true ↔ irregular = false ∧ g.d 0 0 = 0 ∧ g.d 0 1 = 0 ∧ g.d 1 0 = 0 ∧ g.d 1 2 = 0 ∧ g.d 2 1 = 0 ∧ g.d 2 2 = 0) := by
  have axes : ∀ (v : Vec K), ofDxyz v 2 = ![v 0, 0, 0] ∧ ofDxyz v 1 = ![0, v 1, 0] ∧ ofDxyz v 0 = ![0, 0, v 2] := by
    intro v
    refine ⟨?_, ?_, ?_⟩ <;> funext c <;> fin_cases c <;> simp [ofDxyz]
  have al : ∀ d : Fin 3 → Vec K, (!irregular && isAligned d) = true ↔
      irregular = false ∧ d 0 0 = 0 ∧ d 0 1 = 0 ∧ d 1 0 = 0 ∧ d 1 2 = 0 ∧ d 2 1 = 0 ∧ d 2 2 = 0 := by
    intro d
    rw [Bool.and_eq_true, isAligned_iff]
    simp
  have fit : ∀ d : Fin 3 → Vec K, Fit (⟨nk, nj, ni, origin, d, !irregular && isAligned d⟩ : RegGrid K) :=
    fun d => ⟨h1, h2, h3, fun h => ((al d).mp h).2⟩
  cases dxyz with
  | some v =>
    cases dkji with
    | some d => simp at hb
    | none =>
      refine ⟨_, rfl, fit _, rfl, rfl, rfl, rfl, by simp, ?_, al _⟩
      rintro w (hw | ⟨hw, -⟩)
      · cases hw; exact axes v
      · cases hw
  | none =>
    cases dkji with
    | some d =>
      refine ⟨_, rfl, fit _, rfl, rfl, rfl, rfl, ?_, ?_, al _⟩
      · intro d' h; cases h; rfl
      · rintro w (hw | ⟨-, hw, -⟩) <;> cases hw
    | none =>
      refine ⟨_, rfl, fit _, rfl, rfl, rfl, rfl, by simp, ?_, al _⟩
      rintro w (hw | ⟨-, -, hw⟩)
      · cases hw
      · subst hw; exact axes fun _ => (1 : K)

variable [IsStrictOrderedRing K]

/-- **C161** whatever calls were made before, with whatever arrays kept, point_raw gives the node reached by steps from the origin,
corner_points the nodes at the ends of the cell, and centre_point the mean of the corners, for one cell or for all -/
theorem C161_calls (g : RegGrid K) (h : Fit g) (cs : List Call) : calls g ⟨none, none, none⟩ cs = cs.map (answer g) := by
  suffices ∀ (s : Cache K), Good g s → calls g s cs = cs.map (answer g) from
    this _ ⟨fun f hf => (by cases hf), fun f hf => (by cases hf), fun f hf => (by cases hf)⟩
  induction cs with
  | nil => intro s _; rfl
  | cons c cs ih =>
    intro s hs
    obtain ⟨h1, h2⟩ := call_answer h hs c
    rw [calls, List.map_cons, h1, ih _ h2]

omit [LinearOrder K] [IsStrictOrderedRing K] in
/-- **C161** cells next to each other share the corners of the face between them -/
theorem C161_shared (g : RegGrid K) (k j i : Nat) (p q : Fin 2) :
    corner g (k, j, i) (p, q, 1) = corner g (k, j, i + 1) (p, q, 0) ∧
    corner g (k, j, i) (p, 1, q) = corner g (k, j + 1, i) (p, 0, q) ∧
    corner g (k, j, i) (1, p, q) = corner g (k + 1, j, i) (0, p, q) := ⟨rfl, rfl, rfl⟩

/-- **C161** slices of points of a grid whose origin is nought hold the nodes of that slice -/
theorem C161_slices_partial (g : RegGrid K) (ho : g.origin = fun _ => 0) (ref a b : Nat) :
    slicePoint g 0 ref a b = node g (ref, a, b) ∧ slicePoint g 1 ref a b = node g (a, ref, b) ∧ slicePoint g 2 ref a b = node g (a, b, ref) := by
  refine ⟨?_, ?_, ?_⟩ <;> funext c <;> simp only [slicePoint, otherAxes, node, ho]
  · by_cases h1 : ref = 0 <;> by_cases h2 : a = 0 <;> by_cases h3 : b = 0 <;> simp [h1, h2, h3]
  · by_cases h1 : ref = 0 <;> by_cases h2 : a = 0 <;> by_cases h3 : b = 0 <;> simp [h1, h2, h3] <;> ring
  · by_cases h1 : ref = 0 <;> by_cases h2 : a = 0 <;> by_cases h3 : b = 0 <;> simp [h1, h2, h3] <;> ring

/-- **C161 fails** for slices of every grid with an origin: it is left out -/
theorem C161_slices_violated (g : RegGrid K) (ho : g.origin ≠ fun _ => 0) (k j i : Nat) : slicePoint g 0 k j i ≠ node g (k, j, i) := by
  intro h
  apply ho
  funext c
  have h1 := congrFun (C161_slices_partial { g with origin := fun _ => 0 } rfl k j i).1 c
  have h2 := congrFun h c
  have h3 : slicePoint { g with origin := fun _ => 0 } 0 k j i c = slicePoint g 0 k j i c := rfl
  rw [← h3, h1] at h2
  simp only [node] at h2
  linarith

/-! ### C162 centres -/

/-- **C162** the centre of a cell is the mean of its corners, half way between opposite ones, whatever was called before; without the origin it is
that less the origin -/
theorem C162_centre (g : RegGrid K) (h : Fit g) (before : List Call) (c : Cell) (cache : Bool) :
    (calls g ⟨none, none, none⟩ (before ++ [.centrePoint (some c) cache true])).getLast? = some (.point (centre g c)) ∧
    (calls g ⟨none, none, none⟩ (before ++ [.centrePoint none cache true])).getLast? = some (.points (centre g)) ∧
    (calls g ⟨none, none, none⟩ (before ++ [.centrePoint (some c) cache false])).getLast? = some (.point (centre g c - g.origin)) ∧
    (∀ a, centre g c a = (corner g c (0, 0, 0) a + corner g c (1, 1, 1) a) / 2) := by
  refine ⟨?_, ?_, ?_, ?_⟩
  · rw [C161_calls g h]; simp [answer]
  · rw [C161_calls g h]; simp [answer]
  · rw [C161_calls g h]; simp [answer]
  · intro a
    rw [centre_eq]
    simp only [corner, node, Fin.val_zero, Fin.val_one, add_zero]
    push_cast
    field_simp
    ring

/-- **C162** column centres of an aligned grid are the centres of the cells of the column, in plan, in whichever layer -/
theorem C162_columns (g : RegGrid K) (h : Fit g) (ha : g.aligned = true) (k j i : Nat) :
    ∃ f, columnCentre g j i = .ok f ∧ f 0 = centre g (k, j, i) 0 ∧ f 1 = centre g (k, j, i) 1 := by
  obtain ⟨h1, h2, h3, h4, h5, h6⟩ := h.axes ha
  unfold columnCentre
  rw [if_pos ha]
  refine ⟨_, rfl, ?_, ?_⟩
  · rw [centre_eq]
    simp [linspaceOpen_eq _ h.ni, h1, h3]
    ring
  · rw [centre_eq]
    simp [linspaceOpen_eq _ h.nj, h2, h5]
    ring

/-! ### C163 boxes -/

omit [Field K] [IsStrictOrderedRing K] in
theorem foldl_min (l : List K) (a : K) : (l.foldl min a ∈ a :: l) ∧ ∀ x ∈ a :: l, l.foldl min a ≤ x := by
  induction l generalizing a with
  | nil => simp
  | cons b l ih =>
    obtain ⟨h1, h2⟩ := ih (min a b)
    rw [List.foldl_cons]
    have hm := h2 (min a b) (by simp)
    constructor
    · rcases List.mem_cons.mp h1 with h | h
      · rw [h]
        rcases min_choice a b with e | e <;> rw [e] <;> simp
      · simp [h]
    · intro x hx
      rcases List.mem_cons.mp hx with rfl | hx
      · exact le_trans hm (min_le_left _ _)
      · rcases List.mem_cons.mp hx with rfl | hx
        · exact le_trans hm (min_le_right _ _)
        · exact h2 x (by simp [hx])

omit [Field K] [IsStrictOrderedRing K] in
theorem foldl_max (l : List K) (a : K) : (l.foldl max a ∈ a :: l) ∧ ∀ x ∈ a :: l, x ≤ l.foldl max a := by
  induction l generalizing a with
  | nil => simp
  | cons b l ih =>
    obtain ⟨h1, h2⟩ := ih (max a b)
    rw [List.foldl_cons]
    have hm := h2 (max a b) (by simp)
    constructor
    · rcases List.mem_cons.mp h1 with h | h
      · rw [h]
        rcases max_choice a b with e | e <;> rw [e] <;> simp
      · simp [h]
    · intro x hx
      rcases List.mem_cons.mp hx with rfl | hx
      · exact le_trans (le_max_left _ _) hm
      · rcases List.mem_cons.mp hx with rfl | hx
        · exact le_trans (le_max_right _ _) hm
        · exact h2 x (by simp [hx])

omit [IsStrictOrderedRing K] in
theorem least_mem (l : List K) (h : l ≠ []) : least l ∈ l ∧ ∀ x ∈ l, least l ≤ x := by
  cases l with
  | nil => exact absurd rfl h
  | cons a l => exact foldl_min l a

omit [IsStrictOrderedRing K] in
theorem greatest_mem (l : List K) (h : l ≠ []) : greatest l ∈ l ∧ ∀ x ∈ l, x ≤ greatest l := by
  cases l with
  | nil => exact absurd rfl h
  | cons a l => exact foldl_max l a

/-- outer corners as nodes -/
theorem outer_node (g : RegGrid K) (ho : g.origin = fun _ => 0) (v : Vec K) :
    v ∈ outerCorners g ↔ ∃ k ∈ [0, g.nk], ∃ j ∈ [0, g.nj], ∃ i ∈ [0, g.ni], v = node g (k, j, i) := by
  have e : ∀ k j i : Nat, (fun a => (((k * g.nk : Nat) : K) * g.d 0 a + ((j * g.nj : Nat) : K) * g.d 1 a) + ((i * g.ni : Nat) : K) * g.d 2 a) =
      node g (k * g.nk, j * g.nj, i * g.ni) := by
    intro k j i
    funext a
    simp [node, ho]
  unfold outerCorners
  simp only [e, List.mem_flatMap, List.mem_map]
  constructor
  · rintro ⟨k, hk, j, hj, i, hi, rfl⟩
    simp only [List.mem_cons, List.not_mem_nil, or_false] at hk hj hi
    refine ⟨k * g.nk, ?_, j * g.nj, ?_, i * g.ni, ?_, rfl⟩
    · rcases hk with rfl | rfl <;> simp
    · rcases hj with rfl | rfl <;> simp
    · rcases hi with rfl | rfl <;> simp
  · rintro ⟨k, hk, j, hj, i, hi, rfl⟩
    simp only [List.mem_cons, List.not_mem_nil, or_false] at hk hj hi
    refine ⟨if k = 0 then 0 else 1, ?_, if j = 0 then 0 else 1, ?_, if i = 0 then 0 else 1, ?_, ?_⟩
    · split_ifs <;> simp
    · split_ifs <;> simp
    · split_ifs <;> simp
    · congr 1
      refine Prod.ext ?_ (Prod.ext ?_ ?_)
      · rcases hk with rfl | rfl
        · simp
        · by_cases h : g.nk = 0 <;> simp [h]
      · rcases hj with rfl | rfl
        · simp
        · by_cases h : g.nj = 0 <;> simp [h]
      · rcases hi with rfl | rfl
        · simp
        · by_cases h : g.ni = 0 <;> simp [h]

/-- of the two ends, one has a multiple no greater, one a multiple no smaller -/
theorem ends (n m : Nat) (h : m ≤ n) (d : K) : (∃ e ∈ [0, n], (e : K) * d ≤ (m : K) * d) ∧ (∃ e ∈ [0, n], (m : K) * d ≤ (e : K) * d) := by
  have hm : (m : K) ≤ (n : K) := Nat.cast_le.mpr h
  have h0 : (0 : K) ≤ (m : K) := Nat.cast_nonneg m
  rcases le_total 0 d with hd | hd
  · exact ⟨⟨0, by simp, by simpa using mul_nonneg h0 hd⟩, ⟨n, by simp, mul_le_mul_of_nonneg_right hm hd⟩⟩
  · exact ⟨⟨n, by simp, mul_le_mul_of_nonpos_right hm hd⟩, ⟨0, by simp, by simpa using mul_nonpos_of_nonneg_of_nonpos h0 hd⟩⟩

omit [IsStrictOrderedRing K] in
/-- a list of the values of nodes which holds, for each node, values at both sides of it -/
theorem box_of_list (g : RegGrid K) (l : Fin 3 → List K) (hl : ∀ a, ∀ x ∈ l a, ∃ p, InGrid g p ∧ node g p a = x)
    (hs : ∀ a p, InGrid g p → (∃ x ∈ l a, x ≤ node g p a) ∧ (∃ x ∈ l a, node g p a ≤ x)) :
    IsBox g (fun a => least (l a), fun a => greatest (l a)) := by
  intro a
  have hne : l a ≠ [] := by
    obtain ⟨⟨x, hx, -⟩, -⟩ := hs a (0, 0, 0) ⟨by simp, by simp, by simp⟩
    intro h; rw [h] at hx; cases hx
  obtain ⟨m1, m2⟩ := least_mem (l a) hne
  obtain ⟨g1, g2⟩ := greatest_mem (l a) hne
  refine ⟨?_, hl a _ m1, hl a _ g1⟩
  intro p hp
  obtain ⟨⟨x, hx, hx'⟩, ⟨y, hy, hy'⟩⟩ := hs a p hp
  exact ⟨le_trans (m2 x hx) hx', le_trans hy' (g2 y hy)⟩

/-- **C163** the box of a grid whose origin is nought is the least one which holds its nodes -/
theorem C163_box_partial (g : RegGrid K) (h : Fit g) (ho : g.origin = fun _ => 0) : IsBox g (xyzBox g) := by
  unfold xyzBox
  by_cases ha : g.aligned = true
  · rw [if_pos ha]
    obtain ⟨h1, h2, h3, h4, h5, h6⟩ := h.axes ha
    apply box_of_list g fun a => [0, farCorner g a]
    · intro a x hx
      simp only [List.mem_cons, List.not_mem_nil, or_false] at hx
      rcases hx with rfl | rfl
      · exact ⟨(0, 0, 0), ⟨by simp, by simp, by simp⟩, by simp [node, ho]⟩
      · refine ⟨(g.nk, g.nj, g.ni), ⟨le_refl _, le_refl _, le_refl _⟩, ?_⟩
        fin_cases a <;> simp [node, ho, farCorner, h1, h2, h3, h4, h5, h6]
    · intro a p hp
      obtain ⟨⟨e1, he1, q1⟩, e2, he2, q2⟩ := ends g.nk p.1 hp.1 (g.d 0 2)
      obtain ⟨⟨e3, he3, q3⟩, e4, he4, q4⟩ := ends g.nj p.2.1 hp.2.1 (g.d 1 1)
      obtain ⟨⟨e5, he5, q5⟩, e6, he6, q6⟩ := ends g.ni p.2.2 hp.2.2 (g.d 2 0)
      have mem : ∀ (n e : Nat) (d : K), e ∈ [0, n] → (e : K) * d ∈ [0, (n : K) * d] := by
        intro n e d he
        simp only [List.mem_cons, List.not_mem_nil, or_false] at he
        rcases he with rfl | rfl <;> simp
      fin_cases a
      · have : node g p 0 = (p.2.2 : K) * g.d 2 0 := by simp [node, ho, h1, h3]
        refine ⟨⟨(e5 : K) * g.d 2 0, ?_, by simpa [this] using q5⟩, ⟨(e6 : K) * g.d 2 0, ?_, by simpa [this] using q6⟩⟩
        · simpa [farCorner] using mem g.ni e5 (g.d 2 0) he5
        · simpa [farCorner] using mem g.ni e6 (g.d 2 0) he6
      · have : node g p 1 = (p.2.1 : K) * g.d 1 1 := by simp [node, ho, h2, h5]
        refine ⟨⟨(e3 : K) * g.d 1 1, ?_, by simpa [this] using q3⟩, ⟨(e4 : K) * g.d 1 1, ?_, by simpa [this] using q4⟩⟩
        · simpa [farCorner] using mem g.nj e3 (g.d 1 1) he3
        · simpa [farCorner] using mem g.nj e4 (g.d 1 1) he4
      · have : node g p 2 = (p.1 : K) * g.d 0 2 := by simp [node, ho, h4, h6]
        refine ⟨⟨(e1 : K) * g.d 0 2, ?_, by simpa [this] using q1⟩, ⟨(e2 : K) * g.d 0 2, ?_, by simpa [this] using q2⟩⟩
        · simpa [farCorner] using mem g.nk e1 (g.d 0 2) he1
        · simpa [farCorner] using mem g.nk e2 (g.d 0 2) he2
  · rw [if_neg ha]
    apply box_of_list g fun a => (outerCorners g).map (· a)
    · intro a x hx
      obtain ⟨v, hv, rfl⟩ := List.mem_map.mp hx
      obtain ⟨k, hk, j, hj, i, hi, rfl⟩ := (outer_node g ho v).mp hv
      simp only [List.mem_cons, List.not_mem_nil, or_false] at hk hj hi
      refine ⟨(k, j, i), ⟨?_, ?_, ?_⟩, rfl⟩
      · rcases hk with rfl | rfl <;> simp
      · rcases hj with rfl | rfl <;> simp
      · rcases hi with rfl | rfl <;> simp
    · intro a p hp
      obtain ⟨⟨e1, he1, q1⟩, e2, he2, q2⟩ := ends g.nk p.1 hp.1 (g.d 0 a)
      obtain ⟨⟨e3, he3, q3⟩, e4, he4, q4⟩ := ends g.nj p.2.1 hp.2.1 (g.d 1 a)
      obtain ⟨⟨e5, he5, q5⟩, e6, he6, q6⟩ := ends g.ni p.2.2 hp.2.2 (g.d 2 a)
      refine ⟨⟨node g (e1, e3, e5) a, List.mem_map.mpr ⟨_, (outer_node g ho _).mpr ⟨e1, he1, e3, he3, e5, he5, rfl⟩, rfl⟩, ?_⟩,
        ⟨node g (e2, e4, e6) a, List.mem_map.mpr ⟨_, (outer_node g ho _).mpr ⟨e2, he2, e4, he4, e6, he6, rfl⟩, rfl⟩, ?_⟩⟩
      · simp only [node]; linarith
      · simp only [node]; linarith

/-- **C163 fails** for every grid with an origin other than nought: the box leaves the origin out -/
theorem C163_box_violated (g : RegGrid K) (h : Fit g) (ho : g.origin ≠ fun _ => 0) : ¬ IsBox g (xyzBox g) := by
  intro hb
  apply ho
  funext a
  have h0 : IsBox { g with origin := fun _ => 0 } (xyzBox g) := C163_box_partial { g with origin := fun _ => 0 } ⟨h.nk, h.nj, h.ni, h.axes⟩ rfl
  obtain ⟨b1, ⟨p, hp, hp'⟩, -⟩ := hb a
  obtain ⟨c1, ⟨q, hq, hq'⟩, -⟩ := h0 a
  have l1 := (b1 q hq).1
  have l2 := (c1 p hp).1
  simp only [node] at l1 l2 hp' hq'
  linarith

/-! ### C164 finding the column of a point -/

/-- dividing by the step tells the step -/
theorem floor_between [FloorRing K] {d x : K} (hd : d ≠ 0) (i : Nat) : ⌊x / d⌋ = (i : Int) ↔ Between ((i : K) * d) (((i + 1 : Nat) : K) * d) x := by
  rw [Int.floor_eq_iff]
  unfold Between
  push_cast
  rcases lt_or_gt_of_ne hd with h | h
  · rw [le_div_iff_of_neg h, div_lt_iff_of_neg h]
    constructor
    · rintro ⟨h1, h2⟩; exact Or.inr ⟨h2, h1⟩
    · rintro (⟨h1, h2⟩ | ⟨h1, h2⟩)
      · exfalso
        nlinarith
      · exact ⟨h2, h1⟩
  · rw [le_div_iff₀ h, div_lt_iff₀ h]
    constructor
    · rintro ⟨h1, h2⟩; exact Or.inl ⟨h1, h2⟩
    · rintro (⟨h1, h2⟩ | ⟨h1, h2⟩)
      · exact ⟨h1, h2⟩
      · exfalso
        nlinarith

theorem inColumn_iff [FloorRing K] (g : RegGrid K) (h : Fit g) (ha : g.aligned = true) (ho : g.origin = fun _ => 0) (hx : g.d 2 0 ≠ 0) (hy : g.d 1 1 ≠ 0)
    (j i : Nat) (x y : K) : InColumn g j i x y ↔ ⌊y / g.d 1 1⌋ = (j : Int) ∧ ⌊x / g.d 2 0⌋ = (i : Int) := by
  obtain ⟨h1, h2, h3, h4, h5, h6⟩ := h.axes ha
  rw [floor_between hy, floor_between hx]
  unfold InColumn
  simp only [node, ho, h1, h2, h3, h5, mul_zero, add_zero, zero_add, Nat.cast_zero, zero_mul]
  exact and_comm

/-- **C164** the column found is the one the point lies in, and none is found just if it lies in none, for aligned grids whose origin is nought,
with steps of either sign -/
theorem C164_find_partial [FloorRing K] (g : RegGrid K) (h : Fit g) (ha : g.aligned = true) (ho : g.origin = fun _ => 0) (hx : g.d 2 0 ≠ 0)
    (hy : g.d 1 1 ≠ 0) (x y : K) :
    (∀ j i : Nat, j < g.nj → i < g.ni → InColumn g j i x y → findCell g x y = .ok (some ((j : Int), (i : Int)))) ∧
    ((∀ j i : Nat, j < g.nj → i < g.ni → ¬ InColumn g j i x y) → findCell g x y = .ok none) := by
  unfold findCell
  rw [if_pos ha, if_neg (by simp [hx, hy])]
  dsimp only
  constructor
  · intro j i hj hi hc
    obtain ⟨e1, e2⟩ := (inColumn_iff g h ha ho hx hy j i x y).mp hc
    rw [e1, e2, if_pos]
    omega
  · intro hn
    rw [if_neg]
    rintro ⟨q1, q2, q3, q4⟩
    refine hn ⌊y / g.d 1 1⌋.toNat ⌊x / g.d 2 0⌋.toNat (by omega) (by omega) ?_
    rw [inColumn_iff g h ha ho hx hy, Int.toNat_of_nonneg q1, Int.toNat_of_nonneg q3]
    exact ⟨rfl, rfl⟩

/-- **C164 fails** for every aligned grid with an origin other than nought in x: some point of the grid is not found -/
theorem C164_find_violated [FloorRing K] (g : RegGrid K) (h : Fit g) (ha : g.aligned = true) (ho : g.origin 0 ≠ 0) (hx : g.d 2 0 ≠ 0) (hy : g.d 1 1 ≠ 0) :
    ∃ (x y : K) (j i : Nat), j < g.nj ∧ i < g.ni ∧ InColumn g j i x y ∧ findCell g x y = .ok none := by
  obtain ⟨h1, h2, h3, h4, h5, h6⟩ := h.axes ha
  set r := g.origin 0 / g.d 2 0 with hr
  have hr0 : r ≠ 0 := div_ne_zero ho hx
  have hro : g.origin 0 = r * g.d 2 0 := by rw [hr]; field_simp
  -- the place along x, in steps from the origin, and its column
  have key : ∃ (u : K) (i : Nat), i < g.ni ∧ (i : K) ≤ u ∧ u < (i : K) + 1 ∧ (r + u < 0 ∨ (g.ni : K) ≤ r + u) := by
    rcases lt_or_gt_of_ne hr0 with hneg | hpos
    · exact ⟨0, 0, h.ni, by simp, by simp, Or.inl (by simpa using hneg)⟩
    · refine ⟨(g.ni : K) - min 1 r, g.ni - 1, by have := h.ni; omega, ?_, ?_, Or.inr ?_⟩
      · rw [Nat.cast_sub (by have := h.ni; omega)]
        have := min_le_left 1 r
        push_cast
        linarith
      · rw [Nat.cast_sub (by have := h.ni; omega)]
        have : 0 < min 1 r := lt_min one_pos hpos
        push_cast
        linarith
      · have := min_le_right 1 r
        linarith
  obtain ⟨u, i, hi, hu1, hu2, hout⟩ := key
  refine ⟨g.origin 0 + u * g.d 2 0, g.origin 1, 0, i, h.nj, hi, ⟨?_, ?_⟩, ?_⟩
  · have := (floor_between (x := u * g.d 2 0) hx i).mp (by rw [mul_div_assoc, div_self hx, mul_one, Int.floor_eq_iff]; push_cast; exact ⟨hu1, hu2⟩)
    unfold Between at this ⊢
    simp only [node, h1, h3, mul_zero, add_zero]
    rcases this with ⟨q1, q2⟩ | ⟨q1, q2⟩
    · exact Or.inl ⟨by linarith, by linarith⟩
    · exact Or.inr ⟨by linarith, by linarith⟩
  · unfold Between
    simp only [node, h2, h5, mul_zero, add_zero]
    push_cast
    rcases lt_or_gt_of_ne hy with hd | hd
    · exact Or.inr ⟨by linarith, by linarith⟩
    · exact Or.inl ⟨by linarith, by linarith⟩
  · unfold findCell
    rw [if_pos ha, if_neg (by simp [hx, hy])]
    dsimp only
    have hq : (g.origin 0 + u * g.d 2 0) / g.d 2 0 = r + u := by rw [hro]; field_simp
    rw [hq, if_neg]
    rintro ⟨q1, q2, -⟩
    rcases hout with ho | ho
    · have : ⌊r + u⌋ < 0 := Int.floor_lt.mpr (by simpa using ho)
      omega
    · have : (g.ni : Int) ≤ ⌊r + u⌋ := Int.le_floor.mpr (by simpa using ho)
      omega

/-! ### The hypotheses are met -/

/-- a grid of 2 by 3 by 4 cells with its J axis against y -/
def sample (origin : Vec ℚ) : RegGrid ℚ := ⟨2, 3, 4, origin, ![![0, 0, 5], ![0, -10, 0], ![20, 0, 0]], true⟩

example (origin : Vec ℚ) : Fit (sample origin) := ⟨Nat.succ_pos _, Nat.succ_pos _, Nat.succ_pos _, fun _ => by simp [sample]⟩

example : create 2 3 4 (some ![20, -10, 5]) none none ![7, 0, 0] false = .ok (sample ![7, 0, 0]) := by
  have e : ofDxyz (![20, -10, 5] : Vec ℚ) = ![![0, 0, 5], ![0, -10, 0], ![20, 0, 0]] := by
    funext a c
    fin_cases a <;> fin_cases c <;> simp [ofDxyz]
  have ea : isAligned (![![0, 0, 5], ![0, -10, 0], ![20, 0, 0]] : Fin 3 → Vec ℚ) = true := by
    rw [isAligned_iff]
    simp
  simp [create, sample, e, ea]

/-- the point (45, -25) lies in column 2 of row 2 -/
example : InColumn (sample fun _ => 0) 2 2 45 (-25) := by
  constructor
  · exact Or.inl ⟨by decide +kernel, by decide +kernel⟩
  · exact Or.inr ⟨by decide +kernel, by decide +kernel⟩

end Verif.RegGrid
