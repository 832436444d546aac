import Verif.RegGrid.Props
import Mathlib.Tactic.Positivity
import Mathlib.Analysis.SpecialFunctions.Pow.Real

/-!
# C165–C168: storing and loading regular grids, their places, grids based on meshes, volumes
-/

namespace Verif.RegGrid
open Verif.Py

section Generic
variable {K : Type} [Field K] [LinearOrder K]

/-- the increments of an aligned grid in terms of three of them -/
theorem aligned_d {g : RegGrid K} (h : Fit g) (ha : g.aligned = true) (a : Fin 3) (c : Fin 3) :
    g.d a c = if c = 2 - a then g.d a (2 - a) else 0 := by
  obtain ⟨h1, h2, h3, h4, h5, h6⟩ := h.axes ha
  fin_cases a <;> fin_cases c <;> simp [h1, h2, h3, h4, h5, h6] <;> rfl

theorem offsetOk_axial (axis : Fin 3) (d : K) (n : Nat) : offsetOk axis n (axialOffset axis d n) = decide (d ≠ 0) := by
  unfold offsetOk axialOffset
  rw [decide_eq_decide]
  constructor
  · rintro ⟨h, -, -⟩
    have := (h axis).mp rfl
    simpa using this
  · intro hd
    refine ⟨?_, rfl, rfl⟩
    intro ax
    fin_cases axis <;> fin_cases ax <;> simp [hd] <;> decide

/-- **C165** an aligned grid, none of whose steps is nought, is stored as a lattice and loaded with the same extent and steps, of whatever sign; its
origin is then nought (see C166) -/
theorem C165_lattice (g : RegGrid K) (h : Fit g) (ha : g.aligned = true) (h1 : g.d 0 2 ≠ 0) (h2 : g.d 1 1 ≠ 0) (h3 : g.d 2 0 ≠ 0) :
    ∃ x, storeLattice g = .ok x ∧ loadLattice g.nk g.nj g.ni x = .ok { g with origin := fun _ => 0 } := by
  unfold storeLattice
  rw [if_pos ha]
  refine ⟨_, rfl, ?_⟩
  have e1 : alignedDxyz g 2 = g.d 0 2 := rfl
  have e2 : alignedDxyz g 1 = g.d 1 1 := rfl
  have e3 : alignedDxyz g 0 = g.d 2 0 := rfl
  unfold loadLattice
  rw [e1, e2, e3]
  simp only [Bool.not_true, Bool.false_eq_true, if_false, ne_eq, not_true_eq_false, offsetOk_axial, h1, h2, h3, not_false_eq_true, decide_true,
    Bool.and_self, if_true]
  congr 1
  obtain ⟨nk, nj, ni, o, d, al⟩ := g
  simp only at ha
  subst ha
  congr 1
  funext a c
  rw [aligned_d h rfl a c]
  fin_cases a <;> fin_cases c <;> simp [axialOffset] <;> rfl

/-- **C165** a grid which is not aligned is not stored as a lattice -/
theorem C165_unaligned (g : RegGrid K) (ha : g.aligned = false) : storeLattice g = .error .assertion := by
  simp [storeLattice, ha]

/-- **C165 fails** for every aligned grid with a step of nought (cells without thickness, for one): it is stored, but loading is refused -/
theorem C165_zero_violated (g : RegGrid K) (ha : g.aligned = true) (h0 : g.d 0 2 = 0 ∨ g.d 1 1 = 0 ∨ g.d 2 0 = 0) :
    ∃ x, storeLattice g = .ok x ∧ loadLattice g.nk g.nj g.ni x = .error .assertion := by
  unfold storeLattice
  rw [if_pos ha]
  refine ⟨_, rfl, ?_⟩
  have e1 : alignedDxyz g 2 = g.d 0 2 := rfl
  have e2 : alignedDxyz g 1 = g.d 1 1 := rfl
  have e3 : alignedDxyz g 0 = g.d 2 0 := rfl
  unfold loadLattice
  rw [e1, e2, e3]
  simp only [Bool.not_true, Bool.false_eq_true, if_false, ne_eq, not_true_eq_false, offsetOk_axial]
  rw [if_neg]
  rcases h0 with h | h | h <;> simp [h]

/-- **C165** whatever lattice is accepted, the grid loaded from it has the extent given, its origin is nought, it is aligned, none of its steps is
nought, and its steps are those of the lattice, K first -/
theorem C165_accepted (nk nj ni : Nat) (x : Lattice K) (g : RegGrid K) (h : loadLattice nk nj ni x = .ok g) :
    (g.nk, g.nj, g.ni) = (nk, nj, ni) ∧ (∀ a, g.origin a = 0) ∧ g.aligned = true ∧ isAligned g.d = true ∧ g.d 0 2 ≠ 0 ∧ g.d 1 1 ≠ 0 ∧ g.d 2 0 ≠ 0 ∧
    x.offsets.map (·.offset) = [g.d 0, g.d 1, g.d 2] ∧ x.offsets.map (·.count) = [nk, nj, ni] := by
  unfold loadLattice at h
  split_ifs at h with h1 h2
  obtain ⟨ort, org, offs⟩ := x
  have h2' : org = fun _ => 0 := not_not.mp h2
  cases offs with
  | nil => cases h
  | cons k offs =>
    cases offs with
    | nil => cases h
    | cons j offs =>
      cases offs with
      | nil => cases h
      | cons i offs =>
        cases offs with
        | cons _ _ => cases h
        | nil =>
          simp only at h
          split_ifs at h with hk
          cases h
          simp only [Bool.and_eq_true, offsetOk, decide_eq_true_eq] at hk
          obtain ⟨⟨⟨k1, -, k2⟩, ⟨j1, -, j2⟩⟩, ⟨i1, -, i2⟩⟩ := hk
          have nn : ∀ (o : Offset K) (axis : Fin 3), (∀ ax : Fin 3, (ax = axis ↔ o.offset (2 - ax) ≠ 0)) → ∀ ax, ax ≠ axis → o.offset (2 - ax) = 0 :=
            fun o axis ho ax hne => not_not.mp fun hh => hne ((ho ax).mpr hh)
          refine ⟨rfl, fun a => by simp [h2'], rfl, ?_, ?_, ?_, ?_, ?_, ?_⟩
          · rw [isAligned_iff]
            exact ⟨nn k 0 k1 2 (by decide), nn k 0 k1 1 (by decide), nn j 1 j1 2 (by decide), nn j 1 j1 0 (by decide),
              nn i 2 i1 1 (by decide), nn i 2 i1 0 (by decide)⟩
          · exact (k1 0).mp rfl
          · exact (j1 1).mp rfl
          · exact (i1 2).mp rfl
          · simp
          · simp [k2, j2, i2]

end Generic

/-! ### Without a lattice -/

/-- the length of a step along one axis -/
theorem length_one {v : Fin 3 → ℝ} {b : Fin 3} (h : ∀ c, c ≠ b → v c = 0) : Real.sqrt (∑ c, v c * v c) = |v b| := by
  have : ∑ c, v c * v c = v b ^ 2 := by
    rw [Finset.sum_eq_single b]
    · ring
    · intro c _ hc; simp [h c hc]
    · simp
  rw [this, Real.sqrt_sq_eq_abs]

/-- **C165** stored without a lattice, with lengths of cells only, a grid comes back the same just if it is aligned, its origin is nought and no
step is negative -/
theorem C165_lengths_partial (g : RegGrid ℝ) (h : Fit g) :
    loadLengths g.nk g.nj g.ni (axialLengths g) = g ↔ g.aligned = true ∧ g.origin = (fun _ => 0) ∧ 0 ≤ g.d 0 2 ∧ 0 ≤ g.d 1 1 ∧ 0 ≤ g.d 2 0 := by
  constructor
  · intro e
    have ea : g.aligned = true := by rw [← e]; rfl
    have eo : g.origin = fun _ => 0 := by rw [← e]; rfl
    have ed : ∀ a c, g.d a c = if c = 2 - a then axialLengths g a else 0 := fun a c => (congrFun (congrFun (congrArg RegGrid.d e) a) c).symm
    refine ⟨ea, eo, ?_, ?_, ?_⟩
    · rw [ed 0 2, if_pos (by decide)]; exact Real.sqrt_nonneg _
    · rw [ed 1 1, if_pos (by decide)]; exact Real.sqrt_nonneg _
    · rw [ed 2 0, if_pos (by decide)]; exact Real.sqrt_nonneg _
  · rintro ⟨ha, ho, h1, h2, h3⟩
    obtain ⟨q1, q2, q3, q4, q5, q6⟩ := h.axes ha
    have l0 : axialLengths g 0 = g.d 0 2 := by
      unfold axialLengths
      rw [length_one (b := 2) (by intro c hc; fin_cases c <;> simp_all), abs_of_nonneg h1]
    have l1 : axialLengths g 1 = g.d 1 1 := by
      unfold axialLengths
      rw [length_one (b := 1) (by intro c hc; fin_cases c <;> simp_all), abs_of_nonneg h2]
    have l2 : axialLengths g 2 = g.d 2 0 := by
      unfold axialLengths
      rw [length_one (b := 0) (by intro c hc; fin_cases c <;> simp_all), abs_of_nonneg h3]
    obtain ⟨nk, nj, ni, o, d, al⟩ := g
    simp only at ha ho
    subst ha
    subst ho
    unfold loadLengths
    congr 1
    funext a c
    refine Eq.trans ?_ (aligned_d h rfl a c).symm
    fin_cases a
    · exact if_congr Iff.rfl l0 rfl
    · exact if_congr Iff.rfl l1 rfl
    · exact if_congr Iff.rfl l2 rfl

/-- **C165 fails** for every grid which is not aligned, if stored without a lattice: one that is aligned is loaded, without any error -/
theorem C165_rotated_violated (g : RegGrid ℝ) (h : isAligned g.d = false) :
    isAligned (loadLengths g.nk g.nj g.ni (axialLengths g)).d = true ∧ (loadLengths g.nk g.nj g.ni (axialLengths g)).d ≠ g.d := by
  have e : isAligned (loadLengths g.nk g.nj g.ni (axialLengths g)).d = true := by
    rw [isAligned_iff]
    refine ⟨?_, ?_, ?_, ?_, ?_, ?_⟩ <;> simp only [loadLengths] <;> rw [if_neg (by decide)]
  refine ⟨e, ?_⟩
  intro hd
  rw [hd, h] at e
  cases e

/-! ### C166 the place of a grid with an origin -/

open Verif.Crs (Crs Pt Axis)

theorem shifted_rotated (c : Crs) (u : Nat) (o : Vec ℝ) : (shifted c u o).rotated ↔ c.rotated := Iff.rfl

open Classical in
/-- with no rotation, moving the crs by some offset moves the points by it -/
theorem shifted_place (c : Crs) (u : Nat) (o v : Vec ℝ) (hr : ¬ c.rotated) (gz : Bool) (gaxis : Axis) :
    (shifted c u o).localToGlobal (toPt v) gz gaxis = c.localToGlobal (toPt fun a => o a + v a) gz gaxis := by
  have add0 : ∀ x t : ℝ, (if t ≠ 0 then x + t else x) = x + t := by
    intro x t
    by_cases h : t = 0
    · simp [h]
    · simp [h]
  unfold Crs.localToGlobal
  rw [if_neg hr, if_neg (by rwa [shifted_rotated])]
  simp only [toPt, add0]
  simp only [shifted]
  have ex : v 0 + (c.xOff + o 0) = o 0 + v 0 + c.xOff := by ring
  have ey : v 1 + (c.yOff + o 1) = o 1 + v 1 + c.yOff := by ring
  have ez : v 2 + (c.zOff + o 2) = o 2 + v 2 + c.zOff := by ring
  rw [ex, ey, ez]
  congr

/-- **C166** a grid made with an origin in a crs which is not rotated: stored and loaded, its nodes are where they were meant to be -/
theorem C166_stored_partial (c : Crs) (extra model : Option Crs) (blank : Crs) (u : Nat) (g : RegGrid ℝ) (hr : ¬ c.rotated) (p : Cell) (gz : Bool)
    (gaxis : Axis) :
    place (gridCrs (some c) extra model blank u g.origin false) { g with origin := fun _ => 0 } p gz gaxis = place c g p gz gaxis := by
  have e : gridCrs (some c) extra model blank u g.origin false = shifted c u g.origin := by simp [gridCrs]
  rw [e]
  unfold place
  rw [shifted_place c u g.origin _ hr]
  congr 2
  funext a
  simp only [node]
  ring

open Classical in
/-- in a crs which is not rotated, different points have different places -/
theorem place_inj (c : Crs) (hr : ¬ c.rotated) (gz : Bool) (gaxis : Axis) (hx : c.axis = gaxis) (v w : Vec ℝ)
    (h : c.localToGlobal (toPt v) gz gaxis = c.localToGlobal (toPt w) gz gaxis) : v = w := by
  have add0 : ∀ x t : ℝ, (if t ≠ 0 then x + t else x) = x + t := by
    intro x t
    by_cases h : t = 0
    · simp [h]
    · simp [h]
  unfold Crs.localToGlobal at h
  rw [if_neg hr, if_neg hr] at h
  simp only [toPt, add0, hx, ne_eq, not_true_eq_false, if_false, Prod.mk.injEq] at h
  obtain ⟨h1, h2, h3⟩ := h
  funext a
  fin_cases a
  · simpa using h1
  · simpa using h2
  · by_cases hz : gz = c.zIncDown
    · simpa [hz] using h3
    · simp only [hz, not_false_eq_true, if_true, neg_inj, add_left_inj] at h3
      exact h3

/-- **C166 fails** for every new grid with an origin other than nought, before it is loaded from store: the origin is in the crs and in the points
of the grid as well, so that every node is off by the origin -/
theorem C166_new_violated (c : Crs) (extra model : Option Crs) (blank : Crs) (u : Nat) (g : RegGrid ℝ) (hr : ¬ c.rotated) (ho : g.origin ≠ fun _ => 0)
    (p : Cell) (gz : Bool) (gaxis : Axis) (hx : c.axis = gaxis) :
    place (gridCrs (some c) extra model blank u g.origin false) g p gz gaxis ≠ place c g p gz gaxis := by
  have e : gridCrs (some c) extra model blank u g.origin false = shifted c u g.origin := by simp [gridCrs]
  rw [e]
  unfold place
  rw [shifted_place c u g.origin _ hr]
  intro h
  have h := place_inj c hr gz gaxis hx _ _ h
  apply ho
  funext a
  have := congrFun h a
  simpa using this

/-- **C166** a grid to be stored as irregular keeps the crs given, and so is where it was meant to be -/
theorem C166_irregular_partial (c : Crs) (extra model : Option Crs) (blank : Crs) (u : Nat) (g : RegGrid ℝ) (p : Cell) (gz : Bool) (gaxis : Axis) :
    place (gridCrs (some c) extra model blank u g.origin true) g p gz gaxis = place c g p gz gaxis := by
  simp [gridCrs]

/-- **C166 fails** for such a grid in a model without a crs: the new crs has the origin as offset, though the points hold it too -/
theorem C166_no_crs_violated (blank : Crs) (u : Nat) (g : RegGrid ℝ) (hr : ¬ blank.rotated) (ho : g.origin ≠ fun _ => 0) (irregular : Bool)
    (p : Cell) (gz : Bool) (gaxis : Axis) (hx : blank.axis = gaxis) :
    place (gridCrs none none none blank u g.origin irregular) g p gz gaxis ≠ place blank g p gz gaxis := by
  have e : gridCrs none none none blank u g.origin irregular = shifted blank u g.origin := by simp [gridCrs]
  rw [e]
  unfold place
  rw [shifted_place blank u g.origin _ hr]
  intro h
  have h := place_inj blank hr gz gaxis hx _ _ h
  apply ho
  funext a
  have := congrFun h a
  simpa using this

/-- a crs rotated by a quarter turn -/
noncomputable def turned : Crs := ⟨0, 0, 0, 0, 0, 90, [], 90, [], [], true, .en, none, none, []⟩

theorem turned_rotated : turned.rotated := by
  constructor
  · unfold Verif.Crs.isclose turned
    norm_num
  · unfold Verif.Crs.isclose turned
    norm_num [abs_of_neg, abs_of_pos]

open Classical in
/-- **C166 fails** in a crs which is rotated: the origin is added to the offsets of the crs, which are not rotated, so that a stored and loaded grid
is somewhere else -/
theorem C166_rotated_violated (blank : Crs) : ∃ g : RegGrid ℝ, Fit g ∧
    place (gridCrs (some turned) none none blank 1 g.origin false) { g with origin := fun _ => 0 } (0, 0, 0) true .en ≠
      place turned g (0, 0, 0) true .en := by
  refine ⟨⟨1, 1, 1, ![1, 0, 0], fun a c => if c = 2 - a then 1 else 0, true⟩,
    ⟨Nat.succ_pos _, Nat.succ_pos _, Nat.succ_pos _, fun _ => (isAligned_iff _).mp (by rw [isAligned_iff]; simp)⟩, ?_⟩
  have e : gridCrs (some turned) none none blank 1 ![1, 0, 0] false = shifted turned 1 ![1, 0, 0] := by simp [gridCrs]
  intro h
  dsimp only at h
  rw [e] at h
  have h := congrArg Prod.fst h
  unfold place Crs.localToGlobal at h
  rw [if_pos turned_rotated, if_pos ((shifted_rotated turned 1 _).mpr turned_rotated)] at h
  unfold Crs.applyReverse Verif.Crs.rotate at h
  simp [toPt, node, shifted, turned, Verif.Crs.rightHandedXy] at h
  rw [show -(90 * Real.pi) / 180 = -(Real.pi / 2) by ring, Real.cos_neg, Real.cos_pi_div_two] at h
  exact one_ne_zero h

/-! ### C167 grids based on meshes -/

variable {K : Type} [Field K] [LinearOrder K]

/-- **C167** nodes of the first layer of a grid based on a mesh are those of the mesh -/
theorem C167_first_layer_partial (nk nj ni : Nat) (m : RegMesh K) (dz : K) (origin : Vec K) (irregular : Bool) :
    ∃ g, create nk nj ni none none (some (m, dz)) origin irregular = .ok g ∧
      ∀ (j i : Nat) (a : Fin 3), node g (0, j, i) a = m.origin a + (j : K) * m.dij 1 a + (i : K) * m.dij 0 a := by
  refine ⟨_, rfl, ?_⟩
  intro j i a
  simp [node, ofMesh]

/-- **C167 fails** for every grid based on a mesh with any thickness of cells: the step along K, which is to be aligned with z, changes x and y by
that thickness as well -/
theorem C167_thickness_violated (nk nj ni : Nat) (m : RegMesh K) (dz : K) (hz : dz ≠ 0) (origin : Vec K) (irregular : Bool) :
    ∃ g, create nk nj ni none none (some (m, dz)) origin irregular = .ok g ∧ (∀ a, g.d 0 a = dz) ∧ g.d 0 ≠ ![0, 0, dz] ∧ g.aligned = false ∧
      storeLattice g = .error .assertion := by
  have hf : isAligned (ofMesh m dz) = false := by
    rw [Bool.eq_false_iff, Ne, isAligned_iff]
    rintro ⟨h, -⟩
    exact hz h
  have ha : (!irregular && isAligned (ofMesh m dz)) = false := by rw [hf]; simp
  refine ⟨_, rfl, fun a => rfl, ?_, ha, C165_unaligned _ ha⟩
  intro h
  exact hz (congrFun h 0)

/-! ### C168 volumes and thickness -/

/-- signed volume of the parallelepiped of the three steps -/
def det (d : Fin 3 → Vec ℝ) : ℝ :=
  d 0 0 * (d 1 1 * d 2 2 - d 1 2 * d 2 1) - d 0 1 * (d 1 0 * d 2 2 - d 1 2 * d 2 0) + d 0 2 * (d 1 0 * d 2 1 - d 1 1 * d 2 0)

/-- **C168** for steps at right angles to each other the volume of cells is that of the box of the three steps, times the factor asked for -/
theorem C168_volume_partial (g : RegGrid ℝ) (h01 : ∑ c, g.d 0 c * g.d 1 c = 0) (h02 : ∑ c, g.d 0 c * g.d 2 c = 0) (h12 : ∑ c, g.d 1 c * g.d 2 c = 0) :
    volume g none = |det g.d| ∧ ∀ f, volume g (some f) = |det g.d| * f := by
  have key : ∏ a, axialLengths g a = |det g.d| := by
    have n : ∀ a, 0 ≤ ∑ c, g.d a c * g.d a c := fun a => Finset.sum_nonneg fun c _ => mul_self_nonneg _
    have e : (∑ c, g.d 0 c * g.d 0 c) * (∑ c, g.d 1 c * g.d 1 c) * (∑ c, g.d 2 c * g.d 2 c) = det g.d ^ 2 := by
      have s0 := Fin.sum_univ_three fun c => g.d 0 c * g.d 0 c
      have s1 := Fin.sum_univ_three fun c => g.d 1 c * g.d 1 c
      have s2 := Fin.sum_univ_three fun c => g.d 2 c * g.d 2 c
      have s3 := Fin.sum_univ_three fun c => g.d 0 c * g.d 1 c
      have s4 := Fin.sum_univ_three fun c => g.d 0 c * g.d 2 c
      have s5 := Fin.sum_univ_three fun c => g.d 1 c * g.d 2 c
      -- the determinant of the matrix of products
      have gram : det g.d ^ 2 = (∑ c, g.d 0 c * g.d 0 c) * (∑ c, g.d 1 c * g.d 1 c) * (∑ c, g.d 2 c * g.d 2 c) +
          2 * (∑ c, g.d 0 c * g.d 1 c) * (∑ c, g.d 0 c * g.d 2 c) * (∑ c, g.d 1 c * g.d 2 c) -
          (∑ c, g.d 0 c * g.d 0 c) * (∑ c, g.d 1 c * g.d 2 c) ^ 2 - (∑ c, g.d 1 c * g.d 1 c) * (∑ c, g.d 0 c * g.d 2 c) ^ 2 -
          (∑ c, g.d 2 c * g.d 2 c) * (∑ c, g.d 0 c * g.d 1 c) ^ 2 := by
        rw [s0, s1, s2, s3, s4, s5]
        unfold det
        ring
      rw [gram, h01, h02, h12]
      ring
    have p : ∏ a, axialLengths g a = axialLengths g 0 * axialLengths g 1 * axialLengths g 2 := Fin.prod_univ_three _
    rw [p]
    unfold axialLengths
    rw [← Real.sqrt_mul (n 0), ← Real.sqrt_mul (mul_nonneg (n 0) (n 1)), e, Real.sqrt_sq_eq_abs]
  refine ⟨key, fun f => ?_⟩
  show (∏ a, axialLengths g a) * f = _
  rw [key]

/-- **C168** for aligned grids volume and thickness are those of the cells in x, y, z -/
theorem C168_aligned (g : RegGrid ℝ) (h : Fit g) (ha : g.aligned = true) :
    volume g none = |g.d 2 0 * g.d 1 1 * g.d 0 2| ∧ thickness g = |g.d 0 2| := by
  obtain ⟨q1, q2, q3, q4, q5, q6⟩ := h.axes ha
  constructor
  · rw [(C168_volume_partial g _ _ _).1]
    · unfold det
      rw [q1, q2, q3, q4, q5, q6, ← abs_neg]
      congr 1
      ring
    all_goals (rw [Fin.sum_univ_three]; simp [q1, q2, q3, q4, q5, q6])
  · unfold thickness axialLengths
    exact length_one (by intro c hc; fin_cases c <;> simp_all)

/-- **C168 fails** for steps which are not at right angles: unit steps of which two lie at an angle whose cosine is 3/5 bound a volume of 4/5, and
the volume given is 1 -/
theorem C168_skew_violated : ∃ g : RegGrid ℝ, Fit g ∧ |det g.d| = 4 / 5 ∧ volume g none = 1 := by
  refine ⟨⟨1, 1, 1, fun _ => 0, ![![0, 0, 1], ![3 / 5, 4 / 5, 0], ![1, 0, 0]], false⟩, ⟨Nat.succ_pos _, Nat.succ_pos _, Nat.succ_pos _,
    fun h => by cases h⟩, ?_, ?_⟩
  · show |(0 : ℝ) * (4 / 5 * 0 - 0 * 0) - 0 * (3 / 5 * 0 - 0 * 1) + 1 * (3 / 5 * 0 - 4 / 5 * 1)| = 4 / 5
    rw [show (0 : ℝ) * (4 / 5 * 0 - 0 * 0) - 0 * (3 / 5 * 0 - 0 * 1) + 1 * (3 / 5 * 0 - 4 / 5 * 1) = -(4 / 5) by ring, abs_neg]
    exact abs_of_pos (by norm_num)
  · have s : (3 / 5 * (3 / 5) + 4 / 5 * (4 / 5) : ℝ) = 1 := by norm_num
    simp [volume, Fin.prod_univ_three, axialLengths, Fin.sum_univ_three, s]

/-! ### The hypotheses are met -/

example : ¬ ({ turned with rotation := 0, deg := 0 } : Crs).rotated := by
  rintro ⟨h, -⟩
  exact h (by unfold Verif.Crs.isclose; norm_num)

/-- a grid turned by an angle whose cosine is 3/5: its steps are at right angles, and it is not aligned -/
example : isAligned (![![0, 0, 1], ![-4 / 5, 3 / 5, 0], ![3 / 5, 4 / 5, 0]] : Fin 3 → Vec ℝ) = false ∧
    ∑ c, (![![0, 0, 1], ![-4 / 5, 3 / 5, 0], ![3 / 5, 4 / 5, 0]] : Fin 3 → Vec ℝ) 1 c * (![![0, 0, 1], ![-4 / 5, 3 / 5, 0], ![3 / 5, 4 / 5, 0]] : Fin 3 → Vec ℝ) 2 c = 0 := by
  constructor
  · rw [Bool.eq_false_iff, Ne, isAligned_iff]
    norm_num
  · rw [Fin.sum_univ_three]
    show (-4 / 5 : ℝ) * (3 / 5) + 3 / 5 * (4 / 5) + 0 * 0 = 0
    norm_num

end Verif.RegGrid
