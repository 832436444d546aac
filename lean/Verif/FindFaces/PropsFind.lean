import Mathlib.Tactic.FinCases
import Mathlib.Tactic.LinearCombination
import Verif.FindFaces.Find
import Verif.FindFaces.Lemmas
import Verif.Geom.PropsScan2

/-! # C90: faces which represent a surface -/

namespace Verif.FindFaces
open Verif.Geom
variable {K : Type} [Field K] [LinearOrder K] [IsStrictOrderedRing K] [FloorRing K]

/-- the centre of a cell of an aligned regular grid -/
def centre (b : Block K) (c : Cell 3) : P3 K := ⟨((c 2 : K) + 1 / 2) * b.dx, ((c 1 : K) + 1 / 2) * b.dy, ((c 0 : K) + 1 / 2) * b.dz⟩

/-- on the line from the centre of the cell to that of the next along the axis, the latter left out -/
def OnWay (b : Block K) (axis : Fin 3) (c : Cell 3) (q : P3 K) : Prop :=
  ∃ f : K, 0 ≤ f ∧ f < 1 ∧ q.x = (centre b c).x + f * ((centre b (next c axis)).x - (centre b c).x) ∧
    q.y = (centre b c).y + f * ((centre b (next c axis)).y - (centre b c).y) ∧
    q.z = (centre b c).z + f * ((centre b (next c axis)).z - (centre b c).z)

/-- x, y or z in which an axis runs -/
def runs (axis : Fin 3) : Nat := 2 - axis.val

def Block.size (b : Block K) (axis : Fin 3) : K := if axis = 0 then b.dz else if axis = 1 then b.dy else b.dx

/-- seen along the axis the triangle is no more than a line -/
def AlongAxis (axis : Fin 3) (t : Tri K) : Prop :=
  let ax := (runs axis + 1) % 3
  let ay := (runs axis + 2) % 3
  (t.b.axis ax - t.a.axis ax) * (t.c.axis ay - t.a.axis ay) = (t.b.axis ay - t.a.axis ay) * (t.c.axis ax - t.a.axis ax)

/-! ## Units -/

/-- back from the units of cells -/
def Block.back (b : Block K) (p : P3 K) : P3 K := ⟨(p.x + 1 / 2) * b.dx, (p.y + 1 / 2) * b.dy, (p.z + 1 / 2) * b.dz⟩

structure Block.Solid (b : Block K) : Prop where
  x : b.dx ≠ 0
  y : b.dy ≠ 0
  z : b.dz ≠ 0

omit [LinearOrder K] [IsStrictOrderedRing K] [FloorRing K] in
theorem back_unit {b : Block K} (h : b.Solid) (p : P3 K) : b.back (b.unit p) = p := by
  unfold Block.back Block.unit
  ext
  · show (p.x / b.dx - 1 / 2 + 1 / 2) * b.dx = p.x
    rw [sub_add_cancel, div_mul_cancel₀ _ h.x]
  · show (p.y / b.dy - 1 / 2 + 1 / 2) * b.dy = p.y
    rw [sub_add_cancel, div_mul_cancel₀ _ h.y]
  · show (p.z / b.dz - 1 / 2 + 1 / 2) * b.dz = p.z
    rw [sub_add_cancel, div_mul_cancel₀ _ h.z]

omit [LinearOrder K] [IsStrictOrderedRing K] [FloorRing K] in
theorem unit_back {b : Block K} (h : b.Solid) (p : P3 K) : b.unit (b.back p) = p := by
  unfold Block.back Block.unit
  ext
  · show (p.x + 1 / 2) * b.dx / b.dx - 1 / 2 = p.x
    rw [mul_div_cancel_right₀ _ h.x, add_sub_cancel_right]
  · show (p.y + 1 / 2) * b.dy / b.dy - 1 / 2 = p.y
    rw [mul_div_cancel_right₀ _ h.y, add_sub_cancel_right]
  · show (p.z + 1 / 2) * b.dz / b.dz - 1 / 2 = p.z
    rw [mul_div_cancel_right₀ _ h.z, add_sub_cancel_right]

omit [IsStrictOrderedRing K] [FloorRing K] in
theorem inTriangle_unit {b : Block K} (t : Tri K) {q : P3 K} (h : InTriangle t q) : InTriangle (b.unitTri t) (b.unit q) := by
  obtain ⟨f, g, w, hf, hg, hw, hs, e1, e2, e3⟩ := h
  refine ⟨f, g, w, hf, hg, hw, hs, ?_, ?_, ?_⟩
  · show q.x / b.dx - 1 / 2 = f * (t.a.x / b.dx - 1 / 2) + g * (t.b.x / b.dx - 1 / 2) + w * (t.c.x / b.dx - 1 / 2)
    rw [e1]
    linear_combination (1 / 2) * hs
  · show q.y / b.dy - 1 / 2 = f * (t.a.y / b.dy - 1 / 2) + g * (t.b.y / b.dy - 1 / 2) + w * (t.c.y / b.dy - 1 / 2)
    rw [e2]
    linear_combination (1 / 2) * hs
  · show q.z / b.dz - 1 / 2 = f * (t.a.z / b.dz - 1 / 2) + g * (t.b.z / b.dz - 1 / 2) + w * (t.c.z / b.dz - 1 / 2)
    rw [e3]
    linear_combination (1 / 2) * hs

omit [IsStrictOrderedRing K] [FloorRing K] in
theorem inTriangle_back {b : Block K} (hb : b.Solid) (t : Tri K) {q : P3 K} (h : InTriangle (b.unitTri t) q) : InTriangle t (b.back q) := by
  obtain ⟨f, g, w, hf, hg, hw, hs, e1, e2, e3⟩ := h
  have ha := back_unit hb t.a
  have hb' := back_unit hb t.b
  have hc := back_unit hb t.c
  have ax := congrArg P3.x ha
  have ay := congrArg P3.y ha
  have az := congrArg P3.z ha
  have bx := congrArg P3.x hb'
  have bY := congrArg P3.y hb'
  have bz := congrArg P3.z hb'
  have cx := congrArg P3.x hc
  have cy := congrArg P3.y hc
  have cz := congrArg P3.z hc
  refine ⟨f, g, w, hf, hg, hw, hs, ?_, ?_, ?_⟩
  · rw [← ax, ← bx, ← cx]
    show (q.x + 1 / 2) * b.dx = f * (((b.unit t.a).x + 1 / 2) * b.dx) + g * (((b.unit t.b).x + 1 / 2) * b.dx) + w * (((b.unit t.c).x + 1 / 2) * b.dx)
    have : q.x = f * (b.unit t.a).x + g * (b.unit t.b).x + w * (b.unit t.c).x := e1
    rw [this]
    linear_combination (-(1 / 2) * b.dx) * hs
  · rw [← ay, ← bY, ← cy]
    show (q.y + 1 / 2) * b.dy = f * (((b.unit t.a).y + 1 / 2) * b.dy) + g * (((b.unit t.b).y + 1 / 2) * b.dy) + w * (((b.unit t.c).y + 1 / 2) * b.dy)
    have : q.y = f * (b.unit t.a).y + g * (b.unit t.b).y + w * (b.unit t.c).y := e2
    rw [this]
    linear_combination (-(1 / 2) * b.dy) * hs
  · rw [← az, ← bz, ← cz]
    show (q.z + 1 / 2) * b.dz = f * (((b.unit t.a).z + 1 / 2) * b.dz) + g * (((b.unit t.b).z + 1 / 2) * b.dz) + w * (((b.unit t.c).z + 1 / 2) * b.dz)
    have : q.z = f * (b.unit t.a).z + g * (b.unit t.b).z + w * (b.unit t.c).z := e3
    rw [this]
    linear_combination (-(1 / 2) * b.dz) * hs

/-! ## Hits -/

omit [IsStrictOrderedRing K] in
theorem hit_bounds {nx ny ax ay az : Nat} {tris : List (Tri K)} {nBatches : Nat} (hnb : 0 < nBatches) {t : Nat} {y x : Int} {z : K}
    (h : ((t, y, x), z) ∈ pointsInTrianglesZ nx ny ax ay az tris nBatches) : 0 ≤ x ∧ x < nx ∧ 0 ≤ y ∧ y < ny := by
  unfold pointsInTrianglesZ batchPointsZ at h
  rw [inBatches_eq (fun e => trianglePointsZ nx ny ax ay az e.2 e.1) hnb] at h
  obtain ⟨⟨tri, n⟩, h1, h2⟩ := List.mem_flatMap.mp h
  unfold trianglePointsZ at h2
  dsimp only at h2
  obtain ⟨xi, hxi, hm⟩ := List.mem_flatMap.mp h2
  rw [mem_intRange] at hxi
  split at hm
  · exact (List.not_mem_nil hm).elim
  · obtain ⟨yi, hyi, he⟩ := List.mem_map.mp hm
    rw [mem_intRange] at hyi
    have e1 := congrArg (fun e => e.1.2.1) he
    have e2 := congrArg (fun e => e.1.2.2) he
    dsimp only at e1 e2
    subst e1 e2
    exact ⟨le_trans (le_max_right _ _) hxi.1, lt_of_lt_of_le hxi.2 (min_le_right _ _), le_trans (le_max_right _ _) hyi.1,
      lt_of_lt_of_le hyi.2 (min_le_right _ _)⟩

/-- hits are exactly the mesh lines which meet triangles -/
theorem hit_iff (nx ny ax ay az : Nat) (tris : List (Tri K)) {nBatches : Nat} (hnb : 0 < nBatches) {t : Nat} {tri : Tri K} (htri : tris[t]? = some tri)
    (harea : (tri.b.axis ax - tri.a.axis ax) * (tri.c.axis ay - tri.a.axis ay) ≠ (tri.b.axis ay - tri.a.axis ay) * (tri.c.axis ax - tri.a.axis ax))
    {y x : Int} {q : P3 K} (hq : InTriangle tri q) (hx : q.axis ax = (x : K)) (hy : q.axis ay = (y : K)) (h0 : 0 ≤ x ∧ x < nx ∧ 0 ≤ y ∧ y < ny) :
    ((t, y, x), q.axis az) ∈ pointsInTrianglesZ nx ny ax ay az tris nBatches := by
  have hup : ¬ (tri.a.axis ax = tri.b.axis ax ∧ tri.b.axis ax = tri.c.axis ax) := by
    rintro ⟨e1, e2⟩
    apply harea
    rw [← e2, ← e1]
    ring
  have hax : ∀ n, ∃ f g w : K, 0 ≤ f ∧ 0 ≤ g ∧ 0 ≤ w ∧ f + g + w = 1 ∧ q.axis ax = f * tri.a.axis ax + g * tri.b.axis ax + w * tri.c.axis ax ∧
      q.axis n = f * tri.a.axis n + g * tri.b.axis n + w * tri.c.axis n := by
    intro n
    obtain ⟨f, g, w, hf, hg, hw, hs, e1, e2, e3⟩ := hq
    have key : ∀ m, q.axis m = f * tri.a.axis m + g * tri.b.axis m + w * tri.c.axis m := by
      intro m
      unfold P3.axis
      split
      · exact e1
      · split
        · exact e2
        · exact e3
    exact ⟨f, g, w, hf, hg, hw, hs, key ax, key n⟩
  obtain ⟨f, g, w, hf, hg, hw, hs, e1, e2⟩ := hax ay
  have h2 : InTri2 ⟨(tri.a.axis ax, tri.a.axis ay), (tri.b.axis ax, tri.b.axis ay), (tri.c.axis ax, tri.c.axis ay)⟩ ((x : K), (y : K)) :=
    ⟨f, g, w, hf, hg, hw, hs, by rw [← hx]; exact e1, by rw [← hy]; exact e2⟩
  obtain ⟨z, hz⟩ := (C89_sampled_points_partial nx ny ax ay az tris hnb htri hup y x).mpr ⟨h0.1, h0.2.1, h0.2.2.1, h0.2.2.2, h2⟩
  obtain ⟨tri', q', h1, hq', hx', hy', hz'⟩ := C89_sampled nx ny tris hnb hz
  rw [htri] at h1
  cases h1
  have := C89_one_value (az := az) harea hq hq' (by rw [hx, hx']) (by rw [hy, hy'])
  rw [this, hz']
  exact hz

theorem mem_axisFaces {n : Nat} {d : K} {cell : Nat → Nat → Nat → Cell 3} {hits : List ((Nat × Int × Int) × K)} {r : AxisFaces K}
    (h : axisFaces n d cell hits = some r) {m : Nat} {c : Cell 3} (hc : r.faces[m]? = some c) :
    ∃ t y x z, ((t, y, x), z) ∈ hits ∧ 0 ≤ ⌊z⌋ ∧ ⌊z⌋ < (n : Int) - 1 ∧ c = cell ⌊z⌋.toNat y.toNat x.toNat ∧ r.triangles[m]? = some t ∧
      r.depths[m]? = some ((z + 1 / 2) * d) ∧ r.offsets[m]? = some ((z - (⌊z⌋ : K) - 1 / 2) * d) := by
  unfold axisFaces at h
  dsimp only at h
  split at h
  · cases h
  injection h with h
  subst h
  dsimp only at hc ⊢
  rw [List.getElem?_map] at hc
  obtain ⟨⟨⟨t, y, x⟩, z⟩, h1, h2⟩ := Option.map_eq_some_iff.mp hc
  have hmem := List.mem_of_getElem? h1
  rw [List.mem_filter, Bool.and_eq_true, decide_eq_true_eq, decide_eq_true_eq] at hmem
  refine ⟨t, y, x, z, hmem.1, hmem.2.1, hmem.2.2, h2.symm, ?_, ?_, ?_⟩
  · rw [List.getElem?_map, h1]; rfl
  · rw [List.getElem?_map, h1]; rfl
  · rw [List.getElem?_map, h1]; rfl

theorem axisFaces_mem {n : Nat} (d : K) (cell : Nat → Nat → Nat → Cell 3) {hits : List ((Nat × Int × Int) × K)} {t : Nat} {y x : Int} {z : K}
    (h : ((t, y, x), z) ∈ hits) (h0 : 0 ≤ ⌊z⌋) (h1 : ⌊z⌋ < (n : Int) - 1) :
    ∃ (r : AxisFaces K) (m : Nat), axisFaces n d cell hits = some r ∧ r.faces[m]? = some (cell ⌊z⌋.toNat y.toNat x.toNat) ∧ r.triangles[m]? = some t := by
  have hmem : ((t, y, x), z) ∈ hits.filter fun h => decide (0 ≤ ⌊h.2⌋) && decide (⌊h.2⌋ < (n : Int) - 1) := by
    rw [List.mem_filter, Bool.and_eq_true, decide_eq_true_eq, decide_eq_true_eq]
    exact ⟨h, h0, h1⟩
  unfold axisFaces
  dsimp only
  generalize hits.filter (fun h => decide (0 ≤ ⌊h.2⌋) && decide (⌊h.2⌋ < (n : Int) - 1)) = kept at hmem
  obtain ⟨m, hm⟩ := List.mem_iff_getElem?.mp hmem
  rw [if_neg]
  · refine ⟨_, m, rfl, ?_, ?_⟩
    · dsimp only; rw [List.getElem?_map, hm]; rfl
    · dsimp only; rw [List.getElem?_map, hm]; rfl
  · rw [List.isEmpty_iff]
    intro e
    rw [e] at hmem
    exact List.not_mem_nil hmem

/-! ## On the way from cell to cell -/

theorem onWay_iff {b : Block K} (hb : b.Solid) (axis : Fin 3) (c : Cell 3) (q : P3 K) :
    OnWay b axis c q ↔ (∀ a, a ≠ axis → (b.unit q).axis (runs a) = (c a : K)) ∧ ⌊(b.unit q).axis (runs axis)⌋ = (c axis : Int) := by
  have hx : (b.unit q).x * b.dx = q.x - 1 / 2 * b.dx := by
    show (q.x / b.dx - 1 / 2) * b.dx = _
    rw [sub_mul, div_mul_cancel₀ _ hb.x]
  have hy : (b.unit q).y * b.dy = q.y - 1 / 2 * b.dy := by
    show (q.y / b.dy - 1 / 2) * b.dy = _
    rw [sub_mul, div_mul_cancel₀ _ hb.y]
  have hz : (b.unit q).z * b.dz = q.z - 1 / 2 * b.dz := by
    show (q.z / b.dz - 1 / 2) * b.dz = _
    rw [sub_mul, div_mul_cancel₀ _ hb.z]
  have ex : ∀ v, (b.unit q).x = v ↔ q.x = (v + 1 / 2) * b.dx := by
    intro v
    constructor
    · intro e; rw [e] at hx; linear_combination -hx
    · intro e; rw [e] at hx; exact mul_right_cancel₀ hb.x (by linear_combination hx)
  have ey : ∀ v, (b.unit q).y = v ↔ q.y = (v + 1 / 2) * b.dy := by
    intro v
    constructor
    · intro e; rw [e] at hy; linear_combination -hy
    · intro e; rw [e] at hy; exact mul_right_cancel₀ hb.y (by linear_combination hy)
  have ez : ∀ v, (b.unit q).z = v ↔ q.z = (v + 1 / 2) * b.dz := by
    intro v
    constructor
    · intro e; rw [e] at hz; linear_combination -hz
    · intro e; rw [e] at hz; exact mul_right_cancel₀ hb.z (by linear_combination hz)
  have hfl : ∀ (v : K) (n : Nat), ⌊v⌋ = (n : Int) ↔ ∃ f : K, 0 ≤ f ∧ f < 1 ∧ v = (n : K) + f := by
    intro v n
    rw [Int.floor_eq_iff, Int.cast_natCast]
    constructor
    · rintro ⟨h1, h2⟩
      exact ⟨v - n, by linarith, by linarith, by ring⟩
    · rintro ⟨f, h1, h2, rfl⟩
      exact ⟨by linarith, by linarith⟩
  rw [hfl]
  unfold OnWay centre
  dsimp only
  fin_cases axis
  · have n0 : next c (0 : Fin 3) 0 = c 0 + 1 := next_self c 0
    have n1 : next c (0 : Fin 3) 1 = c 1 := next_ne c (by decide)
    have n2 : next c (0 : Fin 3) 2 = c 2 := next_ne c (by decide)
    show (∃ f : K, 0 ≤ f ∧ f < 1 ∧ _) ↔ (∀ a : Fin 3, a ≠ 0 → _) ∧ ∃ f : K, 0 ≤ f ∧ f < 1 ∧ (b.unit q).z = (c 0 : K) + f
    simp only [Fin.zero_eta, n0, n1, n2, sub_self, mul_zero, add_zero]
    constructor
    · rintro ⟨f, h1, h2, e1, e2, e3⟩
      refine ⟨?_, f, h1, h2, (ez _).mpr ?_⟩
      · intro a ha
        fin_cases a
        · exact absurd rfl ha
        · exact (ey _).mpr e2
        · exact (ex _).mpr e1
      · rw [e3]; push_cast; ring
    · rintro ⟨ha, f, h1, h2, e3⟩
      refine ⟨f, h1, h2, (ex _).mp (ha 2 (by decide)), (ey _).mp (ha 1 (by decide)), ?_⟩
      rw [(ez _).mp e3]; push_cast; ring
  · have n0 : next c (1 : Fin 3) 0 = c 0 := next_ne c (by decide)
    have n1 : next c (1 : Fin 3) 1 = c 1 + 1 := next_self c 1
    have n2 : next c (1 : Fin 3) 2 = c 2 := next_ne c (by decide)
    show (∃ f : K, 0 ≤ f ∧ f < 1 ∧ _) ↔ (∀ a : Fin 3, a ≠ 1 → _) ∧ ∃ f : K, 0 ≤ f ∧ f < 1 ∧ (b.unit q).y = (c 1 : K) + f
    simp only [Fin.mk_one, n0, n1, n2, sub_self, mul_zero, add_zero]
    constructor
    · rintro ⟨f, h1, h2, e1, e2, e3⟩
      refine ⟨?_, f, h1, h2, (ey _).mpr ?_⟩
      · intro a ha
        fin_cases a
        · exact (ez _).mpr e3
        · exact absurd rfl ha
        · exact (ex _).mpr e1
      · rw [e2]; push_cast; ring
    · rintro ⟨ha, f, h1, h2, e3⟩
      refine ⟨f, h1, h2, (ex _).mp (ha 2 (by decide)), ?_, (ez _).mp (ha 0 (by decide))⟩
      rw [(ey _).mp e3]; push_cast; ring
  · have n0 : next c (2 : Fin 3) 0 = c 0 := next_ne c (by decide)
    have n1 : next c (2 : Fin 3) 1 = c 1 := next_ne c (by decide)
    have n2 : next c (2 : Fin 3) 2 = c 2 + 1 := next_self c 2
    show (∃ f : K, 0 ≤ f ∧ f < 1 ∧ _) ↔ (∀ a : Fin 3, a ≠ 2 → _) ∧ ∃ f : K, 0 ≤ f ∧ f < 1 ∧ (b.unit q).x = (c 2 : K) + f
    simp only [Fin.reduceFinMk, n0, n1, n2, sub_self, mul_zero, add_zero]
    constructor
    · rintro ⟨f, h1, h2, e1, e2, e3⟩
      refine ⟨?_, f, h1, h2, (ex _).mpr ?_⟩
      · intro a ha
        fin_cases a
        · exact (ez _).mpr e3
        · exact (ey _).mpr e2
        · exact absurd rfl ha
      · rw [e1]; push_cast; ring
    · rintro ⟨ha, f, h1, h2, e3⟩
      refine ⟨f, h1, h2, ?_, (ey _).mp (ha 1 (by decide)), (ez _).mp (ha 0 (by decide))⟩
      rw [(ex _).mp e3]; push_cast; ring

/-- the parts of the search for one axis -/
structure Part where
  nx : Nat
  ny : Nat
  ax : Nat
  ay : Nat
  cell : Nat → Nat → Nat → Cell 3

def part (ext : Cell 3) (nk : Nat) (axis : Fin 3) : Part :=
  if axis = 0 then ⟨ext 2, ext 1, 0, 1, fun f y x => ![f, y, x]⟩
  else if axis = 1 then ⟨ext 2, nk, 0, 2, fun f y x => ![y, f, x]⟩
  else ⟨ext 1, nk, 1, 2, fun f y x => ![y, x, f]⟩

/-- the search for one axis, of `nk` layers -/
def searchAxis (ext : Cell 3) (b : Block K) (nk : Nat) (axis : Fin 3) (tris : List (Tri K)) (nBatches : Nat) : Option (AxisFaces K) :=
  let p := part ext nk axis
  let n := if axis = 0 then nk else ext axis
  if 1 < n then axisFaces n (b.size axis) p.cell (pointsInTrianglesZ p.nx p.ny p.ax p.ay (runs axis) (tris.map b.unitTri) nBatches) else none

omit [IsStrictOrderedRing K] in
theorem findFaces_eq (ext : Cell 3) (b : Block K) (tris : List (Tri K)) (nBatches : Nat) (axis : Fin 3) :
    findFaces ext b false tris nBatches axis = searchAxis ext b (ext 0) axis tris nBatches := by
  fin_cases axis
  · rfl
  · unfold findFaces
    dsimp only
    rw [if_neg (fun h : false = true ∧ _ => by cases h.1)]
    rfl
  · unfold findFaces
    dsimp only
    rw [if_neg (fun h : false = true ∧ _ => by cases h.1)]
    rfl

/-- the grid, or its first layer -/
def layers (ext : Cell 3) (nk : Nat) : Cell 3 := Function.update ext 0 nk

theorem search_sound {ext : Cell 3} {b : Block K} (hb : b.Solid) {nk : Nat} {axis : Fin 3} {tris : List (Tri K)} {nBatches : Nat} (hnb : 0 < nBatches)
    {r : AxisFaces K} (h : searchAxis ext b nk axis tris nBatches = some r) {m : Nat} {c : Cell 3} (hc : r.faces[m]? = some c) :
    InGrid (layers ext nk) (next c axis) ∧ ∃ t tri q, r.triangles[m]? = some t ∧ tris[t]? = some tri ∧ InTriangle tri q ∧ OnWay b axis c q ∧
      r.depths[m]? = some (q.axis (runs axis)) ∧ r.offsets[m]? = some (q.axis (runs axis) - ((c axis : K) + 1) * b.size axis) := by
  unfold searchAxis at h
  dsimp only at h
  by_cases hn : 1 < (if axis = 0 then nk else ext axis)
  swap
  · rw [if_neg hn] at h
    cases h
  rw [if_pos hn] at h
  obtain ⟨t, y, x, z, hm, h0, h1, rfl, h2, h3, h4⟩ := mem_axisFaces h hc
  obtain ⟨tri', q', g1, g2, g3, g4, g5⟩ := C89_sampled _ _ _ hnb hm
  obtain ⟨b1, b2, b3, b4⟩ := hit_bounds hnb hm
  rw [List.getElem?_map] at g1
  obtain ⟨tri, htri, rfl⟩ := Option.map_eq_some_iff.mp g1
  have hin := inTriangle_back hb tri g2
  have hunit := unit_back hb q'
  have hfloor : ((⌊z⌋.toNat : Nat) : Int) = ⌊z⌋ := Int.toNat_of_nonneg h0
  have hy : ((y.toNat : Nat) : Int) = y := Int.toNat_of_nonneg b3
  have hx : ((x.toNat : Nat) : Int) = x := Int.toNat_of_nonneg b1
  have hyK : ((y.toNat : Nat) : K) = (y : K) := by rw [← Int.cast_natCast, hy]
  have hxK : ((x.toNat : Nat) : K) = (x : K) := by rw [← Int.cast_natCast, hx]
  have hfK : ((⌊z⌋.toNat : Nat) : K) = ((⌊z⌋ : Int) : K) := by rw [← Int.cast_natCast, hfloor]
  have hdep : ∀ n, (b.back q').axis n = (q'.axis n + 1 / 2) * (if n = 0 then b.dx else if n = 1 then b.dy else b.dz) := by
    intro n
    unfold P3.axis Block.back
    split
    · rfl
    · split <;> rfl
  fin_cases axis
  · have g3' : q'.x = (x : K) := g3
    have g4' : q'.y = (y : K) := g4
    have g5' : q'.z = z := g5
    refine ⟨?_, t, tri, b.back q', h2, htri, hin, ?_, ?_, ?_⟩
    · intro a
      fin_cases a
      · show ⌊z⌋.toNat + 1 < nk
        have : ⌊z⌋ < (nk : Int) - 1 := h1
        omega
      · show y.toNat < ext 1
        have : y < (ext 1 : Int) := b4
        omega
      · show x.toNat < ext 2
        have : x < (ext 2 : Int) := b2
        omega
    · rw [onWay_iff hb, hunit]
      refine ⟨fun a ha => ?_, ?_⟩
      · fin_cases a
        · exact absurd rfl ha
        · exact g4'.trans hyK.symm
        · exact g3'.trans hxK.symm
      · show ⌊q'.z⌋ = ((⌊z⌋.toNat : Nat) : Int)
        rw [g5', hfloor]
    · rw [hdep]
      show r.depths[m]? = some ((q'.z + 1 / 2) * b.dz)
      rw [g5']
      exact h3
    · rw [hdep, h4]
      refine congrArg some ?_
      show (z - (⌊z⌋ : K) - 1 / 2) * b.dz = (q'.z + 1 / 2) * b.dz - (((⌊z⌋.toNat : Nat) : K) + 1) * b.dz
      rw [g5', hfK]
      ring
  · have g3' : q'.x = (x : K) := g3
    have g4' : q'.z = (y : K) := g4
    have g5' : q'.y = z := g5
    refine ⟨?_, t, tri, b.back q', h2, htri, hin, ?_, ?_, ?_⟩
    · intro a
      fin_cases a
      · show y.toNat < nk
        have : y < (nk : Int) := b4
        omega
      · show ⌊z⌋.toNat + 1 < ext 1
        have : ⌊z⌋ < (ext 1 : Int) - 1 := h1
        omega
      · show x.toNat < ext 2
        have : x < (ext 2 : Int) := b2
        omega
    · rw [onWay_iff hb, hunit]
      refine ⟨fun a ha => ?_, ?_⟩
      · fin_cases a
        · exact g4'.trans hyK.symm
        · exact absurd rfl ha
        · exact g3'.trans hxK.symm
      · show ⌊q'.y⌋ = ((⌊z⌋.toNat : Nat) : Int)
        rw [g5', hfloor]
    · rw [hdep]
      show r.depths[m]? = some ((q'.y + 1 / 2) * b.dy)
      rw [g5']
      exact h3
    · rw [hdep, h4]
      refine congrArg some ?_
      show (z - (⌊z⌋ : K) - 1 / 2) * b.dy = (q'.y + 1 / 2) * b.dy - (((⌊z⌋.toNat : Nat) : K) + 1) * b.dy
      rw [g5', hfK]
      ring
  · have g3' : q'.y = (x : K) := g3
    have g4' : q'.z = (y : K) := g4
    have g5' : q'.x = z := g5
    refine ⟨?_, t, tri, b.back q', h2, htri, hin, ?_, ?_, ?_⟩
    · intro a
      fin_cases a
      · show y.toNat < nk
        have : y < (nk : Int) := b4
        omega
      · show x.toNat < ext 1
        have : x < (ext 1 : Int) := b2
        omega
      · show ⌊z⌋.toNat + 1 < ext 2
        have : ⌊z⌋ < (ext 2 : Int) - 1 := h1
        omega
    · rw [onWay_iff hb, hunit]
      refine ⟨fun a ha => ?_, ?_⟩
      · fin_cases a
        · exact g4'.trans hyK.symm
        · exact g3'.trans hxK.symm
        · exact absurd rfl ha
      · show ⌊q'.x⌋ = ((⌊z⌋.toNat : Nat) : Int)
        rw [g5', hfloor]
    · rw [hdep]
      show r.depths[m]? = some ((q'.x + 1 / 2) * b.dx)
      rw [g5']
      exact h3
    · rw [hdep, h4]
      refine congrArg some ?_
      show (z - (⌊z⌋ : K) - 1 / 2) * b.dx = (q'.x + 1 / 2) * b.dx - (((⌊z⌋.toNat : Nat) : K) + 1) * b.dx
      rw [g5', hfK]
      ring

/-- seen in units of cells the triangle is not a line either -/
theorem area_unit {b : Block K} (hb : b.Solid) (t : Tri K) {ax ay : Nat}
    (h : (t.b.axis ax - t.a.axis ax) * (t.c.axis ay - t.a.axis ay) ≠ (t.b.axis ay - t.a.axis ay) * (t.c.axis ax - t.a.axis ax)) :
    ((b.unitTri t).b.axis ax - (b.unitTri t).a.axis ax) * ((b.unitTri t).c.axis ay - (b.unitTri t).a.axis ay) ≠
      ((b.unitTri t).b.axis ay - (b.unitTri t).a.axis ay) * ((b.unitTri t).c.axis ax - (b.unitTri t).a.axis ax) := by
  have key : ∀ n, ∃ d : K, d ≠ 0 ∧ ∀ p : P3 K, (b.unit p).axis n = p.axis n / d - 1 / 2 := by
    intro n
    unfold P3.axis
    split
    · exact ⟨b.dx, hb.x, fun p => rfl⟩
    · split
      · exact ⟨b.dy, hb.y, fun p => rfl⟩
      · exact ⟨b.dz, hb.z, fun p => rfl⟩
  obtain ⟨d, hd, ed⟩ := key ax
  obtain ⟨e, he, ee⟩ := key ay
  show ((b.unit t.b).axis ax - (b.unit t.a).axis ax) * ((b.unit t.c).axis ay - (b.unit t.a).axis ay) ≠
      ((b.unit t.b).axis ay - (b.unit t.a).axis ay) * ((b.unit t.c).axis ax - (b.unit t.a).axis ax)
  rw [ed, ed, ed, ee, ee, ee]
  intro hh
  apply h
  have h1 : ∀ u v : K, u / d - 1 / 2 - (v / d - 1 / 2) = (u - v) / d := fun u v => by ring
  have h2 : ∀ u v : K, u / e - 1 / 2 - (v / e - 1 / 2) = (u - v) / e := fun u v => by ring
  rw [h1, h2, h2, h1, div_mul_div_comm, div_mul_div_comm, mul_comm e d] at hh
  exact (div_left_inj' (mul_ne_zero hd he)).mp hh

theorem search_complete {ext : Cell 3} {b : Block K} (hb : b.Solid) {nk : Nat} {axis : Fin 3} {tris : List (Tri K)} {nBatches : Nat} (hnb : 0 < nBatches)
    {t : Nat} {tri : Tri K} (htri : tris[t]? = some tri) (hal : ¬ AlongAxis axis tri) {c : Cell 3} (hc : InGrid (layers ext nk) (next c axis)) {q : P3 K}
    (hq : InTriangle tri q) (hw : OnWay b axis c q) :
    ∃ (r : AxisFaces K) (m : Nat), searchAxis ext b nk axis tris nBatches = some r ∧ r.faces[m]? = some c ∧ r.triangles[m]? = some t := by
  rw [onWay_iff hb] at hw
  obtain ⟨hw1, hw2⟩ := hw
  have hq' := inTriangle_unit (b := b) tri hq
  have htri' : (tris.map b.unitTri)[t]? = some (b.unitTri tri) := by rw [List.getElem?_map, htri]; rfl
  have hcast : ∀ n : Nat, ((n : Int) : K) = (n : K) := fun n => Int.cast_natCast n
  unfold searchAxis
  dsimp only
  fin_cases axis
  · have l0 : c 0 + 1 < nk := by have := hc 0; exact this
    have l1 : c 1 < ext 1 := by have := hc 1; exact this
    have l2 : c 2 < ext 2 := by have := hc 2; exact this
    have harea := area_unit hb tri (ax := 0) (ay := 1) hal
    have hit := hit_iff (ext 2) (ext 1) 0 1 2 (tris.map b.unitTri) hnb htri' harea (y := (c 1 : Int)) (x := (c 2 : Int)) hq'
      (by rw [hcast]; exact hw1 2 (by decide)) (by rw [hcast]; exact hw1 1 (by decide)) ⟨by omega, by omega, by omega, by omega⟩
    have hfl : ⌊(b.unit q).axis 2⌋ = (c 0 : Int) := hw2
    obtain ⟨r, m, e1, e2, e3⟩ := axisFaces_mem (n := nk) b.dz (fun f y x => ![f, y, x]) hit (by rw [hfl]; omega) (by rw [hfl]; omega)
    refine ⟨r, m, ?_, ?_, e3⟩
    · refine (if_pos ?_).trans e1
      show 1 < nk
      omega
    · rw [e2, hfl]
      refine congrArg some ?_
      funext a
      fin_cases a <;> rfl
  · have l0 : c 0 < nk := by have := hc 0; exact this
    have l1 : c 1 + 1 < ext 1 := by have := hc 1; exact this
    have l2 : c 2 < ext 2 := by have := hc 2; exact this
    have harea := area_unit hb tri (ax := 0) (ay := 2) (fun h => hal (by
      show (tri.b.axis 2 - tri.a.axis 2) * (tri.c.axis 0 - tri.a.axis 0) = (tri.b.axis 0 - tri.a.axis 0) * (tri.c.axis 2 - tri.a.axis 2)
      rw [h]))
    have hit := hit_iff (ext 2) nk 0 2 1 (tris.map b.unitTri) hnb htri' harea (y := (c 0 : Int)) (x := (c 2 : Int)) hq'
      (by rw [hcast]; exact hw1 2 (by decide)) (by rw [hcast]; exact hw1 0 (by decide)) ⟨by omega, by omega, by omega, by omega⟩
    have hfl : ⌊(b.unit q).axis 1⌋ = (c 1 : Int) := hw2
    obtain ⟨r, m, e1, e2, e3⟩ := axisFaces_mem (n := ext 1) b.dy (fun f y x => ![y, f, x]) hit (by rw [hfl]; omega) (by rw [hfl]; omega)
    refine ⟨r, m, ?_, ?_, e3⟩
    · refine (if_pos ?_).trans e1
      show 1 < ext 1
      omega
    · rw [e2, hfl]
      refine congrArg some ?_
      funext a
      fin_cases a <;> rfl
  · have l0 : c 0 < nk := by have := hc 0; exact this
    have l1 : c 1 < ext 1 := by have := hc 1; exact this
    have l2 : c 2 + 1 < ext 2 := by have := hc 2; exact this
    have harea := area_unit hb tri (ax := 1) (ay := 2) hal
    have hit := hit_iff (ext 1) nk 1 2 0 (tris.map b.unitTri) hnb htri' harea (y := (c 0 : Int)) (x := (c 1 : Int)) hq'
      (by rw [hcast]; exact hw1 1 (by decide)) (by rw [hcast]; exact hw1 0 (by decide)) ⟨by omega, by omega, by omega, by omega⟩
    have hfl : ⌊(b.unit q).axis 0⌋ = (c 2 : Int) := hw2
    obtain ⟨r, m, e1, e2, e3⟩ := axisFaces_mem (n := ext 2) b.dx (fun f y x => ![y, x, f]) hit (by rw [hfl]; omega) (by rw [hfl]; omega)
    refine ⟨r, m, ?_, ?_, e3⟩
    · refine (if_pos ?_).trans e1
      show 1 < ext 2
      omega
    · rw [e2, hfl]
      refine congrArg some ?_
      funext a
      fin_cases a <;> rfl

/-! ## Theorems -/

theorem layers_self (ext : Cell 3) : layers ext (ext 0) = ext := Function.update_eq_self _ _

/-- C90: each face found is an internal face of the grid and has, with the number of its triangle, a point in that triangle which is on the
way from the centre of the cell before the face to the centre of the cell after it; what is returned as depth is the coordinate of the
point along the axis, and the offset is the distance from the face to the point. -/
theorem C90_found {ext : Cell 3} {b : Block K} (hb : b.Solid) {axis : Fin 3} {tris : List (Tri K)} {nBatches : Nat} (hnb : 0 < nBatches)
    {r : AxisFaces K} (h : findFaces ext b false tris nBatches axis = some r) {m : Nat} {c : Cell 3} (hc : r.faces[m]? = some c) :
    InGrid ext (next c axis) ∧ ∃ t tri q, r.triangles[m]? = some t ∧ tris[t]? = some tri ∧ InTriangle tri q ∧ OnWay b axis c q ∧
      r.depths[m]? = some (q.axis (runs axis)) ∧ r.offsets[m]? = some (q.axis (runs axis) - ((c axis : K) + 1) * b.size axis) := by
  rw [findFaces_eq] at h
  have := search_sound hb hnb h hc
  rw [layers_self] at this
  exact this

/-- C90: every internal face between cells of which the centres are on two sides of a triangle is found, with that triangle.  Missing are
triangles which are no more than a line when seen along the axis. -/
theorem C90_all_found_partial {ext : Cell 3} {b : Block K} (hb : b.Solid) {axis : Fin 3} {tris : List (Tri K)} {nBatches : Nat} (hnb : 0 < nBatches)
    {t : Nat} {tri : Tri K} (htri : tris[t]? = some tri) (hal : ¬ AlongAxis axis tri) {c : Cell 3} (hc : InGrid ext (next c axis)) {q : P3 K}
    (hq : InTriangle tri q) (hw : OnWay b axis c q) :
    ∃ (r : AxisFaces K) (m : Nat), findFaces ext b false tris nBatches axis = some r ∧ r.faces[m]? = some c ∧ r.triangles[m]? = some t := by
  rw [findFaces_eq]
  refine search_complete hb hnb htri hal ?_ hq hw
  rw [layers_self]
  exact hc

/-- C90: for a curtain the faces of the axes J and I are those found for the first layer, repeated in all layers. -/
theorem C90_curtain_partial {ext : Cell 3} {b : Block K} (hb : b.Solid) {axis : Fin 3} {tris : List (Tri K)} {nBatches : Nat} (hnb : 0 < nBatches)
    (hal : ∀ tri ∈ tris, ¬ AlongAxis axis tri) (haxis : axis ≠ 0) {c : Cell 3} (hc : InGrid ext (next c axis)) :
    (∃ r, findFaces ext b true tris nBatches axis = some r ∧ c ∈ r.faces) ↔
      ∃ tri ∈ tris, ∃ q, InTriangle tri q ∧ OnWay b axis (Function.update c 0 0) q := by
  have h0 : c 0 < ext 0 := by
    have := hc 0
    rwa [next_ne c (Ne.symm haxis)] at this
  have hg : ∀ k, k < 1 → InGrid (layers ext 1) (next (Function.update c 0 k) axis) := by
    intro k hk a
    unfold layers
    by_cases ha : a = 0
    · subst ha
      rw [next_ne _ (Ne.symm haxis), Function.update_self, Function.update_self]
      exact hk
    · have := hc a
      rw [Function.update_of_ne ha]
      by_cases hax : a = axis
      · subst hax
        rw [next_self, Function.update_of_ne ha]
        rwa [next_self] at this
      · rw [next_ne _ hax, Function.update_of_ne ha]
        rwa [next_ne _ hax] at this
  have heq : (∃ r, findFaces ext b true tris nBatches axis = some r ∧ c ∈ r.faces) ↔
      ∃ r, searchAxis ext b 1 axis tris nBatches = some r ∧ Function.update c 0 0 ∈ r.faces := by
    have hsound : ∀ r, searchAxis ext b 1 axis tris nBatches = some r → ∀ d ∈ r.faces, d 0 = 0 := by
      intro r hr d hd
      obtain ⟨m, hm⟩ := List.mem_iff_getElem?.mp hd
      have := (search_sound hb hnb hr hm).1 0
      unfold layers at this
      rw [next_ne _ (Ne.symm haxis), Function.update_self] at this
      omega
    have hf : findFaces ext b true tris nBatches axis =
        if 1 < ext 0 then (searchAxis ext b 1 axis tris nBatches).map (expand (ext 0)) else searchAxis ext b 1 axis tris nBatches := by
      have key : ∀ n, (if 1 < n then (if true = true ∧ 1 < ext 0 then (none : Option (AxisFaces K)).map (expand (ext 0)) else none) else none) = none := by
        intro n
        split
        · split <;> rfl
        · rfl
      fin_cases axis
      · exact absurd rfl haxis
      · unfold findFaces searchAxis
        dsimp only
        by_cases h1 : 1 < ext 1
        · rw [if_pos h1]
          have e : (if (1 : Fin 3) = 0 then 1 else ext 1) = ext 1 := rfl
          show (if true = true ∧ 1 < ext 0 then _ else _) = if 1 < ext 0 then Option.map (expand (ext 0)) (if 1 < ext 1 then _ else none) else (if 1 < ext 1 then _ else none)
          rw [if_pos h1]
          by_cases h2 : 1 < ext 0
          · rw [if_pos ⟨rfl, h2⟩, if_pos h2]; rfl
          · rw [if_neg (fun h => h2 h.2), if_neg h2]; rfl
        · rw [if_neg h1]
          show none = if 1 < ext 0 then Option.map (expand (ext 0)) (if 1 < ext 1 then _ else none) else (if 1 < ext 1 then _ else none)
          rw [if_neg h1]
          split <;> rfl
      · unfold findFaces searchAxis
        dsimp only
        by_cases h1 : 1 < ext 2
        · rw [if_pos h1]
          show (if true = true ∧ 1 < ext 0 then _ else _) = if 1 < ext 0 then Option.map (expand (ext 0)) (if 1 < ext 2 then _ else none) else (if 1 < ext 2 then _ else none)
          rw [if_pos h1]
          by_cases h2 : 1 < ext 0
          · rw [if_pos ⟨rfl, h2⟩, if_pos h2]; rfl
          · rw [if_neg (fun h => h2 h.2), if_neg h2]; rfl
        · rw [if_neg h1]
          show none = if 1 < ext 0 then Option.map (expand (ext 0)) (if 1 < ext 2 then _ else none) else (if 1 < ext 2 then _ else none)
          rw [if_neg h1]
          split <;> rfl
    rw [hf]
    by_cases hk : 1 < ext 0
    · rw [if_pos hk]
      constructor
      · rintro ⟨r, hr, hcr⟩
        obtain ⟨r', hr', rfl⟩ := Option.map_eq_some_iff.mp hr
        refine ⟨r', hr', ?_⟩
        unfold expand at hcr
        obtain ⟨k, -, hk⟩ := List.mem_flatMap.mp hcr
        obtain ⟨d, hd, rfl⟩ := List.mem_map.mp hk
        rw [Function.update_idem, ← hsound r' hr' d hd, Function.update_eq_self]
        exact hd
      · rintro ⟨r, hr, hcr⟩
        rw [hr]
        refine ⟨_, rfl, ?_⟩
        unfold expand
        refine List.mem_flatMap.mpr ⟨c 0, List.mem_range.mpr h0, List.mem_map.mpr ⟨_, hcr, ?_⟩⟩
        rw [Function.update_idem, Function.update_eq_self]
    · rw [if_neg hk]
      have : Function.update c 0 0 = c := by
        have : c 0 = 0 := by omega
        rw [← this, Function.update_eq_self]
      rw [this]
  rw [heq]
  constructor
  · rintro ⟨r, hr, hm⟩
    obtain ⟨m, hm⟩ := List.mem_iff_getElem?.mp hm
    obtain ⟨-, t, tri, q, -, h2, h3, h4, -⟩ := search_sound hb hnb hr hm
    exact ⟨tri, List.mem_of_getElem? h2, q, h3, h4⟩
  · rintro ⟨tri, htri, q, hq, hw⟩
    obtain ⟨t, ht⟩ := List.mem_iff_getElem?.mp htri
    obtain ⟨r, m, h1, h2, -⟩ := search_complete hb hnb ht (hal tri htri) (hg 0 (by omega)) hq hw
    exact ⟨r, h1, List.mem_of_getElem? h2⟩

/-! ## What does not hold -/

def unitBlock : Block ℚ := ⟨1, 1, 1⟩

theorem unitBlock_solid : unitBlock.Solid := ⟨by decide +kernel, by decide +kernel, by decide +kernel⟩

/-- C90 does not hold for a triangle which is upright at the centre of a column: it goes through the middle between the centres of two
cells, and the face between them is not found. -/
theorem C90_upright_violated : ∃ (ext c : Cell 3) (tri : Tri ℚ) (q : P3 ℚ), InGrid ext (next c 0) ∧ InTriangle tri q ∧ OnWay unitBlock 0 c q ∧
    ∀ r, findFaces ext unitBlock false [tri] 1 0 = some r → c ∉ r.faces := by
  refine ⟨![2, 4, 2], ![0, 3, 1], ⟨⟨3/2, 1/2, 1⟩, ⟨3/2, 3/2, 1/2⟩, ⟨3/2, 7/2, 1⟩⟩, ⟨3/2, 7/2, 1⟩, by unfold InGrid; decide,
    ⟨0, 0, 1, le_refl _, le_refl _, by norm_num, by norm_num, by norm_num, by norm_num, by norm_num⟩,
    ⟨1/2, by norm_num, by norm_num, by decide +kernel, by decide +kernel, by decide +kernel⟩, ?_⟩
  intro r h
  have : (match findFaces ![2, 4, 2] unitBlock false [⟨⟨3/2, 1/2, 1⟩, ⟨3/2, 3/2, 1/2⟩, ⟨3/2, 7/2, 1⟩⟩] 1 0 with
    | some r => decide (![0, 3, 1] ∉ r.faces) | none => true) = true := by decide +kernel
  rw [h] at this
  exact of_decide_eq_true this

/-- C90 does not hold for the depths of J faces (nor I faces): what is returned is not the z value of the point where the line between the centres
goes through the triangle. -/
theorem C90_depth_violated : ∃ (ext c : Cell 3) (tri : Tri ℚ) (r : AxisFaces ℚ) (v : ℚ), findFaces ext unitBlock false [tri] 1 1 = some r ∧
    r.faces = [c] ∧ r.depths = [v] ∧ (∃ q, InTriangle tri q ∧ OnWay unitBlock 1 c q) ∧ ∀ q, InTriangle tri q → OnWay unitBlock 1 c q → q.z ≠ v := by
  refine ⟨![1, 2, 1], ![0, 0, 0], ⟨⟨-10, 1, -10⟩, ⟨10, 1, -10⟩, ⟨1, 1, 11⟩⟩, ⟨[![0, 0, 0]], [0], [1], [0]⟩, 1, ?_, rfl, rfl, ?_, ?_⟩
  · decide +kernel
  · exact ⟨⟨1/2, 1, 1/2⟩, ⟨1/4, 1/4, 1/2, by norm_num, by norm_num, by norm_num, by norm_num, by norm_num, by norm_num, by norm_num⟩,
      ⟨1/2, by norm_num, by norm_num, by decide +kernel, by decide +kernel, by decide +kernel⟩⟩
  · rintro q - ⟨f, -, -, -, -, h3⟩
    have : (centre unitBlock ![0, 0, 0]).z = 1/2 := by decide +kernel
    have h' : (centre unitBlock (next ![0, 0, 0] (1 : Fin 3))).z = 1/2 := by decide +kernel
    rw [h3, this, h']
    norm_num

def twoTriangles : List (Tri ℚ) := [⟨⟨0, 1, 0⟩, ⟨1, 1, 0⟩, ⟨1/2, 1, 1⟩⟩, ⟨⟨1, 1, 0⟩, ⟨2, 1, 0⟩, ⟨3/2, 1, 1⟩⟩]

/-- C90 does not hold for a curtain in a grid of two layers: the list of triangles is not in the order of the faces, and a face is given a triangle
which does not pass between the two cells, in the layer of the face or in the first. -/
theorem C90_curtain_triangles_violated : ∃ (ext : Cell 3) (tris : List (Tri ℚ)) (r : AxisFaces ℚ) (m : Nat) (c : Cell 3) (t : Nat) (tri : Tri ℚ),
    findFaces ext unitBlock true tris 1 1 = some r ∧ r.faces[m]? = some c ∧ r.triangles[m]? = some t ∧ tris[t]? = some tri ∧
      ∀ q k, InTriangle tri q → ¬ OnWay unitBlock 1 (Function.update c 0 k) q := by
  have key : (match findFaces ![2, 2, 2] unitBlock true twoTriangles 1 1 with
    | some r => decide (r.faces[1]? = some ![0, 0, 1]) && decide (r.triangles[1]? = some 0) | none => false) = true := by decide +kernel
  cases hr : findFaces ![2, 2, 2] unitBlock true twoTriangles 1 1 with
  | none => rw [hr] at key; cases key
  | some r =>
  rw [hr] at key
  dsimp only at key
  rw [Bool.and_eq_true, decide_eq_true_eq, decide_eq_true_eq] at key
  refine ⟨![2, 2, 2], twoTriangles, r, 1, ![0, 0, 1], 0, ⟨⟨0, 1, 0⟩, ⟨1, 1, 0⟩, ⟨1/2, 1, 1⟩⟩, hr, key.1, key.2, rfl, ?_⟩
  rintro q k ⟨f, g, w, hf, hg, hw, hs, e1, -, -⟩ ⟨u, -, -, h1, -, -⟩
  have a1 : (centre unitBlock (Function.update ![0, 0, 1] 0 k)).x = 3/2 := by
    show (((1 : Nat) : ℚ) + 1 / 2) * 1 = 3 / 2
    norm_num
  have a2 : (centre unitBlock (next (Function.update ![0, 0, 1] 0 k) (1 : Fin 3))).x = 3/2 := by
    show (((1 : Nat) : ℚ) + 1 / 2) * 1 = 3 / 2
    norm_num
  rw [a1, a2] at h1
  dsimp only at e1
  linarith

/-! ## Examples -/

/-- a sloping triangle and cells of sizes 10, 20 and 2 -/
def slope : Tri ℚ := ⟨⟨0, 0, 1⟩, ⟨60, 0, 5⟩, ⟨0, 120, 5⟩⟩

/-- for `C90_found` -/
example : ((findFaces ![4, 3, 3] ⟨10, 20, 2⟩ false [slope] 1 0).map (·.faces)) =
    some [![0, 0, 0], ![0, 1, 0], ![1, 2, 0], ![0, 0, 1], ![1, 1, 1], ![1, 2, 1], ![1, 0, 2], ![1, 1, 2], ![1, 2, 2]] := by decide +kernel

/-- for `C90_all_found_partial` -/
example : ¬ AlongAxis 0 slope ∧ ¬ AlongAxis 1 slope ∧ ¬ AlongAxis 2 slope := by unfold AlongAxis; decide +kernel

example : InTriangle slope ⟨15, 30, 3⟩ ∧ OnWay (⟨10, 20, 2⟩ : Block ℚ) 0 ![1, 1, 1] ⟨15, 30, 3⟩ :=
  ⟨⟨1/2, 1/4, 1/4, by norm_num, by norm_num, by norm_num, by norm_num, by norm_num [slope], by norm_num [slope], by norm_num [slope]⟩,
    ⟨0, by norm_num, by norm_num, by decide +kernel, by decide +kernel, by decide +kernel⟩⟩

/-- for `C90_curtain_partial` -/
example : (findFaces ![2, 2, 2] unitBlock true [⟨⟨0, 1, 0⟩, ⟨1, 1, 0⟩, ⟨1/2, 1, 1⟩⟩] 1 1).map (·.faces) = some [![0, 0, 0], ![1, 0, 0]] := by decide +kernel

example : ¬ AlongAxis 1 (⟨⟨0, 1, 0⟩, ⟨1, 1, 0⟩, ⟨1/2, 1, 1⟩⟩ : Tri ℚ) := by unfold AlongAxis; decide +kernel

end Verif.FindFaces
