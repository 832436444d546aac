import Verif.Crs.Spec

/-! # C22, C23: axis orders and handedness

C22: switching a point from one axis order to another gives the point with the same easting and northing. -/

namespace Verif.Crs

section
variable {K : Type} [Field K] [LinearOrder K] [IsStrictOrderedRing K]

/-- the pairs of axis orders for which switching is right -/
def goodPair (a b : Axis) : Bool :=
  a = b || a = .en || b = .en || a = .ws || b = .ws || (a = .ne && b = .sw) || (a = .sw && b = .ne)

/-- Switching is right for exactly these pairs: for each other pair some point lands in the wrong place. -/
theorem C22_switch_partial (a b : Axis) :
    (∀ p : K × K, eastNorth b (switchAxes a b p) = eastNorth a p) ↔ goodPair a b = true := by
  constructor
  · intro h
    have h1 := h (1, 0)
    have h2 := h (0, 1)
    have hne : (1 : K) ≠ -1 := by
      intro hc
      have : (0 : K) < 1 := one_pos
      linarith
    cases a <;> cases b <;>
      first
      | rfl
      | (exfalso
         simp [eastNorth, switchAxes, rowMul, reordering, M2.t, M2.mul] at h1 h2
         first
         | exact hne h1
         | exact hne h1.symm
         | exact hne h2
         | exact hne h2.symm)
  · intro h p
    obtain ⟨x, y⟩ := p
    cases a <;> cases b <;>
      first
      | (exact absurd h (by decide))
      | (simp [eastNorth, switchAxes, rowMul, reordering, M2.t, M2.mul])

/-- The full statement fails: switching the point one metre north from northing easting to northing westing gives a
point one metre south. -/
theorem C22_switch_violated : eastNorth .nw (switchAxes .ne .nw ((1, 0) : K × K)) ≠ eastNorth .ne (1, 0) := by
  intro h
  have := (C22_switch_partial (K := K) .ne .nw).1
  have hh : ¬ ∀ p : K × K, eastNorth .nw (switchAxes .ne .nw p) = eastNorth .ne p := fun hc => by
    have := this hc; exact absurd this (by decide)
  apply hh
  have hx : (1 : K) = -1 := by
    simp [eastNorth, switchAxes, rowMul, reordering, M2.t, M2.mul] at h
    first
    | exact h
    | exact h.symm
  have h0 : (0 : K) < 1 := one_pos
  exfalso
  linarith

/-- Switching there and back is always the identity, and switching to the same order changes nothing. -/
theorem C22_roundtrip (a b : Axis) (p : K × K) :
    switchAxes b a (switchAxes a b p) = p ∧ switchAxes a a p = p := by
  obtain ⟨x, y⟩ := p
  constructor <;> cases a <;> cases b <;> simp [switchAxes, rowMul, reordering, M2.t, M2.mul]

/-- Going by way of easting northing is always right. -/
theorem C22_by_way_of_easting_northing (a b : Axis) (p : K × K) :
    eastNorth b (switchAxes .en b (switchAxes a .en p)) = eastNorth a p := by
  rw [(C22_switch_partial .en b).2 (by cases b <;> rfl), (C22_switch_partial a .en).2 (by cases a <;> rfl)]

/-- The array form switches each point and leaves z alone. -/
theorem switchAxesArray_eq (a b : Axis) (ps : List (K × K × K)) :
    switchAxesArray a b ps = ps.map fun p => ((switchAxes a b (p.1, p.2.1)).1, (switchAxes a b (p.1, p.2.1)).2, p.2.2) := rfl

/-- The reported handedness is the sign of the triple product of the three axes in the world (easting, northing,
elevation), which is right handed. -/
theorem C23_handedness (o : Axis) (zIncDown : Bool) :
    (rightHandedXyz o zIncDown = true ↔
      0 < triple (worldDir o zIncDown ((1, 0, 0) : K × K × K)) (worldDir o zIncDown (0, 1, 0))
        (worldDir o zIncDown (0, 0, 1))) ∧
    (rightHandedXyz o zIncDown = false ↔
      triple (worldDir o zIncDown ((1, 0, 0) : K × K × K)) (worldDir o zIncDown (0, 1, 0))
        (worldDir o zIncDown (0, 0, 1)) < 0) := by
  have h0 : (0 : K) < 1 := one_pos
  cases o <;> cases zIncDown <;> simp [rightHandedXyz, rightHandedXy, triple, worldDir, eastNorth]

/-- The two separately coded tables agree. -/
theorem C23_tables_agree (o : Axis) (zIncDown : Bool) :
    xyzHandedness o zIncDown = .right ↔ rightHandedXyz o zIncDown = true := by
  cases o <;> cases zIncDown <;> decide

end

example : switchAxes .en .nw ((3, 5) : Rat × Rat) = (5, -3) := by decide +kernel
example : eastNorth .nw ((5, -3) : Rat × Rat) = (3, 5) := by decide +kernel

end Verif.Crs
