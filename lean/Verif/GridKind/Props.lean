import Verif.GridKind.Model
import Mathlib.Tactic.SplitIfs

/-!
# C207: the class of a grid read back
-/

namespace Verif.GridKind
open Verif.Py

/-! ## specification -/

/-- the class which a documented cell shape stands for, where a general unstructured grid has any of the shapes -/
inductive Stands : String → Cls → Prop where
  | polyhedral : Stands "polyhedral" .unstructured
  | tetrahedral : Stands "tetrahedral" .tetra
  | hexahedral : Stands "hexahedral" .hexa
  | pyramidal : Stands "pyramidal" .pyramid
  | prism : Stands "prism" .prism

/-! ## C207 -/

/-- **C207** an ijk grid of any writer without the metadata of this library: with points in hdf5 or on parametric lines it is read as a Grid, with a
lattice as a RegularGrid; other types of points raise an exception -/
theorem C207_foreign_ijk (x : Xml) (g : Geom) (p : Points) (hf : x.flavour? = none) (hn : x.node = .ijk) (hg : x.geom = some g) (hp : g.points = some p) :
    (anyGrid x = .ok (some .grid) ↔ p = .hdf5 ∨ p = .parametric) ∧ (anyGrid x = .ok (some .regular) ↔ p = .lattice) ∧
    (p = .other → anyGrid x = .error .value) := by
  cases p <;> simp [anyGrid, gridFlavour, hf, hn, hg, ijkFlavour, hp, classFor, readIjk]

/-- **C207** an unstructured grid of any writer: it is read as the class which the shape of its cells stands for -/
theorem C207_foreign_unstructured (x : Xml) (g : Geom) (s : String) (c : Cls) (hf : x.flavour? = none) (hn : x.node = .unstructured) (hg : x.geom = some g)
    (hs : g.shape = some s) (h : Stands s c) : anyGrid x = .ok (some c) := by
  cases h <;> simp [anyGrid, gridFlavour, hf, hn, hg, hs, shapeFlavour, classFor, readUnstructured, validShapes]

/-- **C207** grids written with geometry are read back in their class, but for general unstructured grids and vertical prisms -/
theorem C207_round_trip_partial (c : Cls) (asked : String) (hc : c ≠ .verticalPrism) (hu : c = .unstructured → asked = "polyhedral")
    (hr : c ≠ .grid ∧ c ≠ .regular) : anyGrid (writeUnstructured c asked true) = .ok (some c) := by
  cases c with
  | verticalPrism => exact absurd rfl hc
  | grid => exact absurd rfl hr.1
  | regular => exact absurd rfl hr.2
  | unstructured => rw [hu rfl]; decide
  | tetra => simp [anyGrid, gridFlavour, writeUnstructured, shapeOf, shapeFlavour, classFor, readUnstructured, validShapes]
  | hexa => simp [anyGrid, gridFlavour, writeUnstructured, shapeOf, shapeFlavour, classFor, readUnstructured, validShapes]
  | pyramid => simp [anyGrid, gridFlavour, writeUnstructured, shapeOf, shapeFlavour, classFor, readUnstructured, validShapes]
  | prism => simp [anyGrid, gridFlavour, writeUnstructured, shapeOf, shapeFlavour, classFor, readUnstructured, validShapes]

/-- **C207** a Grid written with geometry is read back as a Grid, whatever the way its points are written -/
theorem C207_grid (useParametric : Bool) : anyGrid (writeGrid true useParametric) = .ok (some .grid) := by
  cases useParametric <;> decide

/-- **C207** a RegularGrid written as it is by default, or as a lattice, or with cell lengths for want of one, is read back as a RegularGrid; made or
written as irregular it is read as a Grid -/
theorem C207_regular (lengths : Bool) :
    (∀ w, anyGrid (writeRegular false w true lengths) = .ok (some .regular)) ∧
    (∀ w, w ≠ some true → anyGrid (writeRegular false w false true) = .ok (some .regular)) ∧
    anyGrid (writeRegular false (some true) false lengths) = .ok (some .grid) ∧
    (∀ w useLattice, w ≠ some false → anyGrid (writeRegular true w useLattice lengths) = .ok (some .grid)) := by
  refine ⟨?_, ?_, ?_, ?_⟩
  · intro w
    rcases w with _ | _ | _ <;> cases lengths <;> decide
  · intro w hw
    rcases w with _ | _ | _
    · decide
    · decide
    · exact absurd rfl hw
  · cases lengths <;> decide
  · intro w l hw
    rcases w with _ | _ | _
    · cases l <;> cases lengths <;> decide
    · exact absurd rfl hw
    · cases l <;> cases lengths <;> decide

/-- **C207 fails** for grids written without geometry, which is allowed: those of class Grid are taken for regular grids, and none of the unstructured
ones can be read, vertical prisms being passed over without an exception -/
theorem C207_no_geometry_violated (useParametric : Bool) (c : Cls) (asked : String) :
    gridFlavour (writeGrid false useParametric) = .ok (some "IjkBlockGrid") ∧ anyGrid (writeGrid false useParametric) = .error .assertion ∧
    (c = .verticalPrism → anyGrid (writeUnstructured c asked false) = .ok none) ∧
    (c ≠ .verticalPrism → anyGrid (writeUnstructured c asked false) = .error .assertion) := by
  refine ⟨by cases useParametric <;> decide, by cases useParametric <;> decide, ?_, ?_⟩
  · rintro rfl
    simp [anyGrid, gridFlavour, writeUnstructured, representation, classFor]
  · intro hc
    cases c <;> first
      | exact absurd rfl hc
      | simp [anyGrid, gridFlavour, writeUnstructured, representation, classFor, readUnstructured]

/-- **C207 fails** for vertical prisms: no grid is ever read as one, and one written with geometry is read as a general prism grid -/
theorem C207_vertical_violated : (∀ x, anyGrid x ≠ .ok (some .verticalPrism)) ∧
    ∀ asked, anyGrid (writeUnstructured .verticalPrism asked true) = .ok (some .prism) := by
  constructor
  · intro x h
    unfold anyGrid at h
    cases hf : gridFlavour x with
    | error e => simp [hf] at h
    | ok f =>
      simp only [hf] at h
      cases hc : classFor f with
      | none => simp [hc] at h
      | some c =>
        simp only [hc] at h
        have hv : c ≠ .verticalPrism := by
          rintro rfl
          unfold classFor at hc
          split_ifs at hc <;> simp at hc
        split at h
        · simp at h
        · simp only [Except.ok.injEq, Option.some.injEq] at h
          exact hv h
  · intro asked
    simp [anyGrid, gridFlavour, writeUnstructured, shapeOf, shapeFlavour, classFor, readUnstructured, validShapes]

/-- **C207 fails** for general unstructured grids whose cells are of one shape, as may be asked for: they are read in the class for the shape -/
theorem C207_general_violated (s : String) (c : Cls) (h : Stands s c) : anyGrid (writeUnstructured .unstructured s true) = .ok (some c) := by
  cases h <;> decide

/-- **C207 fails** for a RegularGrid with neither lattice nor cell lengths: it cannot be read -/
theorem C207_no_lengths_violated (w : Option Bool) (h : w ≠ some true) : anyGrid (writeRegular false w false false) = .error .assertion := by
  rcases w with _ | _ | _
  · decide
  · decide
  · exact absurd rfl h

/-- nor can one made as irregular and written without geometry -/
theorem C207_irregular_violated (useLattice lengths : Bool) : anyGrid (writeRegular true (some false) useLattice lengths) = .error .assertion := by
  cases useLattice <;> cases lengths <;> decide

/-! ## the hypotheses can be met -/

example : anyGrid ⟨none, .unstructured, some ⟨some .hdf5, some "pyramidal"⟩, false⟩ = .ok (some .pyramid) :=
  C207_foreign_unstructured _ _ _ _ rfl rfl rfl rfl .pyramidal

example : anyGrid ⟨none, .ijk, some ⟨some .parametric, none⟩, false⟩ = .ok (some .grid) :=
  (C207_foreign_ijk _ _ _ rfl rfl rfl rfl).1.mpr (.inr rfl)

end Verif.GridKind
