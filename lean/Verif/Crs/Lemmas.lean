import Verif.Crs.Model
import Verif.Crs.PropsAxes
import Verif.Units.Lemmas

namespace Verif.Crs
open Verif.Py Verif.Units

theorem rotate_back (a : ℝ) (p : Pt) : rotate (-a) (rotate a p) = p ∧ rotate a (rotate (-a) p) = p := by
  obtain ⟨x, y, z⟩ := p
  have h := Real.sin_sq_add_cos_sq (a * Real.pi / 180)
  have e : -a * Real.pi / 180 = -(a * Real.pi / 180) := by ring
  constructor <;>
  · simp only [rotate, e, Real.cos_neg, Real.sin_neg]
    refine Prod.ext ?_ (Prod.ext ?_ rfl) <;> dsimp only
    · linear_combination x * h
    · linear_combination y * h

/-- rotation of a point, if there is one -/
noncomputable def rot (c : Crs) (p : Pt) : Pt := open Classical in if c.rotated then c.applyRotation p else p

/-- reverse rotation of a point, if there is one -/
noncomputable def unrot (c : Crs) (p : Pt) : Pt := open Classical in if c.rotated then c.applyReverse p else p

theorem unrot_rot (c : Crs) (p : Pt) : unrot c (rot c p) = p ∧ rot c (unrot c p) = p := by
  unfold rot unrot
  by_cases h : c.rotated
  · simp only [if_pos h]
    unfold Crs.applyReverse Crs.applyRotation
    cases rightHandedXy c.axis
    · exact ⟨(rotate_back _ _).1, (rotate_back _ _).2⟩
    · exact ⟨(rotate_back _ _).2, (rotate_back _ _).1⟩
  · simp only [if_neg h]
    exact ⟨trivial, trivial⟩

theorem ite_sub (x o : ℝ) : (if o ≠ 0 then x - o else x) = x - o := by
  split
  · rfl
  · rename_i h; rw [not_not] at h; rw [h, sub_zero]

theorem ite_add (x o : ℝ) : (if o ≠ 0 then x + o else x) = x + o := by
  split
  · rfl
  · rename_i h; rw [not_not] at h; rw [h, add_zero]

theorem ite_switch (a b : Axis) (p : ℝ × ℝ) : (if a ≠ b then switchAxes b a p else p) = switchAxes b a p := by
  split
  · rfl
  · rename_i h; rw [not_not] at h; rw [h, (C22_roundtrip b b p).2]

theorem ite_switch' (a b : Axis) (p : ℝ × ℝ) : (if a ≠ b then switchAxes a b p else p) = switchAxes a b p := by
  split
  · rfl
  · rename_i h; rw [not_not] at h; rw [h, (C22_roundtrip b b p).2]

/-- z reversed if need be -/
def flip (c : Crs) (gz : Bool) (z : ℝ) : ℝ := if gz ≠ c.zIncDown then -z else z

theorem flip_flip (c : Crs) (gz : Bool) (z : ℝ) : flip c gz (flip c gz z) = z := by
  unfold flip; split <;> simp

theorem globalToLocal_eq (c : Crs) (p : Pt) (gz : Bool) (g : Axis) : c.globalToLocal p gz g =
    rot c ((switchAxes g c.axis (p.1, p.2.1)).1 - c.xOff, (switchAxes g c.axis (p.1, p.2.1)).2 - c.yOff,
      flip c gz p.2.2 - c.zOff) := by
  obtain ⟨x, y, z⟩ := p
  unfold Crs.globalToLocal
  simp only [ite_switch, ite_sub]
  rfl

theorem localToGlobal_eq (c : Crs) (p : Pt) (gz : Bool) (g : Axis) : c.localToGlobal p gz g =
    ((switchAxes c.axis g ((unrot c p).1 + c.xOff, (unrot c p).2.1 + c.yOff)).1,
      (switchAxes c.axis g ((unrot c p).1 + c.xOff, (unrot c p).2.1 + c.yOff)).2,
      flip c gz ((unrot c p).2.2 + c.zOff)) := by
  unfold Crs.localToGlobal
  simp only [ite_switch', ite_add]
  rfl

theorem local_global (c : Crs) (p : Pt) (gz : Bool) (g : Axis) :
    c.globalToLocal (c.localToGlobal p gz g) gz g = p := by
  rw [globalToLocal_eq, localToGlobal_eq]
  dsimp only
  rw [flip_flip, Prod.mk.eta, (C22_roundtrip c.axis g _).1]
  dsimp only
  rw [add_sub_cancel_right, add_sub_cancel_right, add_sub_cancel_right]
  exact (unrot_rot c p).2

theorem global_local (c : Crs) (p : Pt) (gz : Bool) (g : Axis) :
    c.localToGlobal (c.globalToLocal p gz g) gz g = p := by
  rw [localToGlobal_eq, globalToLocal_eq, (unrot_rot c _).1]
  dsimp only
  rw [sub_add_cancel, sub_add_cancel, sub_add_cancel, flip_flip, Prod.mk.eta, (C22_roundtrip g c.axis _).1]

/-! ### arrays -/

theorem ite_map {α : Type} (P : Prop) [Decidable P] (f : α → α) (l : List α) :
    (if P then l.map f else l) = l.map fun x => if P then f x else x := by
  split <;> simp

theorem ite_switchArray (P : Prop) [Decidable P] (a b : Axis) (l : List Pt) :
    (if P then switchAxesArray a b l else l) =
      l.map fun p => if P then ((switchAxes a b (p.1, p.2.1)).1, (switchAxes a b (p.1, p.2.1)).2, p.2.2) else p := by
  split
  · rw [switchAxesArray_eq]
  · simp

theorem globalToLocalArray_eq (c : Crs) (ps : List Pt) (gz : Bool) (g : Axis) :
    c.globalToLocalArray ps gz g = ps.map fun p => c.globalToLocal p gz g := by
  unfold Crs.globalToLocalArray
  simp only [ite_map, ite_switchArray]
  simp only [List.map_map]
  apply List.map_congr_left
  intro p _
  obtain ⟨x, y, z⟩ := p
  unfold Crs.globalToLocal
  simp only [Function.comp]
  by_cases h1 : c.axis ≠ g <;> by_cases h2 : c.xOff ≠ 0 <;> by_cases h3 : c.yOff ≠ 0 <;>
    by_cases h4 : gz ≠ c.zIncDown <;> by_cases h5 : c.zOff ≠ 0 <;>
    simp only [if_pos h1, if_neg h1, if_pos h2, if_neg h2, if_pos h3, if_neg h3, if_pos h4, if_neg h4, if_pos h5, if_neg h5] <;> rfl

theorem localToGlobalArray_eq (c : Crs) (ps : List Pt) (gz : Bool) (g : Axis) :
    c.localToGlobalArray ps gz g = ps.map fun p => c.localToGlobal p gz g := by
  unfold Crs.localToGlobalArray
  simp only [ite_map, ite_switchArray]
  simp only [List.map_map]
  apply List.map_congr_left
  intro p _
  unfold Crs.localToGlobal
  simp only [Function.comp]
  by_cases h1 : c.axis ≠ g <;> by_cases h2 : c.xOff ≠ 0 <;> by_cases h3 : c.yOff ≠ 0 <;>
    by_cases h4 : gz ≠ c.zIncDown <;> by_cases h5 : c.zOff ≠ 0 <;>
    simp only [if_pos h1, if_neg h1, if_pos h2, if_neg h2, if_pos h3, if_neg h3, if_pos h4, if_neg h4, if_pos h5, if_neg h5] <;> rfl

end Verif.Crs
