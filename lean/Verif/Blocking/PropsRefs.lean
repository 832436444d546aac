import Verif.Blocking.PropsAngles
import Mathlib.Tactic.FieldSimp

/-!
# C129: references of angles, and points in one unit
-/

namespace Verif.Blocking
open Verif.Py

/-- **C129** gravity means z downwards, the reference for azimuths is that for inclinations if none is given, and the direction of the well in
I is no reference for inclinations -/
theorem C129_references (v : Ref) (a : Option Ref) :
    (verifyRefs v a = .error .assertion ↔ v = .wellI) ∧
    ∀ r s, verifyRefs v a = .ok (r, s) →
      (r = if v = .gravity then .zDown else v) ∧
      (a = none → s = r) ∧ (∀ b, a = some b → s = if b = .gravity then .zDown else b) := by
  unfold verifyRefs
  by_cases hv : v = .wellI
  · rw [if_pos hv]
    refine ⟨by simp [hv], ?_⟩
    intro r s h
    cases h
  · rw [if_neg hv]
    refine ⟨by simp [hv], ?_⟩
    intro r s h
    cases h
    refine ⟨rfl, ?_, ?_⟩
    · rintro rfl
      cases v <;> rfl
    · rintro b rfl
      rfl

/-- **C129** a point in one unit is the same place: each coordinate, in metres, is that of the point in the units of the crs -/
theorem C129_one_unit (c : CrsU) (hz : c.z ≠ 0) (p : Vec) :
    singleUom c p 0 * c.z = p 0 * c.xy ∧ singleUom c p 1 * c.z = p 1 * c.xy ∧ singleUom c p 2 * c.z = p 2 * c.z := by
  unfold singleUom
  split_ifs with h
  · rw [h]; exact ⟨rfl, rfl, rfl⟩
  · refine ⟨?_, ?_, rfl⟩
    · show p 0 * c.xy / c.z * c.z = _
      field_simp
    · show p 1 * c.xy / c.z * c.z = _
      field_simp

example : verifyRefs .gravity none = .ok (.zDown, .zDown) := rfl

end Verif.Blocking
