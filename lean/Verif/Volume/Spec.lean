import Verif.Volume.Model
import Mathlib.Analysis.SpecialFunctions.Integrals.Basic

/-! # What the volume of a hexahedral cell is

A cell is the image of the unit cube under the trilinear map through its corners (so its faces are bilinear); its signed
volume is the integral of the determinant of the derivative of that map. -/

namespace Verif.Volume

noncomputable section

/-- the point of the cell at fractions u, v, w in the k, j and i directions -/
def point (cp : Corners ℝ) (u v w : ℝ) : Vec ℝ :=
  smul ((1 - u) * (1 - v) * (1 - w)) (cp false false false) + smul ((1 - u) * (1 - v) * w) (cp false false true) +
  smul ((1 - u) * v * (1 - w)) (cp false true false) + smul ((1 - u) * v * w) (cp false true true) +
  smul (u * (1 - v) * (1 - w)) (cp true false false) + smul (u * (1 - v) * w) (cp true false true) +
  smul (u * v * (1 - w)) (cp true true false) + smul (u * v * w) (cp true true true)

/-- derivative of a path of points -/
def pathDeriv (f : ℝ → Vec ℝ) (t : ℝ) : Vec ℝ :=
  ⟨deriv (fun s => (f s).x) t, deriv (fun s => (f s).y) t, deriv (fun s => (f s).z) t⟩

/-- scalar triple product -/
def triple {K : Type} [Field K] (a b c : Vec K) : K :=
  a.x * (b.y * c.z - b.z * c.y) + a.y * (b.z * c.x - b.x * c.z) + a.z * (b.x * c.y - b.y * c.x)

/-- determinant of the derivative, columns in the order i, j, k -/
def jacobian (cp : Corners ℝ) (u v w : ℝ) : ℝ :=
  triple (pathDeriv (fun t => point cp u v t) w) (pathDeriv (fun t => point cp u t w) v)
    (pathDeriv (fun t => point cp t v w) u)

/-- signed volume of the cell -/
def signedVolume (cp : Corners ℝ) : ℝ := ∫ u in (0 : ℝ)..1, ∫ v in (0 : ℝ)..1, ∫ w in (0 : ℝ)..1, jacobian cp u v w

end

end Verif.Volume
