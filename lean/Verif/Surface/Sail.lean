import Verif.Surface.Model
import Verif.Rotate.PropsRot

namespace Verif.Surface
open Verif.Wells.Survey (V3 radians degrees)
open Verif.Rotate

noncomputable section

/-- _triangulated_patch.py:239-247 `sail_point` -/
def sailPoint (centre : V3) (radius a d : ℝ) : V3 :=
  centre + (axial 2 (90 + a)).mulVec ((axial 0 d).mulVec ![0, radius, 0])

/-- _triangulated_patch.py:254-264 `set_to_sail`: the points -/
def sailPoints (n : Nat) (centre : V3) (radius azimuth deltaTheta : ℝ) : List V3 :=
  (sailAngles (1 / 2) azimuth deltaTheta n).map fun q => sailPoint centre radius q.1 q.2

end

end Verif.Surface
