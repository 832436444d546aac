import Verif.Crs.Axes

/-! # Easting and northing

What the names of the axis orders say. -/

namespace Verif.Crs

variable {K : Type} [CommRing K]

/-- easting and northing of a point given in an axis order -/
def eastNorth : Axis → K × K → K × K
  | .en, (x, y) => (x, y)      -- x is easting, y is northing
  | .ne, (x, y) => (y, x)
  | .ws, (x, y) => (-x, -y)
  | .sw, (x, y) => (-y, -x)
  | .nw, (x, y) => (-y, x)
  | .wn, (x, y) => (-x, y)

/-- easting, northing and elevation of a direction given in local axes -/
def worldDir (o : Axis) (zIncDown : Bool) (v : K × K × K) : K × K × K :=
  ((eastNorth o (v.1, v.2.1)).1, (eastNorth o (v.1, v.2.1)).2, if zIncDown then -v.2.2 else v.2.2)

/-- scalar triple product -/
def triple (u v w : K × K × K) : K :=
  u.1 * (v.2.1 * w.2.2 - v.2.2 * w.2.1) - u.2.1 * (v.1 * w.2.2 - v.2.2 * w.1) + u.2.2 * (v.1 * w.2.1 - v.2.1 * w.1)

end Verif.Crs
