import Verif.Py.Basic

/-! # Model of the cached connection sets of a grid, `resqpy/grid/_connection_sets.py` -/

namespace Verif.Gcs

/-- the attributes of the grid object for one of the three kinds of connection set: `pgcs` (absent, or possibly None),
`pgcs_skip_inactive` and `array_pgcs_transmissibility` (absent or present); likewise `fgcs`, `kgcs`; for `request` (_connection_sets.py:105-117) -/
structure Cache (G T : Type) where
  gcs : Option (Option G)
  skip : Bool
  tr : Option T

/-- a grid object on which no connection set has been asked for -/
def Cache.empty {G T : Type} : Cache G T := ⟨none, false, none⟩

/-- the arguments of a request: skip_inactive, compute_transmissibility and, for K gaps, the tolerance; for `request` (_connection_sets.py:105-117) -/
structure Request (P : Type) where
  skip : Bool
  compute : Bool
  tol : P

/-- _connection_sets.py:105-117 `pinchout_connection_set` (:40-52 `fault_connection_set`, :172-184 `k_gap_connection_set`): `mk`
computes a connection set from the grid, `trOf` its transmissibilities.  Inheriting features, adding to the model and the
fractional areas (kept with the set) are not modelled. -/
def request {G T P : Type} (mk : Bool → P → Option G) (trOf : G → T) (c : Cache G T) (r : Request P) :
    Cache G T × (Option G × Option T) :=
  let c := match c.gcs with
    | none => { c with gcs := some (mk r.skip r.tol), skip := r.skip }
    | some g => if c.skip ≠ r.skip then { c with gcs := some (mk r.skip r.tol), skip := r.skip } else { c with gcs := some g }
  match c.gcs with
  | some (some g) =>
    let c := if r.compute = true ∧ c.tr.isNone = true then { c with tr := some (trOf g) } else c
    (c, (some g, c.tr))
  | _ => (c, (none, none))

/-- the cache after a history of requests -/
def after {G T P : Type} (mk : Bool → P → Option G) (trOf : G → T) (c : Cache G T) : List (Request P) → Cache G T
  | [] => c
  | r :: rs => after mk trOf (request mk trOf c r).1 rs

end Verif.Gcs
