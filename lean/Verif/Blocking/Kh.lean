import Verif.Py.Basic
import Mathlib.Analysis.SpecialFunctions.Pow.Real
import Mathlib.Analysis.SpecialFunctions.Log.Basic
import Mathlib.Analysis.Real.Pi.Bounds

/-!
# Model: permeability thickness and inflow of intervals of blocked wells

`/repo/resqpy/well/_blocked_well.py` 2026-2044, 2354-2437, 2497-2579.  Numbers are reals; `none` among values is nan.
-/

namespace Verif.Blocking
open Verif.Py

/-- maths.sqrt; raises for negative numbers (for `keRadw`, `radbE` and `khGeneral`: _blocked_well.py:2424, 2435) -/
noncomputable def psqrt (x : ℝ) : Res ℝ := if x < 0 then .error .value else .ok (Real.sqrt x)

/-- division; raises for zero (for `keRadw`, `radbE` and `khGeneral`: _blocked_well.py:2432-2434) -/
noncomputable def pdiv (x y : ℝ) : Res ℝ := if y = 0 then .error .zeroDiv else .ok (x / y)

/-- maths.pow(x, 1 / 3); raises for negative numbers (for `khGeneral`: _blocked_well.py:2428) -/
noncomputable def pcbrt (x : ℝ) : Res ℝ := if x < 0 then .error .value else .ok (x ^ (1 / 3 : ℝ))

/-- _blocked_well.py:2026-2043 __verify_perm_j_k_uuids_for_kh_and_well_inflow: the uuids for j and k, and whether all are the same -/
def verifyPermUuids {U : Type} [DecidableEq U] (i : U) (j k : Option U) : Option U × Option U × Bool :=
  if j = none ∧ k = none then (none, none, true)
  else (some (j.getD i), some (k.getD i), decide (i = j.getD i) && decide (i = k.getD i))

/-- _blocked_well.py:1845-1852 __prop_array, at the cell -/
def propValue {U : Type} (values : U → Option ℝ) (u : Option U) : Res (Option ℝ) :=
  match u with
  | none => .error .assertion
  | some u => .ok (values u)

/-- _blocked_well.py:2362-2367 whether the net to gross ratio is one, up to 0.001 -/
noncomputable def ntgIsOne (ntg : Option ℝ) : Bool :=
  match ntg with
  | none => true
  | some n => decide (|n - 1| ≤ (1 / 1000) * max |n| 1)

/-- _blocked_well.py:2371-2375 the ratio used -/
noncomputable def ntgUsed (preferential isOne : Bool) (ppf ntg : ℝ) : ℝ :=
  if preferential && !isOne then (if ppf ≤ ntg then 1 else ntg / ppf) else ntg

/-- _blocked_well.py:2354-2381 __get_ntg_and_directional_perm_for_interval -/
noncomputable def directionalPerm {U : Type} (values : U → Option ℝ) (ntg : Option ℝ) (isotropic preferential : Bool) (ppf : ℝ)
    (i : U) (j k : Option U) : Res (Bool × Option ℝ × Option ℝ × Option ℝ) :=
  if isotropic && ntgIsOne ntg then .ok (ntgIsOne ntg, values i, values i, values i)
  else do
    let n := ntgUsed preferential (ntgIsOne ntg) ppf (ntg.getD 1)
    let ki := (values i).map (· * n)
    let kj ← propValue values j
    let kk ← propValue values k
    .ok (ntgIsOne ntg, ki, kj.map (· * n), kk)

/-- _blocked_well.py:2427-2436 permeability thickness of an interval which is not vertical -/
noncomputable def khGeneral (length ki kj kk sv cv sa ca : ℝ) : Res ℝ := do
  let ke ← pcbrt (ki * kj * kk)
  if ke = 0 then .ok 0
  else do
    let li ← (do let q ← pdiv ke ki; let r ← psqrt q; .ok (length * r * sv * ca))
    let lj ← (do let q ← pdiv ke kj; let r ← psqrt q; .ok (length * r * sv * sa))
    let lk ← (do let q ← pdiv ke kk; let r ← psqrt q; .ok (length * r * cv))
    let lp ← psqrt (li * li + lj * lj + lk * lk)
    .ok (ke * lp)

/-- the angles of an interval: inclination, whether it is nought, sines and cosines (_blocked_well.py:2274) -/
structure Angles where
  anglv : ℝ
  sv : ℝ
  cv : ℝ
  sa : ℝ
  ca : ℝ

/-- _blocked_well.py:2414-2437 __get_kh_if_doing_kh; `value` is the permeability in the direction of i at the cell -/
noncomputable def khFor (isotropic isOne : Bool) (length value : ℝ) (ki kj kk : Option ℝ) (a : Angles) : Res ℝ :=
  if isotropic && isOne then .ok (length * value)
  else
    match ki, kj with
    | some ki, some kj =>
      if a.anglv = 0 then do
        let r ← psqrt (ki * kj)
        .ok (length * r)
      else
        match kk with
        | none => .ok 0
        | some kk => khGeneral length ki kj kk a.sv a.cv a.sa a.ca
    | _, _ => .ok 0

/-- _blocked_well.py:1486-1491, 1615-1646 permeability thickness from the arguments of the call -/
noncomputable def kh {U : Type} [DecidableEq U] (values : U → Option ℝ) (ntg : Option ℝ) (preferential : Bool) (ppf : ℝ) (i : U) (j k : Option U)
    (length : ℝ) (a : Angles) : Res ℝ := do
  let (j, k, isotropic) := verifyPermUuids i j k
  let (isOne, ki, kj, kk) ← directionalPerm values ntg isotropic preferential ppf i j k
  khFor isotropic isOne length ((values i).getD 0) ki kj kk a

/-- for `keRadw` one of the three directions of _blocked_well.py:2556-2558 -/
noncomputable def radwIn (radw ke ka kb : ℝ) : Res ℝ :=
  if ke = 0 then .ok 0
  else do
    let qa ← pdiv ke ka
    let ra ← psqrt qa
    let qb ← pdiv ke kb
    let rb ← psqrt qb
    .ok ((1 / 2) * radw * (ra + rb))

/-- _blocked_well.py:2546-2566 __calculate_ke_and_radw_e -/
noncomputable def keRadw (shortcut : Bool) (radw ki kj kk : ℝ) (a : Angles) : Res ((ℝ × ℝ × ℝ) × ℝ) :=
  if shortcut then .ok ((ki, ki, ki), radw)
  else do
    let kei ← psqrt (kj * kk)
    let kej ← psqrt (ki * kk)
    let kek ← psqrt (ki * kj)
    let ri ← radwIn radw kei kj kk
    let rj ← radwIn radw kej ki kk
    let rk ← radwIn radw kek ki kj
    let wi := ri * a.sv * a.ca
    let wj := rj * a.sv * a.sa
    let wk := rk * a.cv
    let r ← psqrt (wi * wi + wj * wj + wk * wk)
    .ok ((kei, kej, kek), if r = 0 then radw else r)

/-- for `radbE` one of the three directions of _blocked_well.py:2571-2573 -/
noncomputable def radbIn (ke da ka db kb : ℝ) : Res ℝ :=
  if ke = 0 then .ok 0
  else do
    let qa ← pdiv da ka
    let qb ← pdiv db kb
    let r ← psqrt (ke * (qa + qb))
    .ok ((14 / 100) * r)

/-- _blocked_well.py:2568-2579 __calculate_radb_e; `dk`, `dj`, `di` are the squares of the lengths of the cell -/
noncomputable def radbE (ke : ℝ × ℝ × ℝ) (ki kj kk dk dj di : ℝ) (a : Angles) : Res ℝ := do
  let ri ← radbIn ke.1 dj kj dk kk
  let rj ← radbIn ke.2.1 di ki dk kk
  let rk ← radbIn ke.2.2 di ki dj kj
  let bi := ri * a.sv * a.ca
  let bj := rj * a.sv * a.sa
  let bk := rk * a.cv
  psqrt (bi * bi + bj * bj + bk * bk)

/-- _blocked_well.py:2504-2533 the equivalent radius of the block -/
noncomputable def radbFor (shortcut : Bool) (radw ki kj kk dk dj di : ℝ) (a : Angles) : Res ℝ := do
  let (ke, we) ← keRadw shortcut radw ki kj kk a
  let be ← radbE ke ki kj kk dk dj di a
  pdiv (radw * be) we

/-- _blocked_well.py:2535-2536 the well index -/
noncomputable def wiFor (radb radw skin : ℝ) : Res ℝ :=
  if radb ≤ 0 then .ok 0 else pdiv (2 * Real.pi) (Real.log (radb / radw) + skin)

end Verif.Blocking
