import Verif.Blocking.Derive
import Verif.Wells.Model

/-!
# Model: tables of the intervals of blocked wells

`/repo/resqpy/well/_blocked_well.py` 1285-1741 (`dataframe`), with 1893-2140, 2143-2222, 2383-2411, 2439-2494, 2581-2667, 2829-2897.  Numbers
are exact.  Left out: angles, inflow (see `Kh.lean`) and the writing of properties; permeability thickness of an interval is an argument.  One
grid; the time dependence of properties is left out.
-/

namespace Verif.Blocking
open Verif.Py

variable {K : Type} [Field K] [LinearOrder K]

/-- the limits among the arguments of the call (_blocked_well.py:1302-1313) -/
structure Limits (K : Type) where
  activeOnly : Bool := false
  minK0 : Option Int := none
  maxK0 : Option Int := none
  k0List : Option (List Int) := none
  minLength : Option K := none
  minKh : Option K := none
  maxDepth : Option K := none
  maxSatw : Option K := none
  minSato : Option K := none
  maxSatg : Option K := none
  perforations : Option (List (K × K)) := none
  regions : Option (List Int) := none

/-- the other arguments of the call: extra columns (in upper case), the titles of the properties of the well if these are to be used, whether a
permeability is given, lengths by measured depth or straight, whether a unit of length is given (_blocked_well.py:1285-1325) -/
structure Ask where
  columns : List String
  pcTitles : List String := []
  permGiven : Bool := false
  straight : Bool := false
  uomGiven : Bool := false
  oneBased : Bool := true

/-- the well and its grid: measured depths of nodes, grid indices of intervals, cells, and values at cells; `none` for properties not given;
`convert` from the unit of measured depths to that asked for, `line` the length of the straight line between entry and exit in that unit, `kh`
the permeability thickness for an interval, a length and a perforated fraction; `prop` values of properties of the well
(_blocked_well.py:1527-1543) -/
structure WellData (K : Type) where
  md : Nat → K
  gi : List Int
  cell : Nat → Cell
  hasTrajectory : Bool := true
  zDown : Bool := true
  centreZ : Cell → K
  inactive : Option (Cell → Bool) := none
  region : Option (Cell → Int) := none
  satw : Option (Cell → K) := none
  sato : Option (Cell → K) := none
  satg : Option (Cell → K) := none
  convert : K → K := id
  line : Nat → K
  kh : Nat → K → K → Res K
  prop : String → Nat → K

/-- _blocked_well.py:1910-1929 __verify_saturation_ranges_and_property_uuids -/
def verifySaturations (l : Limits K) (w : WellData K) : Res (Limits K) :=
  let a := if (l.maxSatw.map fun x => decide (1 ≤ x)) = some true then none else l.maxSatw
  let b := if (l.minSato.map fun x => decide (x ≤ 0)) = some true then none else l.minSato
  let c := if (l.maxSatg.map fun x => decide (1 ≤ x)) = some true then none else l.maxSatg
  if (a.isSome && w.satw.isNone) || (b.isSome && w.sato.isNone) || (c.isSome && w.satg.isNone) then .error .assertion
  else .ok { l with maxSatw := a, minSato := b, maxSatg := c }

/-- _blocked_well.py:2008-2023 __verify_perm_i_uuid_for_kh: the least permeability thickness and whether it is to be calculated -/
def verifyKh (a : Ask) (minKh : Option K) : Res (Option K × Bool) :=
  let m := if (minKh.map fun x => decide (x ≤ 0)) = some true then none else minKh
  let k := (a.columns.contains "KH" || m.isSome) && !a.pcTitles.contains "KH"
  let w := a.columns.contains "WBC" && !a.pcTitles.contains "WBC"
  if (k || w) && !a.permGiven then .error .assertion else .ok (m, k || w)

/-- a column is asked for and there is no property for it; for `inflow`, `doingAngles`, `doingXyz` (_blocked_well.py:2000-2002, 2062-2065) -/
def wanted (a : Ask) (title : String) : Bool := a.columns.contains title && !a.pcTitles.contains title

/-- _blocked_well.py:1995-2006 __verify_perm_i_uuid_for_well_inflow -/
def inflow (a : Ask) : Res Bool :=
  if (wanted a "WI" || wanted a "WBC" || wanted a "RADB") && !a.permGiven then .error .assertion
  else .ok (wanted a "WI" || wanted a "WBC" || wanted a "RADB")

/-- _blocked_well.py:2062-2063 doing_angles -/
def doingAngles (a : Ask) (doingKh doInflow : Bool) : Bool := wanted a "ANGLA" || wanted a "ANGLV" || doingKh || doInflow

/-- _blocked_well.py:2064-2065 doing_xyz -/
def doingXyz (a : Ask) : Bool := wanted a "X" || wanted a "Y" || wanted a "DEPTH"

/-- _blocked_well.py:2066-2067 doing_entry_exit -/
def doingEntryExit (a : Ask) (angles : Bool) : Bool := angles || (wanted a "LENGTH" && a.straight)

/-- _blocked_well.py:2102-2113 __check_cell_depth -/
def tooDeep (w : WellData K) (maxDepth : Option K) (c : Cell) : Bool :=
  match maxDepth with
  | none => false
  | some d => decide (d < if w.zDown then w.centreZ c else -w.centreZ c)

/-- a limit on a property which is checked to be there; for `skipCheck` (_blocked_well.py:2128-2135) -/
def beyondLimit {α β : Type} (limit : Option α) (values : Option (Cell → β)) (c : Cell) (bad : α → β → Bool) : Res Bool :=
  match limit with
  | none => .ok false
  | some l =>
    match values with
    | none => .error .assertion
    | some f => .ok (bad l (f c))

/-- _blocked_well.py:2116-2141 __skip_interval_check -/
def skipCheck (l : Limits K) (w : WellData K) (c : Cell) : Res Bool := do
  let deep := tooDeep w l.maxDepth c
  let off := l.activeOnly && ((w.inactive.map fun f => f c).getD false)
  let layer1 := ((l.minK0.map fun m => decide (c.1 < m)).getD false) || ((l.maxK0.map fun m => decide (m < c.1)).getD false)
  let layer2 := (l.k0List.map fun ks => !ks.contains c.1).getD false
  let region ← beyondLimit l.regions w.region c fun rs r => !rs.contains r
  let s1 ← beyondLimit l.maxSatw w.satw c fun m s => decide (m < s)
  let s2 ← beyondLimit l.minSato w.sato c fun m s => decide (s < m)
  let s3 ← beyondLimit l.maxSatg w.satg c fun m s => decide (m < s)
  .ok (deep || off || layer1 || layer2 || region || s1 || s2 || s3)

/-- _blocked_well.py:2143-2172 __get_part_perf_fraction_for_interval -/
def partFor (l : Limits K) (a : Ask) (w : WellData K) (ci ii : Nat) : Bool × K :=
  if a.pcTitles.contains "PPERF" then (false, w.prop "PPERF" ci)
  else Verif.Wells.partPerf (1 / 100) (w.md ii) (w.md (ii + 1)) l.perforations

/-- _blocked_well.py:2174-2222 __get_entry_exit_xyz_and_crs_for_interval and __get_length_of_interval: the length; entry and exit are only there
if they were wanted for something else -/
def lengthOf (l : Limits K) (a : Ask) (w : WellData K) (entryExit : Bool) (ii : Nat) (ppf : K) : Res K :=
  if entryExit && !w.hasTrajectory then .error .assertion
  else do
    let x ← if a.straight then (if entryExit then .ok (w.line ii) else .error .attribute)
      else .ok (if a.uomGiven && w.hasTrajectory then w.convert (w.md (ii + 1) - w.md ii) else w.md (ii + 1) - w.md ii)
    .ok (if l.perforations.isSome then x * ppf else x)

/-- _blocked_well.py:2383-2411 __get_kh_for_interval: whether the interval is to be skipped, and permeability thickness -/
def khOf (minKh : Option K) (a : Ask) (w : WellData K) (doingKh : Bool) (ci ii : Nat) (length ppf : K) : Res (Bool × Option K) :=
  if doingKh then do
    let k ← w.kh ii length ppf
    .ok ((minKh.map fun m => decide (k < m)).getD false, some k)
  else if a.pcTitles.contains "KH" then .ok (false, some (w.prop "KH" ci))
  else .ok (false, none)

/-- a row of the table: cell number, interval, the first three columns, and others (_blocked_well.py:2631-2667) -/
structure DRow (K : Type) where
  ci : Nat
  interval : Nat
  ijk : Int × Int × Int
  length : K
  ppf : K
  kh : Option K
  md : K

/-- _blocked_well.py:2649-2654 the first three columns -/
def ijkColumns (oneBased : Bool) (c : Cell) : Int × Int × Int :=
  if oneBased then (c.2.2 + 1, c.2.1 + 1, c.1 + 1) else (c.2.2, c.2.1, c.1)

/-- _blocked_well.py:1536-1732 one blocked interval: its row, unless it is skipped -/
def rowFor (l : Limits K) (a : Ask) (w : WellData K) (doingKh entryExit : Bool) (ci ii : Nat) : Res (Option (DRow K)) := do
  let skip ← skipCheck l w (w.cell ci)
  if skip then .ok none
  else
    let (skip, ppf) := partFor l a w ci ii
    if skip then .ok none
    else do
      let length ← lengthOf l a w entryExit ii ppf
      if (l.minLength.map fun m => decide (length < m)).getD false then .ok none
      else do
        let (skip, k) ← khOf l.minKh a w doingKh ci ii length ppf
        if skip then .ok none
        else if !a.uomGiven && !w.hasTrajectory then .error .attribute
        else
          let md := (1 / 2) * (w.md (ii + 1) + w.md ii)
          .ok (some ⟨ci, ii, ijkColumns a.oneBased (w.cell ci), if a.pcTitles.contains "LENGTH" then w.prop "LENGTH" ci else length, ppf, k,
            if a.pcTitles.contains "MD" then w.prop "MD" ci else if a.uomGiven && w.hasTrajectory then w.convert md else md⟩)

/-- _blocked_well.py:1527-1732 the loop over intervals, from interval `ii` and cell number `ci` on -/
def rowsFrom (l : Limits K) (a : Ask) (w : WellData K) (doingKh entryExit : Bool) : List Int → Nat → Nat → Res (List (DRow K))
  | [], _, _ => .ok []
  | g :: gs, ii, ci =>
    if g < 0 then rowsFrom l a w doingKh entryExit gs (ii + 1) ci
    else do
      let r ← rowFor l a w doingKh entryExit ci ii
      let rest ← rowsFrom l a w doingKh entryExit gs (ii + 1) (ci + 1)
      .ok (r.toList ++ rest)

/-- the names of columns which are known (_blocked_well.py:1942-1945) -/
def knownColumns : List String :=
  ["GRID", "ANGLA", "ANGLV", "LENGTH", "KH", "DEPTH", "MD", "X", "Y", "SKIN", "RADW", "PPERF", "RADB", "WI", "WBC", "STAT"]

/-- _blocked_well.py:2046-2056 __verify_k_layers_to_be_included -/
def verifyLayers (l : Limits K) : Res Unit :=
  if (l.minK0.map fun m => decide (m < 0)).getD false then .error .assertion
  else if (l.maxK0.map fun m => decide (m < l.minK0.getD 0)).getD false then .error .assertion
  else .ok ()

/-- _blocked_well.py:1442-1741 dataframe, without angles, inflow and coordinates -/
def dataframe (l : Limits K) (a : Ask) (w : WellData K) : Res (List (DRow K)) :=
  if !a.columns.all fun c => knownColumns.contains c then .error .assertion
  else do
    let l ← verifySaturations l w
    let (minKh, doingKh) ← verifyKh a l.minKh
    let doInflow ← inflow a
    let minLength := if (l.minLength.map fun x => decide (x ≤ 0)) = some true then none else l.minLength
    if l.regions.isSome && w.region.isNone then .error .assertion
    else do
      verifyLayers l
      let entryExit := doingEntryExit a (doingAngles a doingKh doInflow)
      rowsFrom { l with minKh := minKh, minLength := minLength } a w doingKh entryExit w.gi 0 0

/-- _blocked_well.py:2829-2897 static_kh -/
def staticKh (l : Limits K) (a : Ask) (w : WellData K) : Res K := do
  let rows ← dataframe l { a with columns := ["KH"], pcTitles := [], oneBased := false } w
  .ok (rows.map fun r => r.kh.getD 0).sum

/-- _blocked_well.py:2678-2689, 2722-2729 the columns as properties of the well -/
def addAsProperties (cellCount : Nat) (rows : List (DRow K)) : Res Unit :=
  if rows = [] then .ok () else if rows.length = cellCount then .ok () else .error .assertion

/-- _blocked_well.py:2603-2619 __get_xyz_if_doing_xyz: depth, without conversion of units; `mdDepth` from the trajectory, `line` the depth half way
between entry and exit if these are there -/
def depthFor (straight hasTrajectory : Bool) (depthIncDown : Option Bool) (trajZDown : Bool) (mdDepth : K) (line : Option K) : Res K :=
  if !straight && hasTrajectory then .ok (if depthIncDown = some true ∧ trajZDown = false then -mdDepth else mdDepth)
  else
    match line with
    | none => .error .type
    | some z => .ok (if depthIncDown ≠ some trajZDown then -z else z)

/-- _blocked_well.py:1665-1666 the default radius of the well -/
def defaultRadius (lengthUom : Option String) : K := if lengthUom = some "ft" then 33 / 100 else 1 / 10

/-- _blocked_well.py:1667-1668, 1978-1988 the status column if none is given -/
def defaultStat (stat : Option String) : Option String := stat

end Verif.Blocking
