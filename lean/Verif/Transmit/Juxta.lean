import Verif.Py.Basic
import Mathlib.Algebra.Order.Field.Basic

/-!
# Model: juxtaposition of cells across a fault

`resqpy/olio/transmission.py:493-1148`: on each of the two pillars at the edges of a column face the points of the two
sides are given by their distance along the pillar.  Numbers are exact; not-a-number is `none`.  Division by zero gives
zero here; with a positive tolerance and layers that are not inverted it does not occur.
-/

namespace Verif.Transmit
open Verif.Py

variable {K : Type} [Field K] [LinearOrder K]

/-- transmission.py:522-540 `pillar_flavour`: top and base of the m layer, then of the p layer, on one pillar -/
def pillarFlavour (mt mb pt pb tol : K) : Nat :=
  if pt ≥ mt - tol ∧ pb ≤ mb + tol then 4
  else if pb ≤ mt + tol then 1
  else if pt ≥ mb - tol then 6
  else if pt ≤ mt + tol then
    if pb ≤ mb + tol then 2 else 3
  else 5

/-- transmission.py:542-546 `basic_fr` -/
def basicFr (g h ea eb tol : K) : K := if ea + eb < tol then 0 else (g + h) / (ea + eb)

/-- the expression `(g / (ea + eb)) * (1.0 - v / (v + g))`, for `fractionalArea` (transmission.py:548-950) -/
def corner (g v ea eb : K) : K := g / (ea + eb) * (1 - v / (v + g))

/-- the expression `0.5 * (s / (s + t) + 1.0 - v / (v + e + s))`, for `fractionalArea` (transmission.py:548-950) -/
def band (s t v e : K) : K := 1 / 2 * (s / (s + t) + 1 - v / (v + e + s))

/-- transmission.py:548-950 `fractional_area`: `a` and `b` are the pillars, `m` and `p` the sides of the fault, `t` and `b`
(last) top and base.  Patterns not listed raise an exception. -/
def fractionalArea (amt amb apt apb bmt bmb bpt bpb tol : K) : Res K :=
  let ea := amb - amt
  let eb := bmb - bmt
  match pillarFlavour amt amb apt apb tol, pillarFlavour bmt bmb bpt bpb tol with
  | 4, 4 => .ok (basicFr (apb - apt) (bpb - bpt) ea eb tol)
  | 3, 3 => .ok 1
  | 5, 5 => .ok (basicFr (amb - apt) (bmb - bpt) ea eb tol)
  | 2, 2 => .ok (basicFr (apb - amt) (bpb - bmt) ea eb tol)
  | 5, 4 =>
    let g := bmb - bpb
    let sub := if eb < tol ∨ g < tol then 0 else corner g (apb - amb) ea eb
    .ok (basicFr (amb - apt) (bmb - bpt) ea eb tol - sub)
  | 4, 5 =>
    let g := amb - apb
    let sub := if ea < tol ∨ g < tol then 0 else corner g (bpb - bmb) ea eb
    .ok (basicFr (bmb - bpt) (amb - apt) eb ea tol - sub)
  | 2, 3 =>
    let g := amb - apb
    if ea < tol ∨ g < tol then .ok 1 else .ok (1 - corner g (bpb - bmb) ea eb)
  | 3, 2 =>
    let g := bmb - bpb
    if eb < tol ∨ g < tol then .ok 1 else .ok (1 - corner g (apb - amb) ea eb)
  | 5, 2 =>
    let g := apt - amt
    let suba := if ea < tol ∨ g < tol then 0 else corner g (bmt - bpt) ea eb
    let g := bmb - bpb
    let subb := if eb < tol ∨ g < tol then 0 else corner g (apb - amb) ea eb
    .ok (1 - (suba + subb))
  | 2, 5 =>
    let g := bpt - bmt
    let subb := if eb < tol ∨ g < tol then 0 else corner g (amt - apt) ea eb
    let g := amb - apb
    let suba := if ea < tol ∨ g < tol then 0 else corner g (bpb - bmb) ea eb
    .ok (1 - (suba + subb))
  | 2, 1 =>
    let g := apb - amt
    if ea < tol ∨ g < tol then .ok 0 else .ok (corner g (bmt - bpb) ea eb)
  | 1, 2 =>
    let g := bpb - bmt
    if eb < tol ∨ g < tol then .ok 0 else .ok (corner g (amt - apb) eb ea)
  | 5, 6 =>
    let g := amb - apt
    if ea < tol ∨ g < tol then .ok 0 else .ok (corner g (bpt - bmb) ea eb)
  | 6, 5 =>
    let g := bmb - bpt
    if eb < tol ∨ g < tol then .ok 0 else .ok (corner g (apt - amb) ea eb)
  | 2, 4 =>
    let g := bpt - bmt
    let sub := if eb < tol ∨ g < tol then 0 else corner g (amt - apt) ea eb
    .ok (basicFr (apb - amt) (bpb - bmt) ea eb tol - sub)
  | 4, 2 =>
    let g := apt - amt
    let sub := if ea < tol ∨ g < tol then 0 else corner g (bmt - bpt) ea eb
    .ok (basicFr (bpb - bmt) (apb - amt) eb ea tol - sub)
  | 5, 3 =>
    let g := apt - amt
    if ea < tol ∨ g < tol then .ok 1 else .ok (1 - corner g (bmt - bpt) ea eb)
  | 3, 5 =>
    let g := bpt - bmt
    if eb < tol ∨ g < tol then .ok 1 else .ok (1 - corner g (amt - apt) ea eb)
  | 3, 1 =>
    let s := apb - amb
    if s + ea ≤ tol then .ok 0
    else
      let t := bmb - bpb
      let v := bmt - bpb
      if t + v ≤ tol then .ok 1 else .ok (band s t v ea)
  | 1, 3 =>
    let s := bpb - bmb
    if s + eb ≤ tol then .ok 0
    else
      let t := amb - apb
      let v := amt - apb
      if t + v ≤ tol then .ok 1 else .ok (band s t v eb)
  | 4, 6 =>
    let g := amb - apt
    if ea < tol ∨ g < tol then .ok 0
    else
      let gs := amb - apb
      let sub := if gs < tol then 0 else corner gs (bpb - bmb) ea eb
      .ok (corner g (bpt - bmb) ea eb - sub)
  | 6, 4 =>
    let g := bmb - bpt
    if eb < tol ∨ g < tol then .ok 0
    else
      let gs := bmb - bpb
      let sub := if gs < tol then 0 else corner gs (apb - amb) ea eb
      .ok (corner g (apt - amb) ea eb - sub)
  | 4, 1 =>
    let g := apb - amt
    if ea < tol ∨ g < tol then .ok 0
    else
      let gs := apt - amt
      let sub := if gs < tol then 0 else corner gs (bmt - bpt) ea eb
      .ok (corner g (bmt - bpb) ea eb - sub)
  | 1, 4 =>
    let g := bpb - bmt
    if eb < tol ∨ g < tol then .ok 0
    else
      let gs := bpt - bmt
      let sub := if gs < tol then 0 else corner gs (amt - apt) ea eb
      .ok (corner g (amt - apb) ea eb - sub)
  | 3, 6 =>
    let s := bpt - bmb
    if s + eb ≤ tol then .ok 1
    else
      let t := amb - apt
      let v := amt - apt
      if t + v ≤ tol then .ok 0 else .ok (1 - band s t v eb)
  | 6, 3 =>
    let s := apt - amb
    if s + ea ≤ tol then .ok 1
    else
      let t := bmb - bpt
      let v := bmt - bpt
      if t + v ≤ tol then .ok 0 else .ok (1 - band s t v ea)
  | 5, 1 =>
    let g := apt - amt
    let sub := if ea < tol ∨ g < tol then 0 else corner g (bmt - bpt) ea eb
    let s := apb - amb
    if s + ea ≤ tol then .ok 0
    else
      let t := bmb - bpb
      let v := bmt - bpb
      if t + v ≤ tol then .ok (1 - sub) else .ok (band s t v ea - sub)
  | 1, 5 =>
    let g := bpt - bmt
    let sub := if eb < tol ∨ g < tol then 0 else corner g (amt - apt) ea eb
    let s := bpb - bmb
    if s + eb ≤ tol then .ok 0
    else
      let t := amb - apb
      let v := amt - apb
      if t + v ≤ tol then .ok (1 - sub) else .ok (band s t v eb - sub)
  | 2, 6 =>
    let g := amb - apb
    let sub := if ea < tol ∨ g < tol then 0 else corner g (bpb - bmb) ea eb
    let s := amt - apt
    if s + ea ≤ tol then .ok 0
    else
      let t := bpt - bmt
      let v := bpt - bmb
      if t + v ≤ tol then .ok (1 - sub) else .ok (band s t v ea - sub)
  | 6, 2 =>
    let g := bmb - bpb
    let sub := if eb < tol ∨ g < tol then 0 else corner g (apb - amb) ea eb
    let s := bmt - bpt
    if s + eb ≤ tol then .ok 0
    else
      let t := apt - amt
      let v := apt - amb
      if t + v ≤ tol then .ok (1 - sub) else .ok (band s t v eb - sub)
  | 6, 1 =>
    let s := apt - amb
    let suba :=
      if s + ea ≤ tol then 0
      else
        let t := bmb - bpt
        let v := bmt - bpt
        if t + v > tol then band s t v ea else 1
    let s := bmt - bpb
    let subb :=
      if s + eb ≤ tol then 0
      else
        let t := apb - amt
        let v := apb - amb
        if t + v > tol then band s t v eb else 1
    .ok (max (1 - (suba + subb)) 0)
  | 1, 6 =>
    let s := bpt - bmb
    let subb :=
      if s + eb ≤ tol then 0
      else
        let t := amb - apt
        let v := amt - apt
        if t + v > tol then band s t v eb else 1
    let s := amt - apb
    let suba :=
      if s + ea ≤ tol then 0
      else
        let t := bpb - bmt
        let v := bpb - bmb
        if t + v > tol then band s t v ea else 1
    .ok (max (1 - (suba + subb)) 0)
  | 4, 3 =>
    if ea < tol then .ok 1
    else
      let g := apt - amt
      let sub1 := if g < tol then 0 else corner g (bmt - bpt) ea eb
      let g := amb - apb
      let sub2 := if g < tol then 0 else corner g (bpb - bmb) ea eb
      .ok (1 - (sub1 + sub2))
  | 3, 4 =>
    if eb < tol then .ok 1
    else
      let g := bpt - bmt
      let sub1 := if g < tol then 0 else corner g (amt - apt) ea eb
      let g := bmb - bpb
      let sub2 := if g < tol then 0 else corner g (apb - amb) ea eb
      .ok (1 - (sub1 + sub2))
  | _, _ => .error .custom

/-- an element of `juxta_list`: the layers on either side and the two fractions; for `juxtapose` (transmission.py:976-1059) -/
structure Juxta (K : Type) where
  km : Nat
  kp : Nat
  fm : K
  fp : K

/-- the distances along the pillars of the points of one side: `pamln` and `pbmln`, or `papln` and `pbpln`, by index of
point; for `juxtapose` (transmission.py:976-1059) -/
structure Side (K : Type) where
  a : Nat → Option K
  b : Nat → Option K

/-- top and base of a layer on both pillars; `none` if any is not-a-number (transmission.py:981-989, 998-1006).  `raw` is
`k_raw_index_array`, or the identity where there are no gaps. -/
def layerEnds (raw : Nat → Nat) (s : Side K) (k : Nat) : Option (K × K × K × K) :=
  match s.a (raw k), s.a (raw k + 1), s.b (raw k), s.b (raw k + 1) with
  | some at', some ab, some bt, some bb => some (at', ab, bt, bb)
  | _, _, _, _ => none

/-- `min(max(f, 0.0), 1.0)` (transmission.py:1032-1033) -/
def clip (f : K) : K := min (max f 0) 1

/-- transmission.py:998-1036 for one layer of each side: nothing if not juxtaposed -/
def juxtaPair (tol : K) (raw : Nat → Nat) (m p : Side K) (km kp : Nat) : Res (Option (Juxta K)) :=
  match layerEnds raw m km, layerEnds raw p kp with
  | some (amt, amb, bmt, bmb), some (apt, apb, bpt, bpb) =>
    if amt ≥ apb - tol ∧ bmt ≥ bpb - tol then .ok none
    else if amb ≤ apt + tol ∧ bmb ≤ bpt + tol then .ok none
    else
      match fractionalArea amt amb apt apb bmt bmb bpt bpb tol, fractionalArea apt apb amt amb bpt bpb bmt bmb tol with
      | .ok fm, .ok fp => .ok (some ⟨km, kp, clip fm, clip fp⟩)
      | .error e, _ => .error e
      | _, .error e => .error e
  | _, _ => .ok none

/-- transmission.py:994-1036: the loop over layers of the p side -/
def scanP (tol : K) (raw : Nat → Nat) (m p : Side K) (km : Nat) : List Nat → Res (List (Juxta K))
  | [] => .ok []
  | kp :: l =>
    match juxtaPair tol raw m p km kp, scanP tol raw m p km l with
    | .ok none, .ok r => .ok r
    | .ok (some x), .ok r => .ok (x :: r)
    | .error e, _ => .error e
    | _, .error e => .error e

/-- transmission.py:1038-1045: fractions for a layer of the m side divided by their total if that is more than one -/
def scaleM (l : List (Juxta K)) : List (Juxta K) :=
  let total := (l.map (·.fm)).sum
  if total > 1 then l.map fun x => { x with fm := x.fm / total } else l

/-- transmission.py:980-1045: the loop over layers of the m side -/
def scanM (tol : K) (raw : Nat → Nat) (m p : Side K) (nk : Nat) : List Nat → Res (List (Juxta K))
  | [] => .ok []
  | km :: l =>
    match scanP tol raw m p km (List.range nk), scanM tol raw m p nk l with
    | .ok x, .ok r => .ok (scaleM x ++ r)
    | .error e, _ => .error e
    | _, .error e => .error e

/-- `fa_p_totals[kp]` (transmission.py:977, 1036) -/
def totalP (l : List (Juxta K)) (kp : Nat) : K := ((l.filter fun x => x.kp == kp).map (·.fp)).sum

/-- transmission.py:1046-1058: fractions for a layer of the p side divided by their total if that is more than one -/
def scaleP (l : List (Juxta K)) : List (Juxta K) :=
  l.map fun x => if totalP l x.kp > 1 then { x with fp := x.fp / totalP l x.kp } else x

/-- transmission.py:976-1059 `juxtapose`, from the distances along the pillars (how these are worked out from the points,
952-974, is left out, as is the information for warnings).  When a pillar has no point at all an empty list is returned
where the caller expects a pair (954-955, 1080): ValueError. -/
def juxtapose (tol : K) (raw : Nat → Nat) (nk raws : Nat) (m p : Side K) : Res (List (Juxta K)) :=
  let missing : (Nat → Option K) → Bool := fun f => (List.range raws).all fun n => (f n).isNone
  if missing m.a || missing p.a || missing m.b || missing p.b then .error .value
  else
    match scanM tol raw m p nk (List.range nk) with
    | .ok l => .ok (scaleP l)
    | .error e => .error e

/-- a cell with its layer, row and column; for `faultPairs` (transmission.py:1071-1115) -/
abbrev Cell3 := Nat × Nat × Nat

/-- an entry of `combo_list`: two cells, whether it is a J face, the fractions; for `faultPairs` (transmission.py:1071-1134) -/
structure FaultPair (K : Type) where
  cellM : Cell3
  cellP : Cell3
  isJ : Bool
  fm : K
  fp : K

/-- transmission.py:1074-1092, 1096-1113: the loop over the split column faces of one axis; `sides` gives the distances
along the pillars for the minus and plus sides of the face -/
def faultAxis (isJ : Bool) (tol : K) (raw : Nat → Nat) (nk raws : Nat) (sides : Nat → Nat → Side K × Side K)
    (inactive : Option (Cell3 → Bool)) : List (Nat × Nat) → Res (List (FaultPair K))
  | [] => .ok []
  | (j, i) :: l =>
    match juxtapose tol raw nk raws (sides j i).1 (sides j i).2, faultAxis isJ tol raw nk raws sides inactive l with
    | .ok x, .ok r =>
      .ok ((x.filterMap fun e =>
        let cm : Cell3 := (e.km, j, i)
        let cp : Cell3 := if isJ then (e.kp, j + 1, i) else (e.kp, j, i + 1)
        if (match inactive with | some f => f cm || f cp | none => false) then none else some ⟨cm, cp, isJ, e.fm, e.fp⟩) ++ r)
    | .error e, _ => .error e
    | _, .error e => .error e

/-- transmission.py:1061-1118 `fault_connection_set`: the pairs, J faces first; `none` if there are none.  `splitJ` and
`splitI` are the internal column faces with a split pillar.  The connection set object is built with one entry for each
pair, J+ and J- or I+ and I- faces (1120-1148). -/
def faultPairs (split : Bool) (tol : K) (raw : Nat → Nat) (nk raws : Nat) (splitJ splitI : List (Nat × Nat))
    (sidesJ sidesI : Nat → Nat → Side K × Side K) (inactive : Option (Cell3 → Bool)) : Res (Option (List (FaultPair K))) :=
  if split = false then .ok none
  else
    match faultAxis true tol raw nk raws sidesJ inactive splitJ, faultAxis false tol raw nk raws sidesI inactive splitI with
    | .ok x, .ok y => if (x ++ y).isEmpty then .ok none else .ok (some (x ++ y))
    | .error e, _ => .error e
    | _, .error e => .error e

end Verif.Transmit
