import Verif.Crs.Lemmas
import Verif.Units.Props

/-! # C21, C42, C43: coordinate reference systems -/

namespace Verif.Crs
open Verif.Py Verif.Units

/-- Local to global and back, and global to local and back, are the identity: for every crs, both global z
directions and every global axis order. -/
theorem C21_inverse (c : Crs) (p : Pt) (globalZIncDown : Bool) (globalAxisOrder : Axis) :
    c.globalToLocal (c.localToGlobal p globalZIncDown globalAxisOrder) globalZIncDown globalAxisOrder = p ∧
    c.localToGlobal (c.globalToLocal p globalZIncDown globalAxisOrder) globalZIncDown globalAxisOrder = p :=
  ⟨local_global c p _ _, global_local c p _ _⟩

/-- The array forms do to each point what the single point forms do. -/
theorem C21_arrays (c : Crs) (ps : List Pt) (gz : Bool) (g : Axis) :
    c.globalToLocalArray ps gz g = ps.map (fun p => c.globalToLocal p gz g) ∧
    c.localToGlobalArray ps gz g = ps.map (fun p => c.localToGlobal p gz g) :=
  ⟨globalToLocalArray_eq c ps gz g, localToGlobalArray_eq c ps gz g⟩

theorem convertUnits_back (U : Uoms) (hs : Sound U.data) (hn : NamesSound U.data) (c d : Crs) (ht : c.isTime = d.isTime)
    (p q : Pt) (h : convertUnits U c d p = .ok q) : convertUnits U d c q = .ok p := by
  unfold convertUnits at h ⊢
  rw [← ht]
  split at h
  · cases h
  · rename_i x hx
    split at h
    · cases h
    · rename_i y hy
      split at h
      · cases h
      · rename_i z hz
        cases h
        dsimp only
        rw [C29_roundtrip _ hs hn _ _ _ _ _ _ hx, C29_roundtrip _ hs hn _ _ _ _ _ _ hy, C29_roundtrip _ hs hn _ _ _ _ _ _ hz]

theorem convertUnits_trans (U : Uoms) (hs : Sound U.data) (hn : NamesSound U.data) (c d e : Crs) (ht : c.isTime = d.isTime)
    (p q r : Pt) (h : convertUnits U c d p = .ok q) (h' : convertUnits U d e q = .ok r) : convertUnits U c e p = .ok r := by
  unfold convertUnits at h h' ⊢
  rw [← ht] at h'
  split at h
  · cases h
  · rename_i x hx
    split at h
    · cases h
    · rename_i y hy
      split at h
      · cases h
      · rename_i z hz
        cases h
        dsimp only at h'
        split at h'
        · cases h'
        · rename_i x' hx'
          split at h'
          · cases h'
          · rename_i y' hy'
            split at h'
            · cases h'
            · rename_i z' hz'
              cases h'
              rw [C29_transitive_in_place _ hs hn _ _ _ _ _ _ _ hx hx', C29_transitive_in_place _ hs hn _ _ _ _ _ _ _ hy hy',
                C29_transitive_in_place _ hs hn _ _ _ _ _ _ _ hz hz']

/-- Converting a point to another crs and back gives the point one started with. -/
theorem C21_convert_roundtrip (U : Uoms) (hs : Sound U.data) (hn : NamesSound U.data) (c d : Crs) (p q : Pt)
    (h : convertTo U c d p = .ok q) : convertTo U d c q = .ok p := by
  unfold convertTo at h ⊢
  split at h
  · rename_i hid
    cases h
    rw [if_pos hid.symm]
  · rename_i hid
    rw [if_neg (fun hc => hid hc.symm)]
    split at h
    · cases h
    · rename_i ht
      rw [not_not] at ht
      rw [if_neg (by rw [ht]; exact fun hc => hc rfl)]
      split at h
      · cases h
      · rename_i w hw
        cases h
        rw [global_local, convertUnits_back U hs hn c d ht _ _ hw]
        dsimp only
        rw [local_global]

/-- Converting by way of a third crs makes no difference. -/
theorem C21_convert_transitive (U : Uoms) (hs : Sound U.data) (hn : NamesSound U.data) (c d e : Crs)
    (hid : ∀ a ∈ [c, d, e], ∀ b ∈ [c, d, e], a.ident = b.ident → a = b) (p q r : Pt)
    (h1 : convertTo U c d p = .ok q) (h2 : convertTo U d e q = .ok r) : convertTo U c e p = .ok r := by
  by_cases hce : c.ident = e.ident
  · have := hid c (by simp) e (by simp) hce
    subst this
    have := C21_convert_roundtrip U hs hn c d p q h1
    rw [this] at h2
    cases h2
    unfold convertTo
    rw [if_pos rfl]
  by_cases hcd : c.ident = d.ident
  · have := hid c (by simp) d (by simp) hcd
    subst this
    unfold convertTo at h1
    rw [if_pos rfl] at h1
    cases h1
    exact h2
  by_cases hde : d.ident = e.ident
  · have := hid d (by simp) e (by simp) hde
    subst this
    unfold convertTo at h2
    rw [if_pos rfl] at h2
    cases h2
    exact h1
  unfold convertTo at h1 h2 ⊢
  rw [if_neg hcd] at h1
  rw [if_neg hde] at h2
  rw [if_neg hce]
  split at h1
  · cases h1
  · rename_i t1
    rw [not_not] at t1
    split at h2
    · cases h2
    · rename_i t2
      rw [not_not] at t2
      rw [if_neg (by rw [t1, t2]; exact fun hc => hc rfl)]
      split at h1
      · cases h1
      · rename_i w hw
        cases h1
        rw [global_local] at h2
        split at h2
        · cases h2
        · rename_i w' hw'
          cases h2
          rw [convertUnits_trans U hs hn c d e t1 _ _ _ hw hw']

/-- `convert_from` is `convert_to` the other way round. -/
theorem C21_convert_from (U : Uoms) (c d : Crs) (p : Pt) : convertFrom U c d p = convertTo U d c p := by
  unfold convertFrom convertTo
  by_cases h : c.ident = d.ident
  · rw [if_pos h, if_pos h.symm]
  · have h' : ¬ d.ident = c.ident := fun hc => h hc.symm
    rw [if_neg h, if_neg h']
    by_cases ht : c.isTime = d.isTime
    · have t1 : ¬ c.isTime ≠ d.isTime := fun hc => hc ht
      have t2 : ¬ d.isTime ≠ c.isTime := fun hc => hc ht.symm
      rw [if_neg t1, if_neg t2]
    · have t1 : c.isTime ≠ d.isTime := ht
      have t2 : d.isTime ≠ c.isTime := fun hc => ht hc.symm
      rw [if_pos t1, if_pos t2]

/-! ### sense of the rotation -/

/-- a direction in the horizontal plane (easting, northing) turned clockwise, seen from above, by an angle in degrees -/
noncomputable def clockwise (deg : ℝ) (v : ℝ × ℝ) : ℝ × ℝ :=
  let r := deg * Real.pi / 180
  (v.1 * Real.cos r + v.2 * Real.sin r, -(v.1 * Real.sin r) + v.2 * Real.cos r)

/-- A rotated crs is turned clockwise from its parent by the rotation, whatever the axis order: a step `v` in local
coordinates is, in easting and northing, the step `v` would be in an unrotated crs, turned clockwise. (For global axis
orders to which switching is right, in particular the default, easting northing.) -/
theorem C42_rotation_sense (c : Crs) (hr : c.rotated) (p v : Pt) (gz : Bool) (g : Axis) (hg : goodPair c.axis g = true) :
    eastNorth g ((c.localToGlobal (p + v) gz g).1 - (c.localToGlobal p gz g).1,
        (c.localToGlobal (p + v) gz g).2.1 - (c.localToGlobal p gz g).2.1) =
      clockwise c.deg (eastNorth c.axis (v.1, v.2.1)) := by
  have lin : ∀ (a : Axis) (s t : ℝ × ℝ), eastNorth a (s.1 - t.1, s.2 - t.2) =
      ((eastNorth a s).1 - (eastNorth a t).1, (eastNorth a s).2 - (eastNorth a t).2) := by
    intro a s t
    cases a <;> simp [eastNorth] <;> ring_nf <;> simp
  have key : ∀ q : Pt, eastNorth g ((c.localToGlobal q gz g).1, (c.localToGlobal q gz g).2.1) =
      eastNorth c.axis ((unrot c q).1 + c.xOff, (unrot c q).2.1 + c.yOff) := by
    intro q
    rw [localToGlobal_eq]
    exact (C22_switch_partial c.axis g).2 hg _
  have h1 := lin g ((c.localToGlobal (p + v) gz g).1, (c.localToGlobal (p + v) gz g).2.1)
    ((c.localToGlobal p gz g).1, (c.localToGlobal p gz g).2.1)
  dsimp only at h1
  rw [h1, key, key]
  rw [← lin]
  obtain ⟨x, y, z⟩ := p
  obtain ⟨a, b, d⟩ := v
  unfold unrot
  rw [if_pos hr, if_pos hr]
  unfold Crs.applyReverse
  have e : -c.deg * Real.pi / 180 = -(c.deg * Real.pi / 180) := by ring
  cases hax : c.axis <;>
    simp only [rightHandedXy, rotate, clockwise, eastNorth, e, Real.cos_neg, Real.sin_neg, Prod.mk_add_mk,
      reduceCtorEq, decide_false, decide_true, Bool.or_false, Bool.or_true, Bool.false_or, Bool.true_or,
      Bool.false_eq_true, if_false, if_true] <;>
    refine Prod.ext ?_ ?_ <;> dsimp only <;> ring

/-! ### arrays and points -/

theorem convertUnitsArray_map (U : Uoms) (c d : Crs) (f : Pt → Pt) (g : Pt → Pt) (ps : List Pt) :
    (match convertUnitsArray U c d (ps.map f) with
      | .error e => (.error e : Res (List Pt))
      | .ok qs => .ok (qs.map g)) =
    ps.mapM fun p => (match convertUnits U c d (f p) with
      | .error e => (.error e : Res Pt)
      | .ok q => .ok (g q)) := by
  induction ps with
  | nil => rfl
  | cons p ps ih =>
    rw [List.map_cons, convertUnitsArray, List.mapM_cons, ← ih]
    cases convertUnits U c d (f p) with
    | error e => rfl
    | ok q =>
      cases convertUnitsArray U c d (ps.map f) with
      | error e => rfl
      | ok qs => rfl

/-- Converting an array gives the points that converting them one by one gives, unless the two systems are taken to be
equivalent (see the next theorem). -/
theorem C43_array_conversion_partial (U : Uoms) (c d : Crs) (hne : ¬ isEquivalent c d) (ps : List Pt) (hps : ps ≠ []) :
    convertArrayTo U c d ps = ps.mapM (convertTo U c d) := by
  have hid : ¬ c.ident = d.ident := by
    intro h
    apply hne
    unfold isEquivalent
    rw [if_pos h]
    trivial
  unfold convertArrayTo
  rw [if_neg hne, localToGlobalArray_eq]
  by_cases ht : c.isTime = d.isTime
  · have t1 : ¬ c.isTime ≠ d.isTime := fun hc => hc ht
    rw [if_neg t1]
    simp only [globalToLocalArray_eq]
    refine (convertUnitsArray_map U c d _ _ ps).trans ?_
    congr 1
    funext p
    unfold convertTo
    rw [if_neg hid, if_neg t1]
    rfl
  · have t1 : c.isTime ≠ d.isTime := ht
    rw [if_pos t1]
    cases ps with
    | nil => exact absurd rfl hps
    | cons p ps =>
      rw [List.mapM_cons]
      unfold convertTo
      rw [if_neg hid, if_pos t1]
      rfl

/-- the rotation in degrees is that given by the units (crs.py:167) -/
def Loaded (D : Data) (angles : List Uom) (c : Crs) : Prop :=
  convert D c.rotation c.rotationUnits "dega".toList (some angles) false = .ok c.deg

/-- the unit data of resqpy -/
def resqpyUoms : Uoms := ⟨theData, lengthUoms.map String.toList, timeUoms.map String.toList⟩

/-- two systems differing only in the units of rotation: 900 degrees and 900 gon -/
noncomputable def crsA : Crs := ⟨0, 0, 0, 0, 0, 900, "dega".toList, 900, "m".toList, "m".toList, true, .en, none, none, []⟩
noncomputable def crsB : Crs := ⟨1, 1, 0, 0, 0, 900, "gon".toList, 810, "m".toList, "m".toList, true, .en, none, none, []⟩

theorem crsAB_loaded : Loaded theData (angleUoms.map String.toList) crsA ∧ Loaded theData (angleUoms.map String.toList) crsB := by
  have hd : "dega".toList ∈ angleUoms.map String.toList := by decide +kernel
  have hg : "gon".toList ∈ angleUoms.map String.toList := by decide +kernel
  have mem : ∀ s, s ∈ angleUoms → valid theData s.toList = true := fun s hs => (members_ok s (by simp [hs])).1
  have ud : rqUom theData "dega".toList (some (angleUoms.map String.toList)) = .ok "dega".toList :=
    rqUom_of_valid theData_names (mem _ (by decide +kernel)) (fun m hm => by cases hm; exact hd)
  have ug : rqUom theData "gon".toList (some (angleUoms.map String.toList)) = .ok "gon".toList :=
    rqUom_of_valid theData_names (mem _ (by decide +kernel)) (fun m hm => by cases hm; exact hg)
  constructor
  · unfold Loaded convert
    show (match rqUom theData "dega".toList (some (angleUoms.map String.toList)) with
      | .error e => (.error e : Res ℝ)
      | .ok u1 => _) = _
    rw [ud]
    exact if_pos rfl
  · unfold Loaded
    obtain ⟨r, s, hr, hs, e, _⟩ := convert_eq theData_sound theData_names (900 : ℝ) ug ud
    have fr : find theData "gon".toList = some ⟨"gon", 27, 8, (0, 1), (3141592653589793, 1000000000000000), (200, 1), (0, 1)⟩ := by
      decide +kernel
    have fs : find theData "dega".toList = some ⟨"dega", 27, 8, (0, 1), (3141592653589793, 1000000000000000), (180, 1), (0, 1)⟩ := by
      decide +kernel
    rw [fr] at hr
    rw [fs] at hs
    cases hr
    cases hs
    show convert theData (900 : ℝ) "gon".toList "dega".toList (some (angleUoms.map String.toList)) false = .ok 810
    rw [e, if_pos rfl]
    congr 1
    unfold fromBase toBase frac
    norm_num

/-- The full statement fails: systems which differ in the units of rotation are taken to be equivalent, so the array form
leaves the points alone while the single point form moves them. -/
theorem C43_rotation_units_violated : ∃ c d : Crs, Loaded theData (angleUoms.map String.toList) c ∧
    Loaded theData (angleUoms.map String.toList) d ∧ ∃ p q : Pt, p ≠ q ∧ convertTo resqpyUoms c d p = .ok q ∧
      convertArrayTo resqpyUoms c d [p] = .ok [p] := by
  have um : ∀ x : ℝ, convert theData x "m".toList "m".toList (some (lengthUoms.map String.toList)) true = .ok x := by
    intro x
    have hm : "m".toList ∈ lengthUoms.map String.toList := by decide +kernel
    have hv : valid theData "m".toList = true :=
      (members_ok "m" (by
        have : "m" ∈ lengthUoms := by decide +kernel
        simp [this])).1
    have := rqUom_of_valid theData_names hv (q := some (lengthUoms.map String.toList)) (fun m e => by cases e; exact hm)
    unfold convert
    rw [this]
    dsimp only
    rw [if_pos rfl]
  have uu : ∀ p : Pt, convertUnits resqpyUoms crsA crsB p = .ok p := by
    intro p
    unfold convertUnits
    show (match convert theData p.1 "m".toList "m".toList (some (lengthUoms.map String.toList)) true with
      | .error e => (.error e : Res Pt)
      | .ok x => match convert theData p.2.1 "m".toList "m".toList (some (lengthUoms.map String.toList)) true with
        | .error e => .error e
        | .ok y => match convert theData p.2.2 "m".toList "m".toList (some (lengthUoms.map String.toList)) true with
          | .error e => .error e
          | .ok z => .ok (x, y, z)) = _
    rw [um, um, um]
  have hconv : convertTo resqpyUoms crsA crsB (1, 0, 0) =
      .ok (crsB.globalToLocal (crsA.localToGlobal (1, 0, 0) true .en) true .en) := by
    unfold convertTo
    rw [if_neg (by show ¬ (0 : Nat) = 1; decide), if_neg (by exact fun hc => hc rfl), uu]
  have far : ∀ t : ℝ, 400 ≤ t → t ≤ 1000 → ¬ isclose t 0 1e-8 ∧ ¬ isclose t 360 1e-8 := by
    intro t h1 h2
    unfold isclose
    have e1 : |t| = t := abs_of_nonneg (by linarith)
    have e2 : |t - 360| = t - 360 := abs_of_nonneg (by linarith)
    have e3 : max t (360 : ℝ) = t := max_eq_left (by linarith)
    have e4 : max t (0 : ℝ) = t := max_eq_left (by linarith)
    rw [sub_zero, e1, e2, abs_zero, e4, abs_of_pos (by norm_num : (0 : ℝ) < 360), e3]
    constructor
    · intro h
      rcases le_max_iff.1 h with h | h <;> norm_num at h <;> linarith
    · intro h
      rcases le_max_iff.1 h with h | h <;> norm_num at h <;> linarith
  have rA : crsA.rotated := far 900 (by norm_num) (by norm_num)
  have rB : crsB.rotated := far 810 (by norm_num) (by norm_num)
  have hl : crsA.localToGlobal (1, 0, 0) true .en = (-1, 0, 0) := by
    rw [localToGlobal_eq]
    unfold unrot
    rw [if_pos rA]
    have e1 : -(900 : ℝ) * Real.pi / 180 = -(Real.pi + (2 : ℕ) * (2 * Real.pi)) := by push_cast; ring
    simp only [Crs.applyReverse, crsA, rightHandedXy, rotate, e1, Real.cos_neg, Real.sin_neg, Real.cos_add_nat_mul_two_pi,
      Real.sin_add_nat_mul_two_pi, Real.cos_pi, Real.sin_pi, flip, switchAxes, rowMul, reordering, M2.t, M2.mul]
    norm_num
    exact fun h => absurd h (by decide)
  have hg : crsB.globalToLocal (-1, 0, 0) true .en = (0, -1, 0) := by
    rw [globalToLocal_eq]
    unfold rot
    rw [if_pos rB]
    have e1 : (810 : ℝ) * Real.pi / 180 = Real.pi / 2 + (2 : ℕ) * (2 * Real.pi) := by push_cast; ring
    simp only [Crs.applyRotation, crsB, rightHandedXy, rotate, e1, Real.cos_add_nat_mul_two_pi,
      Real.sin_add_nat_mul_two_pi, Real.cos_pi_div_two, Real.sin_pi_div_two, flip, switchAxes, rowMul, reordering, M2.t, M2.mul]
    norm_num
    exact fun h => absurd h (by decide)
  refine ⟨crsA, crsB, crsAB_loaded.1, crsAB_loaded.2, (1, 0, 0), (0, -1, 0), ?_, ?_, ?_⟩
  · intro h
    have := congrArg Prod.fst h
    norm_num at this
  · rw [hconv, hl, hg]
  · have hz : ∀ a : ℝ, isclose a a 1e-4 := by
      intro a
      unfold isclose
      rw [sub_self, abs_zero]
      exact le_max_of_le_right (by norm_num)
    have heq : isEquivalent crsA crsB := by
      unfold isEquivalent
      rw [if_neg (by show ¬ (0 : Nat) = 1; decide), if_neg (by show ¬ (0 : Nat) = 1; decide), if_neg (fun hc => hc rfl),
        if_neg (fun hc => hc.elim (fun h => h rfl) (fun h => h rfl)), if_neg (fun hc => hc rfl), if_neg (fun hc => hc rfl),
        if_neg (fun hc => hc rfl), if_neg (fun hc => hc (.inl rfl)), if_neg (fun hc => hc ⟨rfl, fun i hi => hi⟩),
        if_neg (fun hc => hc.1.2.2.2 rA)]
      exact ⟨hz 0, hz 0, hz 0, hz 900⟩
    unfold convertArrayTo
    rw [if_pos heq]

/-- Hypotheses of the partial theorem are met, for instance, by systems in opposite z directions. -/
example : ¬ isEquivalent crsA { crsB with zIncDown := false } := by
  unfold isEquivalent
  rw [if_neg (by show ¬ (0 : Nat) = 1; decide), if_neg (by show ¬ (0 : Nat) = 1; decide), if_neg (fun hc => hc rfl),
    if_neg (fun hc => hc.elim (fun h => h rfl) (fun h => h rfl)), if_pos (by show (true : Bool) ≠ false; decide)]
  exact fun h => h

end Verif.Crs
