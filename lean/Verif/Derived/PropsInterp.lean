import Verif.Derived.Interp
import Verif.CpGrid.Props
import Mathlib.Tactic.Ring
import Mathlib.Tactic.Linarith

/-! # C82: grids interpolated between two others -/

namespace Verif.Derived
open Verif.Py Verif.CpGrid

variable {K : Type} [Field K] [LinearOrder K] [IsStrictOrderedRing K]

/-- `q` is the point at fraction `w` of the way from `a` to `b` -/
def OnWay (w : K) (a b q : Pt K) : Prop :=
  q.1 - a.1 = w * (b.1 - a.1) ∧ q.2.1 - a.2.1 = w * (b.2.1 - a.2.1) ∧ q.2.2 - a.2.2 = w * (b.2.2 - a.2.2)

/-- a corner of a cell: `k`, `j`, `i` of the cell and `kp`, `jp`, `ip` of the corner, for a grid without K gaps -/
def cornerOf (g : IGrid K) (m : Pillars.Mapping) (k j i kp jp ip : Nat) : Pt K := g.pts (k + kp) (m j i jp ip)

omit [LinearOrder K] [IsStrictOrderedRing K] in
theorem blend_onWay (w : K) (a b : Pt K) : OnWay w a b (blend w a b) := by
  unfold OnWay blend
  refine ⟨?_, ?_, ?_⟩ <;> dsimp only <;> ring

omit [LinearOrder K] [IsStrictOrderedRing K] in
/-- none of the way is the start -/
theorem onWay_zero {a b q : Pt K} : OnWay 0 a b q ↔ q = a := by
  unfold OnWay
  simp only [zero_mul, sub_eq_zero]
  constructor
  · rintro ⟨h1, h2, h3⟩; exact Prod.ext h1 (Prod.ext h2 h3)
  · rintro rfl; exact ⟨rfl, rfl, rfl⟩

omit [LinearOrder K] [IsStrictOrderedRing K] in
/-- the whole way is the end -/
theorem onWay_one {a b q : Pt K} : OnWay 1 a b q ↔ q = b := by
  unfold OnWay
  simp only [one_mul, sub_left_inj]
  constructor
  · rintro ⟨h1, h2, h3⟩; exact Prod.ext h1 (Prod.ext h2 h3)
  · rintro rfl; exact ⟨rfl, rfl, rfl⟩

omit [Field K] [LinearOrder K] [IsStrictOrderedRing K] in
theorem planes_of_no_gaps (g : IGrid K) (h : g.kGaps = none) : g.planes = g.nk + 1 := by unfold IGrid.planes; rw [h]

omit [Field K] [LinearOrder K] [IsStrictOrderedRing K] in
theorem cpOf_no_gaps (g : IGrid K) (m : Pillars.Mapping) (h : g.kGaps = none) (k j i kp jp ip : Nat) :
    cpOf g m k j i kp jp ip = cornerOf g m k j i kp jp ip := by
  unfold cpOf cornerOf IGrid.hasGaps
  rw [h]
  rfl

/-- Between two grids which are both unfaulted, or have the same split pillars, every corner of every cell of the new grid is exactly at
the fraction asked for of the way from where it is in the first grid to where it is in the second; the new grid is faulted as they are. -/
theorem C82_pillars_partial (a b : IGrid K) (w tol : K) (hw : 0 ≤ w ∧ w ≤ 1)
    (hext : a.nk = b.nk ∧ a.tab.nj = b.tab.nj ∧ a.tab.ni = b.tab.ni) (hkind : a.kind = b.kind) (hga : a.kGaps = none) (hgb : b.kGaps = none)
    (htab : (a.tab.hasSplit = false ∧ b.tab.hasSplit = false) ∨ a.tab = b.tab) (ma mb : Pillars.Mapping)
    (hma : Pillars.columnPillarMapping a.tab = .ok ma) (hmb : Pillars.columnPillarMapping b.tab = .ok mb) :
    ∃ r, interpolated a b w tol = .ok r ∧ r.nk = a.nk ∧ r.kGaps = none ∧ r.tab = a.tab ∧
      ∀ k j i kp jp ip, InGrid a.nk a.tab.nj a.tab.ni k j i kp jp ip →
        OnWay w (cornerOf a ma k j i kp jp ip) (cornerOf b mb k j i kp jp ip) (cornerOf r ma k j i kp jp ip) := by
  have hpl : a.planes = b.planes := by rw [planes_of_no_gaps a hga, planes_of_no_gaps b hgb, hext.1]
  have hf : fromPillars a b = true := by
    unfold fromPillars
    rcases htab with ⟨h1, h2⟩ | h
    · simp [h1, h2]
    · rw [h]
      cases b.tab.hasSplit <;> simp [hpl]
  have hmm : ma = mb := by
    rcases htab with ⟨h1, h2⟩ | h
    · unfold Pillars.columnPillarMapping at hma hmb
      rw [h1, if_neg (by simp)] at hma
      rw [h2, if_neg (by simp)] at hmb
      rw [← Except.ok.inj hma, ← Except.ok.inj hmb]
      unfold Pillars.unsplitMapping
      rw [hext.2.2]
    · rw [h, hmb] at hma
      exact (Except.ok.inj hma).symm
  refine ⟨{ nk := a.nk, kind := a.kind, kGaps := none, raw := fun k => k, tab := a.tab
            pts := fun k p => blend w (a.pts k p) (b.pts k p), inactive := bothInactive a b }, ?_, rfl, rfl, rfl, ?_⟩
  · unfold interpolated
    rw [if_pos hw, if_pos hext, if_pos hkind, if_pos hf, if_pos hpl]
  · intro k j i kp jp ip _
    rw [hmm]
    exact blend_onWay w _ _

theorem closeAll_eq (nk nj ni : Nat) (cp : Cp K) (v : K) (hv : maxGap nk nj ni cp ≤ v) :
    closeAll nk nj ni cp = (checkForKGaps nk nj ni v cp).2 := by
  unfold closeAll checkForKGaps
  by_cases h : 1 < nk
  · rw [if_pos h, if_pos h, if_neg (not_lt.2 hv)]
    split <;> rfl
  · rw [if_neg h, if_neg h]

omit [IsStrictOrderedRing K] in
theorem basePlanes_get (nk : Nat) (cp : Cp K) (k kp : Nat) (hk : k < nk) (hkp : kp ≤ 1) :
    (basePlanes nk cp)[k + kp]? = some (if k + kp = 0 then topOf cp 0 else baseOf cp (k + kp - 1)) := by
  unfold basePlanes
  rcases Nat.eq_zero_or_pos (k + kp) with h | h
  · rw [h, if_pos rfl]; rfl
  · obtain ⟨n, hn⟩ : ∃ n, k + kp = n + 1 := ⟨k + kp - 1, by omega⟩
    rw [hn, if_neg (by omega), List.getElem?_cons_succ, List.getElem?_map, List.getElem?_range (by omega)]
    rfl

/-- Between any other two grids the new grid is made again from corner points: every corner of every cell is, in each coordinate, within
the splitting tolerance and half the largest void left between layers of the point at the fraction asked for of the way from where it is
in the first grid to where it is in the second. -/
theorem C82_corners_partial (a b : IGrid K) (w tol v : K) (hw : 0 ≤ w ∧ w ≤ 1) (htol : 0 ≤ tol) (hv : 0 ≤ v)
    (hext : a.nk = b.nk ∧ a.tab.nj = b.tab.nj ∧ a.tab.ni = b.tab.ni) (hni : 0 < a.tab.ni) (hkind : a.kind = b.kind)
    (hf : fromPillars a b = false) (ma mb : Pillars.Mapping)
    (hma : Pillars.columnPillarMapping a.tab = .ok ma) (hmb : Pillars.columnPillarMapping b.tab = .ok mb)
    (hvoid : ∀ k, VoidsWithin a.nk a.tab.nj a.tab.ni (fun k j i kp jp ip => blend w (cpOf a ma k j i kp jp ip) (cpOf b mb k j i kp jp ip)) v k) :
    ∃ r mr, interpolated a b w tol = .ok r ∧ r.nk = a.nk ∧ r.tab.nj = a.tab.nj ∧ r.tab.ni = a.tab.ni ∧ r.kGaps = none ∧
      Pillars.columnPillarMapping r.tab = .ok mr ∧
      ∀ k j i kp jp ip, InGrid a.nk a.tab.nj a.tab.ni k j i kp jp ip →
        ∃ q, OnWay w (cpOf a ma k j i kp jp ip) (cpOf b mb k j i kp jp ip) q ∧ Within (tol + v / 2) (cornerOf r mr k j i kp jp ip) q := by
  set nk := a.nk with hnk
  set nj := a.tab.nj with hnj
  set ni := a.tab.ni with hni'
  set cp0 : Cp K := fun k j i kp jp ip => blend w (cpOf a ma k j i kp jp ip) (cpOf b mb k j i kp jp ip) with hcp0
  have hmax : maxGap nk nj ni cp0 ≤ v := (maxGap_le hv).2 fun k hk => (layerGap_le hv).2 (hvoid k hk)
  have hclose := closeAll_eq nk nj ni cp0 v hmax
  set cp := closeAll nk nj ni cp0 with hcp
  set tr := trace (basePlanes nk cp) with htr
  obtain ⟨hI, -⟩ := extraRefs_spec (nj := nj) (ni := ni) (tr := tr) (active := fun _ _ => true) htol
  set s := extraRefs nj ni tol tr (fun _ _ => true) true with hs
  set lines := pointLines nj ni tr (fun _ _ => true) s with hlines
  have key : ∃ t mr, splitTables nj ni (!s.list.isEmpty) s = .ok t ∧ t.nj = nj ∧ t.ni = ni ∧ Pillars.columnPillarMapping t = .ok mr ∧
      ∃ bb : Bool, (bb = false → s.list = []) ∧
        ∀ j i jp ip, j < nj → i < ni → jp ≤ 1 → ip ≤ 1 → mr j i jp ip = pillarsForColumn nj ni bb s j i jp ip := by
    cases hemp : s.list.isEmpty with
    | true =>
      refine ⟨⟨nj, ni, false, [], [], []⟩, Pillars.unsplitMapping ⟨nj, ni, false, [], [], []⟩, rfl, rfl, rfl, rfl, false, fun _ => List.isEmpty_iff.mp hemp, ?_⟩
      intro j i jp ip _ _ _ _
      unfold Pillars.unsplitMapping pillarsForColumn
      rfl
    | false =>
      have ht := splitTables_ok hI
      obtain ⟨m, hm, hm'⟩ := mapping_agrees hI ht hni
      exact ⟨_, m, ht, rfl, rfl, hm, true, fun h => (by cases h), hm'⟩
  obtain ⟨t, mr, ht, ht1, ht2, hmr, bb, hbb, hmap⟩ := key
  refine ⟨{ nk := nk, kind := (a.kind.1, a.kind.2.1, "curved"), kGaps := none, raw := fun k => k, tab := t, pts := fun k p => (lines.getD p []).getD k (0, 0, 0), inactive := bothInactive a b }, mr, ?_, rfl, ht1, ht2, rfl, hmr, ?_⟩
  · unfold interpolated
    rw [if_pos hw, if_pos hext, if_pos hkind, if_neg (by simp [hf]), hma, hmb]
    dsimp only
    rw [ht]
  · intro k j i kp jp ip h
    obtain ⟨hk, hj, hi, hkp, hjp, hip⟩ := id h
    refine ⟨cp0 k j i kp jp ip, blend_onWay w _ _, ?_⟩
    have hplane : ∀ col c, (tr col c)[k + kp]? = some ((if k + kp = 0 then topOf cp 0 else baseOf cp (k + kp - 1)) col c) := by
      intro col c
      rw [htr, trace_get, basePlanes_get nk cp k kp hk hkp]
      rfl
    have hown : (if k + kp = 0 then topOf cp 0 else baseOf cp (k + kp - 1)) (j, i) (jp, ip) = cp k j i kp jp ip := by
      rcases (by omega : kp = 0 ∨ kp = 1) with rfl | rfl
      · rcases Nat.eq_zero_or_pos k with rfl | h0
        · rfl
        · rw [if_neg (by omega)]
          obtain ⟨n, rfl⟩ : ∃ n, k = n + 1 := ⟨k - 1, by omega⟩
          show cp n j i 1 jp ip = cp (n + 1) j i 0 jp ip
          rw [hclose]
          refine (closed_meet hv hk hj hi hjp hip ?_).symm
          exact not_lt.2 ((maxGap_le hv).1 hmax n hk)
      · rw [if_neg (by omega)]
        rfl
    obtain ⟨l, l1, l2, q, -, -, l3⟩ := mapping_line (tr := tr) (active := fun _ _ => true) htol hj hi hjp hip bb hbb
    have hx : l[k + kp]? = some ((if k + kp = 0 then topOf cp 0 else baseOf cp (k + kp - 1)) (colOf (j + jp, i + ip) q) q) := by
      rw [l3]; exact hplane _ _
    have hy := hplane (j, i) (jp, ip)
    rw [hown] at hy
    have hpt : cornerOf (K := K) { nk := nk, kind := (a.kind.1, a.kind.2.1, "curved"), kGaps := none, raw := fun k => k, tab := t, pts := fun k p => (lines.getD p []).getD k (0, 0, 0), inactive := bothInactive a b } mr k j i kp jp ip =
        (if k + kp = 0 then topOf cp 0 else baseOf cp (k + kp - 1)) (colOf (j + jp, i + ip) q) q := by
      unfold cornerOf
      dsimp only
      have e1 : lines.getD (pillarsForColumn nj ni bb s j i jp ip) [] = l := by
        rw [List.getD_eq_getElem?_getD]
        exact congrArg (fun o : Option (List (Pt K)) => o.getD []) l1
      rw [hmap j i jp ip hj hi hjp hip, e1, List.getD_eq_getElem?_getD, hx, Option.getD_some]
    rw [hpt]
    refine within_trans (within_comm (aligned_get l2 hy hx)) ?_
    rw [hclose]
    exact closed_within hv h

/-- Grids without K gaps leave no voids: with no tolerance the corners are exact whatever the split pillars are. -/
theorem C82_corners_exact_partial (a b : IGrid K) (w : K) (hw : 0 ≤ w ∧ w ≤ 1)
    (hext : a.nk = b.nk ∧ a.tab.nj = b.tab.nj ∧ a.tab.ni = b.tab.ni) (hni : 0 < a.tab.ni) (hkind : a.kind = b.kind)
    (hf : fromPillars a b = false) (ma mb : Pillars.Mapping) (hga : a.kGaps = none) (hgb : b.kGaps = none)
    (hma : Pillars.columnPillarMapping a.tab = .ok ma) (hmb : Pillars.columnPillarMapping b.tab = .ok mb) :
    ∃ r mr, interpolated a b w 0 = .ok r ∧ Pillars.columnPillarMapping r.tab = .ok mr ∧
      ∀ k j i kp jp ip, InGrid a.nk a.tab.nj a.tab.ni k j i kp jp ip →
        OnWay w (cornerOf a ma k j i kp jp ip) (cornerOf b mb k j i kp jp ip) (cornerOf r mr k j i kp jp ip) := by
  obtain ⟨r, mr, h1, -, -, -, -, h2, h3⟩ := C82_corners_partial a b w 0 0 hw le_rfl le_rfl hext hni hkind hf ma mb hma hmb (by
    intro k _ j i jp ip _ _ _ _
    simp only [cpOf_no_gaps a ma hga, cpOf_no_gaps b mb hgb]
    exact within_zero.2 rfl)
  refine ⟨r, mr, h1, h2, ?_⟩
  intro k j i kp jp ip h
  obtain ⟨q, q1, q2⟩ := h3 k j i kp jp ip h
  rw [cpOf_no_gaps a ma hga, cpOf_no_gaps b mb hgb] at q1
  have : (0 : K) + 0 / 2 = 0 := by simp
  rw [this, within_zero] at q2
  rw [q2]
  exact q1

/-- Either way: between any two grids of the same extents and kind, without K gaps, the corners of all cells are exact if the tolerance is
zero, each found with the pillars of its own grid. -/
theorem C82_any_faults_partial (a b : IGrid K) (w : K) (hw : 0 ≤ w ∧ w ≤ 1)
    (hext : a.nk = b.nk ∧ a.tab.nj = b.tab.nj ∧ a.tab.ni = b.tab.ni) (hni : 0 < a.tab.ni) (hkind : a.kind = b.kind)
    (ma mb : Pillars.Mapping) (hga : a.kGaps = none) (hgb : b.kGaps = none)
    (hma : Pillars.columnPillarMapping a.tab = .ok ma) (hmb : Pillars.columnPillarMapping b.tab = .ok mb) :
    ∃ r mr, interpolated a b w 0 = .ok r ∧ Pillars.columnPillarMapping r.tab = .ok mr ∧
      ∀ k j i kp jp ip, InGrid a.nk a.tab.nj a.tab.ni k j i kp jp ip →
        OnWay w (cornerOf a ma k j i kp jp ip) (cornerOf b mb k j i kp jp ip) (cornerOf r mr k j i kp jp ip) := by
  cases hf : fromPillars a b with
  | false => exact C82_corners_exact_partial a b w hw hext hni hkind hf ma mb hga hgb hma hmb
  | true =>
    have htab : (a.tab.hasSplit = false ∧ b.tab.hasSplit = false) ∨ a.tab = b.tab := by
      unfold fromPillars at hf
      split at hf
      · rename_i h
        rw [Bool.and_eq_true] at h
        exact Or.inl ⟨by simpa using h.1, by simpa using h.2⟩
      · simp only [Bool.and_eq_true, decide_eq_true_eq] at hf
        obtain ⟨⟨⟨⟨⟨h1, h2⟩, -⟩, h3⟩, h4⟩, h5⟩ := hf
        right
        have key : ∀ x y : Pillars.Grid, x.nj = y.nj → x.ni = y.ni → x.hasSplit = y.hasSplit → x.spi = y.spi → x.cols = y.cols →
            x.cl = y.cl → x = y := by
          rintro ⟨⟩ ⟨⟩ rfl rfl rfl rfl rfl rfl
          rfl
        exact key _ _ hext.2.1 hext.2.2 (h1.trans h2.symm) h3 h4 h5
    obtain ⟨r, h1, -, -, h2, h3⟩ := C82_pillars_partial a b w 0 hw hext hkind hga hgb htab ma mb hma hmb
    exact ⟨r, ma, h1, by rw [h2]; exact hma, h3⟩

omit [IsStrictOrderedRing K] in
/-- A cell of the new grid is inactive where it is in both grids; there is no mask at all unless both grids have one. -/
theorem C82_inactive (a b r : IGrid K) (w tol : K) (h : interpolated a b w tol = .ok r) :
    (r.inactive = none ↔ a.inactive = none ∨ b.inactive = none) ∧
    ∀ f, r.inactive = some f → ∃ fa fb, a.inactive = some fa ∧ b.inactive = some fb ∧
      ∀ k j i, f k j i = true ↔ fa k j i = true ∧ fb k j i = true := by
  have hr : r.inactive = bothInactive a b := by
    unfold interpolated at h
    split at h
    · split at h
      · split at h
        · split at h
          · split at h
            · cases h; rfl
            · cases h
          · split at h
            · dsimp only at h
              split at h
              · cases h
              · cases h; rfl
            · cases h
            · cases h
        · cases h
      · cases h
    · cases h
  rw [hr]
  unfold bothInactive
  cases a.inactive with
  | none => simp
  | some fa => cases b.inactive with
    | none => simp
    | some fb =>
      refine ⟨by simp, ?_⟩
      intro f hf
      cases hf
      exact ⟨fa, fb, rfl, rfl, fun k j i => by simp⟩

omit [IsStrictOrderedRing K] in
/-- Fractions outside zero to one, and grids with different extents or of different kinds, are refused. -/
theorem C82_refused (a b : IGrid K) (w tol : K)
    (h : w < 0 ∨ 1 < w ∨ a.nk ≠ b.nk ∨ a.tab.nj ≠ b.tab.nj ∨ a.tab.ni ≠ b.tab.ni ∨ a.kind ≠ b.kind) :
    interpolated a b w tol = .error .assertion := by
  unfold interpolated
  split
  · rename_i h1
    split
    · rename_i h2
      split
      · rename_i h3
        rcases h with h | h | h | h | h | h
        · exact absurd h1.1 (not_le.2 h)
        · exact absurd h1.2 (not_le.2 h)
        · exact absurd h2.1 h
        · exact absurd h2.2.1 h
        · exact absurd h2.2.2 h
        · exact absurd h3 h
      · rfl
    · rfl
  · rfl

/-- two layers of one column, 1 thick, with a gap of 1 between them -/
def exGap : IGrid ℚ :=
  { nk := 2, kind := (true, true, "straight"), kGaps := some 1, raw := fun k => if k = 0 then 0 else 2, tab := ⟨1, 1, false, [], [], []⟩
    pts := fun k p => (p, 0, k), inactive := none }

/-- The K gaps of the two grids are forgotten: with none of the way asked for between a grid with a K gap and itself, the second layer
of what is made is in the gap. -/
theorem C82_gaps_violated : ∃ r, (interpolated exGap exGap 0 0).toOption = some r ∧
    cpOf exGap (Pillars.unsplitMapping exGap.tab) 1 0 0 0 0 0 = (0, 0, 2) ∧ cpOf r (Pillars.unsplitMapping r.tab) 1 0 0 0 0 0 = (0, 0, 1) := by
  refine ⟨{ nk := 2, kind := (true, true, "straight"), kGaps := none, raw := fun k => k, tab := ⟨1, 1, false, [], [], []⟩
            pts := fun k p => blend 0 (exGap.pts k p) (exGap.pts k p), inactive := none }, ?_, by decide +kernel, by decide +kernel⟩
  rfl

/-- an unfaulted row of two columns, and one with a fault between the columns -/
def exFlat : IGrid ℚ :=
  { nk := 1, kind := (true, true, "straight"), kGaps := none, raw := fun k => k, tab := ⟨1, 2, false, [], [], []⟩
    pts := fun k p => ((p % 3 : Nat), (p / 3 : Nat), k), inactive := some fun _ _ i => i == 1 }
def exThrown : IGrid ℚ :=
  { nk := 1, kind := (true, true, "straight"), kGaps := none, raw := fun k => k, tab := ⟨1, 2, true, [1, 4], [1, 1], [1, 2]⟩
    pts := fun k p => if p < 6 then ((p % 3 : Nat), (p / 3 : Nat), k) else (1, (p - 6 : Nat), k + 4), inactive := some fun _ _ i => i == 1 }

/-- the hypotheses of `C82_corners_partial` and `C82_corners_exact_partial` are met -/
example : fromPillars exFlat exThrown = false ∧ (∃ ma, Pillars.columnPillarMapping exFlat.tab = .ok ma) ∧
    ∃ mb, Pillars.columnPillarMapping exThrown.tab = .ok mb := ⟨by decide +kernel, ⟨_, rfl⟩, ⟨_, rfl⟩⟩

/-- half way between them the throw is half; it is the first column which has the extra pillars -/
example : (match interpolated exFlat exThrown (1 / 2) (1 / 100) with
    | .ok r => decide (r.tab.spi = [1, 4] ∧ r.tab.cols = [0, 0] ∧ r.pts 0 1 = (1, 0, 2) ∧ r.pts 0 6 = (1, 0, 0) ∧ r.pts 1 7 = (1, 1, 1))
    | .error _ => false) = true := by decide +kernel

/-- the hypotheses of `C82_pillars_partial` are met by grids which differ -/
example : exThrown.tab = { exThrown with pts := fun k p => exThrown.pts (2 * k) p }.tab ∧
    exThrown.pts 1 0 ≠ exThrown.pts (2 * 1) 0 := ⟨rfl, by decide +kernel⟩

end Verif.Derived
