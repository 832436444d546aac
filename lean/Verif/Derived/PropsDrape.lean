import Verif.Derived.Drape
import Verif.Derived.PropsThrow

/-! # C85: grids draped to a surface -/

namespace Verif.Derived
open Verif.Py Verif.Pillars

variable {V : Type} [AddCommGroup V] [Module ℚ V]

/-- the mean of the corners of columns which meet at a node -/
def nodeMean (tab : Pillars.Grid) (m : Mapping) (pts : Nat → V) (j i : Nat) : V :=
  mean ((around tab.nj tab.ni j i).map (cornerPoint m pts))

/-- a grid with columns and without K gaps, whose pillars by column are known -/
structure Plain (g : Grid V) (m : Mapping) : Prop where
  mapping : columnPillarMapping g.tab = .ok m
  fresh : g.cache = none
  gaps : g.kGaps = none
  nj : 0 < g.tab.nj
  ni : 0 < g.tab.ni

theorem mean_add {ι : Type} (l : List ι) (hl : l ≠ []) (p : ι → V) (d : V) : mean (l.map fun x => p x + d) = mean (l.map p) + d := by
  have hn : (l.length : ℚ) ≠ 0 := by
    intro h0
    exact hl (List.length_eq_zero_iff.1 (by exact_mod_cast h0))
  have gen : ∀ l : List ι, (l.map fun x => p x + d).sum = (l.map p).sum + (l.length : ℚ) • d := by
    intro l
    induction l with
    | nil => simp
    | cons x l ih =>
      rw [List.map_cons, List.sum_cons, ih, List.map_cons, List.sum_cons, List.length_cons]
      push_cast
      module
  unfold mean
  rw [gen, List.length_map, List.length_map, smul_add, smul_smul, one_div, inv_mul_cancel₀ hn, one_smul]

theorem unsplit_mean {g : Grid V} {m : Mapping} (h : Plain g m) (b : Bool) :
    ∃ u, unsplitPoints g b = .ok (u, if b then { g with cache := some u } else g) ∧
      ∀ k j i, j ≤ g.tab.nj → i ≤ g.tab.ni → u k j i = nodeMean g.tab m (g.pts k) j i := by
  by_cases hs : g.tab.hasSplit = true
  · refine ⟨fun k j i => unsplitNode g.tab.nj g.tab.ni m (g.pts k) j i, ?_, fun k j i hj hi => unsplitNode_mean _ _ m _ j i h.nj h.ni hj hi⟩
    unfold unsplitPoints
    rw [h.fresh]
    dsimp only
    rw [if_pos hs, h.mapping]
  · refine ⟨fun k j i => g.pts k (j * (g.tab.ni + 1) + i), ?_, ?_⟩
    · unfold unsplitPoints
      rw [h.fresh]
      dsimp only
      rw [if_neg hs]
    · intro k j i hj hi
      refine (mean_const _ _ (by simp [around_ne _ _ _ _ h.nj h.ni hj hi]) ?_).symm
      intro y hy
      obtain ⟨c, hcm, rfl⟩ := List.mem_map.1 hy
      obtain ⟨h3, h4, h5, h6, h7, h8⟩ := around_mem hcm
      unfold cornerPoint
      rw [(C31_mapping_spec (j := c.1) (jp := c.2.2.1) h.mapping h4 h6).1 (Or.inl (by simpa using hs))]
      unfold naturalPillar
      rw [h7, h8]

/-- the translation of the pillar of a corner of a column is that of its node -/
theorem translation_corner {tab : Pillars.Grid} {m : Mapping} (hm : columnPillarMapping tab = .ok m) (tr : Nat → V) {j i jp ip : Nat}
    (hj : j < tab.nj) (hi : i < tab.ni) (hjp : jp ≤ 1) (hip : ip ≤ 1) :
    translationOf tab tr (m j i jp ip) = tr ((j + jp) * (tab.ni + 1) + (i + ip)) := by
  have hlt := idx_lt (nj := tab.nj) (ni := tab.ni) (j := j + jp) (i := i + ip) (by omega) (by omega)
  unfold translationOf
  dsimp only
  rcases mapping_cases (j := j) (jp := jp) hm hi hip with e | ⟨k, e', e⟩
  · rw [e, if_pos hlt]
  · rw [e, if_neg (by omega), Nat.add_sub_cancel_left, List.getD_eq_getElem?_getD, e']
    rfl

/-- Draping succeeds when the line from the top to the base of the (mean) pillar of every node meets the surface.  Then the corners of
columns at a node are all shifted alike, at every interface, by what takes the mean of those in the plane of reference to the point of
the surface. -/
theorem C85_shifts (pick : V → V → Option V) {g : Grid V} {m : Mapping} (h : Plain g m) (ref : Nat) (base : Bool) (hr : ref < g.nk)
    (R : Nat) (hR : R = if base then ref + 1 else ref) (x : Nat → Nat → V)
    (hx : ∀ j i, j ≤ g.tab.nj → i ≤ g.tab.ni →
      pick (nodeMean g.tab m (g.pts 0) j i) (nodeMean g.tab m (g.pts g.nk) j i - nodeMean g.tab m (g.pts 0) j i) = some (x j i)) :
    ∃ new, drape pick g ref base = .ok new ∧ new.nk = g.nk ∧ new.kGaps = g.kGaps ∧ new.tab = g.tab ∧
      ∀ k j i jp ip, j < g.tab.nj → i < g.tab.ni → jp ≤ 1 → ip ≤ 1 →
        cornerPoint m (new.pts k) (j, i, jp, ip) = cornerPoint m (g.pts k) (j, i, jp, ip) +
          (x (j + jp) (i + ip) - nodeMean g.tab m (g.pts R) (j + jp) (i + ip)) := by
  obtain ⟨u, eu, hu⟩ := unsplit_mean h true
  rw [if_pos rfl] at eu
  have hg : g.nkPlusGaps = g.nk := by unfold Grid.nkPlusGaps; rw [h.gaps]
  have hpick : ∀ j i, j ≤ g.tab.nj → i ≤ g.tab.ni → pick (u 0 j i) (u g.nkPlusGaps j i - u 0 j i) = some (x j i) := by
    intro j i hj hi
    rw [hg, hu 0 j i hj hi, hu g.nk j i hj hi]
    exact hx j i hj hi
  refine ⟨{ g with cache := some u, pts := fun k p => g.pts k p + translationOf g.tab (fun p =>
      (pick (u 0 (p / (g.tab.ni + 1)) (p % (g.tab.ni + 1))) (u g.nkPlusGaps (p / (g.tab.ni + 1)) (p % (g.tab.ni + 1)) -
        u 0 (p / (g.tab.ni + 1)) (p % (g.tab.ni + 1)))).getD 0 -
      u (if base then ref + 1 else ref) (p / (g.tab.ni + 1)) (p % (g.tab.ni + 1))) p }, ?_, rfl, rfl, rfl, ?_⟩
  · unfold drape
    rw [if_pos hr, eu]
    dsimp only
    rw [if_pos]
    rw [List.all_eq_true]
    intro p hp
    rw [List.mem_range] at hp
    rw [hpick]
    · rfl
    · have := (Nat.div_lt_iff_lt_mul (by omega : 0 < g.tab.ni + 1)).2 hp; omega
    · have := Nat.mod_lt p (by omega : 0 < g.tab.ni + 1); omega
  · intro k j i jp ip hj hi hjp hip
    obtain ⟨d1, d2⟩ := Pillars.div_mod_of (n := g.tab.ni + 1) (a := i + ip) (b := j + jp) (by omega)
    unfold cornerPoint
    dsimp only
    rw [translation_corner h.mapping _ hj hi hjp hip, d1, d2, hpick _ _ (by omega) (by omega), ← hR, hu R _ _ (by omega) (by omega)]
    rfl

/-- The node is on the surface afterwards: the mean of the corners which meet there, in the plane of reference, is the point where the
line met the surface. -/
theorem C85_on_surface (pick : V → V → Option V) {g : Grid V} {m : Mapping} (h : Plain g m) (ref : Nat) (base : Bool) (hr : ref < g.nk)
    (R : Nat) (hR : R = if base then ref + 1 else ref) (x : Nat → Nat → V)
    (hx : ∀ j i, j ≤ g.tab.nj → i ≤ g.tab.ni →
      pick (nodeMean g.tab m (g.pts 0) j i) (nodeMean g.tab m (g.pts g.nk) j i - nodeMean g.tab m (g.pts 0) j i) = some (x j i))
    {new : Grid V} (hn : drape pick g ref base = .ok new) (j i : Nat) (hj : j ≤ g.tab.nj) (hi : i ≤ g.tab.ni) :
    nodeMean g.tab m (new.pts R) j i = x j i := by
  obtain ⟨new', e, -, -, -, hw⟩ := C85_shifts pick h ref base hr R hR x hx
  rw [hn] at e
  cases e
  have : nodeMean g.tab m (new.pts R) j i = mean ((around g.tab.nj g.tab.ni j i).map fun c =>
      cornerPoint m (g.pts R) c + (x j i - nodeMean g.tab m (g.pts R) j i)) := by
    unfold nodeMean
    congr 1
    apply List.map_congr_left
    intro c hc
    obtain ⟨h3, h4, h5, h6, h7, h8⟩ := around_mem hc
    have := hw R c.1 c.2.1 c.2.2.1 c.2.2.2 h3 h4 h5 h6
    rw [h7, h8] at this
    exact this
  rw [this, mean_add _ (around_ne _ _ _ _ h.nj h.ni hj hi)]
  unfold nodeMean
  module

/-- Layers keep their thickness at the corners of columns, and faults their throws. -/
theorem C85_thickness_throw_kept (pick : V → V → Option V) {g : Grid V} {m : Mapping} (h : Plain g m) (ref : Nat) (base : Bool)
    (hr : ref < g.nk) (x : Nat → Nat → V)
    (hx : ∀ j i, j ≤ g.tab.nj → i ≤ g.tab.ni →
      pick (nodeMean g.tab m (g.pts 0) j i) (nodeMean g.tab m (g.pts g.nk) j i - nodeMean g.tab m (g.pts 0) j i) = some (x j i))
    {new : Grid V} (hn : drape pick g ref base = .ok new) (k k' j i jp ip j' i' jp' ip' : Nat) (hj : j < g.tab.nj) (hi : i < g.tab.ni)
    (hjp : jp ≤ 1) (hip : ip ≤ 1) (hj' : j' < g.tab.nj) (hi' : i' < g.tab.ni) (hjp' : jp' ≤ 1) (hip' : ip' ≤ 1) (same : j + jp = j' + jp')
    (same' : i + ip = i' + ip') :
    cornerPoint m (new.pts k) (j, i, jp, ip) - cornerPoint m (new.pts k') (j', i', jp', ip') =
      cornerPoint m (g.pts k) (j, i, jp, ip) - cornerPoint m (g.pts k') (j', i', jp', ip') := by
  obtain ⟨new', e, -, -, -, hw⟩ := C85_shifts pick h ref base hr _ rfl x hx
  rw [hn] at e
  cases e
  rw [hw k j i jp ip hj hi hjp hip, hw k' j' i' jp' ip' hj' hi' hjp' hip', ← same, ← same']
  module

/-- A layer out of range, or a pillar which does not meet the surface, stops it. -/
theorem C85_refused (pick : V → V → Option V) {g : Grid V} {m : Mapping} (h : Plain g m) (ref : Nat) (base : Bool)
    (hb : g.nk ≤ ref ∨ ∃ j i, j ≤ g.tab.nj ∧ i ≤ g.tab.ni ∧
      pick (nodeMean g.tab m (g.pts 0) j i) (nodeMean g.tab m (g.pts g.nk) j i - nodeMean g.tab m (g.pts 0) j i) = none) :
    drape pick g ref base = .error .assertion := by
  obtain ⟨u, eu, hu⟩ := unsplit_mean h true
  have hg : g.nkPlusGaps = g.nk := by unfold Grid.nkPlusGaps; rw [h.gaps]
  unfold drape
  by_cases hr : ref < g.nk
  · rcases hb with hb | ⟨j, i, hj, hi, hp⟩
    · omega
    · rw [if_pos hr, eu]
      dsimp only
      rw [if_neg]
      rw [List.all_eq_true]
      intro hall
      obtain ⟨d1, d2⟩ := Pillars.div_mod_of (n := g.tab.ni + 1) (a := i) (b := j) (by omega)
      have := hall (j * (g.tab.ni + 1) + i) (List.mem_range.2 (idx_lt hj hi))
      rw [d1, d2, hg, hu 0 j i hj hi, hu g.nk j i hj hi, hp] at this
      cases this
  · rw [if_neg hr]

/-- The grid which is returned answers a question about its unsplit points with those of the grid it was made from, wherever the surface
is: the answer is kept before the points are shifted. -/
theorem C85_unsplit_points_stale_violated (pick : V → V → Option V) {g : Grid V} {m : Mapping} (h : Plain g m) (ref : Nat) (base : Bool)
    {new : Grid V} (hn : drape pick g ref base = .ok new) (c : Bool) :
    ∃ u, unsplitPoints new c = .ok (u, new) ∧ ∀ k j i, j ≤ g.tab.nj → i ≤ g.tab.ni → u k j i = nodeMean g.tab m (g.pts k) j i := by
  obtain ⟨u, eu, hu⟩ := unsplit_mean h true
  rw [if_pos rfl] at eu
  refine ⟨u, ?_, hu⟩
  unfold drape at hn
  rw [eu] at hn
  dsimp only at hn
  split at hn
  · split at hn
    · cases hn
      rfl
    · cases hn
  · cases hn

/-! ## A case: one column of one layer, from 0 to 1, and a level surface at 5 -/

def exLevel : Grid ℚ := ⟨1, none, ⟨1, 1, false, [], [], []⟩, fun k _ => k, none⟩

def exPick (_ v : ℚ) : Option ℚ := if v = 0 then none else some 5

example : ∃ m, Plain exLevel m := ⟨unsplitMapping exLevel.tab, rfl, rfl, rfl, by decide, by decide⟩

/-- the hypotheses of the theorems are met -/
theorem exMeets (j i : Nat) (hj : j ≤ exLevel.tab.nj) (hi : i ≤ exLevel.tab.ni) :
    exPick (nodeMean exLevel.tab (unsplitMapping exLevel.tab) (exLevel.pts 0) j i)
      (nodeMean exLevel.tab (unsplitMapping exLevel.tab) (exLevel.pts exLevel.nk) j i -
        nodeMean exLevel.tab (unsplitMapping exLevel.tab) (exLevel.pts 0) j i) = some 5 := by
  have hj : j ≤ 1 := hj
  have hi : i ≤ 1 := hi
  have : (j = 0 ∨ j = 1) ∧ (i = 0 ∨ i = 1) := by omega
  obtain ⟨rfl | rfl, rfl | rfl⟩ := this <;> decide +kernel

/-- the top of the draped column is at 5 and its base at 6, while its unsplit points are said to be at 0 and 1 -/
example : ∃ new, drape exPick exLevel 0 false = .ok new ∧ new.pts 0 0 = 5 ∧ new.pts 1 0 = 6 ∧
    ∃ u, unsplitPoints new false = .ok (u, new) ∧ u 0 0 0 = 0 := by
  obtain ⟨new, e, -, -, -, h⟩ := C85_shifts exPick (g := exLevel) (m := unsplitMapping exLevel.tab) ⟨rfl, rfl, rfl, by decide, by decide⟩ 0 false
    (by decide) 0 rfl (fun _ _ => 5) exMeets
  obtain ⟨u, e', hu⟩ := C85_unsplit_points_stale_violated exPick (g := exLevel) (m := unsplitMapping exLevel.tab)
    ⟨rfl, rfl, rfl, by decide, by decide⟩ 0 false e false
  refine ⟨new, e, ?_, ?_, u, e', ?_⟩
  · refine (h 0 0 0 0 0 (by decide) (by decide) (by decide) (by decide)).trans ?_
    decide +kernel
  · refine (h 1 0 0 0 0 (by decide) (by decide) (by decide) (by decide)).trans ?_
    decide +kernel
  · refine (hu 0 0 0 (by decide) (by decide)).trans ?_
    decide +kernel

end Verif.Derived
