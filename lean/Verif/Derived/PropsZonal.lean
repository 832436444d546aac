import Verif.Derived.Zonal
import Mathlib.Tactic.Module

/-! # C81: grids with one layer for each zone -/

namespace Verif.Derived
open Verif.Py

variable {V : Type} [AddCommGroup V] [Module ℚ V]

theorem kLimits_ok {nk : Nat} {kMin kMax : Option Nat} {lo hi : Nat} (h : kLimits nk kMin kMax = .ok (lo, hi)) :
    lo = kMin.getD 0 ∧ hi = kMax.getD (nk - 1) ∧ (kMin.isSome ∨ kMax.isSome ∨ 0 < nk → lo ≤ hi ∧ hi < nk) := by
  unfold kLimits at h
  cases kMin <;> cases kMax <;> simp only at h
  · cases h; exact ⟨rfl, rfl, fun h => by simp at h; omega⟩
  · split at h
    · cases h; exact ⟨rfl, rfl, fun h => ⟨by omega, by assumption⟩⟩
    · cases h
  · split at h
    · cases h; exact ⟨rfl, rfl, fun h => ⟨by omega, by omega⟩⟩
    · cases h
  · split at h
    · split at h
      · rename_i h2; cases h; exact ⟨rfl, rfl, fun h => ⟨h2.2, h2.1⟩⟩
      · cases h
    · cases h

theorem maskOf_iff (nk : Nat) (f : Nat → Nat → Bool) (lf : Bool) (lo hi col : Nat) (h : hi < nk) :
    maskOf nk f lf lo hi col = true ↔
      if lf then ∀ k, lo ≤ k → k ≤ hi → f k col = true else ∃ k, lo ≤ k ∧ k ≤ hi ∧ f k col = true := by
  unfold maskOf
  dsimp only
  cases lf
  · simp only [Bool.false_eq_true, if_false, List.any_eq_true, List.mem_filter, List.mem_range'_1, decide_eq_true_eq]
    constructor
    · rintro ⟨k, ⟨h1, h2⟩, h3⟩; exact ⟨k, by omega, by omega, h3⟩
    · rintro ⟨k, h1, h2, h3⟩; exact ⟨k, ⟨by omega, by omega⟩, h3⟩
  · simp only [if_true, List.all_eq_true, List.mem_filter, List.mem_range'_1, decide_eq_true_eq]
    constructor
    · intro hh k h1 h2; exact hh k ⟨by omega, by omega⟩
    · rintro hh k ⟨h1, h2⟩; exact hh k (by omega) (by omega)

/-- A single layer grid has its top at the top of the first layer chosen and its base at the base of the last, at every pillar, and
its cells are inactive where all the cells they replace are, or any of them if that is asked for. -/
theorem C81_single_layer (src : ZSource V) (kMin kMax : Option Nat) (lf : Bool) (lo hi : Nat) (hnk : 0 < src.nk)
    (hk : kLimits src.nk kMin kMax = .ok (lo, hi)) (hb : src.block = none) :
    ∃ r f, zonalGrid src none none kMin kMax lf = .ok r ∧ r.nk = 1 ∧ r.geometry = .inl f ∧
      (∀ p, f 0 p = src.pts lo p ∧ f 1 p = src.pts (hi + 1) p) ∧ (src.inactive = none ↔ r.inactive = none) ∧
      ∀ sf rf, src.inactive = some sf → r.inactive = some rf → ∀ col,
        (rf 0 col = true ↔ if lf then ∀ k, lo ≤ k → k ≤ hi → sf k col = true else ∃ k, lo ≤ k ∧ k ≤ hi ∧ sf k col = true) := by
  obtain ⟨-, -, h3⟩ := kLimits_ok hk
  obtain ⟨h4, h5⟩ := h3 (Or.inr (Or.inr hnk))
  have hp : zonalPlanes src.nk true lo hi [(lo, hi, 0)] (List.range 2) = .ok [lo, hi + 1] := by
    show zonalPlanes src.nk true lo hi [(lo, hi, 0)] [0, 1] = _
    have a : lo ≤ src.nk := by omega
    have b : hi + 1 ≤ src.nk := by omega
    simp only [zonalPlanes, zonalPlane, if_true, a, b, Nat.one_ne_zero, if_false]
  refine ⟨⟨1, src.inactive.map fun f => fun (k col : Nat) => match [(lo, hi, (0 : Int))][k]? with
      | some r => maskOf src.nk f lf r.1 r.2.1 col
      | none => false, .inl fun k p => src.pts ([lo, hi + 1].getD k 0) p⟩, _, ?_, rfl, rfl, ?_, ?_, ?_⟩
  · unfold zonalGrid
    rw [hk, hb]
    dsimp only
    simp only [Option.isNone_none, Bool.and_self, if_true, List.length_singleton, Nat.zero_lt_one]
    rw [hp]
    rfl
  · intro p; exact ⟨rfl, rfl⟩
  · dsimp only
    rw [Option.map_eq_none_iff]
  · intro sf rf h1 h2 col
    dsimp only at h2
    rw [h1] at h2
    cases h2
    exact maskOf_iff src.nk sf lf lo hi col h5

/-- the hypotheses of `C81_single_layer` are met by part of a grid of four layers -/
example : kLimits 4 (some 1) (some 2) = .ok (1, 2) := rfl

/-- a grid with four layers, one thick each -/
def exZ : ZSource ℚ := ⟨4, fun k p => k + 100 * p, some fun k col => k == 3 && col == 0, none⟩

theorem zonalPlanes_ok (nk lo hi : Nat) (ranges : List (Nat × Nat × Int)) (h0 : 0 < ranges.length)
    (h : ∀ r ∈ ranges, r.1 ≤ nk ∧ r.2.1 ≤ nk) :
    ∃ planes, zonalPlanes nk false lo hi ranges (List.range (ranges.length + 1)) = .ok planes ∧
      planes.length = ranges.length + 1 ∧ (∀ r, ranges[0]? = some r → planes[0]? = some r.1) ∧
      ∀ z r, ranges[z]? = some r → planes[z + 1]? = some r.2.1 := by
  let P : Nat → Nat := fun k => if k = 0 then ((ranges[0]?).map fun r => r.1).getD 0 else ((ranges[k - 1]?).map fun r => r.2.1).getD 0
  have one : ∀ k, k < ranges.length + 1 → zonalPlane false lo hi ranges k = .ok (P k) ∧ P k ≤ nk := by
    intro k hk
    unfold zonalPlane
    simp only [Bool.false_eq_true, if_false]
    by_cases hz : k = 0
    · subst hz
      rw [if_pos rfl]
      have e := List.getElem?_eq_getElem h0
      have := (h _ (List.getElem_mem h0)).1
      simp only [P, e, if_true, Option.map_some, Option.getD_some]
      exact ⟨trivial, this⟩
    · rw [if_neg hz]
      have hk' : k - 1 < ranges.length := by omega
      have e := List.getElem?_eq_getElem hk'
      have := (h _ (List.getElem_mem hk')).2
      simp only [P, e, if_neg hz, Option.map_some, Option.getD_some]
      exact ⟨trivial, this⟩
  have all : ∀ ks : List Nat, (∀ k ∈ ks, k < ranges.length + 1) → zonalPlanes nk false lo hi ranges ks = .ok (ks.map P) := by
    intro ks
    induction ks with
    | nil => intro _; rfl
    | cons k ks ih =>
      intro hm
      obtain ⟨h1, h2⟩ := one k (hm k List.mem_cons_self)
      rw [zonalPlanes, h1]
      dsimp only
      rw [if_pos h2, ih fun k' hk' => hm k' (List.mem_cons_of_mem _ hk')]
      rfl
  refine ⟨_, all _ (fun k hk => List.mem_range.1 hk), by simp, ?_, ?_⟩
  · intro r hr
    rw [List.getElem?_map, List.getElem?_range (by omega)]
    simp only [Option.map_some, P, if_true, hr, Option.getD_some]
  · intro z r hr
    have hz : z < ranges.length := by
      rw [List.getElem?_eq_some_iff] at hr
      exact hr.1
    rw [List.getElem?_map, List.getElem?_range (by omega)]
    simp [P, hr]

/-- What is made when zones are given, as two or more ranges of layers: one layer for each; the top of the first is at the top of the
first zone; a cell is inactive where all the cells it replaces are, or any of them if that is asked for.  Missing: the base of the layer
of a zone is at the *top* of the last layer of the zone, where it should be at its base (see `C81_zone_base_violated`). -/
theorem C81_zonal_partial (src : ZSource V) (ranges : List (Nat × Nat × Int)) (kMin kMax : Option Nat) (lf : Bool) (lo hi : Nat)
    (hk : kLimits src.nk kMin kMax = .ok (lo, hi)) (h2 : 2 ≤ ranges.length) (hr : ∀ r ∈ ranges, r.1 ≤ r.2.1 ∧ r.2.1 < src.nk) :
    ∃ g f, zonalGrid src none (some ranges) kMin kMax lf = .ok g ∧ g.nk = ranges.length ∧ g.geometry = .inl f ∧
      (∀ r, ranges[0]? = some r → ∀ p, f 0 p = src.pts r.1 p) ∧
      (∀ z r, ranges[z]? = some r → ∀ p, f (z + 1) p = src.pts r.2.1 p) ∧
      (src.inactive = none ↔ g.inactive = none) ∧
      ∀ sf rf, src.inactive = some sf → g.inactive = some rf → ∀ z r, ranges[z]? = some r → ∀ col,
        (rf z col = true ↔
          if lf then ∀ k, r.1 ≤ k → k ≤ r.2.1 → sf k col = true else ∃ k, r.1 ≤ k ∧ k ≤ r.2.1 ∧ sf k col = true) := by
  obtain ⟨planes, e, -, e0, ez⟩ := zonalPlanes_ok src.nk lo hi ranges (by omega) fun r hm => ⟨by have := hr r hm; omega, by have := hr r hm; omega⟩
  refine ⟨⟨ranges.length, src.inactive.map fun f => fun (k col : Nat) => match ranges[k]? with
      | some r => maskOf src.nk f lf r.1 r.2.1 col
      | none => false, .inl fun k p => src.pts (planes.getD k 0) p⟩, _, ?_, rfl, rfl, ?_, ?_, ?_, ?_⟩
  · unfold zonalGrid
    rw [hk]
    have hs : (ranges.length == 1) = false := by rw [beq_eq_false_iff_ne]; omega
    dsimp only
    rw [hs]
    simp only [Option.isNone_none, Bool.and_false, Bool.false_eq_true, if_false]
    rw [if_pos (by omega), e]
    rfl
  · intro r h p
    rw [List.getD_eq_getElem?_getD, e0 r h]
    rfl
  · intro z r h p
    rw [List.getD_eq_getElem?_getD, ez z r h]
    rfl
  · dsimp only
    rw [Option.map_eq_none_iff]
  · intro sf rf h1 h2 z r hz col
    dsimp only at h2
    rw [h1] at h2
    cases h2
    dsimp only
    rw [hz]
    exact maskOf_iff src.nk sf lf r.1 r.2.1 col (hr r (List.mem_of_getElem? hz)).2

/-- The base of the layer of a zone is not at the base of the zone: with a zone array which gives the two upper layers of a grid of
four to one zone and the others to another, the layer of the first zone is one layer thick rather than two, and the base of the grid
is at the top of the last layer. -/
theorem C81_zone_base_violated :
    ∃ (src : ZSource ℚ) (zones : List Zones.Layer) (g : ZResult ℚ) (f : Nat → Nat → ℚ),
      Zones.zoneLayerRanges zones 0 (some 3) = .ok [(0, 1, 5), (2, 3, 6)] ∧
      zonalGrid src (some zones) none none none true = .ok g ∧ g.geometry = .inl f ∧
      f 1 0 = src.pts 1 0 ∧ f 1 0 ≠ src.pts 2 0 ∧ f 2 0 = src.pts 3 0 ∧ f 2 0 ≠ src.pts 4 0 := by
  refine ⟨exZ, [[some 5], [some 5], [some 6], [some 6]],
    ⟨2, some fun k col => match [(0, 1, (5 : Int)), (2, 3, 6)][k]? with
      | some r => maskOf 4 (fun k col => k == 3 && col == 0) true r.1 r.2.1 col
      | none => false, .inl fun k p => exZ.pts ([0, 1, 3].getD k 0) p⟩, _, by decide +kernel, ?_, rfl, ?_, ?_, ?_, ?_⟩
  · have e : Zones.zoneLayerRanges [[some 5], [some 5], [some 6], [some 6]] 0 (some 3) = .ok [(0, 1, 5), (2, 3, 6)] := by decide +kernel
    unfold zonalGrid
    rw [show kLimits exZ.nk none none = .ok (0, 3) from rfl]
    dsimp only
    simp only [Option.isNone_some, Bool.false_and, Bool.false_eq_true, if_false]
    rw [e]
    rfl
  all_goals decide +kernel

/-- Where the first of two or more zones is of a single layer, the first layer made has no thickness: its base is where its top is. -/
theorem C81_first_layer_collapsed_violated (src : ZSource V) (ranges : List (Nat × Nat × Int)) (lf : Bool) (hnk : 0 < src.nk)
    (h2 : 2 ≤ ranges.length) (hr : ∀ r ∈ ranges, r.1 ≤ r.2.1 ∧ r.2.1 < src.nk) (h1 : ∀ r, ranges[0]? = some r → r.1 = r.2.1) :
    ∃ g f, zonalGrid src none (some ranges) none none lf = .ok g ∧ g.geometry = .inl f ∧ ∀ p, f 0 p = f 1 p := by
  obtain ⟨g, f, e1, -, e2, e3, e4, -⟩ := C81_zonal_partial src ranges none none lf 0 (src.nk - 1) rfl h2 hr
  refine ⟨g, f, e1, e2, fun p => ?_⟩
  have e := List.getElem?_eq_getElem (show 0 < ranges.length by omega)
  rw [e3 _ e, e4 0 _ e, h1 _ e]

/-- the hypotheses of `C81_zonal_partial` and `C81_first_layer_collapsed_violated` are met -/
example : kLimits exZ.nk none none = .ok (0, 3) ∧ ∀ r ∈ [(0, 0, (5 : Int)), (1, 3, 6)], r.1 ≤ r.2.1 ∧ r.2.1 < exZ.nk :=
  ⟨rfl, by decide +kernel⟩

/-- A list with a single range of layers is not used: the grid made covers all the layers instead. -/
theorem C81_one_range_ignored_violated (src : ZSource V) (r : Nat × Nat × Int) (lf : Bool) :
    zonalGrid src none (some [r]) none none lf = zonalGrid src none none none none lf := rfl

/-- A regular grid is made into a single layer correctly where the first layer is included.  Missing: for any other first layer the
origin is not moved down to it (see `C81_regular_origin_violated`). -/
theorem C81_regular_partial (src : ZSource V) (b : Block V) (hb : src.block = some b) (kMax : Option Nat) (lf : Bool) (hi : Nat)
    (hk : kLimits src.nk none kMax = .ok (0, hi)) :
    ∃ g nb, zonalGrid src none none none kMax lf = .ok g ∧ g.geometry = .inr nb ∧
      ∀ j i, nb.node 0 j i = b.node 0 j i ∧ nb.node 1 j i = b.node (hi + 1) j i := by
  refine ⟨⟨1, src.inactive.map fun f => fun (k col : Nat) => match [(0, hi, (0 : Int))][k]? with
      | some r => maskOf src.nk f lf r.1 r.2.1 col
      | none => false, .inr { b with dk := ((hi - 0 + 1 : Nat) : ℚ) • b.dk }⟩, _, ?_, rfl, ?_⟩
  · unfold zonalGrid
    rw [hk, hb]
    dsimp only
    simp only [Option.isNone_none, Bool.and_self, if_true, List.length_singleton, Nat.zero_lt_one]
    rfl
  · intro j i
    constructor
    · simp [Block.node]
    · simp [Block.node]

/-- The single layer made of the lower part of a regular grid starts at the top of the grid, not at the top of the first layer chosen. -/
theorem C81_regular_origin_violated :
    ∃ (src : ZSource ℚ) (b : Block ℚ) (g : ZResult ℚ) (nb : Block ℚ), src.block = some b ∧
      zonalGrid src none none (some 2) none true = .ok g ∧ g.geometry = .inr nb ∧
      nb.node 0 0 0 = b.node 0 0 0 ∧ nb.node 0 0 0 ≠ b.node 2 0 0 ∧ nb.node 1 0 0 ≠ b.node 4 0 0 := by
  refine ⟨⟨4, fun k p => k + 100 * p, none, some ⟨10, 1, 0, 0⟩⟩, ⟨10, 1, 0, 0⟩, ⟨1, none, .inr ⟨10, (2 : ℚ) • (1 : ℚ), 0, 0⟩⟩, ⟨10, (2 : ℚ) • (1 : ℚ), 0, 0⟩, rfl, rfl, rfl, ?_⟩
  simp [Block.node]

end Verif.Derived
