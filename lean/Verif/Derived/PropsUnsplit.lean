import Verif.Derived.Spec
import Verif.Pillars.Props
import Mathlib.Tactic.Module

/-! # C80: grids with their faults healed -/

namespace Verif.Derived
open Verif.Py Verif.Pillars

variable {V : Type} [AddCommGroup V] [Module ℚ V]

theorem around_eq (nj ni j i : Nat) (hnj : 0 < nj) (hni : 0 < ni) (hj : j ≤ nj) (hi : i ≤ ni) :
    around nj ni j i = (if j < nj ∧ i < ni then [(j, i, 0, 0)] else []) ++ ((if j < nj ∧ 0 < i then [(j, i - 1, 0, 1)] else []) ++
      ((if 0 < j ∧ i < ni then [(j - 1, i, 1, 0)] else []) ++ (if 0 < j ∧ 0 < i then [(j - 1, i - 1, 1, 1)] else []))) := by
  unfold around
  have a : (decide (0 ≤ j ∧ j - 0 < nj ∧ 0 ≤ i ∧ i - 0 < ni)) = decide (j < nj ∧ i < ni) := decide_eq_decide.2 (by omega)
  have b : (decide (0 ≤ j ∧ j - 0 < nj ∧ 1 ≤ i ∧ i - 1 < ni)) = decide (j < nj ∧ 0 < i) := decide_eq_decide.2 (by omega)
  have c : (decide (1 ≤ j ∧ j - 1 < nj ∧ 0 ≤ i ∧ i - 0 < ni)) = decide (0 < j ∧ i < ni) := decide_eq_decide.2 (by omega)
  have d : (decide (1 ≤ j ∧ j - 1 < nj ∧ 1 ≤ i ∧ i - 1 < ni)) = decide (0 < j ∧ 0 < i) := decide_eq_decide.2 (by omega)
  simp only [List.filter_cons, List.filter_nil]
  rw [a, b, c, d]
  simp only [decide_eq_true_eq]
  split <;> split <;> split <;> split <;> rfl

theorem unsplitNode_mean (nj ni : Nat) (m : Mapping) (pts : Nat → V) (j i : Nat) (hnj : 0 < nj) (hni : 0 < ni) (hj : j ≤ nj) (hi : i ≤ ni) :
    unsplitNode nj ni m pts j i = mean ((around nj ni j i).map (cornerPoint m pts)) := by
  have c1 : (j = nj ∧ ¬ j < nj ∧ 0 < j ∧ ¬ j = 0) ∨ (j = 0 ∧ ¬ 0 < j ∧ j < nj ∧ ¬ j = nj) ∨
      (0 < j ∧ 0 < j ∧ j < nj ∧ ¬ j = 0 ∧ ¬ j = nj) := by omega
  have c2 : (i = ni ∧ ¬ i < ni ∧ 0 < i ∧ ¬ i = 0) ∨ (i = 0 ∧ ¬ 0 < i ∧ i < ni ∧ ¬ i = ni) ∨
      (0 < i ∧ 0 < i ∧ i < ni ∧ ¬ i = 0 ∧ ¬ i = ni) := by omega
  rw [around_eq nj ni j i hnj hni hj hi]
  unfold unsplitNode
  rcases c1 with ⟨a1, a2, a3, a4⟩ | ⟨a1, a2, a3, a4⟩ | ⟨a1, a2, a3, a4⟩ <;>
    rcases c2 with ⟨b1, b2, b3, b4⟩ | ⟨b1, b2, b3, b4⟩ | ⟨b1, b2, b3, b4⟩ <;>
    simp only [a2, a3, a4, b2, b3, b4, if_true, if_false, and_true, true_and, and_false, false_and, List.nil_append,
      List.append_nil, List.cons_append, List.map_cons, List.map_nil, mean, List.length_cons, List.length_nil, List.sum_cons, List.sum_nil,
      cornerPoint] <;>
    (first | (rw [a1, b1]) | (rw [a1]) | (rw [b1]) | skip) <;> norm_num <;> (try module)

theorem around_mem {nj ni j i : Nat} {c : Nat × Nat × Nat × Nat} (h : c ∈ around nj ni j i) :
    c.1 < nj ∧ c.2.1 < ni ∧ c.2.2.1 ≤ 1 ∧ c.2.2.2 ≤ 1 ∧ c.1 + c.2.2.1 = j ∧ c.2.1 + c.2.2.2 = i := by
  unfold around at h
  obtain ⟨q, hq, rfl⟩ := List.mem_map.1 h
  obtain ⟨h1, h2⟩ := List.mem_filter.1 hq
  simp only [decide_eq_true_eq] at h2
  have : q.1 ≤ 1 ∧ q.2 ≤ 1 := by
    simp only [List.mem_cons, List.not_mem_nil, or_false] at h1
    rcases h1 with rfl | rfl | rfl | rfl <;> simp
  dsimp only
  omega

theorem around_ne (nj ni j i : Nat) (hnj : 0 < nj) (hni : 0 < ni) (hj : j ≤ nj) (hi : i ≤ ni) : around nj ni j i ≠ [] := by
  rw [around_eq nj ni j i hnj hni hj hi]
  have : (j < nj ∧ i < ni) ∨ (j < nj ∧ 0 < i) ∨ (0 < j ∧ i < ni) ∨ (0 < j ∧ 0 < i) := by omega
  rcases this with h | h | h | h <;> simp [h]

theorem mean_const (l : List V) (x : V) (hl : l ≠ []) (h : ∀ y ∈ l, y = x) : mean l = x := by
  have e : l = List.replicate l.length x := List.eq_replicate_iff.2 ⟨rfl, h⟩
  have hn : (l.length : ℚ) ≠ 0 := by
    intro h0
    exact hl (List.length_eq_zero_iff.1 (by exact_mod_cast h0))
  unfold mean
  have hs : l.sum = (l.length : ℚ) • x := by
    rw [e, List.sum_replicate, List.length_replicate, Nat.cast_smul_eq_nsmul]
  rw [hs, smul_smul, one_div, inv_mul_cancel₀ hn, one_smul]

/-- The unsplit points of a grid with split pillars: the point of a node is the mean of those at which the columns which meet there (four,
two at an edge or one at a corner of the grid) have it, at every interface. -/
theorem C80_unsplit_points (g : Grid V) (cacheArray : Bool) (m : Mapping) (hs : g.tab.hasSplit = true)
    (hm : columnPillarMapping g.tab = .ok m) (hc : g.cache = none) (hnj : 0 < g.tab.nj) (hni : 0 < g.tab.ni) :
    ∃ a g', unsplitPoints g cacheArray = .ok (a, g') ∧ ∀ k j i, j ≤ g.tab.nj → i ≤ g.tab.ni →
      a k j i = mean ((around g.tab.nj g.tab.ni j i).map (cornerPoint m (g.pts k))) := by
  refine ⟨fun k j i => unsplitNode g.tab.nj g.tab.ni m (g.pts k) j i, if cacheArray then
    { g with cache := some fun k j i => unsplitNode g.tab.nj g.tab.ni m (g.pts k) j i } else g, ?_, ?_⟩
  · unfold unsplitPoints
    rw [hc]
    dsimp only
    rw [if_pos hs, hm]
  · intro k j i hj hi
    exact unsplitNode_mean _ _ m (g.pts k) j i hnj hni hj hi

/-- A node at which no pillar is added keeps its point. -/
theorem C80_unfaulted_nodes_kept (g : Grid V) (cacheArray : Bool) (m : Mapping) (hs : g.tab.hasSplit = true)
    (hm : columnPillarMapping g.tab = .ok m) (hc : g.cache = none) (hnj : 0 < g.tab.nj) (hni : 0 < g.tab.ni) (a : Nat → Nat → Nat → V)
    (g' : Grid V) (h : unsplitPoints g cacheArray = .ok (a, g')) (j i : Nat) (hj : j ≤ g.tab.nj) (hi : i ≤ g.tab.ni)
    (hn : j * (g.tab.ni + 1) + i ∉ g.tab.spi) (k : Nat) : a k j i = g.pts k (j * (g.tab.ni + 1) + i) := by
  obtain ⟨a', g'', e, h2⟩ := C80_unsplit_points g cacheArray m hs hm hc hnj hni
  rw [h] at e
  cases e
  rw [h2 k j i hj hi]
  refine mean_const _ _ (by simp [around_ne _ _ _ _ hnj hni hj hi]) ?_
  intro y hy
  obtain ⟨c, hcm, rfl⟩ := List.mem_map.1 hy
  obtain ⟨h3, h4, h5, h6, h7, h8⟩ := around_mem hcm
  unfold cornerPoint
  rw [(C31_mapping_spec (j := c.1) (jp := c.2.2.1) hm h4 h6).1]
  · unfold naturalPillar; rw [h7, h8]
  · right
    rintro n ⟨hn1, -⟩
    unfold naturalPillar at hn1
    rw [h7, h8] at hn1
    exact hn (List.mem_of_getElem? hn1)

/-- A grid without split pillars has its own points. -/
theorem C80_unsplit_points_plain (g : Grid V) (cacheArray : Bool) (hs : g.tab.hasSplit = false) (hc : g.cache = none) :
    ∃ a g', unsplitPoints g cacheArray = .ok (a, g') ∧ ∀ k j i, a k j i = g.pts k (j * (g.tab.ni + 1) + i) := by
  refine ⟨fun k j i => g.pts k (j * (g.tab.ni + 1) + i), if cacheArray then
    { g with cache := some fun k j i => g.pts k (j * (g.tab.ni + 1) + i) } else g, ?_, ?_⟩
  · unfold unsplitPoints
    rw [hc]
    dsimp only
    rw [if_neg (by simp [hs])]
  · intro k j i; rfl

/-- Asking for the points changes nothing of the grid but what is kept of the answer, and the answer to the same question after that is
the same. -/
theorem C80_asked_again (g g' : Grid V) (b c : Bool) (a : Nat → Nat → Nat → V) (h : unsplitPoints g b = .ok (a, g')) :
    g'.nk = g.nk ∧ g'.kGaps = g.kGaps ∧ g'.tab = g.tab ∧ g'.pts = g.pts ∧ ∃ g'', unsplitPoints g' c = .ok (a, g'') := by
  unfold unsplitPoints at h
  cases hc : g.cache with
  | some a' =>
    rw [hc] at h
    cases h
    refine ⟨rfl, rfl, rfl, rfl, g, ?_⟩
    unfold unsplitPoints
    rw [hc]
  | none =>
    rw [hc] at h
    dsimp only at h
    have fin : ∀ x : Nat → Nat → Nat → V, (∀ c, unsplitPoints g c = .ok (x, if c then { g with cache := some x } else g)) →
        (.ok (x, if b then { g with cache := some x } else g) : Res _) = .ok (a, g') →
        g'.nk = g.nk ∧ g'.kGaps = g.kGaps ∧ g'.tab = g.tab ∧ g'.pts = g.pts ∧ ∃ g'', unsplitPoints g' c = .ok (a, g'') := by
      intro x hx e
      have e := Except.ok.inj e
      have e1 := congrArg Prod.fst e
      have e2 := congrArg Prod.snd e
      dsimp only at e1 e2
      subst e1
      subst e2
      cases b
      · exact ⟨rfl, rfl, rfl, rfl, _, hx c⟩
      · exact ⟨rfl, rfl, rfl, rfl, _, rfl⟩
    split at h
    · rename_i hs
      split at h
      · cases h
      · rename_i m hm
        refine fin _ (fun c => ?_) h
        unfold unsplitPoints
        rw [hc]
        dsimp only
        rw [if_pos hs, hm]
    · rename_i hs
      refine fin _ (fun c => ?_) h
      unfold unsplitPoints
      rw [hc]
      dsimp only
      rw [if_neg hs]

/-- The grid made by `unsplit_grid` from a grid with split pillars has the same layers and columns and no split pillars: the corners of
columns which meet at a node are at one point, the mean of where they were. -/
theorem C80_unsplit_grid_partial (g : Grid V) (m : Mapping) (hs : g.tab.hasSplit = true) (hm : columnPillarMapping g.tab = .ok m)
    (hc : g.cache = none) (hnj : 0 < g.tab.nj) (hni : 0 < g.tab.ni) (hg : g.kGaps.getD 0 = 0) :
    ∃ u mu, unsplitGrid g = .ok u ∧ u.nk = g.nk ∧ u.tab.nj = g.tab.nj ∧ u.tab.ni = g.tab.ni ∧ u.tab.hasSplit = false ∧
      columnPillarMapping u.tab = .ok mu ∧
      ∀ k j i jp ip, j < g.tab.nj → i < g.tab.ni → jp ≤ 1 → ip ≤ 1 →
        cornerPoint mu (u.pts k) (j, i, jp, ip) = mean ((around g.tab.nj g.tab.ni (j + jp) (i + ip)).map (cornerPoint m (g.pts k))) := by
  obtain ⟨a, g', e, h⟩ := C80_unsplit_points g false m hs hm hc hnj hni
  have hk : g.nkPlusGaps + 1 = g.nk + 1 := by
    unfold Grid.nkPlusGaps
    cases hkg : g.kGaps with
    | none => rfl
    | some n => rw [hkg] at hg; simp at hg; simp [hg]
  refine ⟨{ nk := g.nk, kGaps := g.kGaps, tab := ⟨g.tab.nj, g.tab.ni, false, [], [], []⟩,
            pts := fun k p => a k (p / (g.tab.ni + 1)) (p % (g.tab.ni + 1)), cache := none },
          unsplitMapping ⟨g.tab.nj, g.tab.ni, false, [], [], []⟩, ?_, rfl, rfl, rfl, rfl, rfl, ?_⟩
  · unfold unsplitGrid
    rw [if_pos hs, e]
    dsimp only
    rw [if_pos hk]
  · intro k j i jp ip hj hi hjp hip
    obtain ⟨d1, d2⟩ := Pillars.div_mod_of (n := g.tab.ni + 1) (a := i + ip) (b := j + jp) (by omega)
    rw [← h k (j + jp) (i + ip) (by omega) (by omega)]
    unfold cornerPoint
    dsimp only
    rw [(C31_mapping_spec (g := ⟨g.tab.nj, g.tab.ni, false, [], [], []⟩) (j := j) (jp := jp) rfl hi hip).1 (Or.inl rfl)]
    unfold naturalPillar
    dsimp only
    rw [d1, d2]

/-- A grid with K gaps cannot be unsplit, although nothing says so: whatever its points, a check of the shape of the result fails. -/
theorem C80_gaps_violated (g : Grid V) (m : Mapping) (hs : g.tab.hasSplit = true) (hm : columnPillarMapping g.tab = .ok m) (n : Nat)
    (hg : g.kGaps = some (n + 1)) : unsplitGrid g = .error .assertion := by
  have hk : ¬ g.nkPlusGaps + 1 = g.nk + 1 := by
    unfold Grid.nkPlusGaps
    rw [hg]
    dsimp only
    omega
  have : ∃ a g', unsplitPoints g false = .ok (a, g') := by
    unfold unsplitPoints
    cases g.cache with
    | some a => exact ⟨a, g, rfl⟩
    | none =>
      dsimp only
      rw [if_pos hs, hm]
      exact ⟨_, _, rfl⟩
  obtain ⟨a, g', e⟩ := this
  unfold unsplitGrid
  rw [if_pos hs, e]
  dsimp only
  rw [if_neg hk]

/-- An unfaulted grid is refused. -/
theorem C80_unfaulted_refused (g : Grid V) (hs : g.tab.hasSplit = false) : unsplitGrid g = .error .assertion := by
  unfold unsplitGrid
  rw [if_neg (by simp [hs])]

/-- a grid of two columns in one row, with a fault between them: the second column has its own pillars 6 and 7 in place of 1 and 4 -/
def exTab : Pillars.Grid := ⟨1, 2, true, [1, 4], [1, 1], [1, 2]⟩

/-- one layer; heights by pillar, the second column 10 higher at the fault -/
def exFaulted : Grid ℚ := ⟨1, none, exTab, fun k p => k * 5 + (if 6 ≤ p then 10 else 0), none⟩

/-- the hypotheses of the theorems are met by a faulted grid, in which the second column uses the extra pillars -/
example : ∃ m, columnPillarMapping exFaulted.tab = .ok m ∧ exFaulted.tab.hasSplit = true ∧ m 0 0 0 1 = 1 ∧ m 0 1 0 0 = 6 ∧ m 0 1 1 0 = 7 :=
  ⟨_, rfl, rfl, by decide +kernel, by decide +kernel, by decide +kernel⟩

/-- the fault is healed half way up -/
example : ((unsplitGrid exFaulted).toOption.map fun u => (List.range 6).map fun p => (u.pts 0 p, u.pts 1 p)) =
    some [(0, 5), (5, 10), (0, 5), (0, 5), (5, 10), (0, 5)] := by decide +kernel

end Verif.Derived
