import Verif.Extract.Lemmas3

/-! # Extracted boxes

C74: the grid extracted for a box of a source grid has the extent of the box, and each of its cells has the corner points of the
source cell, faults and K gaps included; it is inactive where the source cell is or where asked. -/

namespace Verif.Extract
open Verif.Py Verif.CpGrid

variable {P : Type}

theorem nkPlusGaps_inherit (g : Grid P) (b : Box) (hk : b.k0 ≤ b.k1) (t : Pillars.Grid) (pts : Nat → Nat → P)
    (ina : Option (Nat → Nat → Nat → Bool)) :
    b.k1 + gapsAbove g.gaps b.k1 + 1 - (b.k0 + gapsAbove g.gaps b.k0) =
      (⟨b.nk, inheritGaps g.gaps b, t, pts, ina⟩ : Grid P).nkPlusGaps := by
  have h := gapsAbove_inherit g.gaps b (k := b.k1 - b.k0) (by omega)
  rw [Nat.add_sub_cancel' hk] at h
  have h2 : (⟨b.nk, inheritGaps g.gaps b, t, pts, ina⟩ : Grid P).nkPlusGaps = b.nk + gapsAbove (inheritGaps g.gaps b) (b.k1 - b.k0) := by
    unfold Grid.nkPlusGaps gapsAbove
    dsimp only
    cases hh : inheritGaps g.gaps b with
    | none => simp
    | some a =>
      dsimp only
      rw [Option.getD_some, List.take_of_length_le]
      unfold inheritGaps at hh
      cases hg : g.gaps with
      | none =>
        rw [hg] at hh
        cases hh
      | some a' =>
        rw [hg] at hh
        dsimp only at hh
        split at hh
        · split at hh
          · cases hh
            rw [List.length_take]
            omega
          · cases hh
        · cases hh
  rw [h2]
  unfold Box.nk
  omega

/-- K gaps are kept: there is a gap below a layer of the new grid exactly where there is one below the source layer, the last layer of
the box aside. -/
theorem C74_gaps (g g' : Grid P) (b : Box) (bi : Option (Nat → Nat → Nat → Bool)) (h : extractBox g b bi = .ok g') :
    g'.nk = b.k1 - b.k0 + 1 ∧ g'.tables.nj = b.j1 - b.j0 + 1 ∧ g'.tables.ni = b.i1 - b.i0 + 1 ∧
    ∀ k, b.k0 + k < b.k1 → ((∃ a, g'.gaps = some a ∧ a[k]? = some true) ↔ ∃ a, g.gaps = some a ∧ a[b.k0 + k]? = some true) := by
  have key : g'.nk = b.nk ∧ g'.tables.nj = b.nj ∧ g'.tables.ni = b.ni ∧ g'.gaps = inheritGaps g.gaps b := by
    unfold extractBox at h
    split at h
    · cases h
    · split at h
      · dsimp only at h
        split at h
        · split at h
          · split at h
            · cases h
            · cases h
              exact ⟨rfl, (newTables_nj _).1, (newTables_nj _).2, rfl⟩
          · cases h
        · cases h
          exact ⟨rfl, rfl, rfl, rfl⟩
      · cases h
  obtain ⟨h1, h2, h3, h4⟩ := key
  refine ⟨h1, h2, h3, ?_⟩
  intro k hk
  rw [h4]
  unfold inheritGaps
  cases hg : g.gaps with
  | none => simp
  | some a =>
    dsimp only
    rw [if_pos (by omega)]
    have e : ((a.drop b.k0).take (b.k1 - b.k0))[k]? = a[b.k0 + k]? := by
      rw [List.getElem?_take_of_lt (by omega), List.getElem?_drop]
    by_cases hc : 0 < (((a.drop b.k0).take (b.k1 - b.k0)).filter id).length
    · rw [if_pos hc]
      constructor
      · rintro ⟨a', ha, hk'⟩
        cases ha
        exact ⟨a, rfl, by rw [← e]; exact hk'⟩
      · rintro ⟨a', ha, hk'⟩
        cases ha
        exact ⟨_, rfl, by rw [e]; exact hk'⟩
    · rw [if_neg hc]
      constructor
      · rintro ⟨a', ha, _⟩
        cases ha
      · rintro ⟨a', ha, hk'⟩
        cases ha
        rw [← e] at hk'
        have hmem : true ∈ ((a.drop b.k0).take (b.k1 - b.k0)).filter id := by
          rw [List.mem_filter]
          exact ⟨List.mem_of_getElem? hk', rfl⟩
        exact absurd (List.length_pos_of_mem hmem) hc

/-- A cell of the new grid is inactive exactly when the source cell is or the mask passed says so; with neither mask there is none. -/
theorem C74_inactive (g g' : Grid P) (b : Box) (bi : Option (Nat → Nat → Nat → Bool)) (h : extractBox g b bi = .ok g') :
    (g'.inactive = none ↔ g.inactive = none ∧ bi = none) ∧
    ∀ m, g'.inactive = some m → ∀ k j i, (m k j i = true ↔
      (∃ s, g.inactive = some s ∧ s (b.k0 + k) (b.j0 + j) (b.i0 + i) = true) ∨ ∃ n, bi = some n ∧ n k j i = true) := by
  have key : g'.inactive = inheritInactive g.inactive bi b := by
    unfold extractBox at h
    split at h
    · cases h
    · split at h
      · dsimp only at h
        split at h
        · split at h
          · split at h
            · cases h
            · cases h
              rfl
          · cases h
        · cases h
          rfl
      · cases h
  rw [key]
  unfold inheritInactive
  cases g.inactive <;> cases bi <;> simp

/-- Boxes that are not within the source grid are refused. -/
theorem C74_outside_refused (g : Grid P) (b : Box) (bi : Option (Nat → Nat → Nat → Bool)) (h : ¬ b.Within g) :
    extractBox g b bi = .error .assertion := by
  unfold Box.Within at h
  unfold extractBox
  rw [if_pos h]

/-- The points of every cell are kept, provided that no natural pillar has all its columns in the box on one extra pillar and is also
the origin of an extra pillar that comes later in the tables. -/
theorem C74_corners_partial (g : Grid P) (b : Box) (bi : Option (Nat → Nat → Nat → Bool)) (hg : Sound g) (hb : b.Within g)
    (hlast : ∀ n n', TakesWhole g.tables b n → n < n' → g.tables.spi[n']? ≠ g.tables.spi[n]?) :
    ∃ g', extractBox g b bi = .ok g' ∧ ∀ k j i kp jp ip, b.Inside k j i kp jp ip →
      corner g' k j i kp jp ip = corner g (b.k0 + k) (b.j0 + j) (b.i0 + i) kp jp ip ∧
      (corner g (b.k0 + k) (b.j0 + j) (b.i0 + i) kp jp ip).isSome := by
  obtain ⟨m, hm⟩ := hg.mapping
  have hb' := hb
  unfold Box.Within at hb'
  have hwith := not_not.mpr hb'
  obtain ⟨b1, b2, b3, b4, b5, b6⟩ := hb'
  have hr0 := raw_get g (k := b.k0) (by omega)
  have hr1 := raw_get g (k := b.k1) (by omega)
  -- raw indices
  have hraw : ∀ (t : Pillars.Grid) (pts : Nat → Nat → P) (ina : Option (Nat → Nat → Nat → Bool)) k, b.k0 + k ≤ b.k1 →
      ∃ r, (⟨b.nk, inheritGaps g.gaps b, t, pts, ina⟩ : Grid P).raw[k]? = some r ∧
        g.raw[b.k0 + k]? = some (b.k0 + gapsAbove g.gaps b.k0 + r) := by
    intro t pts ina k hk
    refine ⟨_, raw_get _ (by dsimp only; unfold Box.nk; omega), ?_⟩
    rw [raw_get g (by omega), gapsAbove_inherit g.gaps b hk]
    dsimp only
    congr 1
    omega
  by_cases hs : g.tables.hasSplit = true
  · have hcond : Cond g.tables b := by
      refine ⟨b5, b6, b2, b3, hg.natural, ?_, ?_⟩
      · intro n p hn
        unfold Pillars.columnPillarMapping at hm
        rw [if_pos hs] at hm
        obtain ⟨seg, hseg⟩ := placeExtras_seg _ _ _ _ hm n p hn
        exact ⟨seg, by rw [← hseg, Nat.zero_add]⟩
      · intro n n' pj pi seg h1 h2 h3 h4 h5 h6
        refine hlast n n' ⟨pj, pi, h2, h4.1, h4.2.1, h4.2.2.1, h4.2.2.2, ?_⟩ h1 (by rw [h2, h3])
        intro j i jp ip c1 c2 c3 c4 c5 c6 c7 c8
        refine ⟨by rw [h2]; unfold Pillars.naturalPillar; rw [c7, c8], seg, Pillars.segment_iff.1 h5, ?_⟩
        have := h6 (jp, ip) (by
          rw [mem_locals]
          refine ⟨⟨c5, c6⟩, ?_⟩
          unfold hasCol Box.nj Box.ni
          dsimp only
          omega)
        unfold colNo at this
        dsimp only at this
        rw [← c7, ← c8, Nat.add_sub_cancel, Nat.add_sub_cancel] at this
        exact this
    obtain ⟨s, hs1, hs2⟩ := splitLoop_inv hcond g.tables.spi 0 ⟨initialBase g.tables b, []⟩ rfl (Nat.zero_le _) (LInv.zero hcond)
    refine ⟨⟨b.nk, inheritGaps g.gaps b, newTables b s.extras, newPts g.pts b (b.k0 + gapsAbove g.gaps b.k0) s,
      inheritInactive g.inactive bi b⟩, ?_, ?_⟩
    · unfold extractBox
      rw [if_neg hwith, hr0, hr1]
      dsimp only
      rw [if_pos hs, if_pos (nkPlusGaps_inherit g b b1 _ _ _), hs1]
    · intro k j i kp jp ip hin
      unfold Box.Inside at hin
      obtain ⟨r, q1, q2⟩ := hraw (newTables b s.extras) (newPts g.pts b (b.k0 + gapsAbove g.gaps b.k0) s)
        (inheritInactive g.inactive bi b) k hin.1
      obtain ⟨m', hm'⟩ := newMapping_ok hs2
      unfold corner
      rw [q1, q2, hm]
      dsimp only
      rw [hm']
      dsimp only
      refine ⟨?_, rfl⟩
      rw [new_pillar g.pts hcond hs2 hs hg.once hm hm' hin.2.1 hin.2.2.1 hin.2.2.2.2.1 hin.2.2.2.2.2, Nat.add_assoc (b.k0 + _)]
  · refine ⟨⟨b.nk, inheritGaps g.gaps b, ⟨b.nj, b.ni, false, [], [], []⟩,
      newPts g.pts b (b.k0 + gapsAbove g.gaps b.k0) ⟨initialBase g.tables b, []⟩, inheritInactive g.inactive bi b⟩, ?_, ?_⟩
    · unfold extractBox
      rw [if_neg hwith, hr0, hr1]
      dsimp only
      rw [if_neg hs]
    · intro k j i kp jp ip hin
      unfold Box.Inside at hin
      obtain ⟨c1, c2, c3, c4, c5, c6⟩ := hin
      obtain ⟨r, q1, q2⟩ := hraw ⟨b.nj, b.ni, false, [], [], []⟩
        (newPts g.pts b (b.k0 + gapsAbove g.gaps b.k0) ⟨initialBase g.tables b, []⟩) (inheritInactive g.inactive bi b) k c1
      unfold corner
      rw [q1, q2, hm]
      dsimp only
      refine ⟨?_, rfl⟩
      unfold Pillars.columnPillarMapping at hm ⊢
      rw [if_neg hs] at hm
      cases hm
      rw [if_neg (by simp)]
      dsimp only
      unfold newPts Pillars.unsplitMapping initialBase
      dsimp only
      have hd := Pillars.div_mod_of (n := b.ni + 1) (a := i + ip) (b := j + jp) (by unfold Box.ni; omega)
      rw [Nat.add_assoc _ i ip, if_pos, hd.1, hd.2]
      · rw [Nat.add_assoc b.j0 j jp, Nat.add_assoc (b.k0 + _) r kp, Nat.add_assoc (_ * _) (b.i0 + i) ip, Nat.add_assoc b.i0 i ip]
      · have a1 : j + jp ≤ b.nj := by unfold Box.nj; omega
        have a2 : i + ip < b.ni + 1 := by unfold Box.ni; omega
        have := Nat.mul_le_mul_right (b.ni + 1) a1
        rw [Nat.succ_mul]
        omega

/-- The points of every cell are kept when no pillar is split more than once: at most one extra pillar comes from each natural
pillar. -/
theorem C74_simple_faults_partial (g : Grid P) (b : Box) (bi : Option (Nat → Nat → Nat → Bool)) (hg : Sound g) (hb : b.Within g)
    (honce : g.tables.spi.Nodup) :
    ∃ g', extractBox g b bi = .ok g' ∧ ∀ k j i kp jp ip, b.Inside k j i kp jp ip →
      corner g' k j i kp jp ip = corner g (b.k0 + k) (b.j0 + j) (b.i0 + i) kp jp ip ∧
      (corner g (b.k0 + k) (b.j0 + j) (b.i0 + i) kp jp ip).isSome := by
  apply C74_corners_partial g b bi hg hb
  rintro n n' ⟨pj, pi, h1, _⟩ hlt heq
  rw [h1] at heq
  obtain ⟨l1, e1⟩ := List.getElem?_eq_some_iff.mp h1
  obtain ⟨l2, e2⟩ := List.getElem?_eq_some_iff.mp heq
  have := (List.Nodup.getElem_inj_iff honce).mp (e1.trans e2.symm)
  omega

/-- The points of every cell of an unfaulted grid are kept. -/
theorem C74_unfaulted (g : Grid P) (b : Box) (bi : Option (Nat → Nat → Nat → Bool)) (hs : g.tables.hasSplit = false)
    (hspi : g.tables.spi = []) (hf : ∀ a, g.gaps = some a → a.length + 1 = g.nk) (hb : b.Within g) :
    ∃ g', extractBox g b bi = .ok g' ∧ ∀ k j i kp jp ip, b.Inside k j i kp jp ip →
      corner g' k j i kp jp ip = corner g (b.k0 + k) (b.j0 + j) (b.i0 + i) kp jp ip ∧
      (corner g (b.k0 + k) (b.j0 + j) (b.i0 + i) kp jp ip).isSome := by
  apply C74_simple_faults_partial g b bi _ hb (by rw [hspi]; exact List.nodup_nil)
  refine ⟨⟨_, by unfold Pillars.columnPillarMapping; rw [hs]; rfl⟩, by rw [hspi]; simp, ?_, hf⟩
  rintro n n' j i jp ip _ _ _ _ ⟨h, _⟩
  rw [hspi] at h
  cases h

/-- three columns of four around the middle pillar of a 2 x 2 grid on a pillar of their own -/
def threeWay : Grid (Nat × Nat) where
  nk := 1
  gaps := none
  tables := ⟨2, 2, true, [4, 4, 4], [1, 2, 3], [1, 2, 3]⟩
  pts := fun r p => (r, p)
  inactive := none

/-- The claim fails where a pillar is split more than once: when the column with index (0, 1) of this grid is extracted alone, its
inner corner is given the points of the natural pillar, which belong to the opposite column, in place of those of its own. -/
theorem C74_corners_violated : Sound threeWay ∧ (⟨0, 0, 1, 0, 0, 1⟩ : Box).Within threeWay ∧
    ∃ g', extractBox threeWay ⟨0, 0, 1, 0, 0, 1⟩ none = .ok g' ∧
      corner threeWay 0 0 1 0 1 0 = some (0, 9) ∧ corner g' 0 0 0 0 1 0 = some (0, 4) := by
  refine ⟨⟨?_, by decide, ?_, ?_⟩, by unfold Box.Within; decide, ?_⟩
  · cases h : Pillars.columnPillarMapping threeWay.tables with
    | ok m => exact ⟨m, rfl⟩
    | error e =>
      exact absurd (show (Pillars.columnPillarMapping threeWay.tables).toOption.isSome = true by decide) (by rw [h]; exact Bool.false_ne_true)
  · have hseg : ∀ n, Pillars.segment threeWay.tables n = if n < 3 then .ok [n + 1] else Pillars.segment threeWay.tables n := by
      intro n
      by_cases h : n < 3
      · rw [if_pos h]
        obtain h | h | h : n = 0 ∨ n = 1 ∨ n = 2 := by omega
        all_goals subst h; rfl
      · rw [if_neg h]
    rintro n n' j i jp ip _ _ _ _ ⟨a1, cs, a2, a3⟩ ⟨b1, ds, b2, b3⟩
    have hn : n < 3 := (List.getElem?_eq_some_iff.mp a1).1
    have hn' : n' < 3 := (List.getElem?_eq_some_iff.mp b1).1
    rw [← Pillars.segment_iff, hseg, if_pos hn] at a2
    rw [← Pillars.segment_iff, hseg, if_pos hn'] at b2
    cases a2
    cases b2
    rw [List.mem_singleton] at a3 b3
    omega
  · intro a h
    cases h
  · exact ⟨_, rfl, by decide, by decide⟩

/-- a grid of three layers with a K gap and a fault: three by one columns, the last off a pillar of its own at each end -/
def faulted : Grid (Nat × Nat) where
  nk := 3
  gaps := some [false, true]
  tables := ⟨1, 3, true, [2, 6], [2, 2], [1, 2]⟩
  pts := fun r p => (r, p)
  inactive := some fun k _ i => k == 1 && i == 2

/-- the conditions of `C74_simple_faults_partial` can be met -/
example : Sound faulted ∧ (⟨1, 0, 1, 2, 0, 2⟩ : Box).Within faulted ∧ faulted.tables.spi.Nodup := by
  refine ⟨⟨?_, by decide, ?_, ?_⟩, by unfold Box.Within; decide, by decide⟩
  · cases h : Pillars.columnPillarMapping faulted.tables with
    | ok m => exact ⟨m, rfl⟩
    | error e =>
      exact absurd (show (Pillars.columnPillarMapping faulted.tables).toOption.isSome = true by decide) (by rw [h]; exact Bool.false_ne_true)
  · rintro n n' j i jp ip _ _ _ _ ⟨a1, _⟩ ⟨b1, _⟩
    rw [← b1] at a1
    have hn' : n' < 2 := (List.getElem?_eq_some_iff.mp b1).1
    have hn : n < 2 := by
      rw [b1] at a1
      exact (List.getElem?_eq_some_iff.mp a1).1
    obtain rfl | rfl : n = 0 ∨ n = 1 := by omega
    all_goals obtain rfl | rfl : n' = 0 ∨ n' = 1 := by omega
    all_goals first | rfl | exact absurd a1 (by decide)
  · intro a h
    cases h
    rfl

example : (match extractBox faulted ⟨1, 0, 1, 2, 0, 2⟩ none with
    | .ok g' => decide (g'.tables = ⟨1, 2, true, [1, 4], [1, 1], [1, 2]⟩ ∧ g'.gaps = some [true] ∧
        corner g' 1 0 1 0 0 0 = some (3, 8) ∧ corner g' 0 0 0 1 0 1 = some (2, 2))
    | .error _ => false) = true := by decide

end Verif.Extract
