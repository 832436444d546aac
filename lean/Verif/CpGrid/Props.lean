import Verif.CpGrid.Lemmas4
import Mathlib.Data.Rat.Floor

/-! # C72 and C73: the grid made from corner points has those corner points -/

namespace Verif.CpGrid
open Verif.Py

variable {K : Type} [Field K] [LinearOrder K] [IsStrictOrderedRing K]
variable {nk nj ni : Nat} {cp : Cp K} {active : Nat → Nat → Bool} {v tol : K}

/-- the pieces of the grid made -/
theorem gridFromCp_eq (hni : 0 < ni) (htol : 0 ≤ tol) :
    ∃ g, gridFromCp nk nj ni cp active v true tol = .ok g ∧ g.nk = nk ∧ g.gaps = (checkForKGaps nk nj ni v cp).1 ∧
      g.lines = pointLines nj ni (trace (reducedPlanes nk ((checkForKGaps nk nj ni v cp).1.after.getD []) (checkForKGaps nk nj ni v cp).2))
        active (extraRefs nj ni tol (trace (reducedPlanes nk ((checkForKGaps nk nj ni v cp).1.after.getD []) (checkForKGaps nk nj ni v cp).2)) active true) ∧
      (∃ b, (b = false → (extraRefs nj ni tol (trace (reducedPlanes nk ((checkForKGaps nk nj ni v cp).1.after.getD [])
          (checkForKGaps nk nj ni v cp).2)) active true).list = []) ∧ g.tables.hasSplit = b ∧
        g.mapping = pillarsForColumn nj ni b (extraRefs nj ni tol (trace (reducedPlanes nk ((checkForKGaps nk nj ni v cp).1.after.getD [])
          (checkForKGaps nk nj ni v cp).2)) active true)) ∧
      ∃ m, Pillars.columnPillarMapping g.tables = .ok m ∧
        ∀ j i jp ip, j < nj → i < ni → jp ≤ 1 → ip ≤ 1 → m j i jp ip = g.mapping j i jp ip := by
  unfold gridFromCp
  dsimp only
  rw [Bool.true_and]
  set tr := trace (reducedPlanes nk ((checkForKGaps nk nj ni v cp).1.after.getD []) (checkForKGaps nk nj ni v cp).2) with htr
  obtain ⟨hI, _⟩ := extraRefs_spec (nj := nj) (ni := ni) (tr := tr) (active := active) htol
  set s := extraRefs nj ni tol tr active true with hs
  cases hemp : s.list.isEmpty with
  | true =>
    have hnil : s.list = [] := List.isEmpty_iff.mp hemp
    have ht : splitTables nj ni (!true) s = .ok ⟨nj, ni, false, [], [], []⟩ := rfl
    rw [ht]
    refine ⟨_, rfl, rfl, rfl, rfl, ⟨false, fun _ => hnil, rfl, rfl⟩, _, rfl, ?_⟩
    intro j i jp ip _ _ _ _
    unfold Pillars.unsplitMapping pillarsForColumn
    rfl
  | false =>
    have ht := splitTables_ok hI
    obtain ⟨m, hm, hm'⟩ := mapping_agrees hI ht hni
    rw [Bool.not_false, ht]
    exact ⟨_, rfl, rfl, rfl, rfl, ⟨true, fun h => (by cases h), rfl, rfl⟩, m, hm, hm'⟩

/-- the plane of a corner of a cell -/
theorem plane_of (hv : 0 ≤ v) {k j i kp jp ip : Nat} (h : InGrid nk nj ni k j i kp jp ip) :
    ∃ r, (Gcs.rawIndexLoop ((checkForKGaps nk nj ni v cp).1.after.getD []) 0 0 nk)[k]? = some r ∧
      ((reducedPlanes nk ((checkForKGaps nk nj ni v cp).1.after.getD []) (checkForKGaps nk nj ni v cp).2)[r + kp]?).map
        (fun p => p (j, i) (jp, ip)) = some ((checkForKGaps nk nj ni v cp).2 k j i kp jp ip) ∧
      ∀ col c, (trace (reducedPlanes nk ((checkForKGaps nk nj ni v cp).1.after.getD []) (checkForKGaps nk nj ni v cp).2) col c)[r + kp]?.isSome := by
  obtain ⟨hk, hj, hi, hkp, hjp, hip⟩ := h
  rw [reducedPlanes_eq nk (by omega)]
  obtain ⟨d, h1, h2, h3⟩ := planes_get (checkForKGaps nk nj ni v cp).2 (nk - 1) 0 0 ((checkForKGaps nk nj ni v cp).1.after.getD []) k
    (by omega)
  rw [show nk - 1 + 1 = nk by omega, Nat.add_zero, Nat.zero_add] at h1
  rw [Nat.zero_add] at h2 h3
  refine ⟨d, h1, ?_, ?_⟩
  · rcases (by omega : kp = 0 ∨ kp = 1) with rfl | rfl
    · rw [Nat.add_zero, h2]
      rfl
    · rw [h3]
      split
      · rename_i hh
        have hn : ¬ v < layerGap nj ni cp k := fun hl => hh.2 ((after_iff hv (by omega)).mpr hl)
        have := closed_meet (nk := nk) hv (by omega) hj hi hjp hip hn
        exact congrArg some this
      · rfl
  · intro col c
    rw [trace_get]
    rcases (by omega : kp = 0 ∨ kp = 1) with rfl | rfl
    · rw [Nat.add_zero, h2]
      rfl
    · rw [h3]
      rfl

/-- the point of the grid, given raw indices agreeing with the K gaps -/
theorem point_close (hv : 0 ≤ v) (htol : 0 ≤ tol) {k j i kp jp ip : Nat} (h : InGrid nk nj ni k j i kp jp ip) {g : Result K}
    (hg : gridFromCp nk nj ni cp active v true tol = .ok g) :
    ∃ q, point (reloadedRaw g) g.mapping g.lines k j i kp jp ip = some q ∧
      Within tol q ((checkForKGaps nk nj ni v cp).2 k j i kp jp ip) := by
  obtain ⟨hk, hj, hi, hkp, hjp, hip⟩ := id h
  obtain ⟨g', hg', e1, e2, e3, ⟨b, hb, _, e4⟩, _⟩ :=
    gridFromCp_eq (nk := nk) (nj := nj) (cp := cp) (active := active) (v := v) (by omega : 0 < ni) htol
  rw [hg] at hg'
  cases hg'
  obtain ⟨r, r1, r2, r3⟩ := plane_of (cp := cp) hv h
  have hraw := reloaded_raw (nj := nj) (ni := ni) (cp := cp) hv (by omega) e1 e2
  obtain ⟨l, l1, l2, q, _, _, l3⟩ := mapping_line (tr := trace (reducedPlanes nk ((checkForKGaps nk nj ni v cp).1.after.getD [])
    (checkForKGaps nk nj ni v cp).2)) (active := active) htol hj hi hjp hip b hb
  unfold point
  rw [hraw, r1, e3, e4]
  dsimp only
  rw [l1]
  dsimp only
  have hsome : (l[r + kp]?).isSome := by
    rw [l3]
    exact r3 _ _
  obtain ⟨x, hx⟩ := Option.isSome_iff_exists.mp hsome
  refine ⟨x, hx, ?_⟩
  have hy : (trace (reducedPlanes nk ((checkForKGaps nk nj ni v cp).1.after.getD []) (checkForKGaps nk nj ni v cp).2) (j, i) (jp, ip))[r + kp]? =
      some ((checkForKGaps nk nj ni v cp).2 k j i kp jp ip) := by
    rw [trace_get]
    exact r2
  exact within_comm (aligned_get l2 hy hx)

/-- C72: a grid is made from every array of corner points (with the geometry defined everywhere), whatever the tolerances; when it is
stored and read back, every corner of every cell is within the splitting tolerance, plus half the largest void that is closed, of the
corner given, in each coordinate. -/
theorem C72_reloaded_corner (hv : 0 ≤ v) (htol : 0 ≤ tol) (hni : 0 < ni) :
    ∃ g, gridFromCp nk nj ni cp active v true tol = .ok g ∧ ∀ k j i kp jp ip, InGrid nk nj ni k j i kp jp ip →
      ∃ q, reloadedPoint g k j i kp jp ip = .ok (some q) ∧ Within (tol + v / 2) q (cp k j i kp jp ip) := by
  obtain ⟨g, hg, _, _, _, _, m, hm, hm'⟩ :=
    gridFromCp_eq (nk := nk) (nj := nj) (cp := cp) (active := active) (v := v) hni htol
  refine ⟨g, hg, ?_⟩
  intro k j i kp jp ip h
  obtain ⟨q, hq, hq'⟩ := point_close hv htol h hg
  refine ⟨q, ?_, within_trans hq' (closed_within hv h)⟩
  unfold reloadedPoint
  rw [hm]
  dsimp only
  rw [← hq]
  unfold point
  rw [hm' j i jp ip h.2.1 h.2.2.1 h.2.2.2.2.1 h.2.2.2.2.2]

/-- C72: with no splitting tolerance, and if there is nothing between layers except voids beyond the limit, the grid read back has
exactly the corners given. -/
theorem C72_exact (hv : 0 ≤ v) (hni : 0 < ni)
    (hall : ∀ k, VoidsWithin nk nj ni cp 0 k ∨ ¬ VoidsWithin nk nj ni cp v k) :
    ∃ g, gridFromCp nk nj ni cp active v true 0 = .ok g ∧ ∀ k j i kp jp ip, InGrid nk nj ni k j i kp jp ip →
      reloadedPoint g k j i kp jp ip = .ok (some (cp k j i kp jp ip)) := by
  obtain ⟨g, hg, _, _, _, _, m, hm, hm'⟩ :=
    gridFromCp_eq (nk := nk) (nj := nj) (cp := cp) (active := active) (v := v) hni (le_refl (0 : K))
  refine ⟨g, hg, ?_⟩
  intro k j i kp jp ip h
  obtain ⟨q, hq, hq'⟩ := point_close hv (le_refl (0 : K)) h hg
  rw [within_zero, closed_same hv _ h] at hq'
  · rw [← hq']
    unfold reloadedPoint
    rw [hm]
    dsimp only
    rw [← hq]
    unfold point
    rw [hm' j i jp ip h.2.1 h.2.2.1 h.2.2.2.2.1 h.2.2.2.2.2]
  · intro k' hk'
    rcases hall k' with h0 | h0
    · left
      exact (layerGap_le (le_refl 0)).mpr (h0 hk')
    · right
      by_contra hc
      exact h0 (fun _ => (layerGap_le hv).mp (not_lt.mp hc))

/-- C72: there is a K gap after a layer iff somewhere the next layer is further away than the limit. -/
theorem C72_gap_iff (hv : 0 ≤ v) (htol : 0 ≤ tol) (hni : 0 < ni) {g : Result K}
    (hg : gridFromCp nk nj ni cp active v true tol = .ok g) {k : Nat} (hk : k + 1 < nk) :
    (g.gaps.after.getD [])[k]? = some true ↔ ¬ VoidsWithin nk nj ni cp v k := by
  obtain ⟨g', hg', _, e2, _⟩ := gridFromCp_eq (nk := nk) (nj := nj) (cp := cp) (active := active) (v := v) hni htol
  rw [hg] at hg'
  cases hg'
  rw [e2, after_iff hv hk, ← not_le, layerGap_le hv]
  exact ⟨fun h hh => h (hh hk), fun h hh => h (fun _ => hh)⟩

/-- C72: the mapping from columns to pillars kept with the new grid is the one made from its split tables. -/
theorem C72_mapping_agrees (htol : 0 ≤ tol) (hni : 0 < ni) {g : Result K}
    (hg : gridFromCp nk nj ni cp active v true tol = .ok g) :
    ∃ m, Pillars.columnPillarMapping g.tables = .ok m ∧
      ∀ j i jp ip, j < nj → i < ni → jp ≤ 1 → ip ≤ 1 → m j i jp ip = g.mapping j i jp ip := by
  obtain ⟨g', hg', _, _, _, _, h⟩ := gridFromCp_eq (nk := nk) (nj := nj) (cp := cp) (active := active) (v := v) hni htol
  rw [hg] at hg'
  cases hg'
  exact h

/-- C72 (partial): the corners of the grid object returned are those of the grid read back, if no layer is separated from the next
by more than the limit.  Missing: grids with K gaps, see `C72_raw_index_violated`. -/
theorem C72_memory_corner_partial (hv : 0 ≤ v) (htol : 0 ≤ tol) (hni : 0 < ni) {g : Result K}
    (hg : gridFromCp nk nj ni cp active v true tol = .ok g) (hall : ∀ k, VoidsWithin nk nj ni cp v k) :
    ∀ k j i kp jp ip, InGrid nk nj ni k j i kp jp ip → reloadedPoint g k j i kp jp ip = .ok (memoryPoint g k j i kp jp ip) := by
  obtain ⟨g', hg', e1, e2, _, _, m, hm, hm'⟩ :=
    gridFromCp_eq (nk := nk) (nj := nj) (cp := cp) (active := active) (v := v) hni htol
  rw [hg] at hg'
  cases hg'
  intro k j i kp jp ip h
  have hraw : g.gaps.raw = reloadedRaw g := by
    unfold reloadedRaw
    rw [e1, e2]
    have hmax : ¬ v < maxGap nk nj ni cp :=
      not_lt.mpr ((maxGap_le hv).mpr fun k' hk' => (layerGap_le hv).mpr (hall k' hk'))
    unfold checkForKGaps
    rw [if_neg hmax]
    by_cases h1 : 1 < nk <;> by_cases h0 : 0 < maxGap nk nj ni cp <;> simp only [h0, h1, if_true, if_false]
  unfold reloadedPoint memoryPoint
  rw [hm]
  dsimp only
  rw [hraw]
  unfold point
  rw [hm' j i jp ip h.2.1 h.2.2.1 h.2.2.2.2.1 h.2.2.2.2.2]

/-- two cells of unit size, one above the other, with a void of one between them -/
def twoCells : Cp ℚ := fun k _ _ kp jp ip => ((ip : ℚ), (jp : ℚ), (2 * k + kp : ℚ))

/-- C72 (violated): in the presence of K gaps the grid object returned has wrong raw layer indices (`k + k_gaps` is stored for layer
`k + 1`), so that the top of the second cell is read at the base of the first; the grid read back from file is right. -/
theorem C72_raw_index_violated :
    ∃ g, (gridFromCp 2 1 1 twoCells (fun _ _ => true) (1 / 10) true 0).toOption = some g ∧
      g.gaps.raw = [0, 1] ∧ reloadedRaw g = [0, 2] ∧
      memoryPoint g 1 0 0 0 0 0 = some (0, 0, 1) ∧
      (reloadedPoint g 1 0 0 0 0 0).toOption = some (some (twoCells 1 0 0 0 0 0)) ∧ twoCells 1 0 0 0 0 0 = (0, 0, 2) := by
  refine ⟨_, rfl, ?_, ?_, ?_, ?_, ?_⟩ <;> decide +kernel

/-- With three cells and two voids all but the first layer are one plane too high in memory. -/
theorem C72_raw_index_more_violated :
    ∃ g, (gridFromCp 3 1 1 twoCells (fun _ _ => true) (1 / 10) true 0).toOption = some g ∧
      g.gaps.raw = [0, 1, 3] ∧ reloadedRaw g = [0, 2, 4] := by
  refine ⟨_, rfl, ?_, ?_⟩ <;> decide +kernel

/-- C73: columns share a pillar only if their corner lines are within twice the splitting tolerance: at every layer interface of the
points the corners of the two columns are that close. -/
theorem C73_shared_line (hv : 0 ≤ v) (htol : 0 ≤ tol) {g : Result K} (hg : gridFromCp nk nj ni cp active v true tol = .ok g)
    {j i jp ip j' i' jp' ip' : Nat} (hs : g.mapping j i jp ip = g.mapping j' i' jp' ip') {k kp : Nat}
    (h : InGrid nk nj ni k j i kp jp ip) (h' : InGrid nk nj ni k j' i' kp jp' ip') :
    Within (tol + v / 2 + (tol + v / 2)) (cp k j i kp jp ip) (cp k j' i' kp jp' ip') := by
  obtain ⟨q, hq, hw⟩ := point_close hv htol h hg
  obtain ⟨q', hq', hw'⟩ := point_close hv htol h' hg
  have he : q = q' := by
    unfold point at hq hq'
    rw [hs, hq'] at hq
    cases hq
    rfl
  subst he
  have w1 := within_trans hw (closed_within hv h)
  have w2 := within_trans hw' (closed_within hv h')
  exact within_trans (within_comm w1) w2

/-- all columns meeting at each pillar have the same corners there -/
def Conforming (nk nj ni : Nat) (cp : Cp K) : Prop :=
  ∀ k kp j i jp ip j' i' jp' ip', InGrid nk nj ni k j i kp jp ip → InGrid nk nj ni k j' i' kp jp' ip' → j + jp = j' + jp' →
    i + ip = i' + ip' → cp k j i kp jp ip = cp k j' i' kp jp' ip'

theorem closeVoids_conforming (hc : Conforming nk nj ni cp) (sel : Nat → Bool) : Conforming nk nj ni (closeVoids nk sel cp) := by
  intro k kp j i jp ip j' i' jp' ip' h h' e1 e2
  obtain ⟨a1, a2, a3, a4, a5, a6⟩ := h
  obtain ⟨b1, b2, b3, b4, b5, b6⟩ := h'
  have main : ∀ k kp, k < nk → kp ≤ 1 → cp k j i kp jp ip = cp k j' i' kp jp' ip' := fun k kp hk hkp =>
    hc k kp j i jp ip j' i' jp' ip' ⟨hk, a2, a3, hkp, a5, a6⟩ ⟨hk, b2, b3, hkp, b5, b6⟩ e1 e2
  unfold closeVoids
  split
  · split
    · rw [main (k - 1) 1 (by omega) (by omega), main k 0 a1 (by omega)]
    · exact main k kp a1 a4
  · split
    · rename_i hh
      rw [main k 1 a1 (by omega), main (k + 1) 0 hh.1 (by omega)]
    · exact main k kp a1 a4

theorem checkForKGaps_conforming (hc : Conforming nk nj ni cp) : Conforming nk nj ni (checkForKGaps nk nj ni v cp).2 := by
  unfold checkForKGaps
  split
  · split
    · exact closeVoids_conforming hc _
    · split
      · exact closeVoids_conforming hc _
      · exact hc
  · exact hc

theorem innerPlanes_cases (cp : Cp K) (ks : List Nat) (gs : List Bool) {pl : Plane K} (h : pl ∈ innerPlanes cp ks gs) :
    ∃ k ∈ ks, pl = topOf cp (k + 1) ∨ pl = baseOf cp k := by
  induction ks generalizing gs with
  | nil => cases h
  | cons k ks ih =>
    cases gs with
    | nil =>
      rw [innerPlanes, List.mem_cons] at h
      rcases h with h | h
      · exact ⟨k, by simp, Or.inl h⟩
      · obtain ⟨k', hk', hh⟩ := ih [] h
        exact ⟨k', by simp [hk'], hh⟩
    | cons g gs =>
      rw [innerPlanes] at h
      split at h
      · rw [List.mem_cons, List.mem_cons] at h
        rcases h with h | h | h
        · exact ⟨k, by simp, Or.inr h⟩
        · exact ⟨k, by simp, Or.inl h⟩
        · obtain ⟨k', hk', hh⟩ := ih gs h
          exact ⟨k', by simp [hk'], hh⟩
      · rw [List.mem_cons] at h
        rcases h with h | h
        · exact ⟨k, by simp, Or.inl h⟩
        · obtain ⟨k', hk', hh⟩ := ih gs h
          exact ⟨k', by simp [hk'], hh⟩

theorem trace_conforming (hc : Conforming nk nj ni cp) (hnk : 0 < nk) (after : List Bool) {p c c' : Nat × Nat} (h4 : c ∈ four)
    (h4' : c' ∈ four) (h : hasCol nj ni p c) (h' : hasCol nj ni p c') :
    trace (reducedPlanes nk after cp) (colOf p c) c = trace (reducedPlanes nk after cp) (colOf p c') c' := by
  obtain ⟨a1, a2⟩ := mem_four.mp (show (c.1, c.2) ∈ four from h4)
  obtain ⟨b1, b2⟩ := mem_four.mp (show (c'.1, c'.2) ∈ four from h4')
  unfold hasCol at h h'
  have main : ∀ k kp, k < nk → kp ≤ 1 →
      cp k (colOf p c).1 (colOf p c).2 kp c.1 c.2 = cp k (colOf p c').1 (colOf p c').2 kp c'.1 c'.2 := by
    intro k kp hk hkp
    unfold colOf
    dsimp only
    exact hc k kp _ _ _ _ _ _ _ _ ⟨hk, h.2.1, h.2.2.2, hkp, a1, a2⟩ ⟨hk, h'.2.1, h'.2.2.2, hkp, b1, b2⟩ (by omega) (by omega)
  unfold trace
  apply List.map_congr_left
  intro pl hpl
  unfold reducedPlanes at hpl
  rw [List.mem_cons, List.mem_append, List.mem_singleton] at hpl
  rcases hpl with rfl | hpl | rfl
  · exact main 0 0 hnk (by omega)
  · obtain ⟨k, hk, hh⟩ := innerPlanes_cases cp _ _ hpl
    have := List.mem_range.mp hk
    rcases hh with rfl | rfl
    · exact main (k + 1) 0 (by omega) (by omega)
    · exact main k 1 (by omega) (by omega)
  · exact main (nk - 1) 1 (by omega) (by omega)

/-- nothing is added where all corners are aligned with the primary -/
theorem fold_none {tr : Nat × Nat → Nat × Nat → List (Pt K)} (hnj : 0 < nj) (hni : 0 < ni)
    (hal : ∀ p ∈ pillars nj ni, ∀ c ∈ four, hasCol nj ni p c →
      aligned tol (tr (colOf p c) c) (tr (colOf p (primaryJip nj ni active p)) (primaryJip nj ni active p)) = true) :
    extraRefs nj ni tol tr active true = noExtras := by
  unfold extraRefs
  rw [if_pos rfl]
  have : ∀ ps : List (Nat × Nat), (∀ p ∈ ps, p ∈ pillars nj ni) → ps.foldl (appendExtra nj ni tol tr active) noExtras = noExtras := by
    intro ps hps
    induction ps with
    | nil => rfl
    | cons p ps ih =>
      have h1 : ∀ cs : List (Nat × Nat), (∀ c ∈ cs, c ∈ four) →
          cs.foldl (appendSingle nj ni tol tr p (primaryJip nj ni active p)) noExtras = noExtras := by
        intro cs hcs
        induction cs with
        | nil => rfl
        | cons c cs ihc =>
          have h2 : appendSingle nj ni tol tr p (primaryJip nj ni active p) noExtras c = noExtras := by
            unfold appendSingle
            split
            · rfl
            rename_i hcol
            rw [not_not] at hcol
            split
            · rfl
            rw [if_pos (hal p (hps p (by simp)) c (hcs c (by simp)) hcol)]
          rw [List.foldl_cons, h2]
          exact ihc (fun x hx => hcs x (by simp [hx]))
      rw [List.foldl_cons]
      have : appendExtra nj ni tol tr active noExtras p = noExtras := h1 four (fun _ h => h)
      rw [this]
      exact ih (fun x hx => hps x (by simp [hx]))
  exact this _ (fun _ h => h)

/-- C73: if the columns around every pillar agree on the corners there, the grid has no split pillars. -/
theorem C73_unfaulted (htol : 0 ≤ tol) (hnk : 0 < nk) (hnj : 0 < nj) (hni : 0 < ni) (hc : Conforming nk nj ni cp) {g : Result K}
    (hg : gridFromCp nk nj ni cp active v true tol = .ok g) :
    g.tables.hasSplit = false ∧ g.tables.spi = [] ∧ g.lines.length = (nj + 1) * (ni + 1) ∧
      ∀ j i jp ip, g.mapping j i jp ip = (j + jp) * (ni + 1) + (i + ip) := by
  have hx := fold_none (nj := nj) (ni := ni) (tol := tol) (active := active)
    (tr := trace (reducedPlanes nk ((checkForKGaps nk nj ni v cp).1.after.getD []) (checkForKGaps nk nj ni v cp).2)) hnj hni (by
    intro p hp c h4 hcol
    obtain ⟨hp1, hp2⟩ := mem_pillars.mp hp
    obtain ⟨q1, q2⟩ := primary_hasCol hnj hni active hp1 hp2
    rw [trace_conforming (checkForKGaps_conforming (v := v) hc) hnk _ h4 q2 hcol q1]
    exact aligned_refl htol _)
  unfold gridFromCp at hg
  dsimp only at hg
  rw [hx] at hg
  cases hg
  refine ⟨rfl, rfl, ?_, ?_⟩
  · unfold pointLines
    rw [List.length_append, List.length_map, List.length_map, pillars_length]
    unfold extraOrder noExtras
    simp
  · intro j i jp ip
    show (j + jp) * (ni + 1) + i + ip = _
    omega

theorem primary_active {p : Nat × Nat} (h1 : p.1 ≤ nj) (h2 : p.2 ≤ ni)
    (h : ∃ c' ∈ four, hasCol nj ni p c' ∧ active (colOf p c').1 (colOf p c').2 = true) :
    active (colOf p (primaryJip nj ni active p)).1 (colOf p (primaryJip nj ni active p)).2 = true := by
  revert h
  rintro ⟨c', h4, hc, ha⟩
  unfold colOf at *
  unfold hasCol at hc
  obtain ⟨jp, ip⟩ := c'
  obtain ⟨pj, pi⟩ := p
  obtain ⟨e1, e2⟩ := mem_four.mp h4
  dsimp only at *
  unfold primaryJip
  dsimp only
  by_cases a : pj = nj <;> by_cases b : pi = ni <;> rcases (by omega : jp = 0 ∨ jp = 1) with rfl | rfl <;>
    rcases (by omega : ip = 0 ∨ ip = 1) with rfl | rfl <;> simp only [a, b, if_true, if_false] at * <;>
    first
    | omega
    | (repeat' split) <;> first
      | assumption
      | (simp_all; done)
      | (exfalso; simp_all; omega)

/-- C73: the points of a natural pillar come from the corners (after closing voids) of one of the columns around it, and of one with an
active cell if there is any. -/
theorem C73_primary_column (hv : 0 ≤ v) (htol : 0 ≤ tol) (hnj : 0 < nj) (hni : 0 < ni) {g : Result K}
    (hg : gridFromCp nk nj ni cp active v true tol = .ok g) {p : Nat × Nat} (h1 : p.1 ≤ nj) (h2 : p.2 ≤ ni) :
    ∃ c ∈ four, hasCol nj ni p c ∧
      ((∃ c' ∈ four, hasCol nj ni p c' ∧ active (colOf p c').1 (colOf p c').2 = true) → active (colOf p c).1 (colOf p c).2 = true) ∧
      ∀ k kp, k < nk → kp ≤ 1 → ∃ r l x, (reloadedRaw g)[k]? = some r ∧ g.lines[p.1 * (ni + 1) + p.2]? = some l ∧ l[r + kp]? = some x ∧
        Within (v / 2) x (cp k (colOf p c).1 (colOf p c).2 kp c.1 c.2) := by
  obtain ⟨q1, q2⟩ := primary_hasCol hnj hni active h1 h2
  refine ⟨_, q2, q1, primary_active h1 h2, ?_⟩
  intro k kp hk hkp
  obtain ⟨g', hg', e1, e2, e3, _⟩ := gridFromCp_eq (nk := nk) (nj := nj) (cp := cp) (active := active) (v := v) hni htol
  rw [hg] at hg'
  cases hg'
  obtain ⟨a1, a2⟩ := mem_four.mp (show ((primaryJip nj ni active p).1, (primaryJip nj ni active p).2) ∈ four from q2)
  have hin : InGrid nk nj ni k (colOf p (primaryJip nj ni active p)).1 (colOf p (primaryJip nj ni active p)).2 kp
      (primaryJip nj ni active p).1 (primaryJip nj ni active p).2 := by
    unfold hasCol at q1
    exact ⟨hk, q1.2.1, q1.2.2.2, hkp, a1, a2⟩
  obtain ⟨r, r1, r2, _⟩ := plane_of (cp := cp) hv hin
  refine ⟨r, trace (reducedPlanes nk ((checkForKGaps nk nj ni v cp).1.after.getD []) (checkForKGaps nk nj ni v cp).2)
    (colOf p (primaryJip nj ni active p)) (primaryJip nj ni active p), _, ?_, ?_, ?_, closed_within hv hin⟩
  · rw [reloaded_raw (nj := nj) (ni := ni) (cp := cp) hv (by omega) e1 e2]
    exact r1
  · rw [e3]
    exact lines_primary _ h1 h2
  · rw [trace_get]
    exact r2

/-! ## Examples -/

/-- a fault between two columns: the column at i = 1 is one lower -/
def faulted : Cp ℚ := fun k _ i kp jp ip => ((i + ip : ℚ), (jp : ℚ), (k + kp + i : ℚ))

/-- C72: two columns either side of a fault, two layers: two extra pillars, every corner as given -/
example : (match gridFromCp 2 1 2 faulted (fun _ _ => true) (1 / 10) true (1 / 100) with
    | .ok g => decide (g.tables = ⟨1, 2, true, [1, 4], [0, 0], [1, 2]⟩ ∧ g.lines.length = 8 ∧
      (reloadedPoint g 1 0 0 1 1 1).toOption = some (some (1, 1, 2)) ∧ (reloadedPoint g 1 0 1 1 1 0).toOption = some (some (1, 1, 3)))
    | .error _ => false) = true := by decide +kernel

example : InGrid 2 1 2 1 0 1 1 1 0 := by unfold InGrid; decide

/-- C72: voids beyond the limit, all others nothing -/
example : ∀ k, VoidsWithin 2 1 1 twoCells 0 k ∨ ¬ VoidsWithin 2 1 1 twoCells (1 / 10) k := by
  intro k
  by_cases h : k + 1 < 2
  · right
    intro hv
    have := (hv h 0 0 0 0 (by omega) (by omega) (by omega) (by omega)).2.2
    obtain rfl : k = 0 := by omega
    unfold twoCells at this
    norm_num at this
  · left
    intro h'
    omega

/-- C73: a regular grid conforms -/
example : Conforming (K := ℚ) 2 3 4 (fun k j i kp jp ip => (((i + ip : ℕ) : ℚ), ((j + jp : ℕ) : ℚ), ((k + kp : ℕ) : ℚ))) := by
  intro k kp j i jp ip j' i' jp' ip' _ _ e1 e2
  dsimp only
  rw [e1, e2]

/-- C73: the pillar in the middle of four columns of which only one is active -/
example : primaryJip 2 2 (fun j i => decide (j = 0 ∧ i = 1)) (1, 1) = (1, 0) := by decide

end Verif.CpGrid
