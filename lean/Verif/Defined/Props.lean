import Verif.Defined.Lemmas

/-!
# C187 and C188: the flags set by `set_geometry_is_defined`, and completed pillars
-/

namespace Verif.Defined
open Verif.Py

/-- **C187**: after the call, whatever was cached or stored before and however pillars defined only in part are
treated, a cell is said to have geometry exactly when all its eight points, on the primary pillars, are usable. -/
theorem C187_cells {d : Dims} {sz : Pts → Rat} {tn : Option Rat} {dots : Option Arr3} {cp nl : Bool} {s s' : St}
    (hw : WF d) (h : setDefined d sz tn dots cp nl false s = .ok s') (node : Option (Node Arr3)) (cache : Bool)
    {k j i : Nat} (hk : k < d.nk) (hj : j < d.nj) (hi : i < d.ni) :
    ∃ b, (cellQuery d node (some (k, j, i)) cache s').1 = .ok (some b) ∧
      (b = true ↔ CellWhole d none s'.pts k j i) := by
  have htop := hw.2 k hk
  rcases setDefined_cases h with ⟨_, hall, rfl⟩ | ⟨mask, rfl, _, hc⟩
  · refine ⟨true, by rw [cellQuery_all rfl], iff_of_true rfl ?_⟩
    intro dk dj di e1 e2 e3
    exact (hall _ (by omega) _ (pil_lt hw (by omega) (by omega))).none
  · rcases hc with ⟨_, _, rfl⟩ | ⟨_, _, _, rfl⟩ | ⟨_, rfl⟩
    · refine updateCells_query hw (fun q hq => nullified_uniform hq) ?_ hk hj hi
      intro h1
      simp [nullified] at h1
    · refine updateCells_query hw ?_ ?_ hk hj hi
      · intro q hq
        by_cases hd : ∃ k ≤ d.nraw,
            nanMask d tn (if someDots d dots then dots else none) s.pts k q = false
        · exact Or.inl (infilled_whole hq hd)
        · push Not at hd
          exact Or.inr (infilled_missing fun k hk => by simpa using hd k hk)
      · intro h1 q hq
        have h2 : allN d.total (fun q => !allN (d.nraw + 1) fun k =>
            nanMask d tn (if someDots d dots then dots else none) s.pts k q) = true := by
          simpa [infilled, baseState] using h1
        have h3 := allN_iff.mp h2 q hq
        rw [Bool.not_eq_true', allN_false] at h3
        obtain ⟨t, t1, t2⟩ := h3
        exact infilled_whole hq ⟨t, by omega, t2⟩
    · refine ⟨_, cellQuery_arr (by simp [baseState]) rfl hk hj hi, ?_⟩
      have hr : (if d.kGaps then d.raw k else k) = d.top k := rfl
      unfold cellsFromMask
      dsimp only
      rw [hr]
      simp only [colNan, Bool.not_eq_true', Bool.or_eq_false_iff]
      have key : ∀ r q, nanMask d tn (if someDots d dots then dots else none) s.pts r q = false ↔
          Point none ((baseState d (nanMask d tn (if someDots d dots then dots else none) s.pts) s).pts r q) := by
        intro r q
        rcases @base_point d tn (if someDots d dots then dots else none) s r q with ⟨⟨g, _⟩, hp⟩ | ⟨g, hp⟩
        · exact iff_of_true g hp
        · refine iff_of_false (by rw [g]; simp) (not_point_none hp)
      simp only [key]
      unfold CellWhole
      constructor
      · rintro ⟨⟨⟨a0, a1⟩, a2, a3⟩, ⟨b0, b1⟩, b2, b3⟩ dk dj di e1 e2 e3
        rcases Nat.le_one_iff_eq_zero_or_eq_one.mp e1 with rfl | rfl <;>
        rcases Nat.le_one_iff_eq_zero_or_eq_one.mp e2 with rfl | rfl <;>
          rcases Nat.le_one_iff_eq_zero_or_eq_one.mp e3 with rfl | rfl <;> assumption
      · intro g
        exact ⟨⟨⟨g 0 0 0 (by omega) (by omega) (by omega), g 0 0 1 (by omega) (by omega) (by omega)⟩,
          g 0 1 0 (by omega) (by omega) (by omega), g 0 1 1 (by omega) (by omega) (by omega)⟩,
          ⟨g 1 0 0 (by omega) (by omega) (by omega), g 1 0 1 (by omega) (by omega) (by omega)⟩,
          g 1 1 0 (by omega) (by omega) (by omega), g 1 1 1 (by omega) (by omega) (by omega)⟩

/-- **C187**: the points after a plain call: a point which is not usable is NaN on all axes, the others are kept. -/
theorem C187_points {d : Dims} {sz : Pts → Rat} {tn : Option Rat} {s s' : St}
    (h : setDefined d sz tn none false false false s = .ok s') {k q : Nat} (hk : k ≤ d.nraw) (hq : q < d.total) :
    (Point tn (s.pts k q) → s'.pts k q = s.pts k q) ∧ (¬ Point tn (s.pts k q) → ∀ c, s'.pts k q c = none) := by
  have hd : (if someDots d none then none else none : Option Arr3) = none := by simp
  rcases setDefined_cases h with ⟨_, hall, rfl⟩ | ⟨mask, rfl, _, hc⟩
  · exact ⟨fun _ => rfl, fun g => absurd (hall k hk q hq) g⟩
  · rcases hc with ⟨h1, _⟩ | ⟨_, h1, _⟩ | ⟨_, rfl⟩
    · cases h1
    · cases h1
    · rw [hd]
      rcases @base_point d tn none s k q with ⟨⟨g, he⟩, hp⟩ | ⟨g, hp⟩
      · refine ⟨fun _ => funext he, fun g2 => ?_⟩
        exact absurd (nanMask_point g) g2
      · refine ⟨fun g2 => ?_, fun _ => hp⟩
        rw [nanMask_none] at g
        exact absurd g2 (nanPoint_true.mp g)

/-- **C187**: as long as pillars defined only in part are not nullified, a primary pillar is said to be defined
exactly when it has a usable point. -/
theorem C187_pillars_partial {d : Dims} {sz : Pts → Rat} {tn : Option Rat} {dots : Option Arr3} {cp : Bool} {s s' : St}
    (hw : WF d) (h : setDefined d sz tn dots cp false false s = .ok s') (node : Option (Node Arr2)) (cache : Bool)
    {j i : Nat} (hj : j ≤ d.nj) (hi : i ≤ d.ni) :
    ∃ b, (pillarQuery d node (some (j, i)) cache s').1 = .ok (some b) ∧
      (b = true ↔ ∃ k ≤ d.nraw, Point none (s'.pts k (d.pil j i))) := by
  have hq := pil_lt hw hj hi
  rcases setDefined_cases h with ⟨_, hall, rfl⟩ | ⟨mask, rfl, _, hc⟩
  · refine ⟨true, by simp [pillarQuery], iff_of_true rfl ⟨0, by omega, (hall 0 (by omega) _ hq).none⟩⟩
  · set o := (if someDots d dots then dots else none) with ho
    have main : ∀ s2 : St, s2.allPillars = (baseState d (nanMask d tn o s.pts) s).allPillars →
        s2.pillarArr = (baseState d (nanMask d tn o s.pts) s).pillarArr →
        ((∃ k ≤ d.nraw, nanMask d tn o s.pts k (d.pil j i) = false) ↔
          ∃ k ≤ d.nraw, Point none (s2.pts k (d.pil j i))) →
        ∃ b, (pillarQuery d node (some (j, i)) cache s2).1 = .ok (some b) ∧
          (b = true ↔ ∃ k ≤ d.nraw, Point none (s2.pts k (d.pil j i))) := by
      intro s2 e1 e2 e3
      rw [← e3]
      unfold pillarQuery
      rw [e1, e2]
      by_cases g : allN d.total (fun q => !allN (d.nraw + 1) fun k => nanMask d tn o s.pts k q) = true
      · rw [if_pos (by simp [baseState, g])]
        refine ⟨true, rfl, iff_of_true rfl ?_⟩
        have h3 := allN_iff.mp g _ hq
        rw [Bool.not_eq_true', allN_false] at h3
        obtain ⟨t, t1, t2⟩ := h3
        exact ⟨t, by omega, t2⟩
      · rw [if_neg (by simpa [baseState] using g)]
        simp only [baseState]
        rw [if_neg g]
        refine ⟨_, rfl, ?_⟩
        rw [Bool.not_eq_true', allN_false]
        constructor
        · rintro ⟨t, t1, t2⟩; exact ⟨t, by omega, t2⟩
        · rintro ⟨t, t1, t2⟩; exact ⟨t, by omega, t2⟩
    rcases hc with ⟨h1, _⟩ | ⟨_, _, _, rfl⟩ | ⟨_, rfl⟩
    · cases h1
    · refine main _ ?_ ?_ ?_
      · unfold updateCells; dsimp only; split_ifs <;> rfl
      · unfold updateCells; dsimp only; split_ifs <;> rfl
      · have hp : (updateCells d (infilled d (nanMask d tn o s.pts) (baseState d (nanMask d tn o s.pts) s))).pts =
            (infilled d (nanMask d tn o s.pts) (baseState d (nanMask d tn o s.pts) s)).pts := by
          unfold updateCells; dsimp only; split_ifs <;> rfl
        rw [hp]
        constructor
        · intro hd; exact ⟨0, by omega, infilled_whole hq hd 0 (by omega)⟩
        · rintro ⟨t, t1, t2⟩
          by_contra hd
          push Not at hd
          exact not_point_none (infilled_missing (fun k hk => by simpa using hd k hk) t t1) t2
    · refine main _ rfl rfl ?_
      constructor
      · rintro ⟨t, t1, t2⟩
        rcases @base_point d tn o s t (d.pil j i) with ⟨_, g⟩ | ⟨g, _⟩
        · exact ⟨t, t1, g⟩
        · rw [t2] at g; cases g
      · rintro ⟨t, t1, t2⟩
        rcases @base_point d tn o s t (d.pil j i) with ⟨⟨g, _⟩, _⟩ | ⟨_, g⟩
        · exact ⟨t, t1, g⟩
        · exact absurd t2 (not_point_none g)

/-- **C187**: when pillars defined only in part are nullified and some other pillar has no points at all, such a
pillar is still said to be defined, although all its points are now NaN: the array of pillars is not brought up to
date. For every grid. -/
theorem C187_nullify_violated {d : Dims} {sz : Pts → Rat} {tn : Option Rat} {s s' : St} (hw : WF d)
    (h : setDefined d sz tn none false true false s = .ok s') (node : Option (Node Arr2)) (cache : Bool) {j i j1 i1 : Nat}
    (hj : j ≤ d.nj) (hi : i ≤ d.ni) (hj1 : j1 ≤ d.nj) (hi1 : i1 ≤ d.ni)
    (hempty : ∀ k ≤ d.nraw, ¬ Point tn (s.pts k (d.pil j1 i1)))
    (hsome : ∃ k ≤ d.nraw, Point tn (s.pts k (d.pil j i))) (hmiss : ∃ k ≤ d.nraw, ¬ Point tn (s.pts k (d.pil j i))) :
    (pillarQuery d node (some (j, i)) cache s').1 = .ok (some true) ∧
      ∀ k ≤ d.nraw, ∀ c, s'.pts k (d.pil j i) c = none := by
  have hq := pil_lt hw hj hi
  have hq1 := pil_lt hw hj1 hi1
  have hd : (if someDots d none then none else none : Option Arr3) = none := by simp
  have hpart : partialPillar d (nanMask d tn none s.pts) (d.pil j i) = true := by
    rw [partialPillar_iff]
    obtain ⟨a, a1, a2⟩ := hsome
    obtain ⟨b, b1, b2⟩ := hmiss
    exact ⟨⟨a, a1, by rw [nanMask_none]; exact nanPoint_false.mpr a2⟩,
      b, b1, by rw [nanMask_none]; exact nanPoint_true.mpr b2⟩
  rcases setDefined_cases h with ⟨_, hall, rfl⟩ | ⟨mask, rfl, _, hc⟩
  · exact absurd (hall 0 (by omega) _ hq1) (hempty 0 (by omega))
  · rw [hd] at hc
    have hnot : ¬ (allN d.total (fun q => !allN (d.nraw + 1) fun k => nanMask d tn none s.pts k q) = true) := by
      intro g
      have := allN_iff.mp g _ hq1
      rw [Bool.not_eq_true', allN_false] at this
      obtain ⟨t, t1, t2⟩ := this
      rw [nanMask_none] at t2
      exact hempty t (by omega) (nanPoint_false.mp t2)
    rcases hc with ⟨_, _, rfl⟩ | ⟨h1, _⟩ | ⟨h1, rfl⟩
    · have e1 : ∀ s2 : St, (updateCells d s2).allPillars = s2.allPillars := by
        intro s2; unfold updateCells; dsimp only; split_ifs <;> rfl
      have e2 : ∀ s2 : St, (updateCells d s2).pillarArr = s2.pillarArr := by
        intro s2; unfold updateCells; dsimp only; split_ifs <;> rfl
      have e3 : ∀ s2 : St, (updateCells d s2).pts = s2.pts := by
        intro s2; unfold updateCells; dsimp only; split_ifs <;> rfl
      constructor
      · unfold pillarQuery
        rw [e1, e2, if_neg (by simp [nullified])]
        simp only [nullified, baseState]
        rw [if_neg hnot]
        dsimp only
        have : (!allN (d.nraw + 1) fun k => nanMask d tn none s.pts k (d.pil j i)) = true := by
          rw [Bool.not_eq_true', allN_false]
          obtain ⟨⟨a, a1, a2⟩, _⟩ := partialPillar_iff.mp hpart
          exact ⟨a, by omega, a2⟩
        rw [this]
      · intro k hk c
        rw [e3]
        simp [nullified, hq, hpart]
    · cases h1
    · rcases h1 with ⟨h1, _⟩ | h1
      · cases h1
      · rw [h1 _ hq] at hpart; cases hpart

/-- **C187**: the inactive cells after the call are those which were inactive before and those without all of their
eight points before any completion: no cell becomes active, and no active cell is left without geometry of its own
at the start. With any of the options. -/
theorem C187_inactive {d : Dims} {sz : Pts → Rat} {tn : Option Rat} {cp nl : Bool} {s s' : St}
    (hw : WF d) (h : setDefined d sz tn none cp nl false s = .ok s') {k j i : Nat} (hk : k < d.nk) (hj : j < d.nj)
    (hi : i < d.ni) : Inactive s' k j i ↔ Inactive s k j i ∨ ¬ CellWhole d tn s.pts k j i := by
  have htop := hw.2 k hk
  have hd : (if someDots d none then none else none : Option Arr3) = none := by simp
  have e1 : ∀ s2 : St, (updateCells d s2).inactive = s2.inactive := by
    intro s2; unfold updateCells; dsimp only; split_ifs <;> rfl
  rcases setDefined_cases h with ⟨_, hall, rfl⟩ | ⟨mask, rfl, _, hc⟩
  · have : CellWhole d tn s.pts k j i := by
      intro dk dj di _ _ _
      exact hall _ (by omega) _ (pil_lt hw (by omega) (by omega))
    simp [Inactive, this]
  · rw [hd] at hc
    have hin : s'.inactive = (baseState d (nanMask d tn none s.pts) s).inactive := by
      rcases hc with ⟨_, _, rfl⟩ | ⟨_, _, _, rfl⟩ | ⟨_, rfl⟩
      · rw [e1]; rfl
      · rw [e1]; rfl
      · rfl
    have hcell : cellsFromMask d (nanMask d tn none s.pts) k j i = false ↔ ¬ CellWhole d tn s.pts k j i := by
      have hr : (if d.kGaps then d.raw k else k) = d.top k := rfl
      rw [← Bool.not_eq_true, not_iff_not]
      unfold cellsFromMask
      dsimp only
      rw [hr]
      simp only [colNan, Bool.not_eq_true', Bool.or_eq_false_iff, nanMask_none, nanPoint_false]
      unfold CellWhole
      constructor
      · rintro ⟨⟨⟨a0, a1⟩, a2, a3⟩, ⟨b0, b1⟩, b2, b3⟩ dk dj di e1 e2 e3
        rcases Nat.le_one_iff_eq_zero_or_eq_one.mp e1 with rfl | rfl <;>
        rcases Nat.le_one_iff_eq_zero_or_eq_one.mp e2 with rfl | rfl <;>
          rcases Nat.le_one_iff_eq_zero_or_eq_one.mp e3 with rfl | rfl <;> assumption
      · intro g
        exact ⟨⟨⟨g 0 0 0 (by omega) (by omega) (by omega), g 0 0 1 (by omega) (by omega) (by omega)⟩,
          g 0 1 0 (by omega) (by omega) (by omega), g 0 1 1 (by omega) (by omega) (by omega)⟩,
          ⟨g 1 0 0 (by omega) (by omega) (by omega), g 1 0 1 (by omega) (by omega) (by omega)⟩,
          g 1 1 0 (by omega) (by omega) (by omega), g 1 1 1 (by omega) (by omega) (by omega)⟩
    unfold Inactive
    rw [hin, ← hcell]
    simp only [baseState]
    cases hs : s.inactive with
    | none => simp
    | some f => simp

/-- **C187**: nullifying pillars defined only in part takes the geometry of cells away which are then left active. For
every grid and every active cell which has all eight points, one of them on a pillar with another point missing. -/
theorem C187_active_violated {d : Dims} {sz : Pts → Rat} {tn : Option Rat} {s s' : St} (hw : WF d)
    (h : setDefined d sz tn none false true false s = .ok s') (node : Option (Node Arr3)) (cache : Bool)
    {k j i : Nat} (hk : k < d.nk) (hj : j < d.nj) (hi : i < d.ni) (hact : ¬ Inactive s k j i)
    (hcell : CellWhole d tn s.pts k j i) (hmiss : ∃ t ≤ d.nraw, ¬ Point tn (s.pts t (d.pil j i))) :
    ¬ Inactive s' k j i ∧ (cellQuery d node (some (k, j, i)) cache s').1 = .ok (some false) := by
  have htop := hw.2 k hk
  refine ⟨by rw [C187_inactive hw h hk hj hi]; push Not; exact ⟨hact, hcell⟩, ?_⟩
  have hq := pil_lt hw (j := j) (i := i) (by omega) (by omega)
  have hd : (if someDots d none then none else none : Option Arr3) = none := by simp
  have hpart : partialPillar d (nanMask d tn none s.pts) (d.pil j i) = true := by
    rw [partialPillar_iff]
    obtain ⟨b, b1, b2⟩ := hmiss
    exact ⟨⟨d.top k, by omega, by
      rw [nanMask_none]; exact nanPoint_false.mpr (hcell 0 0 0 (by omega) (by omega) (by omega))⟩,
      b, b1, by rw [nanMask_none]; exact nanPoint_true.mpr b2⟩
  obtain ⟨b, hb1, hb2⟩ := C187_cells hw h node cache hk hj hi
  rw [hb1]
  cases b with
  | false => rfl
  | true =>
    exfalso
    have hcw := hb2.mp rfl 0 0 0 (by omega) (by omega) (by omega)
    refine not_point_none ?_ hcw
    have e3 : ∀ s2 : St, (updateCells d s2).pts = s2.pts := by
      intro s2; unfold updateCells; dsimp only; split_ifs <;> rfl
    rcases setDefined_cases h with ⟨_, hall, rfl⟩ | ⟨mask, rfl, _, hc⟩
    · obtain ⟨t, t1, t2⟩ := hmiss
      exact absurd (hall t t1 _ hq) t2
    · rw [hd] at hc
      rcases hc with ⟨_, _, rfl⟩ | ⟨h1, _⟩ | ⟨h1, _⟩
      · intro c
        rw [e3]
        simp [nullified, hq, hpart]
      · cases h1
      · rcases h1 with ⟨h1, _⟩ | h1
        · cases h1
        · rw [h1 _ hq] at hpart; cases hpart

/-- **C188**: pillars defined only in part are completed, with any value to be treated as NaN: usable points stay as
they are; above the first of them its values are repeated, below the last likewise; between two neighbouring ones the
values lie on the straight line, on each axis, with steps of equal length. Pillars without any usable point stay
missing. -/
theorem C188_completed {d : Dims} {sz : Pts → Rat} {tn : Option Rat} {s s' : St}
    (h : setDefined d sz tn none true false false s = .ok s') {q : Nat} (hq : q < d.total) :
    (∀ k ≤ d.nraw, Point tn (s.pts k q) → s'.pts k q = s.pts k q) ∧
    ((∃ k ≤ d.nraw, Point tn (s.pts k q)) → ∀ k ≤ d.nraw, Point none (s'.pts k q)) ∧
    (∀ a k, k < a → a ≤ d.nraw → Point tn (s.pts a q) → (∀ u < a, ¬ Point tn (s.pts u q)) →
      s'.pts k q = s.pts a q) ∧
    (∀ b k, b < k → k ≤ d.nraw → Point tn (s.pts b q) → (∀ u, b < u → u ≤ d.nraw → ¬ Point tn (s.pts u q)) →
      s'.pts k q = s.pts b q) ∧
    (∀ a b k, a < k → k < b → b ≤ d.nraw → Point tn (s.pts a q) → Point tn (s.pts b q) →
      (∀ u, a < u → u < b → ¬ Point tn (s.pts u q)) → ∀ c x y, s.pts a q c = some x → s.pts b q c = some y →
      s'.pts k q c = some (x + ((k - a : Nat) : Rat) * ((y - x) / ((b - a : Nat) : Rat)))) ∧
    ((∀ k ≤ d.nraw, ¬ Point tn (s.pts k q)) → ∀ k ≤ d.nraw, ∀ c, s'.pts k q c = none) := by
  have hd : (if someDots d none then none else none : Option Arr3) = none := by simp
  have e3 : ∀ s2 : St, (updateCells d s2).pts = s2.pts := by
    intro s2; unfold updateCells; dsimp only; split_ifs <;> rfl
  rcases setDefined_cases h with ⟨_, hall, rfl⟩ | ⟨mask, rfl, _, hc⟩
  · refine ⟨fun _ _ _ => rfl, fun _ k hk => (hall k hk q hq).none, ?_, ?_, ?_, ?_⟩
    · intro a k h1 h2 _ h4
      exact absurd (hall k (by omega) q hq) (h4 k h1)
    · intro b k h1 h2 _ h4
      exact absurd (hall k (by omega) q hq) (h4 k h1 h2)
    · intro a b k h1 h2 h3 _ _ h4
      exact absurd (hall k (by omega) q hq) (h4 k h1 h2)
    · intro h1
      exact absurd (hall 0 (by omega) q hq) (h1 0 (by omega))
  · rw [hd] at hc
    have mp : ∀ {k}, Point tn (s.pts k q) → nanMask d tn none s.pts k q = false := by
      intro k g; rw [nanMask_none]; exact nanPoint_false.mpr g
    have mn : ∀ {k}, ¬ Point tn (s.pts k q) → nanMask d tn none s.pts k q = true := by
      intro k g; rw [nanMask_none]; exact nanPoint_true.mpr g
    have mp' : ∀ {k}, nanMask d tn none s.pts k q = false → Point tn (s.pts k q) := by
      intro k g; rw [nanMask_none] at g; exact nanPoint_false.mp g
    have basepts : ∀ {k}, Point tn (s.pts k q) → ∀ c,
        (baseState d (nanMask d tn none s.pts) s).pts k q c = s.pts k q c := by
      intro k g c; simp [baseState, mp g]
    -- in both cases the points are those of the completed state
    have hpts : ∀ k ≤ d.nraw, ∀ c, s'.pts k q c =
        (infilled d (nanMask d tn none s.pts) (baseState d (nanMask d tn none s.pts) s)).pts k q c := by
      intro k hk c
      rcases hc with ⟨h1, _⟩ | ⟨_, _, _, rfl⟩ | ⟨h1, rfl⟩
      · cases h1
      · rw [e3]
      · rcases h1 with ⟨_, h1⟩ | h1
        · cases h1
        · simp [infilled, h1 q hq]
    have hpart : (∃ k ≤ d.nraw, Point tn (s.pts k q)) → (∃ k ≤ d.nraw, ¬ Point tn (s.pts k q)) →
        ∀ k ≤ d.nraw, ∀ c, s'.pts k q c = infill d.nraw (nanMask d tn none s.pts · q)
          (fun t => (baseState d (nanMask d tn none s.pts) s).pts t q c) k := by
      intro ⟨a, a1, a2⟩ ⟨b, b1, b2⟩ k hk c
      rw [hpts k hk c]
      have hp : partialPillar d (nanMask d tn none s.pts) q = true :=
        partialPillar_iff.mpr ⟨⟨a, a1, mp a2⟩, b, b1, mn b2⟩
      simp only [infilled, hq, hp, and_self, if_true, base_isNone]
    have spec : ∀ (c : Fin 3), (∃ k ≤ d.nraw, Point tn (s.pts k q)) → _ := fun c he =>
      @infill_spec d.nraw (nanMask d tn none s.pts · q)
        (fun t => (baseState d (nanMask d tn none s.pts) s).pts t q c)
        (fun t _ => by simp only [base_isNone]) (by
          obtain ⟨a, a1, a2⟩ := he
          exact ⟨a, a1, mp a2⟩)
    refine ⟨?_, ?_, ?_, ?_, ?_, ?_⟩
    · intro k hk g
      funext c
      by_cases hm : ∃ k ≤ d.nraw, ¬ Point tn (s.pts k q)
      · rw [hpart ⟨k, hk, g⟩ hm k hk c, (spec c ⟨k, hk, g⟩).2.1 k hk (mp g)]
        exact basepts g c
      · have hp : partialPillar d (nanMask d tn none s.pts) q = false := by
          rw [← Bool.not_eq_true, partialPillar_iff]
          rintro ⟨_, b, b1, b2⟩
          refine hm ⟨b, b1, fun g2 => ?_⟩
          rw [mp g2] at b2; cases b2
        rw [hpts k hk c]
        simp only [infilled, hp, Bool.false_eq_true, and_false, if_false]
        exact basepts g c
    · rintro ⟨a, a1, a2⟩ k hk
      have he : s'.pts k q =
          (infilled d (nanMask d tn none s.pts) (baseState d (nanMask d tn none s.pts) s)).pts k q :=
        funext (hpts k hk)
      rw [he]
      exact infilled_whole hq ⟨a, a1, mp a2⟩ k hk
    · intro a k h1 h2 h3 h4
      funext c
      rw [hpart ⟨a, h2, h3⟩ ⟨k, by omega, h4 k h1⟩ k (by omega) c,
        (spec c ⟨a, h2, h3⟩).2.2.1 a k h1 h2 (mp h3) (fun u hu => mn (h4 u hu))]
      exact basepts h3 c
    · intro b k h1 h2 h3 h4
      funext c
      rw [hpart ⟨b, by omega, h3⟩ ⟨k, by omega, h4 k h1 h2⟩ k (by omega) c,
        (spec c ⟨b, by omega, h3⟩).2.2.2.1 b k h1 h2 (mp h3) (fun u u1 u2 => mn (h4 u u1 u2))]
      exact basepts h3 c
    · intro a b k h1 h2 h3 ga gb h4 c x y hx hy
      rw [hpart ⟨a, by omega, ga⟩ ⟨k, by omega, h4 k h1 h2⟩ k (by omega) c,
        (spec c ⟨a, by omega, ga⟩).2.2.2.2 a b k h1 h2 h3
          ⟨by omega, mp ga, mp gb, fun u u1 u2 => mn (h4 u u1 u2)⟩]
      unfold onLine
      dsimp only
      rw [basepts ga c, basepts gb c, hx, hy]
      rfl
    · intro hn k hk c
      rw [hpts k hk c]
      exact infilled_missing (fun t ht => mn (hn t ht)) k hk c

/-- **C188**: the call with completion of such pillars does not fail, unless the grid has no usable point at all. -/
theorem C188_succeeds {d : Dims} {sz : Pts → Rat} {tn : Option Rat} {s : St}
    (hsome : ∃ k ≤ d.nraw, ∃ q < d.total, Point tn (s.pts k q)) :
    ∃ s', setDefined d sz tn none true false false s = .ok s' := by
  obtain ⟨k, hk, q, hq, hp⟩ := hsome
  unfold setDefined
  rw [if_neg (by simp)]
  by_cases h2 : (!(anyN (d.nraw + 1) fun k => anyN d.total fun q => nanPoint tn (s.pts k q)) && !someDots d none) = true
  · rw [if_pos h2]; exact ⟨_, rfl⟩
  rw [if_neg h2]
  dsimp only
  have hd : (if someDots d none then none else none : Option Arr3) = none := by simp
  rw [hd, if_neg (by
    rw [allN_iff]
    intro g
    have := allN_iff.mp (g k (by omega)) q hq
    rw [nanMask_none, nanPoint_false.mpr hp] at this
    cases this)]
  have hf : ∀ q < d.total, (partialPillar d (nanMask d tn none s.pts) q && infillFails d.nraw fun k =>
      ((baseState d (nanMask d tn none s.pts) s).pts k q 0).isNone) = false := by
    intro q hq
    by_cases g : partialPillar d (nanMask d tn none s.pts) q = true
    · rw [g, Bool.true_and]
      obtain ⟨⟨a, a1, a2⟩, _⟩ := partialPillar_iff.mp g
      exact (@infill_spec d.nraw _ (fun t => (baseState d (nanMask d tn none s.pts) s).pts t q 0)
        (fun t _ => rfl) ⟨a, a1, by simp only [base_isNone]; exact a2⟩).1
    · rw [Bool.not_eq_true] at g
      rw [g, Bool.false_and]
  unfold partialStage
  rw [if_neg (by simp), if_pos (by simp)]
  by_cases g : anyN d.total (partialPillar d (nanMask d tn none s.pts)) = true
  · rw [if_pos g, if_neg (by rw [anyN_false.mpr hf]; simp)]
    exact ⟨_, rfl⟩
  · rw [if_neg g]
    exact ⟨_, rfl⟩

/-- **C187**: the points of split pillars do not count: a cell is said to have geometry although all the points of a
split pillar are NaN, whatever pillar its corners are on. For every grid with a split pillar, all of whose points are
missing, and whose primary pillars are whole. -/
theorem C187_split_violated {d : Dims} {sz : Pts → Rat} {tn : Option Rat} {s s' : St} (hw : WF d)
    (h : setDefined d sz tn none false false false s = .ok s') (node : Option (Node Arr3)) (cache : Bool)
    (hwhole : ∀ k ≤ d.nraw, ∀ q < d.prim, Point tn (s.pts k q)) {q : Nat} (hq0 : d.prim ≤ q) (hq1 : q < d.total)
    (hmiss : ∀ k ≤ d.nraw, ¬ Point tn (s.pts k q)) {k j i : Nat} (hk : k < d.nk) (hj : j < d.nj) (hi : i < d.ni) :
    (cellQuery d node (some (k, j, i)) cache s').1 = .ok (some true) ∧ ∀ t ≤ d.nraw, ∀ c, s'.pts t q c = none := by
  have _ := hq0
  refine ⟨?_, fun t ht => (C187_points h ht hq1).2 (hmiss t ht)⟩
  obtain ⟨b, h1, h2⟩ := C187_cells hw h node cache hk hj hi
  rw [h1]
  have htop := hw.2 k hk
  have : b = true := by
    rw [h2]
    intro dk dj di _ _ _
    have hq : d.pil (j + dj) (i + di) < d.prim := by
      have := pil_lt (d := { d with total := d.prim }) ⟨le_refl _, hw.2⟩ (j := j + dj) (i := i + di)
        (show j + dj ≤ d.nj by omega) (show i + di ≤ d.ni by omega)
      exact this
    have hp := hwhole (d.top k + dk) (by omega) _ hq
    rw [(C187_points h (by omega) (lt_of_lt_of_le hq hw.1)).1 hp]
    exact hp.none
  rw [this]

/-- The points around dots which are set to NaN in a grid without k gaps: those below a dot, and in the topmost layer
those above. -/
theorem dotMask_iff {d : Dims} {dots : Arr3} (hg : d.kGaps = false) {k j i : Nat} :
    dotMask d dots k j i = true → ∃ j' i', (j' = j ∨ j' + 1 = j) ∧ (i' = i ∨ i' + 1 = i) ∧ j' < d.nj ∧ i' < d.ni ∧
      dots (k - 1) j' i' = true := by
  have base : ∀ {j i}, dotBase d dots k j i = true → j < d.nj ∧ i < d.ni ∧ dots (k - 1) j i = true := by
    intro j i h
    unfold dotBase at h
    rw [hg] at h
    simp only [Bool.and_eq_true, decide_eq_true_eq, Bool.false_eq_true, if_false] at h
    refine ⟨h.1.1, h.1.2, ?_⟩
    have h2 := h.2
    split_ifs at h2 with h0
    · subst h0; simp only [Bool.and_eq_true] at h2; exact h2.2
    · exact h2
  have row : ∀ {j i}, dotRow d dots k j i = true → ∃ j', (j' = j ∨ j' + 1 = j) ∧ j' < d.nj ∧ i < d.ni ∧
      dots (k - 1) j' i = true := by
    intro j i h
    unfold dotRow at h
    split_ifs at h with h0
    · rw [Bool.or_eq_true] at h
      rcases h with h | h
      · exact ⟨j - 1, Or.inr (by omega), base h⟩
      · exact ⟨j, Or.inl rfl, base h⟩
    · exact ⟨j, Or.inl rfl, base h⟩
  intro h
  unfold dotMask at h
  split_ifs at h with h0
  · rw [Bool.or_eq_true] at h
    rcases h with h | h
    · obtain ⟨j', a, b, c, e⟩ := row h
      exact ⟨j', i - 1, a, Or.inr (by omega), b, c, e⟩
    · obtain ⟨j', a, b, c, e⟩ := row h
      exact ⟨j', i, a, Or.inl rfl, b, c, e⟩
  · obtain ⟨j', a, b, c, e⟩ := row h
    exact ⟨j', i, a, Or.inl rfl, b, c, e⟩

/-- **C187**: the points on top of a dot are not set to NaN, as the call with `treat_dots_as_nan` promises, when the
layer above has no dots: a usable point there stays. For every grid without k gaps. -/
theorem C187_dots_violated {d : Dims} {sz : Pts → Rat} {tn : Option Rat} {dots : Arr3} {s s' : St} (hw : WF d)
    (hg : d.kGaps = false) (h : setDefined d sz tn (some dots) false false false s = .ok s') {k j i : Nat} (hk : 1 ≤ k)
    (hk2 : k < d.nk) (hj : j < d.nj) (hi : i < d.ni) (hdot : dots k j i = true)
    (habove : ∀ j i, dots (k - 1) j i = false) (hp : Point tn (s.pts k (d.pil j i))) :
    s'.pts k (d.pil j i) = s.pts k (d.pil j i) := by
  have hs : someDots d (some dots) = true := by
    simp only [someDots, anyN_iff]
    exact ⟨k, hk2, j, hj, i, hi, hdot⟩
  have _ := hw
  rcases setDefined_cases h with ⟨h1, _⟩ | ⟨mask, rfl, _, hc⟩
  · rw [hs] at h1; cases h1
  · rcases hc with ⟨h1, _⟩ | ⟨_, h1, _⟩ | ⟨_, rfl⟩
    · cases h1
    · cases h1
    · rw [hs]
      funext c
      have hm : nanMask d tn (some dots) s.pts k (d.pil j i) = false := by
        unfold nanMask
        rw [nanPoint_false.mpr hp, Bool.false_or]
        dsimp only
        rw [Bool.and_eq_false_iff]
        right
        rw [← Bool.not_eq_true]
        intro g
        obtain ⟨j', i', _, _, _, _, g⟩ := dotMask_iff hg g
        rw [habove] at g; cases g
      simp [baseState, hm]

/-- **C187**: the points below a dot are all set to NaN, so that the dot itself has no geometry, and nor has any of its
neighbours which shares such a point. For every grid without k gaps. -/
theorem C187_dots_partial {d : Dims} {sz : Pts → Rat} {tn : Option Rat} {dots : Arr3} {s s' : St} (hw : WF d)
    (hg : d.kGaps = false) (h : setDefined d sz tn (some dots) false false false s = .ok s') {k j i dj di : Nat}
    (hk2 : k < d.nk) (hj : j < d.nj) (hi : i < d.ni) (hdot : dots k j i = true) (hdj : dj ≤ 1) (hdi : di ≤ 1) :
    ∀ c, s'.pts (k + 1) (d.pil (j + dj) (i + di)) c = none := by
  have hs : someDots d (some dots) = true := by
    simp only [someDots, anyN_iff]
    exact ⟨k, hk2, j, hj, i, hi, hdot⟩
  have hbase : dotBase d dots (k + 1) j i = true := by
    unfold dotBase
    rw [hg]
    simp [hj, hi, hdot]
  have hrow : dotRow d dots (k + 1) (j + dj) i = true := by
    unfold dotRow
    rcases Nat.le_one_iff_eq_zero_or_eq_one.mp hdj with rfl | rfl
    · split_ifs
      · exact (Bool.or_eq_true _ _).mpr (Or.inr hbase)
      · exact hbase
    · rw [if_pos ⟨by omega, hi⟩, Nat.add_sub_cancel, hbase, Bool.true_or]
  have hmask : dotMask d dots (k + 1) (j + dj) (i + di) = true := by
    unfold dotMask
    rcases Nat.le_one_iff_eq_zero_or_eq_one.mp hdi with rfl | rfl
    · split_ifs
      · exact (Bool.or_eq_true _ _).mpr (Or.inr hrow)
      · exact hrow
    · rw [if_pos (by omega), Nat.add_sub_cancel, hrow, Bool.true_or]
  have hq : d.pil (j + dj) (i + di) < d.prim :=
    pil_lt (d := { d with total := d.prim }) ⟨le_refl _, hw.2⟩ (j := j + dj) (i := i + di)
      (show j + dj ≤ d.nj by omega) (show i + di ≤ d.ni by omega)
  have e1 : d.pil (j + dj) (i + di) / (d.ni + 1) = j + dj := by
    unfold Dims.pil
    rw [Nat.add_comm, Nat.add_mul_div_right _ _ (by omega), Nat.div_eq_of_lt (by omega), Nat.zero_add]
  have e2 : d.pil (j + dj) (i + di) % (d.ni + 1) = i + di := by
    unfold Dims.pil
    rw [Nat.add_comm, Nat.add_mul_mod_self_right, Nat.mod_eq_of_lt (by omega)]
  rcases setDefined_cases h with ⟨h1, _⟩ | ⟨mask, rfl, _, hc⟩
  · rw [hs] at h1; cases h1
  · rcases hc with ⟨h1, _⟩ | ⟨_, h1, _⟩ | ⟨_, rfl⟩
    · cases h1
    · cases h1
    · rw [hs]
      intro c
      have hm : nanMask d tn (some dots) s.pts (k + 1) (d.pil (j + dj) (i + di)) = true := by
        unfold nanMask
        dsimp only
        rw [e1, e2, hmask]
        simp [hq]
      simp [baseState, hm]

/-- **C187**: in a grid with k gaps the points on top of a dot and below it are all set to NaN. -/
theorem C187_dots_gaps {d : Dims} {sz : Pts → Rat} {tn : Option Rat} {dots : Arr3} {s s' : St} (hw : WF d)
    (hg : d.kGaps = true) (h : setDefined d sz tn (some dots) false false false s = .ok s') {k j i dj di dk : Nat}
    (hk2 : k < d.nk) (hj : j < d.nj) (hi : i < d.ni) (hdot : dots k j i = true) (hdj : dj ≤ 1) (hdi : di ≤ 1)
    (hdk : dk ≤ 1) :
    ∀ c, s'.pts (d.raw k + dk) (d.pil (j + dj) (i + di)) c = none := by
  have hs : someDots d (some dots) = true := by
    simp only [someDots, anyN_iff]
    exact ⟨k, hk2, j, hj, i, hi, hdot⟩
  have hbase : dotBase d dots (d.raw k + dk) j i = true := by
    unfold dotBase
    rw [if_pos hg]
    simp only [hj, hi, decide_true, Bool.true_and, anyN_iff, Bool.and_eq_true, Bool.or_eq_true, beq_iff_eq]
    exact ⟨k, hk2, hdot, by omega⟩
  have hrow : dotRow d dots (d.raw k + dk) (j + dj) i = true := by
    unfold dotRow
    rcases Nat.le_one_iff_eq_zero_or_eq_one.mp hdj with rfl | rfl
    · split_ifs
      · exact (Bool.or_eq_true _ _).mpr (Or.inr hbase)
      · exact hbase
    · rw [if_pos ⟨by omega, hi⟩, Nat.add_sub_cancel, hbase, Bool.true_or]
  have hmask : dotMask d dots (d.raw k + dk) (j + dj) (i + di) = true := by
    unfold dotMask
    rcases Nat.le_one_iff_eq_zero_or_eq_one.mp hdi with rfl | rfl
    · split_ifs
      · exact (Bool.or_eq_true _ _).mpr (Or.inr hrow)
      · exact hrow
    · rw [if_pos (by omega), Nat.add_sub_cancel, hrow, Bool.true_or]
  have hq : d.pil (j + dj) (i + di) < d.prim :=
    pil_lt (d := { d with total := d.prim }) ⟨le_refl _, hw.2⟩ (j := j + dj) (i := i + di)
      (show j + dj ≤ d.nj by omega) (show i + di ≤ d.ni by omega)
  have e1 : d.pil (j + dj) (i + di) / (d.ni + 1) = j + dj := by
    unfold Dims.pil
    rw [Nat.add_comm, Nat.add_mul_div_right _ _ (by omega), Nat.div_eq_of_lt (by omega), Nat.zero_add]
  have e2 : d.pil (j + dj) (i + di) % (d.ni + 1) = i + di := by
    unfold Dims.pil
    rw [Nat.add_comm, Nat.add_mul_mod_self_right, Nat.mod_eq_of_lt (by omega)]
  rcases setDefined_cases h with ⟨h1, _⟩ | ⟨mask, rfl, _, hc⟩
  · rw [hs] at h1; cases h1
  · rcases hc with ⟨h1, _⟩ | ⟨_, h1, _⟩ | ⟨_, rfl⟩
    · cases h1
    · cases h1
    · rw [hs]
      intro c
      have hm : nanMask d tn (some dots) s.pts (d.raw k + dk) (d.pil (j + dj) (i + di)) = true := by
        unfold nanMask
        dsimp only
        rw [e1, e2, hmask]
        simp [hq]
      simp [baseState, hm]

/-! ## Cases -/

/-- Two layers of one cell: the first pillar has no points, the second lacks its middle point, the third its top point,
where x is the value standing for NaN. -/
def exDims : Dims := ⟨2, 1, 1, 2, 4, false, id⟩

/-- The points of the example. -/
def exPts : Pts := fun k q c =>
  if q = 0 then none
  else if q = 1 then (if k = 1 then none else some (10 * (k : Rat) + (c : Nat)))
  else if q = 2 then (if k = 0 then some 999 else some ((k : Rat) + 2))
  else some (k : Rat)

/-- The state of the example. -/
def exSt : St := ⟨exPts, some true, none, none, none, none, none⟩

example : WF exDims := by
  refine ⟨by decide, fun k hk => ?_⟩
  have : k < 2 := hk
  simp only [Dims.top, exDims]
  simp only [Bool.false_eq_true, if_false]
  omega

/-- The answers for the four pillars and the two cells, and the middle point of the second pillar. -/
def exAnswers (r : Res St) : List Bool × List Bool × Option Rat :=
  match r with
  | .error _ => ([], [], none)
  | .ok s =>
    ([(0, 0), (0, 1), (1, 0), (1, 1)].map fun x => (pillarQuery exDims none (some x) true s).1 matches .ok (some true),
     [(0, 0, 0), (1, 0, 0)].map fun x => (cellQuery exDims none (some x) true s).1 matches .ok (some true),
     s.pts 1 1 2)

example : exAnswers (setDefined exDims (fun _ => 0) (some 999) none false false false exSt) =
    ([false, true, true, true], [false, false], none) := by decide +kernel
example : exAnswers (setDefined exDims (fun _ => 0) (some 999) none true false false exSt) =
    ([false, true, true, true], [false, false], some 12) := by decide +kernel
example : exAnswers (setDefined exDims (fun _ => 0) (some 999) none false true false exSt) =
    ([false, true, true, true], [false, false], none) := by decide +kernel

/-- One dot below a cell which is not one. -/
example : (match setDefined exDims (fun _ => 0) none (some fun k _ _ => k == 1) false false false
      { exSt with pts := fun _ _ _ => some 1 } with
    | .ok s => (s.pts 1 0 0, s.pts 2 0 0)
    | .error _ => (none, none)) = (some 1, none) := by decide +kernel

/-- The same with a gap between the layers: the points on top of the dot too. -/
example : (match setDefined ⟨2, 1, 1, 3, 4, true, fun k => 2 * k⟩ (fun _ => 0) none (some fun k _ _ => k == 1) false false false
      { exSt with pts := fun _ _ _ => some 1 } with
    | .ok s => (s.pts 1 0 0, s.pts 2 0 0, s.pts 3 0 0)
    | .error _ => (none, none, none)) = (some 1, none, none) := by decide +kernel

end Verif.Defined
