import Verif.Pinchout.Spec
import Mathlib.Data.List.Pairwise
import Mathlib.Tactic.ByContra
import Mathlib.Tactic.Push

/-! # C28: connections across pinchouts -/

namespace Verif.Pinchout

theorem skipPinched_spec (g : Grid) (j i n ka : Nat) (hn : g.nk ≤ n + ka) :
    ka ≤ skipPinched g j i n ka ∧ (∀ k, ka ≤ k → k < skipPinched g j i n ka → g.po k j i = true) ∧
    (skipPinched g j i n ka + 1 < g.nk → g.po (skipPinched g j i n ka) j i = false) := by
  induction n generalizing ka with
  | zero => exact ⟨Nat.le_refl _, fun k h1 h2 => by simp only [skipPinched] at h2; omega, fun h => by simp only [skipPinched] at h; omega⟩
  | succ n ih =>
    unfold skipPinched
    split
    · rename_i h
      obtain ⟨a, b, c⟩ := ih (ka + 1) (by omega)
      refine ⟨by omega, fun k h1 h2 => ?_, c⟩
      rcases Nat.eq_or_lt_of_le h1 with rfl | h1
      · exact h.2
      · exact b k h1 h2
    · rename_i h
      refine ⟨Nat.le_refl _, fun k h1 h2 => by omega, fun hk => ?_⟩
      by_contra hc
      exact h ⟨hk, by simpa using hc⟩

theorem skipOpen_spec (g : Grid) (j i n ka : Nat) (hn : g.nk ≤ n + ka) :
    ka ≤ skipOpen g j i n ka ∧ (∀ k, ka ≤ k → k < skipOpen g j i n ka → g.po (k + 1) j i = false) ∧
    (skipOpen g j i n ka + 1 < g.nk → g.po (skipOpen g j i n ka + 1) j i = true) := by
  induction n generalizing ka with
  | zero => exact ⟨Nat.le_refl _, fun k h1 h2 => by simp only [skipOpen] at h2; omega, fun h => by simp only [skipOpen] at h; omega⟩
  | succ n ih =>
    unfold skipOpen
    split
    · rename_i h
      obtain ⟨a, b, c⟩ := ih (ka + 1) (by omega)
      refine ⟨by omega, fun k h1 h2 => ?_, c⟩
      rcases Nat.eq_or_lt_of_le h1 with rfl | h1
      · exact h.2
      · exact b k h1 h2
    · rename_i h
      refine ⟨Nat.le_refl _, fun k h1 h2 => by omega, fun hk => ?_⟩
      by_contra hc
      exact h ⟨hk, by simpa using hc⟩

theorem findBase_spec (g : Grid) (j i n kb : Nat) (hn : g.nk ≤ n + kb) :
    kb ≤ findBase g j i n kb ∧ (∀ k, kb ≤ k → k < findBase g j i n kb → g.po k j i = true) ∧
    (findBase g j i n kb < g.nk → g.po (findBase g j i n kb) j i = false) := by
  induction n generalizing kb with
  | zero => exact ⟨Nat.le_refl _, fun k h1 h2 => by simp only [findBase] at h2; omega, fun h => by simp only [findBase] at h; omega⟩
  | succ n ih =>
    unfold findBase
    split
    · rename_i h
      obtain ⟨a, b, c⟩ := ih (kb + 1) (by omega)
      refine ⟨by omega, fun k h1 h2 => ?_, c⟩
      rcases Nat.eq_or_lt_of_le h1 with rfl | h1
      · exact h.2
      · exact b k h1 h2
    · rename_i h
      refine ⟨Nat.le_refl _, fun k h1 h2 => by omega, fun hk => ?_⟩
      by_contra hc
      exact h ⟨hk, by simpa using hc⟩

/-- the two loops that look for the upper cell -/
theorem upper_spec (g : Grid) (j i ka : Nat) :
    let u := skipOpen g j i g.nk (skipPinched g j i g.nk ka)
    ka ≤ u ∧ (u + 1 < g.nk → g.po u j i = false ∧ g.po (u + 1) j i = true) ∧
    ∀ a b, IsPinchout g j i a b → ka ≤ a → u ≤ a := by
  intro u
  obtain ⟨a1, a2, a3⟩ := skipPinched_spec g j i g.nk ka (by omega)
  obtain ⟨b1, b2, b3⟩ := skipOpen_spec g j i g.nk (skipPinched g j i g.nk ka) (by omega)
  refine ⟨by omega, ?_, ?_⟩
  · intro hu
    refine ⟨?_, b3 hu⟩
    rcases Nat.eq_or_lt_of_le b1 with h | h
    · have : u = skipPinched g j i g.nk ka := h.symm
      rw [this]
      exact a3 (by omega)
    · have := b2 (u - 1) (by omega) (by omega)
      rwa [Nat.sub_add_cancel (by omega)] at this
  · intro a b hp hka
    have h1 : skipPinched g j i g.nk ka ≤ a := by
      by_contra hc
      have := a2 a hka (by omega)
      rw [hp.above] at this
      cases this
    by_contra hc
    have := b2 a h1 (by omega)
    rw [hp.pinched (a + 1) (by omega) (by have := hp.between; omega)] at this
    cases this

theorem scan_sound (g : Grid) (sk : Bool) (j i fuel ka : Nat) :
    (∀ p ∈ scanColumn g sk j i fuel ka, ka ≤ p.1 ∧ Wanted g sk j i p.1 p.2) ∧
    (scanColumn g sk j i fuel ka).Pairwise (fun p q => p.2 < q.1) := by
  induction fuel generalizing ka with
  | zero => exact ⟨fun p hp => (by cases hp), .nil⟩
  | succ fuel ih =>
    unfold scanColumn
    dsimp only
    obtain ⟨u1, u2, u3⟩ := upper_spec g j i ka
    generalize hu : skipOpen g j i g.nk (skipPinched g j i g.nk ka) = u at u1 u2 u3
    split
    · exact ⟨fun p hp => (by cases hp), .nil⟩
    · rename_i hlt
      split
      · obtain ⟨h1, h2⟩ := ih (u + 1)
        exact ⟨fun p hp => ⟨by have := (h1 p hp).1; omega, (h1 p hp).2⟩, h2⟩
      · rename_i hdead
        obtain ⟨f1, f2, f3⟩ := findBase_spec g j i g.nk (u + 1) (by omega)
        generalize findBase g j i g.nk (u + 1) = kb at f1 f2 f3
        split
        · exact ⟨fun p hp => (by cases hp), .nil⟩
        · rename_i hkb
          obtain ⟨h1, h2⟩ := ih (kb + 1)
          split
          · exact ⟨fun p hp => ⟨by have := (h1 p hp).1; omega, (h1 p hp).2⟩, h2⟩
          · rename_i hdb
            obtain ⟨w1, w2⟩ := u2 (by omega)
            have hb : u + 1 < kb := by
              rcases Nat.eq_or_lt_of_le f1 with h | h
              · have := f3 (by omega)
                rw [← h, w2] at this
                cases this
              · exact h
            constructor
            · intro p hp
              rcases List.mem_cons.mp hp with rfl | hp
              · refine ⟨u1, ⟨by omega, hb, w1, f3 (by omega), fun k h1 h2 => f2 k h1 h2⟩, ?_, ?_⟩
                · intro hsk
                  simp only [hsk, Bool.true_and, Bool.or_eq_true, not_or, Bool.not_eq_true] at hdead hdb
                  exact ⟨hdead.1, hdb⟩
                · simp only [Bool.or_eq_true, not_or, Bool.not_eq_true] at hdead
                  exact hdead.2
              · exact ⟨by have := (h1 p hp).1; omega, (h1 p hp).2⟩
            · refine List.pairwise_cons.mpr ⟨?_, h2⟩
              intro q hq
              have := (h1 q hq).1
              dsimp only
              omega

theorem scan_complete (g : Grid) (sk : Bool) (j i fuel ka : Nat) (hf : g.nk < fuel + ka) {a b : Nat} (hw : Wanted g sk j i a b)
    (hka : ka ≤ a) : (a, b) ∈ scanColumn g sk j i fuel ka ∨ ∃ a', (a', a) ∈ scanColumn g sk j i fuel ka := by
  induction fuel generalizing ka with
  | zero =>
    have := hw.inside
    have := hw.between
    omega
  | succ fuel ih =>
    unfold scanColumn
    dsimp only
    obtain ⟨u1, u2, u3⟩ := upper_spec g j i ka
    generalize hu : skipOpen g j i g.nk (skipPinched g j i g.nk ka) = u at u1 u2 u3
    have hua := u3 a b hw.toIsPinchout hka
    have hb := hw.inside
    have hab := hw.between
    rw [if_neg (by omega)]
    split
    · rename_i hdead
      rcases Nat.eq_or_lt_of_le hua with h | h
      · exfalso
        subst h
        simp only [Bool.or_eq_true, Bool.and_eq_true] at hdead
        rcases hdead with ⟨h1, h2⟩ | h2
        · rw [(hw.active h1).1] at h2; cases h2
        · rw [hw.noGap] at h2; cases h2
      · exact ih (u + 1) (by omega) h
    · rename_i hdead
      obtain ⟨f1, f2, f3⟩ := findBase_spec g j i g.nk (u + 1) (by omega)
      generalize findBase g j i g.nk (u + 1) = kb at f1 f2 f3
      have hkb : kb ≤ b := by
        by_contra hc
        have := f2 b (by omega) (by omega)
        rw [hw.below] at this
        cases this
      rw [if_neg (by omega)]
      have hcase : (a = u ∧ b = kb) ∨ a = kb ∨ kb + 1 ≤ a := by
        rcases Nat.eq_or_lt_of_le hua with h | h
        · left
          refine ⟨h.symm, ?_⟩
          by_contra hne
          have := hw.pinched kb (by omega) (by omega)
          rw [f3 (by omega)] at this
          cases this
        · right
          by_contra hc
          push Not at hc
          have := f2 a (by omega) (by omega)
          rw [hw.above] at this
          cases this
      split
      · rename_i hdb
        simp only [Bool.and_eq_true] at hdb
        rcases hcase with ⟨rfl, rfl⟩ | rfl | h
        · rw [(hw.active hdb.1).2] at hdb; cases hdb.2
        · rw [(hw.active hdb.1).1] at hdb; cases hdb.2
        · exact ih (kb + 1) (by omega) h
      · rcases hcase with ⟨rfl, rfl⟩ | rfl | h
        · exact Or.inl List.mem_cons_self
        · exact Or.inr ⟨u, List.mem_cons_self⟩
        · rcases ih (kb + 1) (by omega) h with h | ⟨a', h⟩
          · exact Or.inl (List.mem_cons_of_mem _ h)
          · exact Or.inr ⟨a', List.mem_cons_of_mem _ h⟩

/-- C28, soundness: every pair listed for a column is a pinchout across which a connection is wanted, pairs come in order
down the column and no cell occurs twice. -/
theorem C28_column_sound (g : Grid) (sk : Bool) (j i : Nat) :
    (∀ p ∈ scanColumn g sk j i (g.nk + 1) 0, Wanted g sk j i p.1 p.2) ∧
    (scanColumn g sk j i (g.nk + 1) 0).Pairwise (fun p q => p.2 < q.1) :=
  ⟨fun p hp => ((scan_sound g sk j i _ _).1 p hp).2, (scan_sound g sk j i _ _).2⟩

/-- C28, exactly what is listed: the wanted connections, except that the cell under a pinchout just connected is not connected
to what is under it. -/
theorem C28_column_exact (g : Grid) (sk : Bool) (j i a b : Nat) :
    (a, b) ∈ scanColumn g sk j i (g.nk + 1) 0 ↔
      Wanted g sk j i a b ∧ ¬ ∃ a', (a', a) ∈ scanColumn g sk j i (g.nk + 1) 0 := by
  obtain ⟨h1, h2⟩ := C28_column_sound g sk j i
  constructor
  · intro h
    refine ⟨h1 _ h, ?_⟩
    rintro ⟨a', h'⟩
    have w := (h1 _ h).between
    have w' := (h1 _ h').between
    dsimp only at w w'
    have hsym : ∀ p ∈ scanColumn g sk j i (g.nk + 1) 0, ∀ q ∈ scanColumn g sk j i (g.nk + 1) 0, p ≠ q → p.2 < q.1 ∨ q.2 < p.1 := by
      intro p hp q hq hne
      have : Std.Symm (fun p q : Nat × Nat => p.2 < q.1 ∨ q.2 < p.1) := ⟨fun _ _ h => h.symm⟩
      exact List.Pairwise.forall (R := fun p q : Nat × Nat => p.2 < q.1 ∨ q.2 < p.1) (h2.imp fun h => Or.inl h) hp hq hne
    have hne : (a, b) ≠ (a', a) := by
      intro e
      simp only [Prod.mk.injEq] at e
      omega
    rcases hsym _ h _ h' hne with h | h
    · dsimp only at h; omega
    · dsimp only at h; omega
  · rintro ⟨hw, hn⟩
    rcases scan_complete g sk j i (g.nk + 1) 0 (by omega) hw (Nat.zero_le _) with h | h
    · exact h
    · exact absurd h hn

/-- C28 as claimed, for columns in which no single layer lies between two pinchouts.  Missing: of two pinchouts separated by
one layer only the upper gets a connection (`C28_successive_pinchouts_violated`). -/
theorem C28_column_complete_partial (g : Grid) (sk : Bool) (j i : Nat)
    (hsep : ∀ k, g.po (k + 1) j i = false → ¬ (g.po k j i = true ∧ g.po (k + 2) j i = true)) (a b : Nat) :
    (a, b) ∈ scanColumn g sk j i (g.nk + 1) 0 ↔ Wanted g sk j i a b := by
  rw [C28_column_exact]
  constructor
  · exact fun h => h.1
  · intro hw
    refine ⟨hw, ?_⟩
    rintro ⟨a', h'⟩
    have w := (C28_column_sound g sk j i).1 _ h'
    dsimp only at w
    have h1 := w.between
    have h2 := hw.between
    apply hsep (a - 1)
    · rw [Nat.sub_add_cancel (by omega)]; exact hw.above
    · constructor
      · exact w.pinched (a - 1) (by omega) (by omega)
      · rw [show a - 1 + 2 = a + 1 from by omega]
        exact hw.pinched (a + 1) (by omega) h2

/-- one column of five layers, the second and fourth pinched out -/
def ladder : Grid := ⟨5, 1, 1, fun k _ _ => k == 1 || k == 3, fun _ _ _ => false, fun _ => false⟩

/-- C28 does not hold for two pinchouts with one layer between: the lower is not connected. -/
theorem C28_successive_pinchouts_violated :
    Wanted ladder true 0 0 2 4 ∧ pinchoutPairs ladder true = [(0, 2)] := by
  refine ⟨⟨⟨by decide, by decide, by decide, by decide, ?_⟩, by decide, by decide⟩, by decide⟩
  intro k h1 h2
  have : k = 3 := by omega
  subst this
  decide

/-- C28: the list for the whole grid is made of those of the columns. -/
theorem C28_grid_pairs (g : Grid) (sk : Bool) (x y : Nat) :
    (x, y) ∈ pinchoutPairs g sk ↔ ∃ j i a b, j < g.nj ∧ i < g.ni ∧ (a, b) ∈ scanColumn g sk j i (g.nk + 1) 0 ∧
      x = naturalCellIndex g a j i ∧ y = naturalCellIndex g b j i := by
  unfold pinchoutPairs
  simp only [List.mem_flatMap, List.mem_range, List.mem_map, Prod.exists, Prod.mk.injEq]
  constructor
  · rintro ⟨j, hj, i, hi, a, b, h, rfl, rfl⟩
    exact ⟨j, i, a, b, hj, hi, h, rfl, rfl⟩
  · rintro ⟨j, i, a, b, hj, hi, h, rfl, rfl⟩
    exact ⟨j, hj, i, hi, a, b, h, rfl, rfl⟩

/-- natural cell indices identify cells -/
theorem C28_index_identifies_cell (g : Grid) {k j i k' j' i' : Nat} (hj : j < g.nj) (hi : i < g.ni) (hj' : j' < g.nj)
    (hi' : i' < g.ni) (h : naturalCellIndex g k j i = naturalCellIndex g k' j' i') : k = k' ∧ j = j' ∧ i = i' := by
  have aux : ∀ {n a b a' b' : Nat}, b < n → b' < n → a * n + b = a' * n + b' → a = a' ∧ b = b' := by
    intro n a b a' b' hb hb' e
    have e1 : (a * n + b) / n = a := by
      rw [Nat.add_comm, Nat.add_mul_div_right _ _ (by omega), Nat.div_eq_of_lt hb, Nat.zero_add]
    have e2 : (a' * n + b') / n = a' := by
      rw [Nat.add_comm, Nat.add_mul_div_right _ _ (by omega), Nat.div_eq_of_lt hb', Nat.zero_add]
    have : a = a' := by rw [← e1, ← e2, e]
    subst this
    exact ⟨rfl, by omega⟩
  unfold naturalCellIndex at h
  obtain ⟨h1, h2⟩ := aux hi hi' h
  obtain ⟨h3, h4⟩ := aux hj hj' h1
  exact ⟨h3, h4, h2⟩

/-- hypotheses met with a connection listed -/
example : (∀ k, (fun k (_ _ : Nat) => k == 1 || k == 2 : Nat → Nat → Nat → Bool) (k + 1) 0 0 = false →
    ¬ ((fun k (_ _ : Nat) => k == 1 || k == 2 : Nat → Nat → Nat → Bool) k 0 0 = true ∧
      (fun k (_ _ : Nat) => k == 1 || k == 2 : Nat → Nat → Nat → Bool) (k + 2) 0 0 = true)) ∧
    scanColumn ⟨4, 1, 1, fun k _ _ => k == 1 || k == 2, fun _ _ _ => false, fun _ => false⟩ true 0 0 5 0 = [(0, 3)] := by
  constructor
  · intro k h1 ⟨h2, h3⟩
    simp only [Bool.or_eq_true, Bool.or_eq_false_iff, beq_iff_eq, beq_eq_false_iff_ne] at h1 h2 h3
    omega
  · decide

end Verif.Pinchout
