import Verif.Pillars.Spec
import Mathlib.Algebra.BigOperators.Group.Finset.Basic
import Mathlib.Algebra.Order.BigOperators.Group.Finset
import Mathlib.Tactic.ByContra
import Mathlib.Tactic.Push

namespace Verif.Pillars
open Verif.Py

theorem abutting_iff (g : Grid) (f : Flags × Flags) (j i : Nat) : abutting g f j i = true ↔ ColumnMarked g f j i := by
  unfold abutting ColumnMarked
  simp only [Bool.or_eq_true, Bool.and_eq_true, decide_eq_true_eq]
  constructor
  · rintro (((⟨a, b⟩ | ⟨a, b⟩) | ⟨a, b⟩) | ⟨a, b⟩)
    · exact Or.inl ⟨a, b⟩
    · exact Or.inr (Or.inl ⟨j - 1, by omega, b⟩)
    · exact Or.inr (Or.inr (Or.inl ⟨a, b⟩))
    · exact Or.inr (Or.inr (Or.inr ⟨i - 1, by omega, b⟩))
  · rintro (⟨a, b⟩ | ⟨k, rfl, b⟩ | ⟨a, b⟩ | ⟨k, rfl, b⟩)
    · exact Or.inl (Or.inl (Or.inl ⟨a, b⟩))
    · exact Or.inl (Or.inl (Or.inr ⟨by omega, b⟩))
    · exact Or.inl (Or.inr ⟨a, b⟩)
    · exact Or.inr ⟨by omega, b⟩

/-- what holds of the table at every iteration -/
structure RelaxInv (g : Grid) (A : Nat → Nat → Prop) (t : Table) : Prop where
  zero : ∀ j i, j < g.nj → i < g.ni → A j i → t j i = 0
  le : ∀ j i, j < g.nj → i < g.ni → t j i ≤ g.nj + g.ni
  near : ∀ j i, j < g.nj → i < g.ni → t j i = g.nj + g.ni ∨ ∃ j' i', j' < g.nj ∧ i' < g.ni ∧ A j' i' ∧ steps j i j' i' ≤ t j i

theorem relax_le (g : Grid) (t : Table) (j i : Nat) : relax g t j i ≤ t j i := by
  unfold relax; dsimp only; omega

theorem relax_cases (g : Grid) (t : Table) (j i : Nat) :
    relax g t j i = t j i ∨ g.nj + g.ni < relax g t j i ∨ (0 < j ∧ relax g t j i = t (j - 1) i + 1) ∨
    (j + 1 < g.nj ∧ relax g t j i = t (j + 1) i + 1) ∨ (0 < i ∧ relax g t j i = t j (i - 1) + 1) ∨
    (i + 1 < g.ni ∧ relax g t j i = t j (i + 1) + 1) := by
  unfold relax
  dsimp only
  split_ifs <;> omega

theorem relax_inv {g : Grid} {A : Nat → Nat → Prop} {t : Table} (h : RelaxInv g A t) : RelaxInv g A (relax g t) := by
  refine ⟨?_, ?_, ?_⟩
  · intro j i hj hi ha
    have := relax_le g t j i
    rw [h.zero j i hj hi ha] at this
    omega
  · intro j i hj hi
    exact (relax_le g t j i).trans (h.le j i hj hi)
  · intro j i hj hi
    have hl := (relax_le g t j i).trans (h.le j i hj hi)
    have step : ∀ j1 i1, j1 < g.nj → i1 < g.ni → steps j i j1 i1 = 1 → relax g t j i = t j1 i1 + 1 →
        relax g t j i = g.nj + g.ni ∨ ∃ j' i', j' < g.nj ∧ i' < g.ni ∧ A j' i' ∧ steps j i j' i' ≤ relax g t j i := by
      intro j1 i1 hj1 hi1 hs he
      rcases h.near j1 i1 hj1 hi1 with hn | ⟨j', i', a, b, c, d⟩
      · omega
      · refine Or.inr ⟨j', i', a, b, c, ?_⟩
        unfold steps at *
        omega
    rcases relax_cases g t j i with e | e | ⟨c, e⟩ | ⟨c, e⟩ | ⟨c, e⟩ | ⟨c, e⟩
    · rw [e]; exact h.near j i hj hi
    · omega
    · exact step (j - 1) i (by omega) hi (by unfold steps; omega) e
    · exact step (j + 1) i (by omega) hi (by unfold steps; omega) e
    · exact step j (i - 1) hj (by omega) (by unfold steps; omega) e
    · exact step j (i + 1) hj (by omega) (by unfold steps; omega) e

theorem sameTable_iff (g : Grid) (t u : Table) : sameTable g t u = true ↔ ∀ j i, j < g.nj → i < g.ni → t j i = u j i := by
  unfold sameTable
  simp only [List.all_eq_true, List.mem_range, beq_iff_eq]
  exact ⟨fun h j i hj hi => h j hj i hi, fun h j hj i hi => h j i hj hi⟩

/-- at a fixed point the value is at most the distance to any column of the set -/
theorem fixed_le {g : Grid} {A : Nat → Nat → Prop} {t : Table} (h : RelaxInv g A t)
    (hf : ∀ j i, j < g.nj → i < g.ni → relax g t j i = t j i) {j' i' : Nat} (hj' : j' < g.nj) (hi' : i' < g.ni)
    (ha : A j' i') (d : Nat) : ∀ j i, j < g.nj → i < g.ni → steps j i j' i' = d → t j i ≤ d := by
  induction d with
  | zero =>
    intro j i hj hi hs
    have e1 : j = j' := by unfold steps at hs; omega
    have e2 : i = i' := by unfold steps at hs; omega
    subst e1 e2
    rw [h.zero j i hj hi ha]
  | succ d ih =>
    intro j i hj hi hs
    have hr := hf j i hj hi
    unfold relax at hr
    dsimp only at hr
    by_cases c1 : j < j'
    · have := ih (j + 1) i (by omega) hi (by unfold steps at *; omega)
      rw [if_pos (show j + 1 < g.nj by omega)] at hr
      omega
    by_cases c2 : j' < j
    · have := ih (j - 1) i (by omega) hi (by unfold steps at *; omega)
      rw [if_pos (show 0 < j by omega)] at hr
      omega
    by_cases c3 : i < i'
    · have := ih j (i + 1) hj (by omega) (by unfold steps at *; omega)
      rw [if_pos (show i + 1 < g.ni by omega)] at hr
      omega
    by_cases c4 : i' < i
    · have := ih j (i - 1) hj (by omega) (by unfold steps at *; omega)
      rw [if_pos (show 0 < i by omega)] at hr
      omega
    unfold steps at hs
    omega

theorem fixed_distance {g : Grid} {A : Nat → Nat → Prop} {t : Table} (h : RelaxInv g A t)
    (hf : ∀ j i, j < g.nj → i < g.ni → relax g t j i = t j i) : IsDistanceMap g A t := by
  intro j i hj hi
  constructor
  · rintro ⟨j1, i1, h1, h2, h3⟩
    have hle := fixed_le h hf h1 h2 h3 _ j i hj hi rfl
    rcases h.near j i hj hi with hn | ⟨j', i', a, b, c, d⟩
    · exfalso
      unfold steps at hle
      omega
    · refine ⟨⟨j', i', a, b, c, ?_⟩, ?_⟩
      · exact Nat.le_antisymm (fixed_le h hf a b c _ j i hj hi rfl) d
      · rintro x ⟨j2, i2, a2, b2, c2, rfl⟩
        exact fixed_le h hf a2 b2 c2 _ j i hj hi rfl
  · intro hne
    rcases h.near j i hj hi with hn | ⟨j', i', a, b, c, _⟩
    · exact hn
    · exact absurd ⟨j', i', a, b, c⟩ hne

/-- sum of the elements of a table -/
def total (g : Grid) (t : Table) : Nat := ∑ j ∈ Finset.range g.nj, ∑ i ∈ Finset.range g.ni, t j i

theorem total_lt {g : Grid} {t : Table} (h : ¬ sameTable g (relax g t) t = true) : total g (relax g t) < total g t := by
  rw [sameTable_iff] at h
  push Not at h
  obtain ⟨j, i, hj, hi, hne⟩ := h
  unfold total
  apply Finset.sum_lt_sum
  · intro j _
    exact Finset.sum_le_sum fun i _ => relax_le g t j i
  · refine ⟨j, Finset.mem_range.mpr hj, ?_⟩
    apply Finset.sum_lt_sum
    · intro i _
      exact relax_le g t j i
    · exact ⟨i, Finset.mem_range.mpr hi, lt_of_le_of_ne (relax_le g t j i) hne⟩

theorem relaxLoop_spec {g : Grid} {A : Nat → Nat → Prop} (fuel : Nat) (t : Table) (h : RelaxInv g A t)
    (hf : total g t < fuel) : ∃ u, relaxLoop g fuel t = some u ∧ IsDistanceMap g A u := by
  induction fuel generalizing t with
  | zero => omega
  | succ fuel ih =>
    unfold relaxLoop
    split
    · rename_i hs
      exact ⟨t, rfl, fixed_distance h ((sameTable_iff g _ _).mp hs)⟩
    · rename_i hs
      have := total_lt hs
      exact ih _ (relax_inv h) (by omega)

theorem total_le {g : Grid} {t : Table} (h : ∀ j i, t j i ≤ g.nj + g.ni) : total g t ≤ g.nj * g.ni * (g.nj + g.ni) := by
  unfold total
  have h1 : ∀ j ∈ Finset.range g.nj, ∑ i ∈ Finset.range g.ni, t j i ≤ g.ni * (g.nj + g.ni) := by
    intro j _
    calc _ ≤ ∑ i ∈ Finset.range g.ni, (g.nj + g.ni) := Finset.sum_le_sum fun i _ => h j i
      _ = _ := by simp
  calc _ ≤ ∑ j ∈ Finset.range g.nj, g.ni * (g.nj + g.ni) := Finset.sum_le_sum h1
    _ = _ := by simp [Nat.mul_assoc]

theorem start_inv (g : Grid) (a : Nat → Nat → Bool) :
    RelaxInv g (fun j i => a j i = true) (fun j i => if a j i = true then 0 else g.nj + g.ni) := by
  refine ⟨?_, ?_, ?_⟩
  · intro j i _ _ ha; exact if_pos ha
  · intro j i _ _; split <;> omega
  · intro j i hj hi
    by_cases ha : a j i = true
    · right
      exact ⟨j, i, hj, hi, ha, by unfold steps; omega⟩
    · left
      exact if_neg ha

end Verif.Pillars
