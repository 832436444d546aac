import Verif.FindFaces.Shadow
import Verif.FindFaces.Spec
import Mathlib.Logic.Function.Iterate

/-! # C93: shadows of faces -/

namespace Verif.FindFaces
open Verif.Py

theorem inPairs_iff {ext : Cell 3} {k j i : Nat} : inPairs ext k j i = true ↔ k < ext 0 - 1 ∧ j < ext 1 ∧ i < ext 2 := by
  unfold inPairs
  simp only [Bool.and_eq_true, decide_eq_true_eq, and_assoc]

/-- the break makes no difference -/
theorem loop_eq_iterate (ext : Cell 3) (found : Arr → Nat → Nat → Nat → Bool) (update : Arr → Arr)
    (hin : ∀ s k j i, found s k j i = true → inPairs ext k j i = true)
    (hno : ∀ s, (∀ k j i, found s k j i = false) → update s = s) (n : Nat) (s : Arr) : shadowLoop ext found update n s = update^[n] s := by
  induction n generalizing s with
  | zero => rfl
  | succ n ih =>
    rw [shadowLoop]
    split
    · rw [ih, Function.iterate_succ_apply]
    · rename_i h
      have hfix : update s = s := by
        refine hno s fun k j i => ?_
        by_contra hf
        rw [Bool.not_eq_false] at hf
        obtain ⟨h1, h2, h3⟩ := inPairs_iff.mp (hin s k j i hf)
        exact h (List.any_eq_true.mpr ⟨k, List.mem_range.mpr h1, List.any_eq_true.mpr ⟨j, List.mem_range.mpr h2,
          List.any_eq_true.mpr ⟨i, List.mem_range.mpr h3, hf⟩⟩⟩)
      exact (Function.iterate_fixed hfix _).symm

section
open Classical

/-- a face below or above a cell of a column: `F m` if there is a face between layers `m` and `m + 1` -/
def Under (F : Nat → Prop) (k : Nat) : Prop := ∃ m, k ≤ m ∧ F m
def Over (F : Nat → Prop) (k : Nat) : Prop := ∃ m, m < k ∧ F m

/-- first phase, after `t` rounds -/
noncomputable def phase1 (F : Nat → Prop) (t k : Nat) : Nat :=
  if F k then (if k ≠ 0 ∧ F (k - 1) then 3 else 1) else if k ≠ 0 ∧ F (k - 1) then 2 else if ∃ m, k < m ∧ m ≤ k + t ∧ F m then 1 else 0

noncomputable def phase2 (F : Nat → Prop) (t k : Nat) : Nat :=
  if F k then (if k ≠ 0 ∧ F (k - 1) then 3 else 1) else if k ≠ 0 ∧ F (k - 1) then 2 else if Under F k then 1
  else if ∃ m, m < k ∧ k ≤ m + 1 + t ∧ F m then 2 else 0

noncomputable def phase3 (F : Nat → Prop) (t k : Nat) : Nat :=
  if Under F k then (if k ≠ 0 ∧ F (k - 1) then (if F k ∨ 1 ≤ t then 3 else 2) else if ∃ m, m < k ∧ k ≤ m + 1 + t ∧ F m then 3 else 1)
  else if Over F k then 2 else 0

theorem step1 (F : Nat → Prop) (N : Nat) (hF : ∀ m, F m → m < N) (t k : Nat) :
    phase1 F (t + 1) k = if (k < N ∧ phase1 F t k = 0) ∧ phase1 F t (k + 1) = 1 then 1 else phase1 F t k := by
  by_cases h1 : F k
  · have e : ∀ t, phase1 F t k ≠ 0 := by
      intro t
      unfold phase1
      rw [if_pos h1]
      split <;> decide
    rw [if_neg (fun h => e t h.1.2)]
    unfold phase1
    rw [if_pos h1, if_pos h1]
  by_cases h2 : k ≠ 0 ∧ F (k - 1)
  · have e : ∀ t, phase1 F t k = 2 := by
      intro t
      unfold phase1
      rw [if_neg h1, if_pos h2]
    rw [e, e, if_neg (fun h => by cases h.1.2)]
  have e : ∀ t, phase1 F t k = if ∃ m, k < m ∧ m ≤ k + t ∧ F m then 1 else 0 := by
    intro t
    unfold phase1
    rw [if_neg h1, if_neg h2]
  rw [e, e]
  by_cases h3 : ∃ m, k < m ∧ m ≤ k + t ∧ F m
  · have h3' : ∃ m, k < m ∧ m ≤ k + (t + 1) ∧ F m := by
      obtain ⟨m, a, b, c⟩ := h3
      exact ⟨m, a, by omega, c⟩
    rw [if_pos h3, if_pos h3']
    split <;> rfl
  · rw [if_neg h3]
    have hiff : phase1 F t (k + 1) = 1 ↔ F (k + 1) ∨ ∃ m, k + 1 < m ∧ m ≤ k + 1 + t ∧ F m := by
      unfold phase1
      rw [Nat.add_sub_cancel]
      have hn : ¬ (k + 1 ≠ 0 ∧ F k) := fun h => h1 h.2
      rw [if_neg hn, if_neg hn]
      by_cases h4 : F (k + 1)
      · simp [h4]
      · by_cases h5 : ∃ m, k + 1 < m ∧ m ≤ k + 1 + t ∧ F m
        · rw [if_neg h4, if_pos h5]; exact ⟨fun _ => Or.inr h5, fun _ => rfl⟩
        · rw [if_neg h4, if_neg h5]
          constructor
          · intro h; cases h
          · rintro (h | h)
            · exact absurd h h4
            · exact absurd h h5
    by_cases h6 : ∃ m, k < m ∧ m ≤ k + (t + 1) ∧ F m
    · rw [if_pos h6, if_pos]
      obtain ⟨m, a, b, c⟩ := h6
      refine ⟨⟨by have := hF m c; omega, rfl⟩, hiff.mpr ?_⟩
      by_cases e : m = k + 1
      · exact Or.inl (e ▸ c)
      · exact Or.inr ⟨m, by omega, by omega, c⟩
    · rw [if_neg h6, if_neg]
      rintro ⟨-, h⟩
      refine h6 ?_
      rcases hiff.mp h with h | ⟨m, a, b, c⟩
      · exact ⟨k + 1, by omega, by omega, h⟩
      · exact ⟨m, by omega, by omega, c⟩

theorem phase12 (F : Nat → Prop) (N : Nat) (hF : ∀ m, F m → m < N) (k : Nat) : phase1 F N k = phase2 F 0 k := by
  unfold phase1 phase2
  by_cases h1 : F k
  · rw [if_pos h1, if_pos h1]
  by_cases h2 : k ≠ 0 ∧ F (k - 1)
  · rw [if_neg h1, if_neg h1, if_pos h2, if_pos h2]
  rw [if_neg h1, if_neg h1, if_neg h2, if_neg h2]
  have hiff : (∃ m, k < m ∧ m ≤ k + N ∧ F m) ↔ Under F k := by
    constructor
    · rintro ⟨m, a, b, c⟩
      exact ⟨m, by omega, c⟩
    · rintro ⟨m, a, c⟩
      have := hF m c
      refine ⟨m, ?_, by omega, c⟩
      by_contra hh
      have : m = k := by omega
      exact h1 (this ▸ c)
  by_cases h3 : Under F k
  · rw [if_pos (hiff.mpr h3), if_pos h3]
  · rw [if_neg (fun h => h3 (hiff.mp h)), if_neg h3, if_neg]
    rintro ⟨m, a, b, c⟩
    have : m = k - 1 := by omega
    exact h2 ⟨by omega, this ▸ c⟩

theorem step2 (F : Nat → Prop) (N : Nat) (t k : Nat) (hk : k ≤ N) :
    phase2 F (t + 1) k = if k ≠ 0 ∧ ((k - 1 < N ∧ phase2 F t (k - 1 + 1) = 0) ∧ phase2 F t (k - 1) = 2) then 2 else phase2 F t k := by
  by_cases h0 : k = 0
  · subst h0
    rw [if_neg (fun h => h.1 rfl)]
    have : ∀ t, ¬ ∃ m, m < 0 ∧ 0 ≤ m + 1 + t ∧ F m := fun t ⟨m, a, _⟩ => by omega
    unfold phase2
    rw [if_neg (this t), if_neg (this (t + 1))]
  obtain ⟨k, rfl⟩ : ∃ l, k = l + 1 := ⟨k - 1, by omega⟩
  simp only [Nat.add_sub_cancel]
  by_cases h1 : F (k + 1)
  · have e : ∀ t, phase2 F t (k + 1) ≠ 0 := by
      intro t
      unfold phase2
      rw [if_pos h1]
      split <;> decide
    rw [if_neg (fun h => e t h.2.1.2)]
    unfold phase2
    rw [if_pos h1, if_pos h1]
  by_cases h2 : F k
  · have e : ∀ t, phase2 F t (k + 1) = 2 := by
      intro t
      unfold phase2
      rw [if_neg h1, if_pos ⟨by omega, by rw [Nat.add_sub_cancel]; exact h2⟩]
    rw [e, e, if_neg (fun h => by cases h.2.1.2)]
  have h2' : ¬ (k + 1 ≠ 0 ∧ F (k + 1 - 1)) := by rw [Nat.add_sub_cancel]; exact fun h => h2 h.2
  by_cases h3 : Under F (k + 1)
  · have e : ∀ t, phase2 F t (k + 1) = 1 := by
      intro t
      unfold phase2
      rw [if_neg h1, if_neg h2', if_pos h3]
    rw [e, e, if_neg (fun h => by cases h.2.1.2)]
  have hu : ¬ Under F k := by
    rintro ⟨m, a, c⟩
    by_cases e : m = k
    · exact h2 (e ▸ c)
    · exact h3 ⟨m, by omega, c⟩
  have e : ∀ t, phase2 F t (k + 1) = if ∃ m, m < k + 1 ∧ k + 1 ≤ m + 1 + t ∧ F m then 2 else 0 := by
    intro t
    unfold phase2
    rw [if_neg h1, if_neg h2', if_neg h3]
  have hiff : phase2 F t k = 2 ↔ (k ≠ 0 ∧ F (k - 1)) ∨ ∃ m, m < k ∧ k ≤ m + 1 + t ∧ F m := by
    unfold phase2
    rw [if_neg h2, if_neg hu]
    by_cases h4 : k ≠ 0 ∧ F (k - 1)
    · rw [if_pos h4]; exact ⟨fun _ => Or.inl h4, fun _ => rfl⟩
    · rw [if_neg h4]
      by_cases h5 : ∃ m, m < k ∧ k ≤ m + 1 + t ∧ F m
      · rw [if_pos h5]; exact ⟨fun _ => Or.inr h5, fun _ => rfl⟩
      · rw [if_neg h5]
        constructor
        · intro h; cases h
        · rintro (h | h)
          · exact absurd h h4
          · exact absurd h h5
  rw [e, e]
  by_cases h6 : ∃ m, m < k + 1 ∧ k + 1 ≤ m + 1 + t ∧ F m
  · have h6' : ∃ m, m < k + 1 ∧ k + 1 ≤ m + 1 + (t + 1) ∧ F m := by
      obtain ⟨m, a, b, c⟩ := h6
      exact ⟨m, a, by omega, c⟩
    rw [if_pos h6, if_pos h6']
    split <;> rfl
  · rw [if_neg h6]
    by_cases h7 : ∃ m, m < k + 1 ∧ k + 1 ≤ m + 1 + (t + 1) ∧ F m
    · rw [if_pos h7, if_pos]
      obtain ⟨m, a, b, c⟩ := h7
      have : m ≠ k := fun e => h2 (e ▸ c)
      exact ⟨by omega, ⟨by omega, rfl⟩, hiff.mpr (Or.inr ⟨m, by omega, by omega, c⟩)⟩
    · rw [if_neg h7, if_neg]
      rintro ⟨-, -, h⟩
      refine h7 ?_
      rcases hiff.mp h with ⟨h0, h⟩ | ⟨m, a, b, c⟩
      · exact ⟨k - 1, by omega, by omega, h⟩
      · exact ⟨m, by omega, by omega, c⟩

theorem phase23 (F : Nat → Prop) (N : Nat) (k : Nat) (hk : k ≤ N) : phase2 F N k = phase3 F 0 k := by
  unfold phase2 phase3
  by_cases h1 : F k
  · have hu : Under F k := ⟨k, le_refl _, h1⟩
    rw [if_pos h1, if_pos hu]
    by_cases h2 : k ≠ 0 ∧ F (k - 1)
    · rw [if_pos h2, if_pos h2, if_pos (Or.inl h1)]
    · rw [if_neg h2, if_neg h2, if_neg]
      rintro ⟨m, a, b, c⟩
      have : m = k - 1 := by omega
      exact h2 ⟨by omega, this ▸ c⟩
  rw [if_neg h1]
  by_cases h2 : k ≠ 0 ∧ F (k - 1)
  · rw [if_pos h2]
    have ho : Over F k := ⟨k - 1, by omega, h2.2⟩
    by_cases hu : Under F k
    · rw [if_pos hu, if_pos h2, if_neg]
      rintro (h | h)
      · exact h1 h
      · omega
    · rw [if_neg hu, if_pos ho]
  rw [if_neg h2]
  by_cases hu : Under F k
  · rw [if_pos hu, if_pos hu, if_neg h2, if_neg]
    rintro ⟨m, a, b, c⟩
    have : m = k - 1 := by omega
    exact h2 ⟨by omega, this ▸ c⟩
  · rw [if_neg hu, if_neg hu]
    have hiff : (∃ m, m < k ∧ k ≤ m + 1 + N ∧ F m) ↔ Over F k := by
      constructor
      · rintro ⟨m, a, b, c⟩; exact ⟨m, a, c⟩
      · rintro ⟨m, a, c⟩; exact ⟨m, a, by omega, c⟩
    by_cases ho : Over F k
    · rw [if_pos (hiff.mpr ho), if_pos ho]
    · rw [if_neg (fun h => ho (hiff.mp h)), if_neg ho]

/-- values of the third phase -/
theorem phase3_two_le {F : Nat → Prop} {t k : Nat} : 2 ≤ phase3 F t k ↔
    (Under F k ∧ ((k ≠ 0 ∧ F (k - 1)) ∨ ∃ m, m < k ∧ k ≤ m + 1 + t ∧ F m)) ∨ (¬ Under F k ∧ Over F k) := by
  unfold phase3
  by_cases hu : Under F k
  · rw [if_pos hu]
    by_cases h2 : k ≠ 0 ∧ F (k - 1)
    · rw [if_pos h2]
      refine ⟨fun _ => Or.inl ⟨hu, Or.inl h2⟩, fun _ => ?_⟩
      split <;> decide
    · rw [if_neg h2]
      by_cases h3 : ∃ m, m < k ∧ k ≤ m + 1 + t ∧ F m
      · rw [if_pos h3]; exact ⟨fun _ => Or.inl ⟨hu, Or.inr h3⟩, fun _ => by decide⟩
      · rw [if_neg h3]
        refine ⟨fun h => by omega, ?_⟩
        rintro (⟨-, h | h⟩ | ⟨h, -⟩)
        · exact absurd h h2
        · exact absurd h h3
        · exact absurd hu h
  · rw [if_neg hu]
    by_cases ho : Over F k
    · rw [if_pos ho]; exact ⟨fun _ => Or.inr ⟨hu, ho⟩, fun _ => by decide⟩
    · rw [if_neg ho]
      refine ⟨fun h => by omega, ?_⟩
      rintro (⟨h, -⟩ | ⟨-, h⟩)
      · exact absurd h hu
      · exact absurd h ho

theorem phase3_one {F : Nat → Prop} {t k : Nat} : phase3 F t k = 1 ↔
    Under F k ∧ ¬ (k ≠ 0 ∧ F (k - 1)) ∧ ¬ ∃ m, m < k ∧ k ≤ m + 1 + t ∧ F m := by
  unfold phase3
  by_cases hu : Under F k
  · rw [if_pos hu]
    by_cases h2 : k ≠ 0 ∧ F (k - 1)
    · rw [if_pos h2]
      refine ⟨fun h => ?_, fun h => absurd h2 h.2.1⟩
      split at h <;> cases h
    · rw [if_neg h2]
      by_cases h3 : ∃ m, m < k ∧ k ≤ m + 1 + t ∧ F m
      · rw [if_pos h3]; exact ⟨fun h => by (cases h), fun h => absurd h3 h.2.2⟩
      · rw [if_neg h3]; exact ⟨fun _ => ⟨hu, h2, h3⟩, fun _ => rfl⟩
  · rw [if_neg hu]
    refine ⟨fun h => ?_, fun h => absurd h.1 hu⟩
    split at h <;> cases h

/-- a pair of cells found in the third phase -/
theorem phase3_found {F : Nat → Prop} {t k : Nat} : (2 ≤ phase3 F t k ∧ phase3 F t (k + 1) = 1) ↔
    Under F (k + 1) ∧ ¬ F k ∧ (∃ m, m < k ∧ k ≤ m + 1 + t ∧ F m) ∧ ¬ ∃ m, m < k + 1 ∧ k + 1 ≤ m + 1 + t ∧ F m := by
  rw [phase3_two_le, phase3_one]
  constructor
  · rintro ⟨h1, hu, h2, h3⟩
    rw [Nat.add_sub_cancel] at h2
    have hk : ¬ F k := fun h => h2 ⟨by omega, h⟩
    have hu' : Under F k := by
      obtain ⟨m, a, c⟩ := hu
      exact ⟨m, by omega, c⟩
    refine ⟨hu, hk, ?_, h3⟩
    rcases h1 with ⟨-, ⟨h0, h⟩ | h⟩ | ⟨h, -⟩
    · exact ⟨k - 1, by omega, by omega, h⟩
    · exact h
    · exact absurd hu' h
  · rintro ⟨hu, hk, h1, h3⟩
    have hu' : Under F k := by
      obtain ⟨m, a, c⟩ := hu
      exact ⟨m, by omega, c⟩
    exact ⟨Or.inl ⟨hu', Or.inr h1⟩, hu, by rw [Nat.add_sub_cancel]; exact fun h => hk h.2, h3⟩

theorem step3 (F : Nat → Prop) (N : Nat) (hF : ∀ m, F m → m < N) (t k : Nat) :
    phase3 F (t + 1) k = if (k < N ∧ 2 ≤ phase3 F t k ∧ phase3 F t (k + 1) = 1) ∨
      (k ≠ 0 ∧ k - 1 < N ∧ 2 ≤ phase3 F t (k - 1) ∧ phase3 F t (k - 1 + 1) = 1) then 3 else phase3 F t k := by
  simp only [phase3_found]
  by_cases hu : Under F k
  swap
  · have e : ∀ t, phase3 F t k = if Over F k then 2 else 0 := fun t => by unfold phase3; rw [if_neg hu]
    rw [e, e]
    symm
    refine if_neg ?_
    rintro (⟨-, ⟨m, a, c⟩, -⟩ | ⟨h0, -, ⟨m, a, c⟩, -⟩)
    · exact hu ⟨m, by omega, c⟩
    · exact hu ⟨m, by omega, c⟩
  by_cases h2 : k ≠ 0 ∧ F (k - 1)
  · have e : ∀ t, phase3 F t k = if F k ∨ 1 ≤ t then 3 else 2 := fun t => by unfold phase3; rw [if_pos hu, if_pos h2]
    rw [e, e, if_pos (Or.inr (by omega))]
    by_cases h3 : F k ∨ 1 ≤ t
    · rw [if_pos h3]; split <;> rfl
    · have hk : ¬ F k := fun h => h3 (Or.inl h)
      have ht : t = 0 := by
        by_contra hh
        exact h3 (Or.inr (by omega))
      subst ht
      obtain ⟨m, a, c⟩ := hu
      have hmk : m ≠ k := fun e => hk (e ▸ c)
      rw [if_pos]
      refine Or.inl ⟨by have := hF m c; omega, ⟨m, by omega, c⟩, hk, ⟨k - 1, by omega, by omega, h2.2⟩, ?_⟩
      rintro ⟨x, a', b', c'⟩
      have : x = k := by omega
      exact hk (this ▸ c')
  · have e : ∀ t, phase3 F t k = if ∃ m, m < k ∧ k ≤ m + 1 + t ∧ F m then 3 else 1 := fun t => by unfold phase3; rw [if_pos hu, if_neg h2]
    rw [e, e]
    by_cases h3 : ∃ m, m < k ∧ k ≤ m + 1 + t ∧ F m
    · have h3' : ∃ m, m < k ∧ k ≤ m + 1 + (t + 1) ∧ F m := by
        obtain ⟨m, a, b, c⟩ := h3
        exact ⟨m, a, by omega, c⟩
      rw [if_pos h3, if_pos h3']
      split <;> rfl
    · rw [if_neg h3]
      by_cases h4 : ∃ m, m < k ∧ k ≤ m + 1 + (t + 1) ∧ F m
      · rw [if_pos h4, if_pos]
        obtain ⟨m, a, b, c⟩ := h4
        have hm1 : m ≠ k - 1 := fun e => h2 ⟨by omega, e ▸ c⟩
        obtain ⟨l, rfl⟩ : ∃ l, k = l + 1 := ⟨k - 1, by omega⟩
        obtain ⟨x, ax, cx⟩ := hu
        refine Or.inr ⟨by omega, ?_, ⟨x, by omega, cx⟩, fun h => h2 ⟨by omega, by rw [Nat.add_sub_cancel]; rw [Nat.add_sub_cancel] at h; exact h⟩,
          ⟨m, by omega, by omega, c⟩, h3⟩
        have := hF x cx
        omega
      · rw [if_neg h4, if_neg]
        rintro (⟨-, -, -, h, -⟩ | ⟨h0, -, -, -, ⟨m, a, b, c⟩, -⟩)
        · exact h3 h
        · exact h4 ⟨m, by omega, by omega, c⟩

end

/-- how the shadow of a cell is meant to be: whether there are faces below the cell, and above it, in the column -/
def ShadowIs (kFaces : List (Cell 3)) (k j i : Nat) (v : Nat) : Prop :=
  let below := ∃ m, k ≤ m ∧ ![m, j, i] ∈ kFaces
  let above := ∃ m, m < k ∧ ![m, j, i] ∈ kFaces
  (v = 0 ∧ ¬ below ∧ ¬ above) ∨ (v = 1 ∧ below ∧ ¬ above) ∨ (v = 2 ∧ ¬ below ∧ above) ∨ (v = 3 ∧ below ∧ above)

theorem phase3_final {F : Nat → Prop} {N k : Nat} (hF : ∀ m, F m → m < N) (hk : k ≤ N) :
    (phase3 F N k = 0 ∧ ¬ Under F k ∧ ¬ Over F k) ∨ (phase3 F N k = 1 ∧ Under F k ∧ ¬ Over F k) ∨
      (phase3 F N k = 2 ∧ ¬ Under F k ∧ Over F k) ∨ (phase3 F N k = 3 ∧ Under F k ∧ Over F k) := by
  classical
  unfold phase3
  by_cases hu : Under F k
  · rw [if_pos hu]
    have hN : 1 ≤ N := by
      obtain ⟨m, -, c⟩ := hu
      have := hF m c
      omega
    by_cases h2 : k ≠ 0 ∧ F (k - 1)
    · rw [if_pos h2, if_pos (Or.inr hN)]
      exact Or.inr (Or.inr (Or.inr ⟨rfl, hu, k - 1, by omega, h2.2⟩))
    · rw [if_neg h2]
      by_cases h3 : Over F k
      · obtain ⟨m, a, c⟩ := h3
        rw [if_pos ⟨m, a, by omega, c⟩]
        exact Or.inr (Or.inr (Or.inr ⟨rfl, hu, m, a, c⟩))
      · rw [if_neg (fun ⟨m, a, _, c⟩ => h3 ⟨m, a, c⟩)]
        exact Or.inr (Or.inl ⟨rfl, hu, h3⟩)
  · rw [if_neg hu]
    by_cases h3 : Over F k
    · rw [if_pos h3]; exact Or.inr (Or.inr (Or.inl ⟨rfl, hu, h3⟩))
    · rw [if_neg h3]; exact Or.inl ⟨rfl, hu, h3⟩

/-- C93: the shadow of a cell is 0 if there are no K faces in the column, 1 if all are below the cell, 2 if all are above and 3 if there are
some of both. -/
theorem C93_shadow_arrays {ext : Cell 3} {kFaces : List (Cell 3)} (hf : ∀ c ∈ kFaces, c 0 + 1 < ext 0) {k j i : Nat}
    (hk : k < ext 0) (hj : j < ext 1) (hi : i < ext 2) : ShadowIs kFaces k j i (shadowFromFaces ext kFaces k j i) := by
  classical
  set F : Nat → Prop := fun m => ![m, j, i] ∈ kFaces with hFdef
  set N := ext 0 - 1 with hN
  have hF : ∀ m, F m → m < N := by
    intro m hm
    have := hf _ hm
    have e : (![m, j, i] : Cell 3) 0 = m := rfl
    rw [e] at this
    omega
  unfold shadowFromFaces
  rw [loop_eq_iterate ext (foundAbove ext) (spreadAbove ext) (fun s k j i h => by
      unfold foundAbove at h; simp only [Bool.and_eq_true] at h; exact h.1.1) (fun s h => by
      funext k j i; unfold spreadAbove; rw [h]; rfl)]
  rw [loop_eq_iterate ext (foundBelow ext) (spreadBelow ext) (fun s k j i h => by
      unfold foundBelow at h; simp only [Bool.and_eq_true] at h; exact h.1.1) (fun s h => by
      funext k j i; unfold spreadBelow; rw [h, Bool.and_false]; rfl)]
  rw [loop_eq_iterate ext (foundBetween ext) (spreadBetween ext) (fun s k j i h => by
      unfold foundBetween at h; simp only [Bool.and_eq_true] at h; exact h.1.1) (fun s h => by
      funext k j i; unfold spreadBetween; rw [h, h, Bool.and_false]; rfl)]
  rw [← hN]
  have p1 : ∀ t k, (spreadAbove ext)^[t] (shadowStart kFaces) k j i = phase1 F t k := by
    intro t
    induction t with
    | zero =>
      intro k
      show shadowStart kFaces k j i = _
      unfold shadowStart phase1
      have hno : ¬ ∃ m, k < m ∧ m ≤ k + 0 ∧ F m := fun ⟨m, a, b, _⟩ => by omega
      rw [if_neg hno]
      simp only [Bool.and_eq_true, decide_eq_true_eq, List.contains_iff_mem]
      have hFk : ∀ m, F m ↔ ![m, j, i] ∈ kFaces := fun m => Iff.rfl
      simp only [hFk]
      split <;> split <;> rfl
    | succ t ih =>
      intro k
      rw [Function.iterate_succ_apply', step1 F N hF t k]
      generalize (spreadAbove ext)^[t] (shadowStart kFaces) = s at ih
      unfold spreadAbove foundAbove
      simp only [Bool.and_eq_true, beq_iff_eq, inPairs_iff, ih, hj, hi, and_true, ← hN]
  have p2 : ∀ t k, k ≤ N → (spreadBelow ext)^[t] ((spreadAbove ext)^[N] (shadowStart kFaces)) k j i = phase2 F t k := by
    intro t
    induction t with
    | zero => intro k _; exact (p1 N k).trans (phase12 F N hF k)
    | succ t ih =>
      intro k hk
      rw [Function.iterate_succ_apply', step2 F N t k hk]
      generalize (spreadBelow ext)^[t] ((spreadAbove ext)^[N] (shadowStart kFaces)) = s at ih
      unfold spreadBelow foundBelow
      simp only [Bool.and_eq_true, beq_iff_eq, inPairs_iff, hj, hi, and_true, ← hN, decide_eq_true_eq]
      by_cases h0 : k = 0
      · rw [if_neg (fun h => h.1 h0), if_neg (fun h => h.1 h0)]
        exact ih k hk
      · rw [ih k hk, ih (k - 1) (by omega), ih (k - 1 + 1) (by omega)]
  have p3 : ∀ t k, k ≤ N → (spreadBetween ext)^[t] ((spreadBelow ext)^[N] ((spreadAbove ext)^[N] (shadowStart kFaces))) k j i = phase3 F t k := by
    intro t
    induction t with
    | zero => intro k hk; exact (p2 N k hk).trans (phase23 F N k hk)
    | succ t ih =>
      intro k hk
      rw [Function.iterate_succ_apply', step3 F N hF t k]
      generalize (spreadBetween ext)^[t] ((spreadBelow ext)^[N] ((spreadAbove ext)^[N] (shadowStart kFaces))) = s at ih
      unfold spreadBetween foundBetween
      simp only [Bool.or_eq_true, Bool.and_eq_true, beq_iff_eq, inPairs_iff, hj, hi, and_true, ← hN, decide_eq_true_eq, and_assoc]
      rw [ih k hk]
      refine if_congr (or_congr ?_ ?_) rfl rfl
      · by_cases h : k < N
        · rw [ih (k + 1) (by omega)]
        · exact ⟨fun g => absurd g.1 h, fun g => absurd g.1 h⟩
      · by_cases h0 : k = 0
        · exact ⟨fun g => absurd h0 g.1, fun g => absurd h0 g.1⟩
        · rw [ih (k - 1) (by omega), ih (k - 1 + 1) (by omega)]
  rw [p3 N k (by omega)]
  exact phase3_final hF (by omega)

/-- C93: with indices of faces, all internal to the grid, the same. -/
theorem C93_shadow_partial {ext : Cell 3} {kFaces : List (Cell 3)} (hf : ∀ c ∈ kFaces, c 0 + 1 < ext 0 ∧ c 1 < ext 1 ∧ c 2 < ext 2) :
    ∃ s, shadowFromFaceIndices ext (some kFaces) = .ok s ∧
      ∀ k j i, k < ext 0 → j < ext 1 → i < ext 2 → ShadowIs kFaces k j i (s k j i) := by
  refine ⟨shadowFromFaces ext kFaces, ?_, fun k j i hk hj hi => C93_shadow_arrays (fun c hc => (hf c hc).1) hk hj hi⟩
  unfold shadowFromFaceIndices
  dsimp only
  rw [if_pos]
  rw [List.all_eq_true]
  intro c hc
  have := hf c hc
  exact inPairs_iff.mpr ⟨by omega, this.2⟩

/-- C93: but a surface which has no K faces, for which there is no list of them, does not have a shadow of zeros: an error is raised. -/
theorem C93_no_faces_violated (ext : Cell 3) : shadowFromFaceIndices ext none = .error .type := rfl

/-- two faces in one column: cells above, between (two) and below -/
example : (List.range 5).map (fun k => shadowFromFaces ![5, 1, 2] [![0, 0, 0], ![2, 0, 0]] k 0 0) = [1, 3, 3, 2, 2] := by decide +kernel

example : (List.range 5).map (fun k => shadowFromFaces ![5, 1, 2] [![0, 0, 0], ![2, 0, 0]] k 0 1) = [0, 0, 0, 0, 0] := by decide +kernel

end Verif.FindFaces
