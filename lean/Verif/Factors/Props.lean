import Verif.Factors.Model
import Mathlib.Data.Nat.Prime.Basic
import Mathlib.Algebra.BigOperators.Group.List.Basic
import Mathlib.Data.List.Perm.Basic
import Mathlib.Data.List.Perm.Subperm

/-!
# Property C08: factor enumeration
-/

namespace Verif.Factors
open Verif.Py

private theorem factLoop_spec : ∀ (fuel n i : Nat), 1 ≤ n → 2 ≤ i → (n = 1 ∨ i ≤ n) → 2 * n + 2 ≤ fuel + i →
    (∀ d, 2 ≤ d → d ∣ n → i ≤ d) →
    1 ≤ fuel → ∃ l, factLoop fuel n i = some l ∧ l.prod = n ∧ (∀ p ∈ l, Nat.Prime p) ∧ l.Pairwise (· ≤ ·) ∧
      ∀ p ∈ l, i ≤ p := by
  intro fuel
  induction fuel with
  | zero => intro n i _ _ _ _ _ h; omega
  | succ fuel ih =>
    intro n i hn hi hin hfuel hdiv _
    unfold factLoop
    by_cases hm : n % i ≠ 0
    · rw [if_pos hm]
      have hnd : ¬ i ∣ n := fun h => hm (Nat.mod_eq_zero_of_dvd h)
      have hdiv' : ∀ d, 2 ≤ d → d ∣ n → i + 1 ≤ d := by
        intro d h2 hd
        have := hdiv d h2 hd
        by_contra hc
        have : d = i := by omega
        subst this; exact hnd hd
      by_cases hgt : i + 1 > n
      · rw [if_pos hgt]
        have h1 : n = 1 := by
          by_contra hc
          have := hdiv' n (by omega) (Nat.dvd_refl n)
          omega
        exact ⟨[], rfl, by simp [h1], by simp, by simp, by simp⟩
      · rw [if_neg hgt]
        obtain ⟨l, h1, h2, h3, h4, h5⟩ := ih n (i + 1) hn (by omega) (by omega) (by omega) hdiv' (by omega)
        exact ⟨l, h1, h2, h3, h4, fun p hp => by have := h5 p hp; omega⟩
    · rw [if_neg hm]
      have hd : i ∣ n := Nat.dvd_of_mod_eq_zero (by omega)
      obtain ⟨q, rfl⟩ := hd
      have hq : i * q / i = q := Nat.mul_div_cancel_left q (by omega)
      have hprime : Nat.Prime i := by
        rw [Nat.prime_def]
        refine ⟨hi, ?_⟩
        intro m hmd
        by_cases hm1 : m = 1
        · left; exact hm1
        · right
          have hm0 : m ≠ 0 := by rintro rfl; simp at hmd; omega
          have := hdiv m (by omega) (hmd.trans (Nat.dvd_mul_right i q))
          have := Nat.le_of_dvd (by omega) hmd
          omega
      have hq1 : 1 ≤ q := by
        rcases Nat.eq_zero_or_pos q with h | h
        · subst h; simp at hn
        · exact h
      rw [hq]
      by_cases hlt : q < i
      · rw [if_pos hlt]
        have : q = 1 := by
          by_contra hc
          have := hdiv q (by omega) (Nat.dvd_mul_left q i)
          omega
        subst this
        exact ⟨[i], rfl, by simp, by simpa using hprime, by simp, by simp⟩
      · rw [if_neg hlt]
        have hle : 2 * q ≤ i * q := Nat.mul_le_mul_right q hi
        obtain ⟨l, h1, h2, h3, h4, h5⟩ := ih q i hq1 hi (by omega) (by omega)
          (fun d h2 hd => hdiv d h2 (hd.trans (Nat.dvd_mul_left q i))) (by omega)
        refine ⟨i :: l, by simp [h1], by simp [h2], ?_, ?_, ?_⟩
        · intro p hp
          rcases List.mem_cons.1 hp with rfl | hp
          · exact hprime
          · exact h3 p hp
        · exact List.pairwise_cons.2 ⟨h5, h4⟩
        · intro p hp
          rcases List.mem_cons.1 hp with rfl | hp
          · exact Nat.le_refl _
          · exact h5 p hp

/-- For every positive integer the loop terminates (within `2 n + 1` iterations) and returns prime
numbers, in ascending order, whose product is the integer. -/
theorem C08_prime_factors (n : Nat) (hn : 1 ≤ n) :
    ∃ l, factorize n = some l ∧ l.prod = n ∧ (∀ p ∈ l, Nat.Prime p) ∧ l.Pairwise (· ≤ ·) := by
  obtain ⟨l, h1, h2, h3, h4, _⟩ := factLoop_spec (2 * n + 1) n 2 hn (by omega) (by omega) (by omega)
    (fun d h _ => h) (by omega)
  exact ⟨l, h1, h2, h3, h4⟩

example : factorize 360 = some [2, 2, 2, 3, 3, 5] := by decide

private theorem mem_combine (h x : Nat) (l : List Nat) :
    x ∈ h :: combine h l ↔ x = h ∨ x ∈ l ∨ ∃ o ∈ l, x = h * o := by
  induction l with
  | nil => simp [combine]
  | cons o os ih =>
    unfold combine
    by_cases ho : o ≠ h
    · simp only [if_pos ho, List.mem_cons] at ih ⊢
      constructor
      · rintro (h1 | h1 | h1 | h1)
        · exact .inl h1
        · exact .inr (.inl (.inl h1))
        · exact .inr (.inr ⟨o, .inl rfl, h1⟩)
        · rcases ih.1 (.inr h1) with h2 | h2 | ⟨p, hp, h2⟩
          · exact .inl h2
          · exact .inr (.inl (.inr h2))
          · exact .inr (.inr ⟨p, .inr hp, h2⟩)
      · rintro (h1 | (h1 | h1) | ⟨p, (rfl | hp), h1⟩)
        · exact .inl h1
        · exact .inr (.inl h1)
        · rcases ih.2 (.inr (.inl h1)) with h2 | h2
          · exact .inl h2
          · exact .inr (.inr (.inr h2))
        · exact .inr (.inr (.inl h1))
        · rcases ih.2 (.inr (.inr ⟨p, hp, h1⟩)) with h2 | h2
          · exact .inl h2
          · exact .inr (.inr (.inr h2))
    · have ho' : o = h := by omega
      subst ho'
      simp only [if_neg ho, List.mem_cons] at ih ⊢
      constructor
      · rintro (h1 | h1 | h1)
        · exact .inl h1
        · exact .inr (.inr ⟨o, .inl rfl, h1⟩)
        · rcases ih.1 (.inr h1) with h2 | h2 | ⟨p, hp, h2⟩
          · exact .inl h2
          · exact .inr (.inl (.inr h2))
          · exact .inr (.inr ⟨p, .inr hp, h2⟩)
      · rintro (h1 | (h1 | h1) | ⟨p, (rfl | hp), h1⟩)
        · exact .inl h1
        · exact .inl h1
        · rcases ih.2 (.inr (.inl h1)) with h2 | h2
          · exact .inl h2
          · exact .inr (.inr h2)
        · exact .inr (.inl h1)
        · rcases ih.2 (.inr (.inr ⟨p, hp, h1⟩)) with h2 | h2
          · exact .inl h2
          · exact .inr (.inr h2)

/-- `combinatorial` lists the products of the non-empty selections from a list of numbers. -/
theorem C08_combinatorial_products (l : List Nat) (x : Nat) :
    x ∈ combinatorial l ↔ ∃ s, List.Sublist s l ∧ s ≠ [] ∧ x = s.prod := by
  induction l generalizing x with
  | nil =>
    simp only [combinatorial, List.not_mem_nil, List.sublist_nil, false_iff]
    rintro ⟨s, rfl, h, _⟩; exact h rfl
  | cons h t ih =>
    simp only [combinatorial, List.mem_insertionSort]
    rw [mem_combine]
    constructor
    · rintro (rfl | h1 | ⟨o, ho, rfl⟩)
      · exact ⟨[x], by simp, by simp, by simp⟩
      · obtain ⟨s, q1, q2, q3⟩ := (ih x).1 h1
        exact ⟨s, q1.cons _, q2, q3⟩
      · obtain ⟨s, q1, q2, q3⟩ := (ih o).1 ho
        exact ⟨h :: s, q1.cons_cons _, by simp, by simp [q3]⟩
    · rintro ⟨s, q1, q2, rfl⟩
      cases q1 with
      | cons _ q1 => exact .inr (.inl ((ih _).2 ⟨s, q1, q2, rfl⟩))
      | @cons_cons s' _ _ q1 =>
        by_cases hs : s' = []
        · subst hs; left; simp
        · exact .inr (.inr ⟨s'.prod, (ih _).2 ⟨s', q1, hs, rfl⟩, by simp⟩)

example : combinatorial [2, 3, 3] = [2, 3, 6, 9, 18] := by decide

private theorem dvd_iff_sublist_prod (l : List Nat) (hp : ∀ p ∈ l, Nat.Prime p) (d : Nat) :
    d ∣ l.prod ↔ ∃ s, List.Sublist s l ∧ s.prod = d := by
  induction l generalizing d with
  | nil =>
    simp only [List.prod_nil, Nat.dvd_one, List.sublist_nil, exists_eq_left]
    constructor <;> intro h <;> exact h.symm
  | cons p t ih =>
    have hpp := hp p (by simp)
    have iht := ih (fun q hq => hp q (by simp [hq]))
    rw [List.prod_cons]
    constructor
    · intro hd
      by_cases h : p ∣ d
      · obtain ⟨e, rfl⟩ := h
        have he : e ∣ t.prod := Nat.dvd_of_mul_dvd_mul_left hpp.pos hd
        obtain ⟨s, q1, q2⟩ := (iht e).1 he
        exact ⟨p :: s, q1.cons_cons _, by simp [q2]⟩
      · have hc : Nat.Coprime d p := ((Nat.Prime.coprime_iff_not_dvd hpp).2 h).symm
        obtain ⟨s, q1, q2⟩ := (iht d).1 (hc.dvd_of_dvd_mul_left hd)
        exact ⟨s, q1.cons _, q2⟩
    · rintro ⟨s, q1, rfl⟩
      cases q1 with
      | cons _ q1 => exact ((iht _).2 ⟨s, q1, rfl⟩).mul_left p
      | @cons_cons s' _ _ q1 =>
        rw [List.prod_cons]
        exact Nat.mul_dvd_mul_left p ((iht _).2 ⟨s', q1, rfl⟩)

/-- For every positive integer the factors are listed in strictly ascending order, and the list holds
exactly the divisors. -/
theorem C08_all_factors (n : Nat) (hn : 1 ≤ n) :
    ∃ l, allFactors n = some l ∧ l.Pairwise (· < ·) ∧ ∀ d, d ∈ l ↔ d ∣ n := by
  obtain ⟨ps, h1, h2, h3, _⟩ := C08_prime_factors n hn
  refine ⟨allFactorsFromPrimes ps, by simp [allFactors, h1], ?_, ?_⟩
  · have hsort : (allFactorsFromPrimes ps).Pairwise (· ≤ ·) := List.pairwise_insertionSort _ _
    have hnd : (allFactorsFromPrimes ps).Nodup := by
      unfold allFactorsFromPrimes
      rw [(List.perm_insertionSort _ _).nodup_iff, List.nodup_append]
      refine ⟨List.nodup_dedup _, by simp, ?_⟩
      intro a ha b hb
      simp only [List.mem_singleton] at hb
      subst hb
      rw [List.mem_dedup, C08_combinatorial_products] at ha
      rintro rfl
      obtain ⟨s, q1, q2, q3⟩ := ha
      cases s with
      | nil => exact q2 rfl
      | cons p s =>
        have hpr := h3 p (q1.subset (by simp))
        rw [List.prod_cons] at q3
        have : p ∣ 1 := ⟨s.prod, q3⟩
        have := Nat.le_of_dvd (by omega) this
        have := hpr.two_le
        omega
    have := hsort.and hnd
    exact this.imp (fun ⟨h1, h2⟩ => by omega)
  · intro d
    unfold allFactorsFromPrimes
    rw [List.mem_insertionSort, List.mem_append, List.mem_dedup, C08_combinatorial_products,
      List.mem_singleton, ← h2, dvd_iff_sublist_prod ps h3]
    constructor
    · rintro (⟨s, q1, _, q3⟩ | rfl)
      · exact ⟨s, q1, q3.symm⟩
      · exact ⟨[], by simp, by simp⟩
    · rintro ⟨s, q1, q2⟩
      by_cases hs : s = []
      · subst hs; right; simpa using q2.symm
      · left; exact ⟨s, q1, hs, q2.symm⟩

example : allFactors 60 = some [1, 2, 3, 4, 5, 6, 10, 12, 15, 20, 30, 60] := by decide

/-- `remove_subset` takes out exactly the given elements, counted with repetition, and raises an error
when it cannot. -/
theorem C08_remove_subset (primary subset : List Nat) :
    (∃ r, removeSubset primary subset = .ok r ∧ List.Perm (subset ++ r) primary) ∨
    (removeSubset primary subset = .error .value ∧ ¬ ∃ r, List.Perm (subset ++ r) primary) := by
  induction subset generalizing primary with
  | nil => left; exact ⟨primary, rfl, by simp⟩
  | cons e es ih =>
    by_cases he : e ∈ primary
    · simp only [removeSubset, if_pos he]
      rcases ih (primary.erase e) with ⟨r, h1, h2⟩ | ⟨h1, h2⟩
      · left
        exact ⟨r, h1, by
          rw [List.cons_append]
          exact (h2.cons e).trans (List.perm_cons_erase he).symm⟩
      · right
        refine ⟨h1, ?_⟩
        rintro ⟨r, hr⟩
        apply h2
        refine ⟨r, ?_⟩
        rw [List.cons_append] at hr
        exact List.Perm.cons_inv (hr.trans (List.perm_cons_erase he))
    · right
      simp only [removeSubset, if_neg he, true_and]
      rintro ⟨r, hr⟩
      exact he (hr.subset (by simp))

example : removeSubset [2, 3, 2, 5] [2, 5] = .ok [3, 2] := by decide

end Verif.Factors
