import Verif.Wells.Props
import Mathlib.Algebra.BigOperators.Group.Finset.Basic
import Mathlib.Algebra.BigOperators.Ring.Finset
import Mathlib.Algebra.BigOperators.Field
import Mathlib.Algebra.Order.BigOperators.Group.Finset
import Mathlib.Data.List.Range

/-! # C68, C69: properties of wellbore frames passed to blocked wells; perforated fractions -/

namespace Verif.Wells
open Verif.Py Spec

variable {K : Type*} [Field K] [LinearOrder K] [IsStrictOrderedRing K]

/-- a frame with at least one interval and increasing measured depths -/
structure Frame.Good (w : Frame K) : Prop where
  two : 2 ≤ w.nodes
  inc : Increasing w.nodes w.md

theorem intervalForMd_in (w : Frame K) (m : K) (h0 : w.md 0 ≤ m) (h1 : m ≤ w.md (w.nodes - 1)) (hw : w.Good) :
    ∃ i : ℕ, i + 1 < w.nodes ∧ w.md i ≤ m ∧ m ≤ w.md (i + 1) ∧ (i = 0 ∨ w.md i < m) ∧
      intervalForMd w m = ((i : ℤ), (m - w.md i) / (w.md (i + 1) - w.md i)) := by
  have h2 := hw.two
  unfold intervalForMd
  rw [if_neg (not_lt.2 h0)]
  cases hf : (List.range (w.nodes - 1)).find? (fun i => decide (m ≤ w.md (i + 1))) with
  | none =>
    exfalso
    rw [List.find?_eq_none] at hf
    have := hf (w.nodes - 2) (List.mem_range.2 (by omega))
    rw [show w.nodes - 2 + 1 = w.nodes - 1 by omega] at this
    simp [h1] at this
  | some i =>
    have hi := List.mem_range.1 (List.mem_of_find?_eq_some hf)
    have hp := List.find?_some hf
    simp only [decide_eq_true_eq] at hp
    have hbefore : ∀ k < i, ¬ m ≤ w.md (k + 1) := by
      intro k hk
      rw [List.find?_range_eq_some] at hf
      have := hf.2.2 k hk
      simpa using this
    have hlt : i = 0 ∨ w.md i < m := by
      by_cases hz : i = 0
      · exact Or.inl hz
      · right
        have := hbefore (i - 1) (by omega)
        rw [show i - 1 + 1 = i by omega] at this
        exact not_le.1 this
    refine ⟨i, by omega, ?_, hp, hlt, rfl⟩
    rcases hlt with rfl | h
    · exact h0
    · exact h.le

theorem intervalForMd_above (w : Frame K) (m : K) (h : m < w.md 0) : intervalForMd w m = (-1, 0) := by
  unfold intervalForMd
  rw [if_pos h]

theorem intervalForMd_below (w : Frame K) (hw : w.Good) (m : K) (h : w.md (w.nodes - 1) < m) : intervalForMd w m = (-1, 1) := by
  have h2 := hw.two
  have h0 := Increasing.le hw.inc (Nat.zero_le (w.nodes - 1)) (by omega)
  unfold intervalForMd
  rw [if_neg (not_lt.2 (h0.trans h.le))]
  rw [List.find?_eq_none.2]
  intro i hi
  have hi := List.mem_range.1 hi
  have := Increasing.le hw.inc (show i + 1 ≤ w.nodes - 1 by omega) (by omega)
  simp only [decide_eq_true_eq, not_le]
  linarith

theorem entry_located (w : Frame K) (hw : w.Good) (e : K) (h : e ≤ w.md (w.nodes - 1)) :
    ∃ a : ℕ, a + 1 < w.nodes ∧ max e (w.md a) ≤ w.md (a + 1) ∧ (a = 0 ∨ w.md a < e) ∧
      entryFix (intervalForMd w e) = ((a : ℤ), (max e (w.md a) - w.md a) / (w.md (a + 1) - w.md a)) := by
  have h2 := hw.two
  by_cases h0 : e < w.md 0
  · refine ⟨0, by omega, ?_, Or.inl rfl, ?_⟩
    · rw [max_eq_right h0.le]; exact Increasing.le hw.inc (Nat.zero_le 1) (by omega)
    · rw [intervalForMd_above w e h0, max_eq_right h0.le]
      simp [entryFix]
  · obtain ⟨i, hi, h3, h4, h5, h6⟩ := intervalForMd_in w e (not_lt.1 h0) h hw
    refine ⟨i, hi, ?_, h5, ?_⟩
    · rw [max_eq_left h3]; exact h4
    · rw [h6, max_eq_left h3]
      unfold entryFix
      rw [if_neg (by dsimp only; omega)]

theorem exit_located (w : Frame K) (hw : w.Good) (x : K) (h : w.md 0 ≤ x) :
    ∃ z : ℕ, z + 1 < w.nodes ∧ w.md z ≤ x ∧ (z = 0 ∨ w.md z < x) ∧ (x ≤ w.md (z + 1) ∨ z + 2 = w.nodes) ∧
      exitFix w (intervalForMd w x) = ((z : ℤ), (min x (w.md (z + 1)) - w.md z) / (w.md (z + 1) - w.md z)) := by
  have h2 := hw.two
  by_cases h0 : w.md (w.nodes - 1) < x
  · have hl := hw.inc (w.nodes - 2) (w.nodes - 1) (by omega) (by omega)
    refine ⟨w.nodes - 2, by omega, hl.le.trans h0.le, Or.inr (hl.trans h0), Or.inr (by omega), ?_⟩
    rw [intervalForMd_below w hw x h0, show w.nodes - 2 + 1 = w.nodes - 1 by omega, min_eq_right h0.le]
    unfold exitFix
    rw [if_pos rfl, div_self (by intro hz; linarith)]
    congr 1
    omega
  · obtain ⟨i, hi, h3, h4, h5, h6⟩ := intervalForMd_in w x h (not_lt.1 h0) hw
    refine ⟨i, hi, h3, h5, Or.inl h4, ?_⟩
    rw [h6, min_eq_left h4]
    unfold exitFix
    rw [if_neg (by dsimp only; omega)]

theorem overlap_zero {a b c d : K} (h : b ≤ c ∨ d ≤ a) : overlap a b c d = 0 := by
  unfold overlap
  apply max_eq_left
  rcases h with h | h
  · have := min_le_left b d; have := le_max_right a c; linarith
  · have := min_le_right b d; have := le_max_left a c; linarith

theorem overlap_of_le {a b c d : K} (h : max a c ≤ min b d) : overlap a b c d = min b d - max a c := by
  unfold overlap
  exact max_eq_right (by linarith)

/-- The contributions to a cell: they are for distinct frame intervals in order, those with a part in common with the cell among them, and the
fractions are the length in common as a fraction of the frame interval and of the part of the wellbore in the cell. -/
theorem C68_contributions (w : Frame K) (hw : w.Good) (e x : K) (hex : e < x) :
    ∃ I : List ℕ, I.Pairwise (· < ·) ∧ (∀ i ∈ I, i + 1 < w.nodes) ∧
      (∀ i, i + 1 < w.nodes → 0 < overlap e x (w.md i) (w.md (i + 1)) → i ∈ I) ∧
      contributions w e x = .ok (I.map fun i : ℕ => ((i : ℤ),
        overlap e x (w.md i) (w.md (i + 1)) / (w.md (i + 1) - w.md i),
        overlap e x (w.md i) (w.md (i + 1)) / (x - e))) := by
  have h2 := hw.two
  by_cases hA : x < w.md 0
  · refine ⟨[], List.Pairwise.nil, by simp, ?_, ?_⟩
    · intro i hi hpos
      have := Increasing.le hw.inc (Nat.zero_le i) (by omega)
      rw [overlap_zero (Or.inl (by linarith))] at hpos
      exact absurd hpos (lt_irrefl _)
    · unfold contributions
      rw [if_pos (Or.inl ?_)]
      · rfl
      · rw [intervalForMd_above w x hA]; exact ⟨rfl, by norm_num⟩
  by_cases hB : w.md (w.nodes - 1) < e
  · refine ⟨[], List.Pairwise.nil, by simp, ?_, ?_⟩
    · intro i hi hpos
      have := Increasing.le hw.inc (show i + 1 ≤ w.nodes - 1 by omega) (by omega)
      rw [overlap_zero (Or.inr (by linarith))] at hpos
      exact absurd hpos (lt_irrefl _)
    · unfold contributions
      rw [if_pos (Or.inr ?_)]
      · rfl
      · rw [intervalForMd_below w hw e hB]; exact ⟨rfl, by norm_num⟩
  have hA' := not_lt.1 hA
  have hB' := not_lt.1 hB
  obtain ⟨a, ha, ha1, ha2, ha3⟩ := entry_located w hw e hB'
  obtain ⟨z, hz, hz1, hz2, hz3, hz4⟩ := exit_located w hw x hA'
  have hbody : contributions w e x = contribBetween w e x a ((max e (w.md a) - w.md a) / (w.md (a + 1) - w.md a)) z
      ((min x (w.md (z + 1)) - w.md z) / (w.md (z + 1) - w.md z)) := by
    unfold contributions
    rw [if_neg, if_neg, if_neg, ha3, hz4]
    · rintro ⟨h3, h4⟩
      by_cases hc : w.md (w.nodes - 1) < x
      · rw [intervalForMd_below w hw x hc] at h4; norm_num at h4
      · obtain ⟨i, -, -, -, -, h⟩ := intervalForMd_in w x hA' (not_lt.1 hc) hw
        rw [h] at h3; dsimp only at h3; omega
    · rintro ⟨h3, h4⟩
      by_cases hc : e < w.md 0
      · rw [intervalForMd_above w e hc] at h4; norm_num at h4
      · obtain ⟨i, -, -, -, -, h⟩ := intervalForMd_in w e (not_lt.1 hc) hB' hw
        rw [h] at h3; dsimp only at h3; omega
    · rintro (⟨h3, h4⟩ | ⟨h3, h4⟩)
      · by_cases hc : w.md (w.nodes - 1) < x
        · rw [intervalForMd_below w hw x hc] at h4; norm_num at h4
        · obtain ⟨i, -, -, -, -, h⟩ := intervalForMd_in w x hA' (not_lt.1 hc) hw
          rw [h] at h3; dsimp only at h3; omega
      · by_cases hc : e < w.md 0
        · rw [intervalForMd_above w e hc] at h4; norm_num at h4
        · obtain ⟨i, -, -, -, -, h⟩ := intervalForMd_in w e (not_lt.1 hc) hB' hw
          rw [h] at h3; dsimp only at h3; omega
  have haz : a ≤ z := by
    by_contra hc
    have h1 := Increasing.le hw.inc (show z + 1 ≤ a by omega) (by omega)
    rcases ha2 with h | h
    · omega
    · rcases hz3 with h' | h'
      · linarith
      · omega
  have hla := hw.inc a (a + 1) (by omega) (by omega)
  have hlz := hw.inc z (z + 1) (by omega) (by omega)
  -- intervals outside a … z have nothing in common with the cell
  have hout : ∀ i, i + 1 < w.nodes → (i < a ∨ z < i) → overlap e x (w.md i) (w.md (i + 1)) = 0 := by
    intro i hi hc
    rcases hc with hc | hc
    · apply overlap_zero; right
      have h1 := Increasing.le hw.inc (show i + 1 ≤ a by omega) (by omega)
      rcases ha2 with h | h
      · omega
      · linarith
    · apply overlap_zero; left
      have h1 := Increasing.le hw.inc (show z + 1 ≤ i by omega) (by omega)
      rcases hz3 with h' | h'
      · linarith
      · omega
  rw [hbody]
  unfold contribBetween
  rw [if_neg (not_not.2 (by exact_mod_cast haz))]
  by_cases hEq : (z : ℤ) = a
  · rw [if_pos hEq]
    have hza : z = a := by exact_mod_cast hEq
    subst hza
    have hm : max e (w.md z) ≤ min x (w.md (z + 1)) :=
      le_min (max_le hex.le hz1) ha1
    have hov := overlap_of_le hm
    rw [if_neg (not_not.2 (by gcongr))]
    by_cases hfr : (min x (w.md (z + 1)) - w.md z) / (w.md (z + 1) - w.md z) = (max e (w.md z) - w.md z) / (w.md (z + 1) - w.md z)
    · rw [if_pos hfr]
      refine ⟨[], List.Pairwise.nil, by simp, ?_, rfl⟩
      intro i hi hpos
      exfalso
      have hz0 : overlap e x (w.md z) (w.md (z + 1)) = 0 := by
        rw [hov]
        rw [div_left_inj' (by intro h; linarith)] at hfr
        linarith
      rcases Nat.lt_trichotomy i z with hc | hc | hc
      · rw [hout i hi (Or.inl hc)] at hpos; exact lt_irrefl _ hpos
      · subst hc; rw [hz0] at hpos; exact lt_irrefl _ hpos
      · rw [hout i hi (Or.inr hc)] at hpos; exact lt_irrefl _ hpos
    · rw [if_neg hfr]
      refine ⟨[z], by simp, by simpa using hz, ?_, ?_⟩
      · intro i hi hpos
        rw [List.mem_singleton]
        by_contra hc
        rw [hout i hi (by omega)] at hpos
        exact lt_irrefl _ hpos
      · simp only [List.map_cons, List.map_nil, Int.toNat_natCast]
        rw [hov]
        congr 4
        ring
  · rw [if_neg hEq]
    have haz' : a < z := by
      rcases Nat.lt_or_eq_of_le haz with h | h
      · exact h
      · exact absurd (by exact_mod_cast h.symm) hEq
    refine ⟨List.range' a (z - a + 1), List.pairwise_lt_range', ?_, ?_, ?_⟩
    · intro i hi
      rw [List.mem_range'_1] at hi
      omega
    · intro i hi hpos
      rw [List.mem_range'_1]
      by_contra hc
      rw [hout i hi (by omega)] at hpos
      exact lt_irrefl _ hpos
    · have hrange : List.range' a (z - a + 1) = a :: ((List.range (z - (a + 1))).map (fun k => a + 1 + k) ++ [z]) := by
        obtain ⟨k, rfl⟩ : ∃ k, z = a + 1 + k := ⟨z - (a + 1), by omega⟩
        rw [show a + 1 + k - a + 1 = (k + 1) + 1 by omega, List.range'_succ, List.range'_1_concat, List.range'_eq_map_range,
          show a + 1 + k - (a + 1) = k by omega]
      rw [hrange, List.map_cons, List.map_append, List.map_map, List.map_singleton]
      simp only [Int.toNat_natCast]
      have e1 : max e (w.md a) ≤ min x (w.md (a + 1)) := by
        refine le_min (max_le hex.le ?_) ha1
        exact (Increasing.le hw.inc haz (by omega)).trans hz1
      have e2 : min x (w.md (a + 1)) = w.md (a + 1) := by
        apply min_eq_right
        exact (Increasing.le hw.inc (show a + 1 ≤ z by omega) (by omega)).trans hz1
      have eez : max e (w.md z) = w.md z := by
        apply max_eq_right
        have h1 := Increasing.le hw.inc (show a + 1 ≤ z by omega) (by omega)
        exact ((le_max_left _ _).trans ha1).trans h1
      have e3 : max e (w.md z) ≤ min x (w.md (z + 1)) := by
        rw [eez]; exact le_min hz1 hlz.le
      have n1 : w.md (a + 1) - w.md a ≠ 0 := by intro h; linarith
      congr 2
      · rw [overlap_of_le e1, e2]
        congr 2
        field_simp
        ring
      · congr 1
        · apply List.map_congr_left
          intro k hk
          have hk := List.mem_range.1 hk
          have hin := hw.inc (a + 1 + k) (a + 1 + k + 1) (by omega) (by omega)
          have o : overlap e x (w.md (a + 1 + k)) (w.md (a + 1 + k + 1)) = w.md (a + 1 + k + 1) - w.md (a + 1 + k) := by
            have m1 : max e (w.md (a + 1 + k)) = w.md (a + 1 + k) := by
              apply max_eq_right
              have h1 := Increasing.le hw.inc (show a + 1 ≤ a + 1 + k by omega) (by omega)
              exact ((le_max_left _ _).trans ha1).trans h1
            have m2 : min x (w.md (a + 1 + k + 1)) = w.md (a + 1 + k + 1) := by
              apply min_eq_right
              exact (Increasing.le hw.inc (show a + 1 + k + 1 ≤ z by omega) (by omega)).trans hz1
            rw [overlap_of_le (by rw [m1, m2]; exact hin.le), m1, m2]
          simp only [Function.comp]
          rw [o, div_self (by intro h; linarith)]
          push_cast
          rfl
        · rw [overlap_of_le e3, eez]

/-! ### sums over the frame -/

theorem sum_list_eq (I : List ℕ) (n : ℕ) (hI : I.Pairwise (· < ·)) (hn : ∀ i ∈ I, i < n) (f : ℕ → K) (h0 : ∀ i < n, i ∉ I → f i = 0) :
    (I.map f).sum = ∑ i ∈ Finset.range n, f i := by
  have hnd : I.Nodup := hI.imp (fun h => Nat.ne_of_lt h)
  rw [← List.sum_toFinset f hnd]
  apply Finset.sum_subset
  · intro i hi
    rw [List.mem_toFinset] at hi
    exact Finset.mem_range.2 (hn i hi)
  · intro i hi hi'
    rw [List.mem_toFinset] at hi'
    exact h0 i (Finset.mem_range.1 hi) hi'

theorem overlap_nonneg (a b c d : K) : 0 ≤ overlap a b c d := le_max_left _ _

theorem overlap_comm (a b c d : K) : overlap a b c d = overlap c d a b := by
  unfold overlap
  rw [min_comm, max_comm a c]

theorem overlap_clamp {a b c d : K} (h : a ≤ b) (h' : c ≤ d) : overlap a b c d = max a (min b d) - max a (min b c) := by
  unfold overlap
  rcases le_total b d with h1 | h1 <;> rcases le_total a c with h2 | h2 <;> rcases le_total b c with h3 | h3 <;>
    rcases le_total a d with h4 | h4 <;> simp only [min_eq_left h1, min_eq_right h1, max_eq_left h2, max_eq_right h2, min_eq_left h3,
      min_eq_right h3, max_eq_left h4, max_eq_right h4, max_eq_right h] <;>
    (try rw [max_eq_right (by linarith)]) <;> (try rw [max_eq_left (by linarith)]) <;> linarith

theorem sum_overlap {n : ℕ} {md : ℕ → K} (h : Increasing (n + 1) md) (e x : K) (hex : e ≤ x) :
    ∑ i ∈ Finset.range n, overlap e x (md i) (md (i + 1)) = overlap e x (md 0) (md n) := by
  have hall : ∀ k ≤ n, ∑ i ∈ Finset.range k, overlap e x (md i) (md (i + 1)) = max e (min x (md k)) - max e (min x (md 0)) := by
    intro k hk
    induction k with
    | zero => simp
    | succ k ih =>
      rw [Finset.sum_range_succ, ih (by omega), overlap_clamp hex (h k (k + 1) (by omega) (by omega)).le]
      ring
  rw [hall n le_rfl, overlap_clamp hex (Increasing.le h (Nat.zero_le n) (by omega))]

theorem frame_len_pos (w : Frame K) (hw : w.Good) (i : ℕ) (hi : i + 1 < w.nodes) : 0 < w.md (i + 1) - w.md i := by
  have := hw.inc i (i + 1) (by omega) hi
  linarith

theorem overlap_zero_of_not_pos {a b c d : K} (h : ¬ 0 < overlap a b c d) : overlap a b c d = 0 :=
  le_antisymm (not_lt.1 h) (overlap_nonneg _ _ _ _)

/-- The permeability length of a cell is the sum over the intervals of the frame of their values, each in proportion to the part of the interval
that is in the cell. -/
theorem C68_kh (w : Frame K) (hw : w.Good) (e x : K) (hex : e < x) (kh : ℕ → Option K) :
    ∃ c, contributions w e x = .ok c ∧
      cellKh kh c = ∑ i ∈ Finset.range (w.nodes - 1), (kh i).getD 0 * (overlap e x (w.md i) (w.md (i + 1)) / (w.md (i + 1) - w.md i)) := by
  obtain ⟨I, h1, h2, h3, h4⟩ := C68_contributions w hw e x hex
  refine ⟨_, h4, ?_⟩
  unfold cellKh
  rw [List.map_map, ← sum_list_eq I (w.nodes - 1) h1 (fun i hi => by have := h2 i hi; omega)]
  · congr 1
    apply List.map_congr_left
    intro i _
    simp only [Function.comp, Int.toNat_natCast]
    cases kh i <;> simp
  · intro i hi hni
    have : overlap e x (w.md i) (w.md (i + 1)) = 0 := by
      apply overlap_zero_of_not_pos
      intro hp
      exact hni (h3 i (by omega) hp)
    rw [this]; simp

/-- The perforated length of a cell is the total length that the active intervals of the frame have in common with the cell. -/
theorem C68_length (w : Frame K) (hw : w.Good) (e x : K) (hex : e < x) (act : ℕ → Bool) :
    ∃ c, contributions w e x = .ok c ∧
      cellLength act c e x = ∑ i ∈ (Finset.range (w.nodes - 1)).filter (fun i => act i = true), overlap e x (w.md i) (w.md (i + 1)) ∧
      cellPperf act c = (∑ i ∈ (Finset.range (w.nodes - 1)).filter (fun i => act i = true), overlap e x (w.md i) (w.md (i + 1))) / (x - e) := by
  obtain ⟨I, h1, h2, h3, h4⟩ := C68_contributions w hw e x hex
  refine ⟨_, h4, ?_⟩
  have hpos : 0 < x - e := by linarith
  have hsum : ((((I.map fun i : ℕ => ((i : ℤ), overlap e x (w.md i) (w.md (i + 1)) / (w.md (i + 1) - w.md i),
        overlap e x (w.md i) (w.md (i + 1)) / (x - e))).filter (fun t => act t.1.toNat)).map (fun t => t.2.2)).sum) =
      (∑ i ∈ (Finset.range (w.nodes - 1)).filter (fun i => act i = true), overlap e x (w.md i) (w.md (i + 1))) / (x - e) := by
    rw [List.filter_map, List.map_map, Finset.sum_div, Finset.sum_filter,
      ← sum_list_eq (I.filter act) (w.nodes - 1) (h1.filter _) (fun i hi => by have := h2 i (List.mem_filter.1 hi).1; omega)]
    · congr 1
      rw [show ((fun t : ℤ × K × K => act t.1.toNat) ∘ fun i : ℕ => ((i : ℤ), overlap e x (w.md i) (w.md (i + 1)) / (w.md (i + 1) - w.md i),
        overlap e x (w.md i) (w.md (i + 1)) / (x - e))) = act from by funext i; simp]
      apply List.map_congr_left
      intro i hi
      simp only [Function.comp]
      rw [if_pos (List.mem_filter.1 hi).2]
    · intro i hi hni
      by_cases ha : act i = true
      · rw [if_pos ha]
        have : overlap e x (w.md i) (w.md (i + 1)) = 0 := by
          apply overlap_zero_of_not_pos
          intro hp
          exact hni (List.mem_filter.2 ⟨h3 i (by omega) hp, ha⟩)
        rw [this]; simp
      · rw [if_neg ha]
  have hle : ∑ i ∈ (Finset.range (w.nodes - 1)).filter (fun i => act i = true), overlap e x (w.md i) (w.md (i + 1)) ≤ x - e := by
    have ht2 := hw.two
    calc _ ≤ ∑ i ∈ Finset.range (w.nodes - 1), overlap e x (w.md i) (w.md (i + 1)) :=
          Finset.sum_le_sum_of_subset_of_nonneg (Finset.filter_subset _ _) (fun i _ _ => overlap_nonneg _ _ _ _)
      _ = overlap e x (w.md 0) (w.md (w.nodes - 1)) :=
          sum_overlap (by rw [show w.nodes - 1 + 1 = w.nodes by omega]; exact hw.inc) e x hex.le
      _ ≤ x - e := by
          unfold overlap
          refine max_le hpos.le ?_
          have := min_le_left x (w.md (w.nodes - 1))
          have := le_max_left e (w.md 0)
          linarith
  have hp : cellPperf act (I.map fun i : ℕ => ((i : ℤ), overlap e x (w.md i) (w.md (i + 1)) / (w.md (i + 1) - w.md i),
        overlap e x (w.md i) (w.md (i + 1)) / (x - e))) =
      (∑ i ∈ (Finset.range (w.nodes - 1)).filter (fun i => act i = true), overlap e x (w.md i) (w.md (i + 1))) / (x - e) := by
    unfold cellPperf
    rw [hsum]
    apply min_eq_right
    rw [div_le_one hpos]; exact hle
  refine ⟨?_, hp⟩
  unfold cellLength
  rw [hp]
  field_simp

/-- A cell with some length of an active frame interval in it is active; an active cell has an active frame interval which at least touches it.
Full statement wanted: a cell is active exactly if it has some length of an active interval in it; see `C68_active_violated`. -/
theorem C68_active_partial (w : Frame K) (hw : w.Good) (e x : K) (hex : e < x) (act : ℕ → Bool) :
    ∃ c, contributions w e x = .ok c ∧
      ((∃ i, i + 1 < w.nodes ∧ act i = true ∧ 0 < overlap e x (w.md i) (w.md (i + 1))) → cellActive act c = true) ∧
      (cellActive act c = true → ∃ i, i + 1 < w.nodes ∧ act i = true) := by
  obtain ⟨I, h1, h2, h3, h4⟩ := C68_contributions w hw e x hex
  refine ⟨_, h4, ?_, ?_⟩
  · rintro ⟨i, hi, ha, hp⟩
    unfold cellActive
    rw [List.any_map, List.any_eq_true]
    exact ⟨i, h3 i hi hp, by simpa using ha⟩
  · unfold cellActive
    rw [List.any_map, List.any_eq_true]
    rintro ⟨i, hi, ha⟩
    exact ⟨i, h2 i hi, by simpa using ha⟩

/-- two frame intervals: 0 to 10 and 10 to 20 -/
def exFrame : Frame ℚ := ⟨3, fun i => 10 * i⟩

theorem exFrame_good : exFrame.Good := by
  refine ⟨by decide, ?_⟩
  intro i j hij _
  have : (i : ℚ) < j := by exact_mod_cast hij
  simp only [exFrame]
  linarith

theorem exFrame_contrib : contributions exFrame 10 15 = .ok [(0, 0, 0), (1, 1 / 2, 1)] := by
  have hl : List.range 2 = [0, 1] := rfl
  have hE : intervalForMd exFrame 10 = (0, 1) := by
    unfold intervalForMd
    rw [if_neg (by norm_num [exFrame])]
    simp only [exFrame, show 3 - 1 = 2 from rfl, hl, List.find?]
    norm_num
  have hX : intervalForMd exFrame 15 = (1, 1 / 2) := by
    unfold intervalForMd
    rw [if_neg (by norm_num [exFrame])]
    simp only [exFrame, show 3 - 1 = 2 from rfl, hl, List.find?]
    norm_num
  unfold contributions
  rw [hE, hX]
  unfold entryFix exitFix contribBetween
  norm_num [exFrame]

/-- A cell which begins exactly where the active interval of the frame ends, and has none of it inside, is made active. -/
theorem C68_active_violated : ∃ (w : Frame ℚ) (e x : ℚ) (act : ℕ → Bool) (c : List (ℤ × ℚ × ℚ)), w.Good ∧ e < x ∧
    contributions w e x = .ok c ∧ cellActive act c = true ∧
    (∀ i, i + 1 < w.nodes → act i = true → overlap e x (w.md i) (w.md (i + 1)) = 0) := by
  refine ⟨exFrame, 10, 15, fun i => i == 0, _, exFrame_good, by norm_num, exFrame_contrib, rfl, ?_⟩
  intro i _ ha
  have : i = 0 := by simpa using ha
  subst this
  norm_num [overlap, exFrame]

/-- The skin of a cell with some length of intervals with a skin in it is the mean of their skins, weighted by length.
Full statement wanted: also that a cell without any such length has no skin; see `C68_skin_violated`. -/
theorem C68_skin_partial (w : Frame K) (hw : w.Good) (e x : K) (hex : e < x) (skin : ℕ → Option K)
    (hp : ∃ i, i + 1 < w.nodes ∧ (skin i).isSome = true ∧ 0 < overlap e x (w.md i) (w.md (i + 1))) :
    ∃ c, contributions w e x = .ok c ∧
      cellSkin skin c = some ((∑ i ∈ (Finset.range (w.nodes - 1)).filter (fun i => (skin i).isSome = true),
          (skin i).getD 0 * overlap e x (w.md i) (w.md (i + 1))) /
        (∑ i ∈ (Finset.range (w.nodes - 1)).filter (fun i => (skin i).isSome = true), overlap e x (w.md i) (w.md (i + 1)))) := by
  obtain ⟨I, h1, h2, h3, h4⟩ := C68_contributions w hw e x hex
  refine ⟨_, h4, ?_⟩
  have hpos : 0 < x - e := by linarith
  have hloop : ∀ (J : List ℕ) (acc : Option K) (fr : K), skinLoop skin (J.map fun i : ℕ => ((i : ℤ),
        overlap e x (w.md i) (w.md (i + 1)) / (w.md (i + 1) - w.md i), overlap e x (w.md i) (w.md (i + 1)) / (x - e))) acc fr =
      ((if J.any (fun i => (skin i).isSome) then some (acc.getD 0 + ((J.filter (fun i => (skin i).isSome)).map
          (fun i => (skin i).getD 0 * (overlap e x (w.md i) (w.md (i + 1)) / (x - e)))).sum) else acc),
        fr + ((J.filter (fun i => (skin i).isSome)).map (fun i => overlap e x (w.md i) (w.md (i + 1)) / (x - e))).sum) := by
    intro J
    induction J with
    | nil => intro acc fr; simp [skinLoop]
    | cons j J ih =>
      intro acc fr
      rw [List.map_cons]
      unfold skinLoop
      simp only [Int.toNat_natCast]
      cases hs : skin j with
      | none =>
        dsimp only
        rw [ih]
        simp [hs]
      | some v =>
        dsimp only
        rw [ih]
        simp only [List.any_cons, hs, Option.isSome_some, Bool.true_or, if_true, Option.getD_some, List.filter_cons_of_pos,
          List.map_cons, List.sum_cons]
        by_cases ha : J.any (fun i => (skin i).isSome) = true
        · rw [if_pos ha]
          congr 1
          · congr 1; ring
          · ring
        · rw [if_neg ha]
          have hnil : J.filter (fun i => (skin i).isSome) = [] := by
            rw [List.filter_eq_nil_iff]
            intro i hi hc
            exact ha (List.any_eq_true.2 ⟨i, hi, hc⟩)
          rw [hnil]
          congr 1
          · congr 1; simp
          · simp
  have hs : ∀ g : ℕ → K, ((I.filter (fun i => (skin i).isSome)).map (fun i => g i * (overlap e x (w.md i) (w.md (i + 1)) / (x - e)))).sum =
      (∑ i ∈ (Finset.range (w.nodes - 1)).filter (fun i => (skin i).isSome = true), g i * overlap e x (w.md i) (w.md (i + 1))) / (x - e) := by
    intro g
    rw [Finset.sum_div, Finset.sum_filter, ← sum_list_eq (I.filter (fun i => (skin i).isSome)) (w.nodes - 1) (h1.filter _)
      (fun i hi => by have := h2 i (List.mem_filter.1 hi).1; omega)]
    · congr 1
      apply List.map_congr_left
      intro i hi
      rw [if_pos (List.mem_filter.1 hi).2, mul_div_assoc]
    · intro i hi hni
      by_cases ha : (skin i).isSome = true
      · rw [if_pos ha]
        have : overlap e x (w.md i) (w.md (i + 1)) = 0 := by
          apply overlap_zero_of_not_pos
          intro hp
          exact hni (List.mem_filter.2 ⟨h3 i (by omega) hp, ha⟩)
        rw [this]; simp
      · rw [if_neg ha]
  have hs1 := hs (fun _ => 1)
  simp only [one_mul] at hs1
  obtain ⟨i, hi, his, hip⟩ := hp
  have hany : I.any (fun i => (skin i).isSome) = true := List.any_eq_true.2 ⟨i, h3 i hi hip, his⟩
  have hden : 0 < ∑ i ∈ (Finset.range (w.nodes - 1)).filter (fun i => (skin i).isSome = true), overlap e x (w.md i) (w.md (i + 1)) := by
    apply Finset.sum_pos' (fun i _ => overlap_nonneg _ _ _ _)
    exact ⟨i, Finset.mem_filter.2 ⟨Finset.mem_range.2 (by omega), his⟩, hip⟩
  unfold cellSkin
  rw [hloop, if_pos hany]
  simp only [zero_add, Option.getD_none]
  rw [hs1, hs (fun i => (skin i).getD 0), if_pos (div_pos hden hpos)]
  simp only [Option.map_some, Option.some.injEq]
  have := ne_of_gt hden
  field_simp

/-- A cell which begins exactly where the only interval with a skin ends is given a skin of zero. -/
theorem C68_skin_violated : ∃ (w : Frame ℚ) (e x : ℚ) (skin : ℕ → Option ℚ) (c : List (ℤ × ℚ × ℚ)), w.Good ∧ e < x ∧
    contributions w e x = .ok c ∧ cellSkin skin c = some 0 ∧
    (∀ i, i + 1 < w.nodes → (skin i).isSome = true → overlap e x (w.md i) (w.md (i + 1)) = 0) := by
  refine ⟨exFrame, 10, 15, fun i => if i = 0 then some 5 else none, _, exFrame_good, by norm_num, exFrame_contrib, ?_, ?_⟩
  · norm_num [cellSkin, skinLoop]
  intro i _ ha
  have : i = 0 := by
    by_contra hc
    dsimp only at ha
    rw [if_neg hc] at ha
    cases ha
  subst this
  norm_num [overlap, exFrame]

/-! ### all the cells of a well -/

theorem contribList_spec (w : Frame K) (hw : w.Good) (b : Blocked K) (gi : List ℤ) : ∀ ii, (∀ k, ii ≤ k → k < ii + gi.length → b.md k < b.md (k + 1)) →
    ∃ cs, contribList w b gi ii = .ok cs ∧
      List.Forall₂ (fun k c => contributions w (b.md k) (b.md (k + 1)) = .ok c) (blockedFrom gi ii) cs := by
  induction gi with
  | nil => intro ii _; exact ⟨[], rfl, List.Forall₂.nil⟩
  | cons g gs ih =>
    intro ii hinc
    obtain ⟨cs, h1, h2⟩ := ih (ii + 1) (fun k hk hk' => hinc k (by omega) (by simp only [List.length_cons]; omega))
    unfold contribList blockedFrom
    by_cases hg : g < 0
    · rw [if_pos hg, if_pos hg]; exact ⟨cs, h1, h2⟩
    · rw [if_neg hg, if_neg hg]
      obtain ⟨I, -, -, -, hc⟩ := C68_contributions w hw (b.md ii) (b.md (ii + 1)) (hinc ii (Nat.le_refl _) (by simp))
      rw [hc, h1]
      exact ⟨_, rfl, List.Forall₂.cons hc h2⟩

/-- The list of contributions has one entry for each cell, which is that of the entry and exit measured depths of the cell. -/
theorem C68_list (w : Frame K) (hw : w.Good) (b : Blocked K) (hb : b.Good) :
    ∃ cs, contribList w b b.gi 0 = .ok cs ∧ cs.length = b.cells ∧
      ∀ ci e x, entryAndExit b ci = .ok (e, x) → ∃ c, cs[ci]? = some c ∧ contributions w e x = .ok c := by
  have hlen := hb.len
  obtain ⟨cs, h1, h2⟩ := contribList_spec w hw b b.gi 0 (fun k _ hk => hb.inc k (k + 1) (by omega) (by omega))
  have hl := h2.length_eq
  rw [blockedFrom_length, hb.cells] at hl
  refine ⟨cs, h1, hl.symm, ?_⟩
  intro ci e x h
  unfold entryAndExit at h
  cases hI : intervalForCell b ci with
  | error er => rw [hI] at h; cases h
  | ok ii =>
    rw [hI] at h
    injection h with h
    injection h with he hx
    subst he hx
    have h3 : (blockedFrom b.gi 0)[ci]? = some ii := by
      rw [blockedFrom_get]
      exact ⟨Nat.zero_le _, by simpa using (C67_interval b hb ci ii).1 hI⟩
    have hlt : ci < (blockedFrom b.gi 0).length := (List.getElem?_eq_some_iff.1 h3).1
    have hlt' : ci < cs.length := by rw [← h2.length_eq]; exact hlt
    refine ⟨cs[ci], List.getElem?_eq_getElem hlt', ?_⟩
    have h4 := (List.forall₂_iff_get.1 h2).2 ci hlt hlt'
    have h5 : (blockedFrom b.gi 0).get ⟨ci, hlt⟩ = ii := by
      rw [List.get_eq_getElem]
      exact (List.getElem?_eq_some_iff.1 h3).2
    rw [h5, List.get_eq_getElem] at h4
    exact h4

theorem blockedFrom_all_eq (gi : List ℤ) (h : ∀ g ∈ gi, 0 ≤ g) (ii : ℕ) : blockedFrom gi ii = List.range' ii gi.length := by
  induction gi generalizing ii with
  | nil => rfl
  | cons g gs ih =>
    unfold blockedFrom
    rw [if_neg (not_lt.2 (h g List.mem_cons_self)), ih (fun g hg => h g (List.mem_cons_of_mem _ hg)), List.length_cons, List.range'_succ]

/-- Where a well is blocked all along and covers the frame, the permeability lengths of its cells add up to those of the frame. -/
theorem C68_kh_total (w : Frame K) (hw : w.Good) (b : Blocked K) (hb : b.Good) (hall : ∀ g ∈ b.gi, 0 ≤ g) (hc0 : b.md 0 ≤ w.md 0)
    (hc1 : w.md (w.nodes - 1) ≤ b.md (b.nodes - 1)) (kh : ℕ → Option K) :
    ∃ cs, contribList w b b.gi 0 = .ok cs ∧ (cs.map (cellKh kh)).sum = ∑ i ∈ Finset.range (w.nodes - 1), (kh i).getD 0 := by
  have hlen := hb.len
  have hw2 := hw.two
  obtain ⟨cs, h1, h2⟩ := contribList_spec w hw b b.gi 0 (fun k _ hk => hb.inc k (k + 1) (by omega) (by omega))
  refine ⟨cs, h1, ?_⟩
  rw [blockedFrom_all_eq b.gi hall] at h2
  have h3 : ∀ (l : List ℕ) (cs : List (List (ℤ × K × K))), (∀ k ∈ l, k + 1 < b.nodes) →
      List.Forall₂ (fun k c => contributions w (b.md k) (b.md (k + 1)) = .ok c) l cs →
      (cs.map (cellKh kh)).sum = (l.map (fun k => ∑ i ∈ Finset.range (w.nodes - 1),
        (kh i).getD 0 * (overlap (b.md k) (b.md (k + 1)) (w.md i) (w.md (i + 1)) / (w.md (i + 1) - w.md i)))).sum := by
    intro l cs hl h
    induction h with
    | nil => rfl
    | @cons k c l cs hc _ ih =>
      rw [List.map_cons, List.map_cons, List.sum_cons, List.sum_cons, ih (fun k hk => hl k (List.mem_cons_of_mem _ hk))]
      congr 1
      have hk := hl k List.mem_cons_self
      obtain ⟨c', hc', he⟩ := C68_kh w hw (b.md k) (b.md (k + 1)) (hb.inc k (k + 1) (by omega) hk) kh
      rw [hc] at hc'
      cases hc'
      exact he
  rw [h3 _ _ (fun k hk => by rw [List.mem_range'_1] at hk; omega) h2,
    sum_list_eq (List.range' 0 b.gi.length) b.gi.length List.pairwise_lt_range' (fun i hi => by rw [List.mem_range'_1] at hi; omega) _
      (fun i hi hni => absurd (List.mem_range'_1.2 ⟨Nat.zero_le _, by omega⟩) hni), Finset.sum_comm]
  apply Finset.sum_congr rfl
  intro i hi
  have hi := Finset.mem_range.1 hi
  rw [← Finset.mul_sum, ← Finset.sum_div]
  have hs : ∑ k ∈ Finset.range b.gi.length, overlap (b.md k) (b.md (k + 1)) (w.md i) (w.md (i + 1)) = w.md (i + 1) - w.md i := by
    have hlt := hw.inc i (i + 1) (by omega) (by omega)
    have h4 := sum_overlap (n := b.gi.length) (md := b.md) (by rw [hlen]; exact hb.inc) (w.md i) (w.md (i + 1)) hlt.le
    rw [Finset.sum_congr rfl (fun k _ => overlap_comm _ _ _ _), h4]
    have a1 := Increasing.le hw.inc (Nat.zero_le i) (by omega)
    have a2 := Increasing.le hw.inc (show i + 1 ≤ w.nodes - 1 by omega) (by omega)
    rw [show b.nodes - 1 = b.gi.length by omega] at hc1
    have e1 : min (w.md (i + 1)) (b.md b.gi.length) = w.md (i + 1) := min_eq_left (by linarith)
    have e2 : max (w.md i) (b.md 0) = w.md i := max_eq_left (by linarith)
    rw [overlap_of_le (by rw [e1, e2]; exact hlt.le), e1, e2]
  rw [hs, div_self (ne_of_gt (frame_len_pos w hw i (by omega))), mul_one]

example : ∃ cs, contribList exFrame ⟨4, fun i => 10 * i - 5, [0, 0, 0], 3⟩ [0, 0, 0] 0 = .ok cs ∧
    (cs.map (cellKh (fun i => if i = 0 then some 7 else none))).sum = (7 : ℚ) := by
  have h := C68_kh_total exFrame exFrame_good ⟨4, fun i => 10 * i - 5, [0, 0, 0], 3⟩
    ⟨by decide, by decide, fun i j hij _ => by
      have : (i : ℚ) < j := by exact_mod_cast hij
      simp only; linarith⟩ (by decide) (by norm_num [exFrame]) (by norm_num [exFrame]) (fun i => if i = 0 then some 7 else none)
  obtain ⟨cs, h1, h2⟩ := h
  refine ⟨cs, h1, ?_⟩
  rw [h2]
  simp [exFrame, Finset.sum_range_succ]

/-! ## C69 -/

theorem perfLength_spec (a b : K) (hab : a < b) : ∀ (ps : List (K × K)) (acc : K), (∀ p ∈ ps, p.1 ≤ p.2) →
    ps.Pairwise (fun p q => overlap p.1 p.2 q.1 q.2 = 0) →
    perfLength a b ps acc = acc + (ps.map (fun p => overlap p.1 p.2 a b)).sum := by
  intro ps
  induction ps with
  | nil => intro acc _ _; simp [perfLength]
  | cons p ps ih =>
    intro acc hle hdis
    obtain ⟨s, e⟩ := p
    have hse : s ≤ e := hle (s, e) List.mem_cons_self
    have hdis' := List.pairwise_cons.1 hdis
    have ih := fun acc => ih acc (fun p hp => hle p (List.mem_cons_of_mem _ hp)) hdis'.2
    unfold perfLength
    rw [List.map_cons, List.sum_cons]
    by_cases h1 : e ≤ a ∨ b ≤ s
    · rw [if_pos h1, ih, overlap_zero (a := s) (b := e) (c := a) (d := b) (by tauto), zero_add]
    · rw [if_neg h1]
      push Not at h1
      by_cases h2 : s ≤ a
      · rw [if_pos h2]
        by_cases h3 : b ≤ e
        · rw [if_pos h3]
          have hrest : ∀ q ∈ ps, overlap q.1 q.2 a b = 0 := by
            intro q hq
            have hz := hdis'.1 q hq
            dsimp only at hz
            apply le_antisymm _ (overlap_nonneg _ _ _ _)
            rw [← hz]
            unfold overlap
            refine max_le_max le_rfl ?_
            have x1 : min q.2 b ≤ min e q.2 := le_min ((min_le_right _ _).trans h3) (min_le_left _ _)
            have x2 : max s q.1 ≤ max q.1 a := max_le (h2.trans (le_max_right _ _)) (le_max_left _ _)
            linarith
          have hsum : (ps.map (fun p => overlap p.1 p.2 a b)).sum = 0 := by
            apply List.sum_eq_zero
            intro y hy
            obtain ⟨q, hq, rfl⟩ := List.mem_map.1 hy
            exact hrest q hq
          rw [hsum, add_zero, overlap_of_le (by rw [max_eq_right h2, min_eq_right h3]; exact hab.le), max_eq_right h2, min_eq_right h3]
        · rw [if_neg h3, ih]
          have h3 := not_le.1 h3
          rw [overlap_of_le (by rw [max_eq_right h2, min_eq_left h3.le]; exact h1.1.le), max_eq_right h2, min_eq_left h3.le]
          ring
      · rw [if_neg h2]
        have h2 := not_le.1 h2
        by_cases h3 : b ≤ e
        · rw [if_pos h3, ih, overlap_of_le (by rw [max_eq_left h2.le, min_eq_right h3]; exact h1.2.le), max_eq_left h2.le, min_eq_right h3]
          ring
        · have h3 := not_le.1 h3
          rw [if_neg (not_le.2 h3), ih, overlap_of_le (by rw [max_eq_left h2.le, min_eq_left h3.le]; exact hse), max_eq_left h2.le, min_eq_left h3.le]
          ring

/-- For perforations without a length in common, given in any order, the fraction is that of the interval which is perforated; intervals with less
than the tolerance perforated are skipped and have none.
Full statement wanted: for any list of perforations; see `C69_overlapping_violated`. -/
theorem C69_fraction_partial (tol a b : K) (hab : a < b) (ps : List (K × K)) (hle : ∀ p ∈ ps, p.1 ≤ p.2)
    (hdis : ps.Pairwise (fun p q => overlap p.1 p.2 q.1 q.2 = 0)) :
    partPerf tol a b (some ps) =
      if (ps.map (fun p => overlap p.1 p.2 a b)).sum < tol then (true, 0)
      else (false, min 1 ((ps.map (fun p => overlap p.1 p.2 a b)).sum / (b - a))) := by
  unfold partPerf
  dsimp only
  rw [perfLength_spec a b hab ps 0 hle hdis, zero_add, zero_div, min_eq_right zero_le_one]

/-- Without a list of perforations the whole interval counts. -/
theorem C69_none (tol a b : K) : partPerf tol a b none = (false, 1) := rfl

example : partPerf (1 / 100) (10 : ℚ) 20 (some [(18, 25), (5, 12)]) = (false, 2 / 5) := by
  rw [C69_fraction_partial _ _ _ (by norm_num) _ (by intro p hp; simp at hp; rcases hp with rfl | rfl <;> norm_num)
    (by simp [overlap]; norm_num)]
  norm_num [overlap]

/-- Where perforations overlap the part in common is counted more than once: here six tenths of the interval are perforated. -/
theorem C69_overlapping_violated : partPerf (1 / 100) (0 : ℚ) 10 (some [(0, 6), (4, 6)]) = (false, 4 / 5) := by
  norm_num [partPerf, perfLength]

end Verif.Wells
