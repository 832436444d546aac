import Verif.Frame.Model
import Verif.Frame.Spec
import Mathlib.Algebra.BigOperators.Intervals
import Mathlib.Tactic.Ring
import Mathlib.Tactic.Linarith
import Mathlib.Tactic.FieldSimp

/-!
# Lemmas on wellbore frames
-/

namespace Verif.Frame

open Verif.Py

variable {K : Type} [Field K] [LinearOrder K] [IsStrictOrderedRing K]

omit [IsStrictOrderedRing K] in
theorem nd_eq {nodes : List K} {md : Nat → K} (h : IsFrame nodes md) {i : Nat} (hi : i < nodes.length) : nd nodes i = md i := by
  rw [h.md_eq i hi, nd, List.getD_eq_getElem?_getD, List.getElem?_eq_getElem hi]
  rfl

omit [IsStrictOrderedRing K] in
theorem md_lt {nodes : List K} {md : Nat → K} (h : IsFrame nodes md) {i j : Nat} (hij : i < j) (hj : j < nodes.length) : md i < md j := by
  rw [h.md_eq i (by omega), h.md_eq j hj]
  exact List.pairwise_iff_getElem.1 h.increasing i j (by omega) hj hij

omit [IsStrictOrderedRing K] in
theorem md_le {nodes : List K} {md : Nat → K} (h : IsFrame nodes md) {i j : Nat} (hij : i ≤ j) (hj : j < nodes.length) : md i ≤ md j := by
  rcases Nat.lt_or_eq_of_le hij with h' | rfl
  · exact le_of_lt (md_lt h h' hj)
  · exact le_refl _

omit [IsStrictOrderedRing K] in
theorem interval_above {nodes : List K} {md : Nat → K} (h : IsFrame nodes md) {x : K} (hx : x < md 0) : intervalForMd nodes x = (-1, 0) := by
  have h2 := h.two
  unfold intervalForMd
  rw [nd_eq h (by omega), if_pos hx]

omit [IsStrictOrderedRing K] in
theorem interval_below {nodes : List K} {md : Nat → K} (h : IsFrame nodes md) {x : K} (hx : md (nodes.length - 1) < x) :
    intervalForMd nodes x = (-1, 1) := by
  have h2 := h.two
  have h0 : ¬ x < md 0 := not_lt.2 (le_of_lt (lt_of_le_of_lt (md_le h (Nat.zero_le _) (by omega)) hx))
  unfold intervalForMd
  rw [nd_eq h (by omega), if_neg h0]
  have : (List.range (nodes.length - 1)).find? (fun i => decide (x ≤ nd nodes (i + 1))) = none := by
    rw [List.find?_eq_none]
    intro i hi
    rw [List.mem_range] at hi
    rw [nd_eq h (by omega)]
    have := md_le h (i := i + 1) (j := nodes.length - 1) (by omega) (by omega)
    simp only [decide_eq_true_eq, not_le]
    exact lt_of_le_of_lt this hx
  rw [this]

omit [IsStrictOrderedRing K] in
theorem interval_in {nodes : List K} {md : Nat → K} (h : IsFrame nodes md) {x : K} (h0 : md 0 ≤ x) (h1 : x ≤ md (nodes.length - 1)) :
    ∃ i, i + 1 < nodes.length ∧ intervalForMd nodes x = ((i : Int), (x - md i) / (md (i + 1) - md i)) ∧ x ≤ md (i + 1) ∧ md i ≤ x ∧
      (i = 0 ∨ md i < x) := by
  have h2 := h.two
  have hx : ∃ i, (List.range (nodes.length - 1)).find? (fun i => decide (x ≤ nd nodes (i + 1))) = some i := by
    rw [← Option.isSome_iff_exists, List.find?_isSome]
    refine ⟨nodes.length - 2, by simp; omega, ?_⟩
    rw [nd_eq h (by omega), show nodes.length - 2 + 1 = nodes.length - 1 by omega]
    simpa using h1
  obtain ⟨i, hi⟩ := hx
  have hi' := hi
  rw [List.find?_range_eq_some] at hi'
  obtain ⟨p1, p2, p3⟩ := hi'
  have hlt : i < nodes.length - 1 := by simpa using p2
  rw [nd_eq h (by omega)] at p1
  have p1' : x ≤ md (i + 1) := by simpa using p1
  have hb : i = 0 ∨ md i < x := by
    rcases Nat.eq_zero_or_pos i with rfl | hp
    · exact Or.inl rfl
    · right
      have := p3 (i - 1) (by omega)
      rw [nd_eq h (by omega), show i - 1 + 1 = i by omega] at this
      simpa using this
  refine ⟨i, by omega, ?_, p1', ?_, hb⟩
  · unfold intervalForMd
    rw [nd_eq h (by omega), if_neg (not_lt.2 h0), hi]
    simp only
    rw [nd_eq h (by omega), nd_eq h (by omega)]
  · rcases hb with rfl | hb
    · exact h0
    · exact le_of_lt hb

theorem overlap_nonneg (a b c d : K) : 0 ≤ overlap a b c d := le_max_left _ _

theorem overlap_zero {a b c d : K} (h : b ≤ c ∨ d ≤ a) : overlap a b c d = 0 := by
  unfold overlap
  apply max_eq_left
  rcases h with h | h
  · have h1 : min b d ≤ b := min_le_left _ _
    have h2 : c ≤ max a c := le_max_right _ _
    linarith
  · have h1 : min b d ≤ d := min_le_right _ _
    have h2 : a ≤ max a c := le_max_left _ _
    linarith

theorem overlap_of {a b c d : K} (h1 : a ≤ b) (h2 : c ≤ d) (h3 : a ≤ d) (h4 : c ≤ b) : overlap a b c d = min b d - max a c := by
  unfold overlap
  apply max_eq_right
  have : max a c ≤ min b d := max_le (le_min h1 h3) (le_min h4 h2)
  linarith

omit [IsStrictOrderedRing K] in
theorem overlap_comm (a b c d : K) : overlap a b c d = overlap c d a b := by
  unfold overlap
  rw [min_comm, max_comm a c]

/-- the nearest point of a stretch -/
def clamp (a b x : K) : K := max a (min b x)

theorem overlap_clamp {a b c d : K} (h1 : a ≤ b) (h2 : c ≤ d) : overlap a b c d = clamp a b d - clamp a b c := by
  unfold clamp
  rcases le_total d a with h | h
  · rw [overlap_zero (Or.inr h), min_eq_right (le_trans h h1), max_eq_left h, min_eq_right (le_trans (le_trans h2 h) h1),
      max_eq_left (le_trans h2 h), sub_self]
  · rcases le_total b c with h' | h'
    · rw [overlap_zero (Or.inl h'), min_eq_left (le_trans h' h2), min_eq_left h', sub_self]
    · rw [overlap_of h1 h2 h h', min_eq_right h', max_eq_right (le_min h1 h)]

theorem overlap_le_left {a b c d : K} (h1 : a ≤ b) : overlap a b c d ≤ b - a := by
  unfold overlap
  apply max_le (by linarith)
  have h1 : min b d ≤ b := min_le_left _ _
  have h2 : a ≤ max a c := le_max_left _ _
  linarith

/-- The list of contributions of the intervals from `p` to `q`. -/
def listed (md : Nat → K) (a b : K) (p q : Nat) : List (Contrib K) :=
  (List.range (q + 1 - p)).map fun k =>
    (p + k, overlap a b (md (p + k)) (md (p + k + 1)) / (md (p + k + 1) - md (p + k)), overlap a b (md (p + k)) (md (p + k + 1)) / (b - a))

theorem contribBetween_spec {nodes : List K} {md : Nat → K} (h : IsFrame nodes md) {a b : K} (hab : a < b) {ei xi : Nat} {ef xf : K}
    (e1 : ei + 1 < nodes.length) (e2 : a ≤ md (ei + 1)) (e3 : ei = 0 ∨ md ei < a) (e4 : ef = (max a (md ei) - md ei) / (md (ei + 1) - md ei))
    (x1 : xi + 1 < nodes.length) (x2 : md xi ≤ b) (x3 : xi + 2 = nodes.length ∨ b ≤ md (xi + 1)) (x5 : xi = 0 ∨ md xi < b)
    (x4 : xf = (min b (md (xi + 1)) - md xi) / (md (xi + 1) - md xi)) (e5 : md 0 ≤ b) :
    ∃ l, contribBetween nodes a b ei ef xi xf = .ok l ∧
      ((l = [] ∧ ∀ i, i + 1 < nodes.length → overlap a b (md i) (md (i + 1)) = 0) ∨
        (ei ≤ xi ∧ l = listed md a b ei xi ∧ (∀ i, i + 1 < nodes.length → (i < ei ∨ xi < i) → overlap a b (md i) (md (i + 1)) = 0) ∧
          (ei = xi → overlap a b (md ei) (md (ei + 1)) ≠ 0))) := by
  have hle : ei ≤ xi := by
    by_contra hc
    have hlt : xi < ei := by omega
    have h1 : md ei < a := e3.resolve_left (by omega)
    have h2 : b ≤ md (xi + 1) := x3.resolve_left (by omega)
    have h3 := md_le h (i := xi + 1) (j := ei) (by omega) (by omega)
    linarith
  have hout : ∀ i, i + 1 < nodes.length → (i < ei ∨ xi < i) → overlap a b (md i) (md (i + 1)) = 0 := by
    intro i hi hc
    apply overlap_zero
    rcases hc with hc | hc
    · right
      have h1 : md ei < a := e3.resolve_left (by omega)
      have h3 := md_le h (i := i + 1) (j := ei) (by omega) (by omega)
      linarith
    · left
      have h2 : b ≤ md (xi + 1) := x3.resolve_left (by omega)
      have h3 := md_le h (i := xi + 1) (j := i) (by omega) (by omega)
      linarith
  have hba : 0 < b - a := by linarith
  have hmid : ∀ i, ei ≤ i → i ≤ xi → overlap a b (md i) (md (i + 1)) = min b (md (i + 1)) - max a (md i) := by
    intro i h1 h2
    apply overlap_of (le_of_lt hab) (md_le h (by omega) (by omega))
    · have := md_le h (i := ei + 1) (j := i + 1) (by omega) (by omega)
      linarith
    · have := md_le h (i := i) (j := xi) h2 (by omega)
      linarith
  have hfr : ∀ i, 0 ≤ overlap a b (md i) (md (i + 1)) / (b - a) ∧ overlap a b (md i) (md (i + 1)) / (b - a) ≤ 1 := by
    intro i
    refine ⟨div_nonneg (overlap_nonneg _ _ _ _) (le_of_lt hba), ?_⟩
    rw [div_le_one hba]
    exact overlap_le_left (le_of_lt hab)
  have hei := md_lt h (i := ei) (j := ei + 1) (by omega) (by omega)
  have hxi := md_lt h (i := xi) (j := xi + 1) (by omega) (by omega)
  have p1 : 0 < md (ei + 1) - md ei := by linarith
  have p2 : 0 < md (xi + 1) - md xi := by linarith
  unfold contribBetween
  rw [if_neg (by omega)]
  by_cases heq : xi = ei
  · subst heq
    rw [if_pos rfl]
    have hd : xf - ef = overlap a b (md xi) (md (xi + 1)) / (md (xi + 1) - md xi) := by
      rw [hmid xi (le_refl _) (le_refl _), e4, x4]
      field_simp
      ring
    have hd0 : 0 ≤ xf - ef := by
      rw [hd]
      exact div_nonneg (overlap_nonneg _ _ _ _) (le_of_lt p2)
    rw [if_neg (by linarith)]
    by_cases hz : xf = ef
    · rw [if_pos hz]
      refine ⟨[], rfl, Or.inl ⟨rfl, ?_⟩⟩
      intro i hi
      rcases Nat.lt_trichotomy i xi with hc | rfl | hc
      · exact hout i hi (Or.inl hc)
      · rw [hz, sub_self] at hd
        have := hd.symm
        rw [div_eq_zero_iff] at this
        rcases this with this | this
        · exact this
        · linarith
      · exact hout i hi (Or.inr hc)
    · rw [if_neg hz]
      simp only
      rw [nd_eq h (by omega), nd_eq h (by omega), ← hmid xi (le_refl _) (le_refl _), if_pos (hfr xi)]
      refine ⟨_, rfl, Or.inr ⟨le_refl _, ?_, hout, fun _ hc => ?_⟩⟩
      swap
      · rw [hc, zero_div] at hd
        exact hz (by linarith)
      unfold listed
      rw [show xi + 1 - xi = 1 by omega, List.range_one, hd]
      simp
  · rw [if_neg heq]
    have hlt : ei < xi := by omega
    have he : nd nodes (ei + 1) - max a (nd nodes ei) = overlap a b (md ei) (md (ei + 1)) := by
      rw [nd_eq h (by omega), nd_eq h (by omega), hmid ei (le_refl _) hle]
      have : md (ei + 1) ≤ b := le_trans (md_le h (by omega) (by omega)) x2
      rw [min_eq_right this]
    have hx : min b (nd nodes (xi + 1)) - nd nodes xi = overlap a b (md xi) (md (xi + 1)) := by
      rw [nd_eq h (by omega), nd_eq h (by omega), hmid xi hle (le_refl _)]
      have : a ≤ md xi := le_trans e2 (md_le h (by omega) (by omega))
      rw [max_eq_right this]
    simp only
    rw [he, hx, if_neg (not_not.2 (hfr ei)), if_neg (not_not.2 (hfr xi))]
    refine ⟨_, rfl, Or.inr ⟨hle, ?_, hout, fun hc => absurd hc.symm heq⟩⟩
    unfold listed
    obtain ⟨d, rfl⟩ : ∃ d, xi = ei + 1 + d := ⟨xi - (ei + 1), by omega⟩
    rw [show ei + 1 + d + 1 - ei = (d + 1) + 1 by omega, show ei + 1 + d - (ei + 1) = d by omega, List.range_succ_eq_map,
      List.range_succ, List.map_cons, List.map_map, List.map_append, List.map_singleton]
    simp only [List.cons_append]
    refine List.cons_eq_cons.2 ⟨?_, ?_⟩
    · refine Prod.ext rfl (Prod.ext ?_ rfl)
      simp only [Nat.add_zero]
      rw [← he, nd_eq h (by omega), nd_eq h (by omega), e4]
      field_simp
      ring
    · congr 1
      · apply List.map_congr_left
        intro k hk
        rw [List.mem_range] at hk
        have q1 : overlap a b (md (ei + 1 + k)) (md (ei + 1 + k + 1)) = md (ei + 1 + k + 1) - md (ei + 1 + k) := by
          rw [hmid _ (by omega) (by omega), max_eq_right (le_trans e2 (md_le h (by omega) (by omega))),
            min_eq_right (le_trans (md_le h (by omega) (by omega)) x2)]
        have q2 := md_lt h (i := ei + 1 + k) (j := ei + 1 + k + 1) (by omega) (by omega)
        simp only [Function.comp]
        rw [show ei + k.succ = ei + 1 + k by omega, q1, nd_eq h (by omega), nd_eq h (by omega), div_self (by linarith)]
      · simp only [Function.comp, List.cons.injEq, and_true]
        rw [show ei + d.succ = ei + 1 + d by omega]
        refine Prod.ext rfl (Prod.ext ?_ rfl)
        simp only
        rw [← hx, nd_eq h (by omega), nd_eq h (by omega), x4]

theorem cellContrib_spec {nodes : List K} {md : Nat → K} (h : IsFrame nodes md) {a b : K} (hab : a < b) :
    ∃ l, cellContrib nodes a b = .ok l ∧
      ((l = [] ∧ ∀ i, i + 1 < nodes.length → overlap a b (md i) (md (i + 1)) = 0) ∨
        ∃ p q, p ≤ q ∧ q + 1 < nodes.length ∧ l = listed md a b p q ∧
          (∀ i, i + 1 < nodes.length → (i < p ∨ q < i) → overlap a b (md i) (md (i + 1)) = 0) ∧
          (p = q → overlap a b (md p) (md (p + 1)) ≠ 0) ∧ a ≤ md (p + 1) ∧ (p = 0 ∨ md p < a) ∧ md q ≤ b ∧ (q = 0 ∨ md q < b) ∧
          (q + 2 = nodes.length ∨ b ≤ md (q + 1))) := by
  have h2 := h.two
  have hh : (0 : K) < 1 / 2 := by norm_num
  have hh1 : (1 / 2 : K) < 1 := by norm_num
  unfold cellContrib
  simp only
  rcases lt_or_ge b (md 0) with hb | hb
  · rw [interval_above h hb, if_pos (Or.inl ⟨rfl, hh⟩)]
    refine ⟨[], rfl, Or.inl ⟨rfl, fun i hi => overlap_zero (Or.inl ?_)⟩⟩
    exact le_trans (le_of_lt hb) (md_le h (Nat.zero_le _) (by omega))
  · rcases lt_or_ge (md (nodes.length - 1)) a with ha | ha
    · rw [interval_below h ha, if_pos (Or.inr ⟨rfl, hh1⟩)]
      refine ⟨[], rfl, Or.inl ⟨rfl, fun i hi => overlap_zero (Or.inr ?_)⟩⟩
      exact le_trans (md_le h (by omega) (by omega)) (le_of_lt ha)
    · -- the entry
      obtain ⟨ei, ef, e0, e1, e2, e3, e4, e6, e7⟩ : ∃ (ei : Nat) (ef : K),
          ((if (intervalForMd nodes a).1 = -1 then 0 else (intervalForMd nodes a).1.toNat) = ei ∧
            (if (intervalForMd nodes a).1 = -1 then 0 else (intervalForMd nodes a).2) = ef) ∧ ei + 1 < nodes.length ∧ a ≤ md (ei + 1) ∧
          (ei = 0 ∨ md ei < a) ∧ ef = (max a (md ei) - md ei) / (md (ei + 1) - md ei) ∧
          ¬ ((intervalForMd nodes a).1 = -1 ∧ 1 / 2 < (intervalForMd nodes a).2) ∧
          ¬ ((intervalForMd nodes a).1 = -1 ∧ ¬ (intervalForMd nodes a).2 < 1 / 2) := by
        rcases lt_or_ge a (md 0) with ha0 | ha0
        · rw [interval_above h ha0]
          have h1 := md_lt h (i := 0) (j := 1) (by omega) (by omega)
          refine ⟨0, 0, ⟨rfl, rfl⟩, by omega, by simpa using le_of_lt (lt_trans ha0 h1), Or.inl rfl, ?_, ?_, ?_⟩
          · rw [max_eq_right (le_of_lt ha0), sub_self, zero_div]
          · rintro ⟨_, hc⟩
            simp only at hc
            linarith
          · rintro ⟨_, hc⟩
            simp only at hc
            exact hc hh
        · obtain ⟨i, i1, i2, i3, i4, i5⟩ := interval_in h ha0 ha
          rw [i2]
          refine ⟨i, _, ⟨by simp, rfl⟩, i1, i3, i5, ?_, ?_, ?_⟩
          · rw [if_neg (by simp), max_eq_left i4]
          · rintro ⟨hc, _⟩
            simp only at hc
            omega
          · rintro ⟨hc, _⟩
            simp only at hc
            omega
      obtain ⟨xi, xf, x0, x1, x2, x3, x5, x4, x6, x7⟩ : ∃ (xi : Nat) (xf : K),
          ((if (intervalForMd nodes b).1 = -1 then nodes.length - 2 else (intervalForMd nodes b).1.toNat) = xi ∧
            (if (intervalForMd nodes b).1 = -1 then 1 else (intervalForMd nodes b).2) = xf) ∧ xi + 1 < nodes.length ∧ md xi ≤ b ∧
          (xi + 2 = nodes.length ∨ b ≤ md (xi + 1)) ∧ (xi = 0 ∨ md xi < b) ∧
          xf = (min b (md (xi + 1)) - md xi) / (md (xi + 1) - md xi) ∧
          ¬ ((intervalForMd nodes b).1 = -1 ∧ (intervalForMd nodes b).2 < 1 / 2) ∧
          ¬ ((intervalForMd nodes b).1 = -1 ∧ ¬ 1 / 2 < (intervalForMd nodes b).2) := by
        rcases lt_or_ge (md (nodes.length - 1)) b with hb0 | hb0
        · rw [interval_below h hb0]
          have h1 := md_lt h (i := nodes.length - 2) (j := nodes.length - 1) (by omega) (by omega)
          have e : nodes.length - 2 + 1 = nodes.length - 1 := by omega
          refine ⟨nodes.length - 2, 1, ⟨rfl, rfl⟩, by omega, le_of_lt (lt_trans h1 hb0), Or.inl (by omega), Or.inr (lt_trans h1 hb0),
            ?_, ?_, ?_⟩
          · rw [e, min_eq_right (le_of_lt hb0), div_self (by linarith)]
          · rintro ⟨_, hc⟩
            simp only at hc
            linarith
          · rintro ⟨_, hc⟩
            simp only at hc
            exact hc hh1
        · obtain ⟨i, i1, i2, i3, i4, i5⟩ := interval_in h hb hb0
          rw [i2]
          refine ⟨i, _, ⟨by simp, rfl⟩, i1, i4, Or.inr i3, i5, ?_, ?_, ?_⟩
          · rw [if_neg (by simp), min_eq_left i3]
          · rintro ⟨hc, _⟩
            simp only at hc
            omega
          · rintro ⟨hc, _⟩
            simp only at hc
            omega
      rw [if_neg (not_or.2 ⟨x6, e6⟩), if_neg e7, if_neg x7, e0.1, e0.2, x0.1, x0.2]
      obtain ⟨l, hl, hr⟩ := contribBetween_spec h hab e1 e2 e3 e4 x1 x2 x3 x5 x4 hb
      refine ⟨l, hl, ?_⟩
      rcases hr with hr | ⟨r1, r2, r3, r4⟩
      · exact Or.inl hr
      · exact Or.inr ⟨ei, xi, r1, x1, r2, r3, r4, e2, e3, x2, x5, x3⟩

theorem sum_listed (md : Nat → K) (a b : K) (n p q : Nat) (hpq : p ≤ q) (hq : q + 1 < n) (f : Nat → K → K → K)
    (hz : ∀ i, i + 1 < n → (i < p ∨ q < i) → overlap a b (md i) (md (i + 1)) = 0) (hf : ∀ i, f i 0 0 = 0) :
    ((listed md a b p q).map fun c => f c.1 c.2.1 c.2.2).sum =
      ∑ i ∈ Finset.range (n - 1), f i (overlap a b (md i) (md (i + 1)) / (md (i + 1) - md i)) (overlap a b (md i) (md (i + 1)) / (b - a)) := by
  unfold listed
  rw [List.map_map]
  have e1 : ((List.range (q + 1 - p)).map ((fun c : Contrib K => f c.1 c.2.1 c.2.2) ∘ fun k => (p + k,
      overlap a b (md (p + k)) (md (p + k + 1)) / (md (p + k + 1) - md (p + k)), overlap a b (md (p + k)) (md (p + k + 1)) / (b - a)))).sum =
      ∑ k ∈ Finset.range (q + 1 - p), f (p + k) (overlap a b (md (p + k)) (md (p + k + 1)) / (md (p + k + 1) - md (p + k)))
        (overlap a b (md (p + k)) (md (p + k + 1)) / (b - a)) := rfl
  rw [e1, ← Finset.sum_Ico_eq_sum_range (fun i => f i (overlap a b (md i) (md (i + 1)) / (md (i + 1) - md i))
    (overlap a b (md i) (md (i + 1)) / (b - a))) p (q + 1)]
  apply Finset.sum_subset
  · intro i hi
    simp only [Finset.mem_Ico] at hi
    simp only [Finset.mem_range]
    omega
  · intro i hi hn
    simp only [Finset.mem_Ico] at hn
    simp only [Finset.mem_range] at hi
    rw [hz i (by omega) (by omega), zero_div, zero_div, hf]

theorem sum_contrib {nodes : List K} {md : Nat → K} (h : IsFrame nodes md) {a b : K} (hab : a < b) {l : List (Contrib K)}
    (hl : cellContrib nodes a b = .ok l) (f : Nat → K → K → K) (hf : ∀ i, f i 0 0 = 0) :
    (l.map fun c => f c.1 c.2.1 c.2.2).sum =
      ∑ i ∈ Finset.range (nodes.length - 1), f i (overlap a b (md i) (md (i + 1)) / (md (i + 1) - md i))
        (overlap a b (md i) (md (i + 1)) / (b - a)) := by
  obtain ⟨l', hl', hr⟩ := cellContrib_spec h hab
  rw [hl] at hl'
  simp only [Except.ok.injEq] at hl'
  subst hl'
  rcases hr with ⟨rfl, hz⟩ | ⟨p, q, hpq, hq, rfl, hz, _⟩
  · symm
    apply Finset.sum_eq_zero
    intro i hi
    simp only [Finset.mem_range] at hi
    rw [hz i (by omega), zero_div, zero_div, hf]
  · exact sum_listed md a b _ p q hpq hq f hz hf

theorem sum_overlap {nodes : List K} {md : Nat → K} (h : IsFrame nodes md) {a b : K} (hab : a ≤ b) :
    ∑ i ∈ Finset.range (nodes.length - 1), overlap a b (md i) (md (i + 1)) = overlap a b (md 0) (md (nodes.length - 1)) := by
  rw [overlap_clamp hab (md_le h (Nat.zero_le _) (by have := h.two; omega)), ← Finset.sum_range_sub (fun i => clamp a b (md i))]
  apply Finset.sum_congr rfl
  intro i hi
  simp only [Finset.mem_range] at hi
  rw [overlap_clamp hab (md_le h (by omega) (by omega))]

end Verif.Frame
