import Verif.RelPerm.Spec
import Mathlib.Tactic.Linarith

/-! # Lemmas for tables of relative permeability -/

namespace Verif.RelPerm
open Verif.Py

theorem increasing_iff (l : List ℚ) : increasing l = true ↔ Rises l := by
  unfold Rises
  rw [← List.isChain_iff_pairwise]
  induction l with
  | nil => simp [increasing]
  | cons a l ih =>
    cases l with
    | nil => simp [increasing]
    | cons b l => simp [increasing, ih]

theorem decreasing_iff (l : List ℚ) : decreasing l = true ↔ Falls l := by
  unfold Falls
  have tr : IsTrans ℚ (fun a b => b ≤ a) := ⟨fun a b c h1 h2 => le_trans h2 h1⟩
  rw [← List.isChain_iff_pairwise]
  induction l with
  | nil => simp [decreasing]
  | cons a l ih =>
    cases l with
    | nil => simp [decreasing]
    | cons b l => simp [decreasing, ih]

theorem kr_inj {p q : Phase} (h : p ≠ q) : kr p ≠ kr q := by
  cases p <;> cases q <;> first | exact absurd rfl h | decide

theorem kr_ne_pc (p : Phase) : kr p ≠ pc := by cases p <;> decide

theorem sat_ne_kr (p q : Phase) : sat p ≠ kr q := by cases p <;> cases q <;> decide

theorem sat_ne_pc (p : Phase) : sat p ≠ pc := by cases p <;> decide

theorem layout_of {p q : Phase} (hpq : p ≠ q) {rest : List Word} (hn : (sat p :: rest).Nodup) (hsub : ∀ x ∈ rest, x = kr p ∨ x = kr q ∨ x = pc)
    (hpc : pc ∈ sat p :: rest → (sat p :: rest).getLast? = some pc) (ha : kr p ∈ rest) (hb : kr q ∈ rest) : Layout p q (sat p :: rest) := by
  have e1 := kr_inj hpq
  have e2 := kr_ne_pc p
  have e3 := kr_ne_pc q
  unfold Layout
  generalize kr p = A at *
  generalize kr q = B at *
  generalize pc = C at *
  generalize sat p = S at *
  match rest, hn, hsub, hpc, ha, hb with
  | [], _, _, _, ha, _ => simp at ha
  | [x], _, _, _, ha, hb =>
    simp only [List.mem_singleton] at ha hb
    exact absurd (ha.trans hb.symm) e1
  | [x, y], hn, hsub, hpc, ha, hb =>
    rcases hsub x (by simp) with rfl | rfl | rfl <;> rcases hsub y (by simp) with rfl | rfl | rfl <;>
      simp_all
  | [x, y, z], hn, hsub, hpc, ha, hb =>
    rcases hsub x (by simp) with rfl | rfl | rfl <;> rcases hsub y (by simp) with rfl | rfl | rfl <;>
      rcases hsub z (by simp) with rfl | rfl | rfl <;> simp_all
  | x :: y :: z :: w :: l, hn, hsub, hpc, ha, hb =>
    rcases hsub x (by simp) with rfl | rfl | rfl <;> rcases hsub y (by simp) with rfl | rfl | rfl <;>
      rcases hsub z (by simp) with rfl | rfl | rfl <;> rcases hsub w (by simp) with rfl | rfl | rfl <;> simp_all

theorem layout_nodup {p q : Phase} (hpq : p ≠ q) {cols : List Word} (h : Layout p q cols) : cols.Nodup := by
  rcases h with rfl | rfl | rfl | rfl <;> cases p <;> cases q <;> first | exact absurd rfl hpq | decide

theorem errorCheck_ok {c : Check} {cols : List Word} : errorCheck c cols = .ok () ↔
    ∃ a rest, cols = a :: rest ∧ a ∈ c.sats ∧ (c.sats.filter (· ∈ cols)).length = 1 ∧ ∀ x ∈ cols, x ∈ c.expected := by
  unfold errorCheck
  cases cols with
  | nil => simp
  | cons a rest =>
    simp only [List.head?_cons]
    by_cases h1 : a ∉ c.sats ∨ (c.sats.filter (· ∈ a :: rest)).length ≠ 1
    · rw [if_pos h1]
      simp only [reduceCtorEq, List.cons.injEq, false_iff, not_exists, not_and]
      rintro a' r' ⟨rfl, rfl⟩ h2 h3
      rcases h1 with h1 | h1
      · exact absurd h2 h1
      · exact absurd h3 h1
    · rw [if_neg h1]
      push Not at h1
      by_cases h2 : (a :: rest).all (· ∈ c.expected) = true
      · rw [if_pos h2]
        simp only [true_iff]
        refine ⟨a, rest, rfl, h1.1, h1.2, ?_⟩
        simpa using h2
      · rw [if_neg h2]
        simp only [reduceCtorEq, List.cons.injEq, false_iff, not_exists, not_and]
        rintro a' r' ⟨rfl, rfl⟩ h3 h4 h5
        apply h2
        simpa using h5

theorem filter_two {s1 s2 : Word} {cols : List Word} (h : (([s1, s2] : List Word).filter (· ∈ cols)).length = 1) :
    (s1 ∈ cols ∧ s2 ∉ cols) ∨ (s1 ∉ cols ∧ s2 ∈ cols) := by
  by_cases h1 : s1 ∈ cols <;> by_cases h2 : s2 ∈ cols <;> simp_all

theorem filter_three {s1 s2 s3 : Word} {cols : List Word} (h : (([s1, s2, s3] : List Word).filter (· ∈ cols)).length = 1) :
    (s1 ∈ cols ∧ s2 ∉ cols ∧ s3 ∉ cols) ∨ (s1 ∉ cols ∧ s2 ∈ cols ∧ s3 ∉ cols) ∨ (s1 ∉ cols ∧ s2 ∉ cols ∧ s3 ∈ cols) := by
  by_cases h1 : s1 ∈ cols <;> by_cases h2 : s2 ∈ cols <;> by_cases h3 : s3 ∈ cols <;> simp_all

/-- What the columns are if the three which are needed are found. -/
theorem columns_found {p q : Phase} (hpq : p ≠ q) {rest : List Word} (hsub : ∀ x ∈ rest, x = kr p ∨ x = kr q ∨ x = pc) :
    satCol (sat p :: rest) = some (sat p) ∧
    (sameCol (sat p :: rest) (sat p) = if kr p ∈ rest then some (kr p) else none) ∧
    (otherCol (sat p :: rest) (sat p) = if kr q ∈ rest then some (kr q) else none) := by
  refine ⟨by cases p <;> rfl, ?_, ?_⟩
  · unfold sameCol
    have e : ("Kr".toList ++ (sat p).getLast?.toList) = kr p := by cases p <;> rfl
    rw [e, List.find?_cons_of_neg (by simpa using sat_ne_kr p p)]
    clear hsub
    induction rest with
    | nil => rfl
    | cons x rest ih =>
      by_cases hx : x = kr p
      · subst hx
        simp
      · rw [List.find?_cons_of_neg (by simpa using hx), ih]
        simp [Ne.symm hx]
  · unfold otherCol
    rw [List.find?_cons_of_neg (by cases p <;> decide)]
    have hk : ∀ x, x = kr p ∨ x = kr q ∨ x = pc → ((decide (x.take 2 = "Kr".toList ∧ x.getLast? ≠ (sat p).getLast?)) = true ↔ x = kr q) := by
      intro x hx
      rcases hx with rfl | rfl | rfl <;> cases p <;> cases q <;> first | exact absurd rfl hpq | decide
    induction rest with
    | nil => rfl
    | cons x rest ih =>
      have h1 := hk x (hsub x (by simp))
      by_cases hx : x = kr q
      · simp only [List.find?_cons, h1.2 hx]
        simp [hx]
      · have h2 : decide (x.take 2 = "Kr".toList ∧ x.getLast? ≠ (sat p).getLast?) = false := by
          rw [Bool.eq_false_iff]
          exact fun h => hx (h1.1 h)
        simp only [List.find?_cons, h2, ih fun y hy => hsub y (by simp [hy])]
        simp [Ne.symm hx]

/-- Saturation, permeabilities and pressures of the frame are as they must be. -/
theorem monotonic_ok {t : Frame} {p q : Phase} (hpq : p ≠ q) (h : Layout p q t.cols) :
    monotonic t = .ok () ↔ ((Rises (present (t.column (sat p))) ∧ Rises (present (t.column (kr p))) ∧ Falls (present (t.column (kr q)))) ∨
      (Falls (present (t.column (sat p))) ∧ Falls (present (t.column (kr p))) ∧ Rises (present (t.column (kr q))))) ∧
      (pc ∈ t.cols → Rises (present (t.column pc)) ∨ Falls (present (t.column pc))) := by
  obtain ⟨rest, hr, hsub, ha, hb⟩ : ∃ rest, t.cols = sat p :: rest ∧ (∀ x ∈ rest, x = kr p ∨ x = kr q ∨ x = pc) ∧ kr p ∈ rest ∧ kr q ∈ rest := by
    rcases h with h | h | h | h <;> exact ⟨_, h, by simp, by simp, by simp⟩
  obtain ⟨c1, c2, c3⟩ := columns_found hpq hsub
  rw [if_pos ha] at c2
  rw [if_pos hb] at c3
  unfold monotonic
  rw [hr, c1]
  simp only
  rw [c2]
  simp only
  rw [c3]
  simp only [← increasing_iff, ← decreasing_iff]
  have e : "Pc".toList = pc := rfl
  rw [e]
  cases increasing (present (t.column (sat p))) <;> cases increasing (present (t.column (kr p))) <;> cases decreasing (present (t.column (kr q))) <;>
    cases decreasing (present (t.column (sat p))) <;> cases decreasing (present (t.column (kr p))) <;> cases increasing (present (t.column (kr q))) <;>
    cases increasing (present (t.column pc)) <;> cases decreasing (present (t.column pc)) <;> by_cases hp : pc ∈ sat p :: rest <;> simp [hp]

theorem monotonic_needs {t : Frame} {p q : Phase} (hpq : p ≠ q) {rest : List Word} (hr : t.cols = sat p :: rest)
    (hsub : ∀ x ∈ rest, x = kr p ∨ x = kr q ∨ x = pc) (h : monotonic t = .ok ()) : kr p ∈ rest ∧ kr q ∈ rest := by
  obtain ⟨c1, c2, c3⟩ := columns_found hpq hsub
  unfold monotonic at h
  rw [hr, c1] at h
  simp only at h
  rw [c2] at h
  by_cases ha : kr p ∈ rest
  · rw [if_pos ha] at h
    simp only at h
    rw [c3] at h
    by_cases hb : kr q ∈ rest
    · exact ⟨ha, hb⟩
    · rw [if_neg hb] at h
      simp at h
  · rw [if_neg ha] at h
    simp at h

/-- Nothing is missing and all is in the range. -/
theorem whole_iff {t : Frame} {p q : Phase} (hpq : p ≠ q) (h : Layout p q t.cols) :
    (missing t = false ∧ inRange t = true) ↔ ∀ c ∈ [sat p, kr p, kr q], ∀ v ∈ t.column c, ∃ x : ℚ, v = some x ∧ 0 ≤ x ∧ x ≤ 1 := by
  have hm : missing t = false ↔ ∀ c ∈ [sat p, kr p, kr q], ∀ v ∈ t.column c, v.isSome := by
    unfold missing
    have e : "Pc".toList = pc := rfl
    rw [e, List.any_eq_false]
    constructor
    · intro hh c hc v hv
      have h1 := hh c (by rcases h with h | h | h | h <;> rw [h] <;> simp at hc ⊢ <;> tauto)
      have h2 : c ≠ pc := by
        simp only [List.mem_cons, List.not_mem_nil, or_false] at hc
        rcases hc with rfl | rfl | rfl
        · exact sat_ne_pc _
        · exact kr_ne_pc _
        · exact kr_ne_pc _
      simp only [h2, ne_eq, not_false_eq_true, decide_true, Bool.true_and, List.any_eq_true, not_exists, not_and] at h1
      have := h1 v hv
      cases v <;> simp_all
    · intro hh c hc
      by_cases h2 : c = pc
      · simp [h2]
      · have h3 : c ∈ [sat p, kr p, kr q] := by
          rcases h with h | h | h | h <;> rw [h] at hc <;> simp at hc ⊢ <;> tauto
        simp only [h2, ne_eq, not_false_eq_true, decide_true, Bool.true_and, List.any_eq_true, not_exists, not_and]
        intro v hv
        have := hh c h3 v hv
        cases v <;> simp_all
  have hr : inRange t = true ↔ ∀ c ∈ [sat p, kr p, kr q], ∀ x ∈ present (t.column c), 0 ≤ x ∧ x ≤ 1 := by
    unfold inRange
    rw [List.all_eq_true]
    have hu : ∀ c ∈ unitCols, c ∈ t.cols → c ∈ [sat p, kr p, kr q] := by
      intro c hc hct
      have : c ≠ pc := by
        rintro rfl
        revert hc
        decide
      rcases h with h | h | h | h <;> rw [h] at hct <;> simp at hct ⊢ <;> tauto
    constructor
    · intro hh c hc x hx
      have hcu : c ∈ unitCols := by
        simp only [List.mem_cons, List.not_mem_nil, or_false] at hc
        rcases hc with rfl | rfl | rfl <;> cases p <;> cases q <;> decide
      have hct : c ∈ t.cols := by rcases h with h | h | h | h <;> rw [h] <;> simp at hc ⊢ <;> tauto
      have := hh c hcu
      simp only [hct, not_true_eq_false, decide_false, Bool.false_or, List.all_eq_true, Bool.and_eq_true, decide_eq_true_eq] at this
      exact this x hx
    · intro hh c hcu
      by_cases hct : c ∈ t.cols
      · simp only [hct, not_true_eq_false, decide_false, Bool.false_or, List.all_eq_true, Bool.and_eq_true, decide_eq_true_eq]
        exact hh c (hu c hcu hct)
      · simp [hct]
  rw [hm, hr]
  constructor
  · rintro ⟨h1, h2⟩ c hc v hv
    obtain ⟨x, rfl⟩ := Option.isSome_iff_exists.1 (h1 c hc v hv)
    exact ⟨x, rfl, h2 c hc x (by simp [present, hv])⟩
  · intro hh
    refine ⟨fun c hc v hv => ?_, fun c hc x hx => ?_⟩
    · obtain ⟨x, rfl, _⟩ := hh c hc v hv
      rfl
    · unfold present at hx
      rw [List.mem_filterMap] at hx
      obtain ⟨v, hv, rfl⟩ := hx
      obtain ⟨y, hy, h0⟩ := hh c hc _ hv
      simp only [id_eq, Option.some.injEq] at hy
      subst hy
      exact h0

end Verif.RelPerm
