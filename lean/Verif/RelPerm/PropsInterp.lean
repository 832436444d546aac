import Verif.RelPerm.Props
import Mathlib.Tactic.FieldSimp
import Mathlib.Tactic.Ring
import Mathlib.Tactic.Positivity

/-! # C192: values between those of a table are found by linear interpolation -/

namespace Verif.RelPerm
open Verif.Py

/-- Interpolation where nothing is missing. -/
def iq (x : ℚ) : List (ℚ × ℚ) → ℚ
  | [] => 0
  | [p] => p.2
  | p :: q :: l => if q.1 ≤ x then iq x (q :: l) else (q.2 - p.2) / (q.1 - p.1) * (x - p.1) + p.2

/-- A pair whose value is there. -/
def lifted (m : List (ℚ × ℚ)) : List (ℚ × Val) := m.map fun p => (p.1, some p.2)

theorem interp_lifted (x : ℚ) (m : List (ℚ × ℚ)) (h : m ≠ []) : interp x (lifted m) = some (iq x m) := by
  induction m with
  | nil => exact absurd rfl h
  | cons p m ih =>
    cases m with
    | nil => rfl
    | cons q m =>
      simp only [lifted, List.map_cons, interp, iq] at ih ⊢
      by_cases h1 : q.1 ≤ x
      · rw [if_pos h1, if_pos h1]
        exact ih (by simp)
      · rw [if_neg h1, if_neg h1]
        by_cases h2 : p.1 = x
        · rw [if_pos h2, ← h2]
          simp
        · rw [if_neg h2]

theorem interp_node (l : List (ℚ × Val)) (hl : l.Pairwise fun a b => a.1 < b.1) {p : ℚ × Val} (hp : p ∈ l) : interp p.1 l = p.2 := by
  induction l with
  | nil => simp at hp
  | cons s l ih =>
    cases l with
    | nil =>
      simp only [List.mem_singleton] at hp
      subst hp
      rfl
    | cons s' l =>
      rw [List.pairwise_cons] at hl
      rcases List.mem_cons.1 hp with rfl | hp
      · simp only [interp]
        rw [if_neg (not_le.2 (hl.1 s' (by simp)))]
        simp
      · simp only [interp]
        have : s'.1 ≤ p.1 := by
          rcases List.mem_cons.1 hp with rfl | hp'
          · exact le_refl _
          · exact le_of_lt ((List.pairwise_cons.1 hl.2).1 p hp')
        rw [if_pos this]
        exact ih hl.2 hp

theorem interp_nb (x : ℚ) (l : List (ℚ × Val)) (hl : l.Pairwise fun a b => a.1 < b.1) {p q : ℚ × Val} (hp : p ∈ l) (hq : q ∈ l) (h1 : p.1 < x) (h2 : x < q.1)
    (hn : ∀ r ∈ l, ¬ (p.1 < r.1 ∧ r.1 < q.1)) : interp x l =
      match p.2, q.2 with
      | some y, some z => some ((z - y) / (q.1 - p.1) * (x - p.1) + y)
      | _, _ => none := by
  induction l with
  | nil => simp at hp
  | cons s l ih =>
    cases l with
    | nil =>
      simp only [List.mem_singleton] at hp hq
      subst hp hq
      exact absurd (lt_trans h1 h2) (lt_irrefl _)
    | cons s' l =>
      rw [List.pairwise_cons] at hl
      have hge : ∀ r ∈ s' :: l, s'.1 ≤ r.1 := by
        intro r hr
        rcases List.mem_cons.1 hr with rfl | hr
        · exact le_refl _
        · exact le_of_lt ((List.pairwise_cons.1 hl.2).1 r hr)
      simp only [interp]
      by_cases h3 : s'.1 ≤ x
      · rw [if_pos h3]
        have hp' : p ∈ s' :: l := by
          rcases List.mem_cons.1 hp with rfl | hp
          · exact absurd ⟨hl.1 s' (by simp), lt_of_le_of_lt h3 h2⟩ (hn s' (by simp))
          · exact hp
        have hq' : q ∈ s' :: l := by
          rcases List.mem_cons.1 hq with rfl | hq
          · have := hl.1 s' (by simp)
            linarith
          · exact hq
        exact ih hl.2 hp' hq' fun r hr => hn r (List.mem_cons_of_mem _ hr)
      · rw [if_neg h3]
        push Not at h3
        have hps : p = s := by
          rcases List.mem_cons.1 hp with rfl | hp
          · rfl
          · have := hge p hp
            linarith
        subst hps
        have hqs : q = s' := by
          rcases List.mem_cons.1 hq with rfl | hq
          · exact absurd (lt_trans h1 h2) (lt_irrefl _)
          · rcases List.mem_cons.1 hq with rfl | hq
            · rfl
            · have := (List.pairwise_cons.1 hl.2).1 q hq
              exact absurd ⟨hl.1 s' (by simp), this⟩ (hn s' (by simp))
        subst hqs
        rw [if_neg (ne_of_lt h1)]
        all_goals (cases p.2 <;> cases q.2 <;> rfl)

theorem iq_bounds {lo hi x : ℚ} (m : List (ℚ × ℚ)) (hne : m ≠ []) (hl : m.Pairwise fun a b => a.1 < b.1) (hx : ∀ p, m.head? = some p → p.1 ≤ x)
    (hb : ∀ p ∈ m, lo ≤ p.2 ∧ p.2 ≤ hi) : lo ≤ iq x m ∧ iq x m ≤ hi := by
  induction m with
  | nil => exact absurd rfl hne
  | cons p m ih =>
    cases m with
    | nil => exact hb p (by simp)
    | cons q m =>
      simp only [iq]
      rw [List.pairwise_cons] at hl
      by_cases h1 : q.1 ≤ x
      · rw [if_pos h1]
        exact ih (by simp) hl.2 (fun r hr => by simp at hr; subst hr; exact h1) fun r hr => hb r (List.mem_cons_of_mem _ hr)
      · rw [if_neg h1]
        push Not at h1
        have hpq : p.1 < q.1 := hl.1 q (by simp)
        have hpx : p.1 ≤ x := hx p (by simp)
        obtain ⟨a1, a2⟩ := hb p (by simp)
        obtain ⟨b1, b2⟩ := hb q (by simp)
        have hd : 0 < q.1 - p.1 := by linarith
        have e : (q.2 - p.2) / (q.1 - p.1) * (x - p.1) + p.2 = (p.2 * (q.1 - x) + q.2 * (x - p.1)) / (q.1 - p.1) := by
          field_simp
          ring
        rw [e, le_div_iff₀ hd, div_le_iff₀ hd]
        constructor
        · nlinarith
        · nlinarith

theorem iq_mono {x y : ℚ} (hxy : x ≤ y) (m : List (ℚ × ℚ)) (hl : m.Pairwise fun a b => a.1 < b.1) (hv : m.Pairwise fun a b => a.2 ≤ b.2)
    (hx : ∀ p, m.head? = some p → p.1 ≤ x) : iq x m ≤ iq y m := by
  induction m with
  | nil => exact le_refl _
  | cons p m ih =>
    cases m with
    | nil => exact le_refl _
    | cons q m =>
      simp only [iq]
      rw [List.pairwise_cons] at hl hv
      have hpq : p.1 < q.1 := hl.1 q (by simp)
      have hpv : p.2 ≤ q.2 := hv.1 q (by simp)
      have hpx : p.1 ≤ x := hx p (by simp)
      have hd : 0 < q.1 - p.1 := by linarith
      have hs : 0 ≤ (q.2 - p.2) / (q.1 - p.1) := div_nonneg (by linarith) (le_of_lt hd)
      by_cases h1 : q.1 ≤ x
      · rw [if_pos h1, if_pos (le_trans h1 hxy)]
        exact ih hl.2 hv.2 fun r hr => by simp at hr; subst hr; exact h1
      · rw [if_neg h1]
        push Not at h1
        by_cases h2 : q.1 ≤ y
        · rw [if_pos h2]
          have e : (q.2 - p.2) / (q.1 - p.1) * (x - p.1) + p.2 ≤ q.2 := by
            have : (q.2 - p.2) / (q.1 - p.1) * (x - p.1) ≤ (q.2 - p.2) / (q.1 - p.1) * (q.1 - p.1) := mul_le_mul_of_nonneg_left (by linarith) hs
            rw [div_mul_cancel₀ _ (ne_of_gt hd)] at this
            linarith
          have hlow : ∀ (m : List (ℚ × ℚ)) (q : ℚ × ℚ), (q :: m).Pairwise (fun a b => a.1 < b.1) → (q :: m).Pairwise (fun a b => a.2 ≤ b.2) → q.1 ≤ y →
              q.2 ≤ iq y (q :: m) := by
            intro m
            induction m with
            | nil => intro q _ _ _; exact le_refl _
            | cons r m ih2 =>
              intro q g1 g2 g3
              simp only [iq]
              rw [List.pairwise_cons] at g1 g2
              have k1 := g1.1 r (by simp)
              have k2 := g2.1 r (by simp)
              by_cases g4 : r.1 ≤ y
              · rw [if_pos g4]
                exact le_trans k2 (ih2 r g1.2 g2.2 g4)
              · rw [if_neg g4]
                have : 0 ≤ (r.2 - q.2) / (r.1 - q.1) * (y - q.1) := mul_nonneg (div_nonneg (by linarith) (by linarith)) (by linarith)
                linarith
          exact le_trans e (hlow m q hl.2 hv.2 h2)
        · rw [if_neg h2]
          have : (q.2 - p.2) / (q.1 - p.1) * (x - p.1) ≤ (q.2 - p.2) / (q.1 - p.1) * (y - p.1) := mul_le_mul_of_nonneg_left (by linarith) hs
          linarith

theorem iq_neg (x : ℚ) (m : List (ℚ × ℚ)) : iq x (m.map fun p => (p.1, -p.2)) = - iq x m := by
  induction m with
  | nil => simp [iq]
  | cons p m ih =>
    cases m with
    | nil => simp [iq]
    | cons q m =>
      simp only [List.map_cons, iq] at ih ⊢
      by_cases h1 : q.1 ≤ x
      · rw [if_pos h1, if_pos h1]
        exact ih
      · rw [if_neg h1, if_neg h1]
        ring

/-- The saturations in the sorted pairs. -/
theorem pairs_perm (t : Frame) (s c : Word) : (pairs t s c t.rows).Perm (t.rows.filterMap fun r => (t.get s r).map fun v => (v, t.get c r)) :=
  List.perm_insertionSort _ _

theorem pairs_mem {t : Frame} {s c : Word} {v : ℚ} {w : Val} : (v, w) ∈ pairs t s c t.rows ↔ ∃ r ∈ t.rows, t.get s r = some v ∧ t.get c r = w := by
  rw [(pairs_perm t s c).mem_iff, List.mem_filterMap]
  constructor
  · rintro ⟨r, hr, h⟩
    cases e : t.get s r with
    | none => rw [e] at h; simp at h
    | some u =>
      rw [e] at h
      simp only [Option.map_some, Option.some.injEq, Prod.mk.injEq] at h
      exact ⟨r, hr, by rw [h.1] at e; exact e, h.2⟩
  · rintro ⟨r, hr, h1, h2⟩
    exact ⟨r, hr, by rw [h1, h2]; rfl⟩

theorem pairs_sorted {t : Frame} {s c : Word} (hd : (t.column s).Nodup) : (pairs t s c t.rows).Pairwise fun a b => a.1 < b.1 := by
  have tr : IsTrans (ℚ × Val) (fun a b => a.1 ≤ b.1) := ⟨fun a b c h1 h2 => le_trans h1 h2⟩
  have tot : Std.Total (fun a b : ℚ × Val => a.1 ≤ b.1) := ⟨fun a b => le_total _ _⟩
  have h1 : (pairs t s c t.rows).Pairwise fun a b => a.1 ≤ b.1 := List.pairwise_insertionSort _ _
  have h2 : ((pairs t s c t.rows).map Prod.fst).Nodup := by
    rw [((pairs_perm t s c).map Prod.fst).nodup_iff]
    have e : ((t.rows.filterMap fun r => (t.get s r).map fun v => (v, t.get c r)).map Prod.fst) = (t.column s).filterMap id := by
      unfold Frame.column
      rw [List.map_filterMap, List.filterMap_map]
      congr 1
      funext r
      cases h : t.get s r <;> simp [h]
    rw [e]
    exact hd.filterMap fun a b c h3 h4 => by
      simp only [id_eq, Option.mem_def] at h3 h4
      rw [h3, h4]
  have h3 : (pairs t s c t.rows).Pairwise fun a b => a.1 ≠ b.1 := by
    rw [List.Nodup, List.pairwise_map] at h2
    exact h2
  exact (h1.and h3).imp fun {a b} h => lt_of_le_of_ne h.1 h.2

/-- The column to be interpolated is one of a good table, other than saturation. -/
theorem point_eq {t : Frame} {p q : Phase} (hpq : p ≠ q) (hg : Good t p q) {col : Word} (hc : col ∈ t.cols) (hs : col ≠ sat p) (x : ℚ) :
    interpolatePoint t x col =
      if (∀ r ∈ t.rows, ∀ v, t.get (sat p) r = some v → x < v) ∨ (∀ r ∈ t.rows, ∀ v, t.get (sat p) r = some v → v < x) then .error .value
      else .ok (interp x (pairs t (sat p) col t.rows)) := by
  have h3 : capitalize col = col ∧ col ≠ "PC".toList ∧ t.cols.head? = some (sat p) := by
    have hall : ∀ c ∈ [sat p, kr p, kr q, pc], capitalize c = c ∧ c ≠ "PC".toList := by
      cases p <;> cases q <;> decide
    rcases hg.layout with h | h | h | h <;> rw [h] at hc ⊢ <;>
      refine ⟨(hall col ?_).1, (hall col ?_).2, rfl⟩ <;> (revert hc; simp only [List.mem_cons, List.not_mem_nil, or_false]; tauto)
  obtain ⟨e1, e2, e3⟩ := h3
  unfold interpolatePoint
  rw [e3]
  simp only
  rw [e1, if_neg (by push Not; exact ⟨hc, hs⟩), if_neg (fun h => e2 h.1), if_neg e2, if_neg (by simpa using hc)]
  have key : ∀ P : ℚ → Prop, (∀ a ∈ pairs t (sat p) col t.rows, P a.1) ↔ ∀ r ∈ t.rows, ∀ v, t.get (sat p) r = some v → P v := by
    intro P
    constructor
    · intro h r hr v hv
      exact h (v, t.get col r) (pairs_mem.2 ⟨r, hr, hv, rfl⟩)
    · rintro h ⟨v, w⟩ ha
      obtain ⟨r, hr, h1, _⟩ := pairs_mem.1 ha
      exact h r hr v h1
  have k1 := key fun v => x < v
  have k2 := key fun v => v < x
  by_cases h : (∀ r ∈ t.rows, ∀ v, t.get (sat p) r = some v → x < v) ∨ (∀ r ∈ t.rows, ∀ v, t.get (sat p) r = some v → v < x)
  · rw [if_pos h, if_pos]
    rw [← k1, ← k2] at h
    simpa [List.all_eq_true] using h
  · rw [if_neg h, if_neg]
    rw [← k1, ← k2] at h
    simpa [List.all_eq_true] using h

/-- C192: at a saturation of the table the value is that of its row, whether there or missing. -/
theorem C192_node {t : Frame} {p q : Phase} (hpq : p ≠ q) (hg : Good t p q) (hd : (t.column (sat p)).Nodup) {col : Word} (hc : col ∈ t.cols) (hs : col ≠ sat p)
    {r : List Val} (hr : r ∈ t.rows) {x : ℚ} (hx : t.get (sat p) r = some x) : interpolatePoint t x col = .ok (t.get col r) := by
  rw [point_eq hpq hg hc hs, if_neg]
  · rw [interp_node _ (pairs_sorted hd) (pairs_mem.2 ⟨r, hr, hx, rfl⟩ : (x, t.get col r) ∈ _)]
  · rintro (h | h)
    · exact lt_irrefl _ (h r hr x hx)
    · exact lt_irrefl _ (h r hr x hx)

/-- C192: between two neighbouring saturations the value divides that between their values in the same ratio. -/
theorem C192_between {t : Frame} {p q : Phase} (hpq : p ≠ q) (hg : Good t p q) (hd : (t.column (sat p)).Nodup) {col : Word} (hc : col ∈ t.cols) (hs : col ≠ sat p)
    {r s : List Val} (hr : r ∈ t.rows) (hs' : s ∈ t.rows) {a b x y z : ℚ} (ha : t.get (sat p) r = some a) (hb : t.get (sat p) s = some b) (h1 : a < x) (h2 : x < b)
    (hn : ∀ u ∈ t.rows, ∀ c, t.get (sat p) u = some c → c ≤ a ∨ b ≤ c) (hy : t.get col r = some y) (hz : t.get col s = some z) :
    ∃ v, interpolatePoint t x col = .ok (some v) ∧ (v - y) * (b - a) = (z - y) * (x - a) := by
  refine ⟨(z - y) / (b - a) * (x - a) + y, ?_, ?_⟩
  · rw [point_eq hpq hg hc hs, if_neg]
    · rw [interp_nb x _ (pairs_sorted hd) (pairs_mem.2 ⟨r, hr, ha, rfl⟩ : (a, t.get col r) ∈ _) (pairs_mem.2 ⟨s, hs', hb, rfl⟩ : (b, t.get col s) ∈ _) h1 h2]
      · simp only [hy, hz]
      · rintro ⟨c, w⟩ hm ⟨g1, g2⟩
        obtain ⟨u, hu, e, _⟩ := pairs_mem.1 hm
        rcases hn u hu c e with h | h
        · exact absurd g1 (not_lt.2 h)
        · exact absurd g2 (not_lt.2 h)
    · rintro (h | h)
      · exact lt_asymm h1 (h r hr a ha)
      · exact lt_asymm h2 (h s hs' b hb)
  · have hd : b - a ≠ 0 := by
      have : 0 < b - a := by linarith
      exact ne_of_gt this
    field_simp
    ring

/-- C192: below all saturations and above all of them there is an error, and otherwise there is none. -/
theorem C192_outside {t : Frame} {p q : Phase} (hpq : p ≠ q) (hg : Good t p q) {col : Word} (hc : col ∈ t.cols) (hs : col ≠ sat p) (x : ℚ) :
    interpolatePoint t x col = .error .value ↔
      (∀ r ∈ t.rows, ∀ v, t.get (sat p) r = some v → x < v) ∨ (∀ r ∈ t.rows, ∀ v, t.get (sat p) r = some v → v < x) := by
  rw [point_eq hpq hg hc hs]
  by_cases h : (∀ r ∈ t.rows, ∀ v, t.get (sat p) r = some v → x < v) ∨ (∀ r ∈ t.rows, ∀ v, t.get (sat p) r = some v → v < x)
  · rw [if_pos h]
    exact ⟨fun _ => h, fun _ => rfl⟩
  · rw [if_neg h]
    exact ⟨fun h2 => by simp at h2, fun h2 => absurd h2 h⟩

/-- Pairs of a column in which nothing is missing. -/
theorem pairs_lifted {t : Frame} {p q : Phase} (hg : Good t p q) {c : Word} (hc : c = kr p ∨ c = kr q) :
    ∃ m, pairs t (sat p) c t.rows = lifted m ∧ ∀ a ∈ m, ∃ r ∈ t.rows, t.get (sat p) r = some a.1 ∧ t.get c r = some a.2 := by
  refine ⟨(pairs t (sat p) c t.rows).map fun a => (a.1, a.2.getD 0), ?_, ?_⟩
  · unfold lifted
    rw [List.map_map]
    symm
    conv_rhs => rw [← List.map_id (pairs t (sat p) c t.rows)]
    apply List.map_congr_left
    rintro ⟨v, w⟩ ha
    obtain ⟨r, hr, h1, h2⟩ := pairs_mem.1 ha
    obtain ⟨y, hy, _⟩ := hg.whole c (by rcases hc with rfl | rfl <;> simp) (t.get c r) (List.mem_map_of_mem hr)
    simp [← h2, hy]
  · intro a ha
    rw [List.mem_map] at ha
    obtain ⟨⟨v, w⟩, hvw, rfl⟩ := ha
    obtain ⟨r, hr, h1, h2⟩ := pairs_mem.1 hvw
    obtain ⟨y, hy, _⟩ := hg.whole c (by rcases hc with rfl | rfl <;> simp) (t.get c r) (List.mem_map_of_mem hr)
    exact ⟨r, hr, h1, by simp [← h2, hy]⟩

theorem kr_in {t : Frame} {p q : Phase} (hg : Good t p q) {c : Word} (hc : c = kr p ∨ c = kr q) : c ∈ t.cols ∧ c ≠ sat p := by
  refine ⟨?_, ?_⟩
  · rcases hg.layout with h | h | h | h <;> rw [h] <;> rcases hc with rfl | rfl <;> simp
  · rcases hc with rfl | rfl
    · exact (sat_ne_kr _ _).symm
    · exact (sat_ne_kr _ _).symm

/-- What is found at a saturation in the range, as a number. -/
theorem point_some {t : Frame} {p q : Phase} (hpq : p ≠ q) (hg : Good t p q) (hd : (t.column (sat p)).Nodup) {c : Word} (hc : c = kr p ∨ c = kr q) :
    ∃ m : List (ℚ × ℚ), m.Pairwise (fun a b => a.1 < b.1) ∧ (∀ a ∈ m, ∃ r ∈ t.rows, t.get (sat p) r = some a.1 ∧ t.get c r = some a.2) ∧
      ∀ x, (∃ r ∈ t.rows, ∃ v, t.get (sat p) r = some v ∧ v ≤ x) → (∃ r ∈ t.rows, ∃ v, t.get (sat p) r = some v ∧ x ≤ v) →
        interpolatePoint t x c = .ok (some (iq x m)) ∧ m ≠ [] ∧ ∀ a, m.head? = some a → a.1 ≤ x := by
  obtain ⟨m, hm, hr⟩ := pairs_lifted hg hc
  have hsorted := pairs_sorted (c := c) hd
  rw [hm] at hsorted
  have hp : m.Pairwise (fun a b => a.1 < b.1) := by
    unfold lifted at hsorted
    rw [List.pairwise_map] at hsorted
    exact hsorted
  refine ⟨m, hp, hr, ?_⟩
  rintro x ⟨r, hr1, v, hv, hvx⟩ ⟨s, hs1, w, hw, hxw⟩
  obtain ⟨k1, k2⟩ := kr_in hg hc
  have hne : m ≠ [] := by
    rintro rfl
    have : (v, t.get c r) ∈ pairs t (sat p) c t.rows := pairs_mem.2 ⟨r, hr1, hv, rfl⟩
    rw [hm] at this
    simp [lifted] at this
  refine ⟨?_, hne, ?_⟩
  · rw [point_eq hpq hg k1 k2, if_neg, hm, interp_lifted _ _ hne]
    rintro (h | h)
    · exact absurd (h r hr1 v hv) (not_lt.2 hvx)
    · exact absurd (h s hs1 w hw) (not_lt.2 hxw)
  · intro a ha
    cases m with
    | nil => simp at ha
    | cons b m =>
      simp only [List.head?_cons, Option.some.injEq] at ha
      subst ha
      have : (v, t.get c r) ∈ lifted (b :: m) := by
        rw [← hm]
        exact pairs_mem.2 ⟨r, hr1, hv, rfl⟩
      unfold lifted at this
      rw [List.mem_map] at this
      obtain ⟨a', ha', he⟩ := this
      simp only [Prod.mk.injEq] at he
      rcases List.mem_cons.1 ha' with rfl | h
      · rw [he.1]
        exact hvx
      · have := (List.pairwise_cons.1 hp).1 a' h
        rw [he.1] at this
        exact le_of_lt (lt_of_lt_of_le this hvx)

/-- C192: within the range of saturations a relative permeability is found, and it lies between 0 and 1. -/
theorem C192_range {t : Frame} {p q : Phase} (hpq : p ≠ q) (hg : Good t p q) (hd : (t.column (sat p)).Nodup) {c : Word} (hc : c = kr p ∨ c = kr q) {x : ℚ}
    (h1 : ∃ r ∈ t.rows, ∃ v, t.get (sat p) r = some v ∧ v ≤ x) (h2 : ∃ r ∈ t.rows, ∃ v, t.get (sat p) r = some v ∧ x ≤ v) :
    ∃ v, interpolatePoint t x c = .ok (some v) ∧ 0 ≤ v ∧ v ≤ 1 := by
  obtain ⟨m, hp, hr, hx⟩ := point_some hpq hg hd hc
  obtain ⟨e, hne, hh⟩ := hx x h1 h2
  refine ⟨_, e, iq_bounds m hne hp hh ?_⟩
  intro a ha
  obtain ⟨r, hr1, _, h4⟩ := hr a ha
  obtain ⟨y, hy, h5⟩ := hg.whole c (by rcases hc with rfl | rfl <;> simp) (t.get c r) (List.mem_map_of_mem hr1)
  rw [h4] at hy
  simp only [Option.some.injEq] at hy
  rw [hy]
  exact h5

theorem rises_rows {t : Frame} {c : Word} (h : ∀ v ∈ t.column c, ∃ x : ℚ, v = some x ∧ 0 ≤ x ∧ x ≤ 1) :
    present (t.column c) = t.rows.map fun r => (t.get c r).getD 0 := by
  unfold present Frame.column at *
  rw [List.filterMap_map]
  revert h
  generalize t.rows = rows
  intro h
  induction rows with
  | nil => rfl
  | cons r rows ih =>
    obtain ⟨x, hx, _⟩ := h (t.get c r) (by simp)
    rw [List.filterMap_cons, List.map_cons, ← ih fun v hv => h v (by simp at hv ⊢; exact Or.inr hv)]
    simp [hx]

/-- Along the saturations, the one permeability does not fall and the other does not rise. -/
theorem along_rows {t : Frame} {p q : Phase} (hg : Good t p q) : ∀ r ∈ t.rows, ∀ s ∈ t.rows, ∀ a b ya yb za zb : ℚ, t.get (sat p) r = some a → t.get (sat p) s = some b →
    a < b → t.get (kr p) r = some ya → t.get (kr p) s = some yb → t.get (kr q) r = some za → t.get (kr q) s = some zb → ya ≤ yb ∧ zb ≤ za := by
  let f := fun r => (t.get (sat p) r).getD 0
  let g := fun r => (t.get (kr p) r).getD 0
  let k := fun r => (t.get (kr q) r).getD 0
  have hw := hg.whole
  have e1 := rises_rows (t := t) (hw (sat p) (by simp))
  have e2 := rises_rows (t := t) (hw (kr p) (by simp))
  have e3 := rises_rows (t := t) (hw (kr q) (by simp))
  have hp : t.rows.Pairwise fun r s => (f r < f s → g r ≤ g s ∧ k s ≤ k r) ∧ (f s < f r → g s ≤ g r ∧ k r ≤ k s) := by
    rcases hg.along with ⟨a1, a2, a3⟩ | ⟨a1, a2, a3⟩
    · unfold Rises at a1 a2
      unfold Falls at a3
      rw [e1, List.pairwise_map] at a1
      rw [e2, List.pairwise_map] at a2
      rw [e3, List.pairwise_map] at a3
      exact ((a1.and a2).and a3).imp fun {r s} h => ⟨fun _ => ⟨h.1.2, h.2⟩, fun hh => absurd hh (not_lt.2 h.1.1)⟩
    · unfold Falls at a1 a2
      unfold Rises at a3
      rw [e1, List.pairwise_map] at a1
      rw [e2, List.pairwise_map] at a2
      rw [e3, List.pairwise_map] at a3
      exact ((a1.and a2).and a3).imp fun {r s} h => ⟨fun hh => absurd hh (not_lt.2 h.1.1), fun _ => ⟨h.1.2, h.2⟩⟩
  haveI : Std.Symm fun r s => (f r < f s → g r ≤ g s ∧ k s ≤ k r) ∧ (f s < f r → g s ≤ g r ∧ k r ≤ k s) := ⟨fun r s h => ⟨h.2, h.1⟩⟩
  have hall := List.Pairwise.forall_of_forall (l := t.rows) (R := fun r s => (f r < f s → g r ≤ g s ∧ k s ≤ k r) ∧ (f s < f r → g s ≤ g r ∧ k r ≤ k s)) (fun r _ => ⟨fun h => absurd h (lt_irrefl _), fun h => absurd h (lt_irrefl _)⟩) hp
  intro r hr s hs a b ya yb za zb h1 h2 h3 h4 h5 h6 h7
  have := (hall hr hs).1 (by simp only [f, h1, h2, Option.getD_some]; exact h3)
  simpa only [g, k, h4, h5, h6, h7, Option.getD_some] using this

/-- C192: as the saturation rises, the permeability found for the phase does not fall and that for the other does not rise. -/
theorem C192_monotone {t : Frame} {p q : Phase} (hpq : p ≠ q) (hg : Good t p q) (hd : (t.column (sat p)).Nodup) {x y : ℚ} (hxy : x ≤ y)
    (h1 : ∃ r ∈ t.rows, ∃ v, t.get (sat p) r = some v ∧ v ≤ x) (h2 : ∃ r ∈ t.rows, ∃ v, t.get (sat p) r = some v ∧ y ≤ v) :
    (∃ v w, interpolatePoint t x (kr p) = .ok (some v) ∧ interpolatePoint t y (kr p) = .ok (some w) ∧ v ≤ w) ∧
    (∃ v w, interpolatePoint t x (kr q) = .ok (some v) ∧ interpolatePoint t y (kr q) = .ok (some w) ∧ w ≤ v) := by
  have h1y : ∃ r ∈ t.rows, ∃ v, t.get (sat p) r = some v ∧ v ≤ y := by
    obtain ⟨r, hr, v, hv, h⟩ := h1
    exact ⟨r, hr, v, hv, le_trans h hxy⟩
  have h2x : ∃ r ∈ t.rows, ∃ v, t.get (sat p) r = some v ∧ x ≤ v := by
    obtain ⟨r, hr, v, hv, h⟩ := h2
    exact ⟨r, hr, v, hv, le_trans hxy h⟩
  have hal := along_rows hg
  have full : ∀ c ∈ [sat p, kr p, kr q], ∀ r ∈ t.rows, ∃ v, t.get c r = some v := by
    intro c hc r hr
    obtain ⟨v, hv, _⟩ := hg.whole c hc (t.get c r) (List.mem_map_of_mem hr)
    exact ⟨v, hv⟩
  constructor
  · obtain ⟨m, hp, hr, hx⟩ := point_some hpq hg hd (Or.inl rfl)
    obtain ⟨ex, hne, hh⟩ := hx x h1 h2x
    obtain ⟨ey, _, _⟩ := hx y h1y h2
    refine ⟨_, _, ex, ey, iq_mono hxy m hp ?_ hh⟩
    refine hp.imp_of_mem fun {a b} ha hb hab => ?_
    obtain ⟨r, hr1, k1, k2⟩ := hr a ha
    obtain ⟨s, hs1, k3, k4⟩ := hr b hb
    obtain ⟨z1, hz1⟩ := full (kr q) (by simp) r hr1
    obtain ⟨z2, hz2⟩ := full (kr q) (by simp) s hs1
    exact (hal r hr1 s hs1 _ _ _ _ _ _ k1 k3 hab k2 k4 hz1 hz2).1
  · obtain ⟨m, hp, hr, hx⟩ := point_some hpq hg hd (Or.inr rfl)
    obtain ⟨ex, hne, hh⟩ := hx x h1 h2x
    obtain ⟨ey, _, _⟩ := hx y h1y h2
    refine ⟨_, _, ex, ey, ?_⟩
    have := iq_mono hxy (m.map fun p => (p.1, -p.2)) (by rw [List.pairwise_map]; exact hp) ?_ ?_
    · rw [iq_neg, iq_neg] at this
      linarith
    · rw [List.pairwise_map]
      refine hp.imp_of_mem fun {a b} ha hb hab => ?_
      obtain ⟨r, hr1, k1, k2⟩ := hr a ha
      obtain ⟨s, hs1, k3, k4⟩ := hr b hb
      obtain ⟨z1, hz1⟩ := full (kr p) (by simp) r hr1
      obtain ⟨z2, hz2⟩ := full (kr p) (by simp) s hs1
      have := (hal r hr1 s hs1 _ _ _ _ _ _ k1 k3 hab hz1 hz2 k2 k4).2
      simpa using this
    · intro a ha
      rw [List.head?_map] at ha
      cases e : m.head? with
      | none => rw [e] at ha; simp at ha
      | some b =>
        rw [e] at ha
        simp only [Option.map_some, Option.some.injEq] at ha
        subst ha
        exact hh b e

/-- C192 (violated): although rows without capillary pressure are meant to be left out, next to one of them nothing is found. -/
theorem C192_missing_violated {t : Frame} {p q : Phase} (hpq : p ≠ q) (hg : Good t p q) (hd : (t.column (sat p)).Nodup) (hc : pc ∈ t.cols)
    {r s : List Val} (hr : r ∈ t.rows) (hs' : s ∈ t.rows) {a b x : ℚ} (ha : t.get (sat p) r = some a) (hb : t.get (sat p) s = some b) (h1 : a < x) (h2 : x < b)
    (hn : ∀ u ∈ t.rows, ∀ c, t.get (sat p) u = some c → c ≤ a ∨ b ≤ c) (hm : t.get pc r = none ∨ t.get pc s = none) : interpolatePoint t x pc = .ok none := by
  rw [point_eq hpq hg hc (sat_ne_pc p).symm, if_neg]
  · rw [interp_nb x _ (pairs_sorted hd) (pairs_mem.2 ⟨r, hr, ha, rfl⟩ : (a, t.get pc r) ∈ _) (pairs_mem.2 ⟨s, hs', hb, rfl⟩ : (b, t.get pc s) ∈ _) h1 h2]
    · rcases hm with hm | hm
      · simp [hm]
      · rw [hm]
        cases t.get pc r <;> rfl
    · rintro ⟨c, w⟩ hm ⟨g1, g2⟩
      obtain ⟨u, hu, e, _⟩ := pairs_mem.1 hm
      rcases hn u hu c e with h | h
      · exact absurd g1 (not_lt.2 h)
      · exact absurd g2 (not_lt.2 h)
  · rintro (h | h)
    · exact lt_asymm h1 (h r hr a ha)
    · exact lt_asymm h2 (h s hs' b hb)

/-- C192 (violated): a name of a column which is in another case passes the check of names, and then there is a KeyError. -/
theorem C192_case_violated {t : Frame} {p q : Phase} (hpq : p ≠ q) (hg : Good t p q) {col : Word} (h1 : capitalize col ∈ t.cols) (h2 : capitalize col ≠ sat p)
    (h3 : capitalize col ≠ col) (x : ℚ) : interpolatePoint t x col = .error .key := by
  have hcap : ∀ c ∈ t.cols, capitalize c = c := by
    rcases hg.layout with h | h | h | h <;> rw [h] <;> cases p <;> cases q <;> first | exact absurd rfl hpq | decide
  have hno : col ∉ t.cols := fun h => h3 (hcap col h)
  have e3 : t.cols.head? = some (sat p) := by
    rcases hg.layout with h | h | h | h <;> rw [h] <;> rfl
  unfold interpolatePoint
  rw [e3]
  simp only
  rw [if_neg (by push Not; exact ⟨h1, h2⟩)]
  by_cases h4 : col = "PC".toList ∧ "PC".toList ∉ t.cols
  · rw [if_pos h4]
  · rw [if_neg h4, if_pos hno]

/-- The table as it is held. -/
def exTable : Frame := ⟨["Sw".toList, "Krw".toList, "Kro".toList, "Pc".toList],
  [[some (1/10), some 0, some 1, some 5], [some (1/2), some (1/4), some (1/2), none], [some (9/10), some 1, some 0, some 1]]⟩

theorem exTable_good : Good exTable .water .oil := by
  refine ⟨Or.inr (Or.inr (Or.inl rfl)), ?_, Or.inl ⟨?_, ?_, ?_⟩, fun _ => Or.inr ?_⟩
  · intro c hc v hv
    have : v.any (fun x => decide (0 ≤ x ∧ x ≤ 1)) = true := by
      revert v
      revert c
      decide +kernel
    cases v with
    | none => simp at this
    | some x => exact ⟨x, rfl, by simpa using this⟩
  all_goals first | (rw [← increasing_iff]; decide +kernel) | (rw [← decreasing_iff]; decide +kernel)

example : Good exTable .water .oil ∧ (exTable.column (sat .water)).Nodup ∧ interpolatePoint exTable (3/10) (kr .oil) = .ok (some (3/4)) ∧
    interpolatePoint exTable (3/10) pc = .ok none :=
  ⟨exTable_good, by decide +kernel, by decide +kernel, by decide +kernel⟩

end Verif.RelPerm
