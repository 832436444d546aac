import Verif.TimeSeries.Lemmas

namespace Verif.TimeSeries
open Verif.Py

/-! ### searching -/

theorem notLaterLoop_none (ts : List Stamp) (t : Stamp) (n : Nat) (hn : n ≤ ts.length)
    (h : notLaterLoop ts t n = none) (k : Nat) (s : Stamp) (hk : k < n) (hs : ts[k]? = some s) : t < s := by
  induction n with
  | zero => omega
  | succ n ih =>
    unfold notLaterLoop at h
    have hl : n < ts.length := by omega
    rw [List.getElem?_eq_getElem hl] at h
    dsimp only at h
    split at h
    · rename_i hlt
      rcases Nat.lt_succ_iff_lt_or_eq.1 hk with h1 | rfl
      · exact ih (by omega) h h1
      · rw [List.getElem?_eq_getElem hl] at hs
        cases hs
        exact hlt
    · cases h

theorem notLaterLoop_some (ts : List Stamp) (t : Stamp) (n i : Nat) (hn : n ≤ ts.length)
    (h : notLaterLoop ts t n = some i) :
    i < n ∧ (∃ s, ts[i]? = some s ∧ s ≤ t) ∧ ∀ k s, i < k → k < n → ts[k]? = some s → t < s := by
  induction n with
  | zero => cases h
  | succ n ih =>
    unfold notLaterLoop at h
    have hl : n < ts.length := by omega
    rw [List.getElem?_eq_getElem hl] at h
    dsimp only at h
    split at h
    · rename_i hlt
      obtain ⟨g1, g2, g3⟩ := ih (by omega) h
      refine ⟨by omega, g2, fun k s hik hk hs => ?_⟩
      rcases Nat.lt_succ_iff_lt_or_eq.1 hk with h1 | rfl
      · exact g3 k s hik h1 hs
      · rw [List.getElem?_eq_getElem hl] at hs
        cases hs
        exact hlt
    · rename_i hge
      cases h
      exact ⟨by omega, ⟨_, List.getElem?_eq_getElem hl, not_lt.1 hge⟩, fun k s h1 h2 _ => by omega⟩

theorem notEarlierLoop_none (t : Stamp) (ts : List Stamp) (n : Nat) (h : notEarlierLoop t n ts = none) :
    ∀ s ∈ ts, s < t := by
  induction ts generalizing n with
  | nil => simp
  | cons a ts ih =>
    unfold notEarlierLoop at h
    split at h
    · rename_i hlt
      intro s hs
      rcases List.mem_cons.1 hs with rfl | hs
      · exact hlt
      · exact ih _ h s hs
    · cases h

theorem notEarlierLoop_some (t : Stamp) (ts : List Stamp) (n i : Nat) (h : notEarlierLoop t n ts = some i) :
    n ≤ i ∧ (∃ s, ts[i - n]? = some s ∧ t ≤ s) ∧ ∀ k s, n + k < i → ts[k]? = some s → s < t := by
  induction ts generalizing n with
  | nil => cases h
  | cons a ts ih =>
    unfold notEarlierLoop at h
    split at h
    · rename_i hlt
      obtain ⟨g1, ⟨s, g2, g3⟩, g4⟩ := ih _ h
      refine ⟨by omega, ⟨s, ?_, g3⟩, ?_⟩
      · rw [show i - n = (i - (n + 1)) + 1 from by omega]; exact g2
      · intro k s' hk hs
        cases k with
        | zero => cases hs; exact hlt
        | succ k => exact g4 k s' (by omega) hs
    · rename_i hge
      cases h
      refine ⟨le_refl _, ⟨a, by simp, not_lt.1 hge⟩, fun k s hk _ => by omega⟩

theorem ordered_get {ts : List Stamp} (h : Ordered ts) {i j : Nat} {a b : Stamp} (hij : i ≤ j)
    (ha : ts[i]? = some a) (hb : ts[j]? = some b) : a ≤ b := by
  rcases Nat.lt_or_eq_of_le hij with h1 | rfl
  · obtain ⟨hi, rfl⟩ := List.getElem?_eq_some_iff.1 ha
    obtain ⟨hj, rfl⟩ := List.getElem?_eq_some_iff.1 hb
    exact List.pairwise_iff_getElem.1 h i j hi hj h1
  · rw [ha] at hb; cases hb; exact le_refl _

theorem insertAt_perm (ts : List Stamp) (i : Nat) (t : Stamp) : (insertAt ts i t).Perm (t :: ts) := by
  unfold insertAt
  have := List.perm_middle (a := t) (l₁ := ts.take i) (l₂ := ts.drop i)
  rwa [List.take_append_drop] at this

theorem insertAt_ordered {ts : List Stamp} (h : Ordered ts) (i : Nat) (t : Stamp)
    (h1 : ∀ k s, k < i → ts[k]? = some s → s ≤ t) (h2 : ∀ k s, i ≤ k → ts[k]? = some s → t ≤ s) :
    Ordered (insertAt ts i t) := by
  have hp := h
  rw [Ordered, ← List.take_append_drop i ts, List.pairwise_append] at hp
  obtain ⟨p1, p2, p3⟩ := hp
  have q1 : ∀ s ∈ ts.take i, s ≤ t := by
    intro s hs
    obtain ⟨k, hk⟩ := List.mem_iff_getElem?.1 hs
    rw [List.getElem?_take] at hk
    split at hk
    · exact h1 k s (by assumption) hk
    · cases hk
  have q2 : ∀ s ∈ ts.drop i, t ≤ s := by
    intro s hs
    obtain ⟨k, hk⟩ := List.mem_iff_getElem?.1 hs
    rw [List.getElem?_drop] at hk
    exact h2 (i + k) s (by omega) hk
  unfold Ordered insertAt
  rw [List.pairwise_append]
  refine ⟨p1, List.pairwise_cons.2 ⟨q2, p2⟩, ?_⟩
  intro a ha b hb
  rcases List.mem_cons.1 hb with rfl | hb
  · exact q1 a ha
  · exact p3 a ha b hb

theorem append_ordered {ts : List Stamp} (h : Ordered ts) (t : Stamp) (ht : ∀ s, ts.getLast? = some s → s ≤ t) :
    Ordered (ts ++ [t]) := by
  unfold Ordered
  rw [List.pairwise_append]
  refine ⟨h, List.pairwise_singleton _ _, ?_⟩
  intro a ha b hb
  rw [List.mem_singleton] at hb
  subst hb
  obtain ⟨k, hk⟩ := List.mem_iff_getElem?.1 ha
  have hl : ts ≠ [] := by rintro rfl; cases ha
  obtain ⟨s, hs⟩ : ∃ s, ts.getLast? = some s := ⟨_, List.getLast?_eq_some_getLast hl⟩
  have := ht s hs
  rw [List.getLast?_eq_getElem?] at hs
  have hk' := (List.getElem?_eq_some_iff.1 hk).1
  exact le_trans (ordered_get h (by omega) hk hs) this

theorem addTimestamp_perm {ts ts' : List Stamp} {t : Stamp} {b : Bool} (h : addTimestamp ts t b = .ok ts') :
    ts'.Perm (t :: ts) := by
  unfold addTimestamp at h
  split at h
  · cases h
  · split at h
    · split at h <;> cases h <;> exact insertAt_perm _ _ _
    · split at h
      · cases h; exact List.perm_append_singleton _ _
      · split at h
        · cases h; exact List.perm_append_singleton _ _
        · cases h

theorem addTimestamp_ordered {ts ts' : List Stamp} {t : Stamp} {b : Bool} (ho : Ordered ts)
    (h : addTimestamp ts t b = .ok ts') : Ordered ts' := by
  unfold addTimestamp at h
  split at h
  · cases h
  · split at h
    · split at h
      · rename_i hn
        cases h
        refine insertAt_ordered ho 0 t (fun k s hk _ => by omega) (fun k s _ hs => ?_)
        have hk := (List.getElem?_eq_some_iff.1 hs).1
        exact le_of_lt (notLaterLoop_none ts t _ (le_refl _) hn k s hk hs)
      · rename_i i hn
        cases h
        obtain ⟨g1, ⟨s0, g2, g3⟩, g4⟩ := notLaterLoop_some ts t _ i (le_refl _) hn
        refine insertAt_ordered ho (i + 1) t (fun k s hk hs => ?_) (fun k s hk hs => ?_)
        · exact le_trans (ordered_get ho (by omega) hs g2) g3
        · have hk' := (List.getElem?_eq_some_iff.1 hs).1
          exact le_of_lt (g4 k s (by omega) hk' hs)
    · split at h
      · rename_i hl
        cases h
        exact append_ordered ho t (fun s hs => by rw [hl] at hs; cases hs)
      · rename_i last hl
        split at h
        · rename_i hlt
          cases h
          exact append_ordered ho t (fun s hs => by rw [hl] at hs; cases hs; exact le_of_lt hlt)
        · cases h

/-! ### extension -/

theorem le_append (a b : List Char) : a ≤ a ++ b := by
  cases b with
  | nil => simp
  | cons c b =>
    have := append_lt a [] (c :: b) (List.nil_lt_cons c b)
    rw [List.append_nil] at this
    exact le_of_lt this

theorem addDuration_zero (t t' : DateTime) (h : Valid t) (e : addDuration t 0 = .ok t') : t' = t := by
  obtain ⟨_, hy, _, _, _, _, h7, h8⟩ := h
  unfold addDuration at e
  dsimp only at e
  rw [show (t.sec * 1000000 + t.us + 0) / 86400000000 = 0 from by omega, show addDays 0 t = t from rfl] at e
  rw [if_pos hy] at e
  cases e
  obtain ⟨y, m, d, s, u⟩ := t
  dsimp only at *
  congr 1 <;> omega

theorem stampAfter_plain {s s' : Stamp} {d : Nat} (h : IsPlain s) (hd : d % 1000000 = 0)
    (e : stampAfter s d = .ok s') : IsPlain s' ∧ timeOf s' = timeOf s + d ∧ s ≤ s' := by
  obtain ⟨t, h⟩ := h
  unfold stampAfter at e
  rw [parse_plain h] at e
  dsimp only at e
  split at e
  · cases e
  · rename_i t' ht'
    cases e
    obtain ⟨g1, g2, g3⟩ := addDuration_spec t t' d h.1 ht'
    have hp : Plain (isoformat t' ++ ['Z']) t' := ⟨g1, g3 h.2.1 hd, .inr rfl⟩
    refine ⟨⟨t', hp⟩, by rw [timeOf_plain h, timeOf_plain hp, g2], ?_⟩
    rcases Nat.eq_zero_or_pos d with rfl | hpos
    · have := addDuration_zero t t' h.1 ht'
      subst this
      rcases h.2.2 with ⟨rfl, _⟩ | rfl
      · simp only [isoformat, List.append_assoc]
        exact le_append _ _
      · exact le_refl _
    · exact le_of_lt (plain_lt h hp (by omega))

theorem usTime_inj (a b : DateTime) (ha : Valid a) (hb : Valid b) (hua : a.us = 0) (hub : b.us = 0)
    (h : usTime a = usTime b) : a = b := by
  have h7 := ha.2.2.2.2.2.2.1
  have h7' := hb.2.2.2.2.2.2.1
  have key : ordinal a = ordinal b ∧ a.sec = b.sec := by
    unfold usTime at h
    omega
  have e : a.year = b.year ∧ a.month = b.month ∧ a.day = b.day := by
    by_contra hc
    have : (a.year < b.year ∨ a.year = b.year ∧ (a.month < b.month ∨ a.month = b.month ∧ a.day < b.day)) ∨
        (b.year < a.year ∨ b.year = a.year ∧ (b.month < a.month ∨ b.month = a.month ∧ b.day < a.day)) := by omega
    rcases this with h1 | h1
    · have := ordinal_lt a b ha hb h1; omega
    · have := ordinal_lt b a hb ha h1; omega
  obtain ⟨y, m, d, s, u⟩ := a
  obtain ⟨y', m', d', s', u'⟩ := b
  dsimp only at *
  obtain ⟨rfl, rfl, rfl⟩ := e
  obtain ⟨_, rfl⟩ := key
  subst hua hub
  rfl

/-! ### cleaned timestamps -/

theorem digitChar_zero (a : Nat) (ha : a < 10) : digitChar a = '0' ↔ a = 0 := by
  interval_cases a <;> decide

/-- the tidy text of a datetime -/
def tidy (t : DateTime) : Stamp := if t.sec = 0 then isoDate t else isoformat t ++ ['Z']

theorem tidy_plain {t : DateTime} (hv : Valid t) (hu : t.us = 0) : Plain (tidy t) t := by
  unfold tidy
  split
  · exact ⟨hv, hu, .inl ⟨rfl, by assumption⟩⟩
  · exact ⟨hv, hu, .inr rfl⟩

theorem isoDate_length (t : DateTime) : (isoDate t).length = 10 := rfl

theorem cleaned_plain {s : Stamp} {t : DateTime} (h : Plain s t) : cleaned s = .ok (tidy t) := by
  unfold cleaned
  rw [check_plain ⟨t, h⟩]
  dsimp only
  obtain ⟨hv, hu, ⟨rfl, h0⟩ | rfl⟩ := h
  · rw [if_pos (.inl (by rw [isoDate_length]; omega))]
    unfold tidy
    rw [if_pos h0]
    rfl
  · have h7 := hv.2.2.2.2.2.2.1
    have hz : (((isoformat t ++ ['Z']).drop 11).take 8 = ['0', '0', ':', '0', '0', ':', '0', '0']) ↔ t.sec = 0 := by
      simp only [isoformat, isoDate, pad, List.cons_append, List.nil_append, pow_one, pow_zero, Nat.div_one, hu,
        if_true, List.drop_succ_cons, List.drop_zero, List.take_succ_cons, List.take_zero, List.cons.injEq, and_true,
        true_and]
      rw [digitChar_zero _ (by omega), digitChar_zero _ (by omega), digitChar_zero _ (by omega),
        digitChar_zero _ (by omega), digitChar_zero _ (by omega), digitChar_zero _ (by omega)]
      omega
    have hlen : (isoformat t ++ ['Z']).length = 20 := by
      simp only [isoformat, hu, if_true]; rfl
    by_cases hs : t.sec = 0
    · rw [if_pos (.inr (hz.2 hs))]
      unfold tidy
      rw [if_pos hs]
      rfl
    · rw [if_neg (by rw [hlen, hz]; omega)]
      unfold tidy
      rw [if_neg hs]
      simp only [isoformat, hu, if_true]
      rfl

theorem tidy_lt_iff {t t' : DateTime} (hv : Valid t) (hu : t.us = 0) (hv' : Valid t') (hu' : t'.us = 0) :
    tidy t < tidy t' ↔ usTime t < usTime t' := by
  constructor
  · intro h
    by_contra hc
    rcases lt_or_eq_of_le (not_lt.1 hc) with h1 | h1
    · exact absurd (lt_trans (plain_lt (tidy_plain hv' hu') (tidy_plain hv hu) h1) h) (lt_irrefl _)
    · have := usTime_inj t' t hv' hv hu' hu h1
      subst this
      exact lt_irrefl _ h
  · exact plain_lt (tidy_plain hv hu) (tidy_plain hv' hu')

end Verif.TimeSeries
