import Verif.TimeSeries.Spec
import Mathlib.Tactic.IntervalCases
import Mathlib.Tactic.NormNum
import Mathlib.Tactic.Linarith

/-! # Calendar and text lemmas for time series -/

namespace Verif.TimeSeries
open Verif.Py

/-! ### calendar -/

theorem dim_pos (y m : Nat) : 28 ≤ dim y m ∧ dim y m ≤ 31 := by
  unfold dim; split <;> split <;> omega

theorem beforeYear_succ (y : Nat) (h : 1 ≤ y) : beforeYear (y + 1) = beforeYear y + 365 + if leap y then 1 else 0 := by
  obtain ⟨k, rfl⟩ : ∃ k, y = k + 1 := ⟨y - 1, by omega⟩
  unfold beforeYear leap
  simp only [Nat.add_sub_cancel]
  by_cases h4 : (k + 1) % 4 = 0
  · by_cases h100 : (k + 1) % 100 = 0
    · by_cases h400 : (k + 1) % 400 = 0
      · simp only [h4, h400, decide_true, Bool.or_true, Bool.true_and, if_true]; omega
      · simp only [h4, h100, h400, decide_true, decide_false, ne_eq, not_true, Bool.or_self, Bool.and_false]
        simp only [Bool.false_eq_true, if_false]; omega
    · simp only [h4, h100, ne_eq, not_false_eq_true, decide_true, Bool.true_or, Bool.true_and, if_true]; omega
  · simp only [h4, decide_false, Bool.false_and, Bool.false_eq_true, if_false]; omega

theorem beforeYear_mono (y : Nat) (h : 1 ≤ y) (n : Nat) :
    beforeYear y + 365 + (if leap y then 1 else 0) ≤ beforeYear (y + 1 + n) := by
  induction n with
  | zero => rw [Nat.add_zero, beforeYear_succ y h]
  | succ n ih =>
    have := beforeYear_succ (y + 1 + n) (by omega)
    rw [show y + 1 + (n + 1) = y + 1 + n + 1 by omega]
    omega

/-- the month table -/
theorem beforeMonth_table (y m : Nat) (h1 : 1 ≤ m) (h2 : m ≤ 12) :
    beforeMonth y m + dim y m ≤ 365 + (if leap y then 1 else 0) ∧
    ∀ m', m < m' → m' ≤ 12 → beforeMonth y m + dim y m ≤ beforeMonth y m' := by
  cases hl : leap y
  · constructor
    · interval_cases m <;> simp [beforeMonth, dim, hl]
    · intro m' h3 h4
      interval_cases m' <;> interval_cases m <;> simp [beforeMonth, dim, hl]
  · constructor
    · interval_cases m <;> simp [beforeMonth, dim, hl]
    · intro m' h3 h4
      interval_cases m' <;> interval_cases m <;> simp [beforeMonth, dim, hl]

/-- an earlier date has a smaller ordinal -/
theorem ordinal_lt (a b : DateTime) (ha : Valid a) (hb : Valid b)
    (h : a.year < b.year ∨ a.year = b.year ∧ (a.month < b.month ∨ a.month = b.month ∧ a.day < b.day)) :
    ordinal a < ordinal b := by
  obtain ⟨a1, a2, a3, a4, a5, a6, _, _⟩ := ha
  obtain ⟨b1, b2, b3, b4, b5, b6, _, _⟩ := hb
  have ta := beforeMonth_table a.year a.month a3 a4
  unfold ordinal
  rcases h with h | ⟨hy, h | ⟨hm, hd⟩⟩
  · have := beforeYear_mono a.year a1 (b.year - a.year - 1)
    rw [show a.year + 1 + (b.year - a.year - 1) = b.year by omega] at this
    have := ta.1
    omega
  · have := ta.2 b.month h b4
    rw [← hy]
    omega
  · rw [← hy, ← hm]; omega

/-- time order is the order of the fields -/
theorem usTime_lt (a b : DateTime) (ha : Valid a) (hb : Valid b) (hua : a.us = 0) (hub : b.us = 0)
    (h : usTime a < usTime b) :
    a.year < b.year ∨ a.year = b.year ∧ (a.month < b.month ∨ a.month = b.month ∧ (a.day < b.day ∨
      a.day = b.day ∧ a.sec < b.sec)) := by
  have key : ∀ {x y : DateTime}, Valid x → Valid y → ordinal x < ordinal y → usTime x < usTime y := by
    intro x y hx hy hxy
    obtain ⟨_, _, _, _, _, _, x7, x8⟩ := hx
    unfold usTime
    omega
  by_cases hy : a.year < b.year
  · exact .inl hy
  by_cases hy' : b.year < a.year
  · have := key hb ha (ordinal_lt b a hb ha (.inl hy')); omega
  have hy0 : a.year = b.year := by omega
  refine .inr ⟨hy0, ?_⟩
  by_cases hm : a.month < b.month
  · exact .inl hm
  by_cases hm' : b.month < a.month
  · have := key hb ha (ordinal_lt b a hb ha (.inr ⟨hy0.symm, .inl hm'⟩)); omega
  have hm0 : a.month = b.month := by omega
  refine .inr ⟨hm0, ?_⟩
  by_cases hd : a.day < b.day
  · exact .inl hd
  by_cases hd' : b.day < a.day
  · have := key hb ha (ordinal_lt b a hb ha (.inr ⟨hy0.symm, .inr ⟨hm0.symm, hd'⟩⟩)); omega
  have hd0 : a.day = b.day := by omega
  refine .inr ⟨hd0, ?_⟩
  unfold usTime ordinal at h
  rw [hy0, hm0, hd0, hua, hub] at h
  omega

theorem nextDay_spec (t : DateTime) (h : Valid t) :
    ordinal (nextDay t) = ordinal t + 1 ∧ ((nextDay t).year ≤ 9999 → Valid (nextDay t)) ∧
      (nextDay t).sec = t.sec ∧ (nextDay t).us = t.us ∧ t.year ≤ (nextDay t).year := by
  obtain ⟨h1, h2, h3, h4, h5, h6, h7, h8⟩ := h
  unfold nextDay
  split
  · rename_i hd
    exact ⟨by unfold ordinal; dsimp only; omega, fun _ => ⟨h1, h2, h3, h4, Nat.le_add_left _ _, hd, h7, h8⟩, rfl, rfl, le_refl _⟩
  · split
    · rename_i hd hm
      have hd' : t.day = dim t.year t.month := by omega
      refine ⟨?_, fun _ => ⟨h1, h2, Nat.le_add_left _ _, hm, le_refl _, ?_, h7, h8⟩, rfl, rfl, le_refl _⟩
      · unfold ordinal
        dsimp only
        obtain ⟨k, hk⟩ : ∃ k, t.month = k + 1 := ⟨t.month - 1, by omega⟩
        rw [hk] at hd' ⊢
        rw [show beforeMonth t.year (k + 1 + 1) = beforeMonth t.year (k + 1) + dim t.year (k + 1) from rfl]
        omega
      · have := dim_pos t.year (t.month + 1); dsimp only; omega
    · rename_i hd hm
      have hm' : t.month = 12 := by omega
      have hd' : t.day = dim t.year t.month := by omega
      refine ⟨?_, fun hy => ⟨Nat.le_add_left _ _, hy, le_refl _, (by show 1 ≤ 12; decide), le_refl _, ?_, h7, h8⟩, rfl, rfl, Nat.le_succ _⟩
      · unfold ordinal
        dsimp only
        rw [beforeYear_succ t.year h1, hd', hm']
        cases hl : leap t.year <;> simp [beforeMonth, dim, hl]
      · have := dim_pos (t.year + 1) 1; dsimp only; omega

/-- before the year 10000 adding days adds to the ordinal -/
theorem addDays_spec (n : Nat) (t : DateTime) (h : Valid t) (hy : (addDays n t).year ≤ 9999) :
    Valid (addDays n t) ∧ ordinal (addDays n t) = ordinal t + n ∧ (addDays n t).sec = t.sec ∧ (addDays n t).us = t.us := by
  have mono : ∀ (n : Nat) (t : DateTime), t.year ≤ (addDays n t).year := by
    intro n
    induction n with
    | zero => intro t; exact le_refl _
    | succ n ih =>
      intro t
      refine le_trans ?_ (ih (nextDay t))
      unfold nextDay
      split
      · exact le_refl _
      · split
        · exact le_refl _
        · exact Nat.le_succ _
  induction n generalizing t with
  | zero => exact ⟨h, rfl, rfl, rfl⟩
  | succ n ih =>
    have hy' : (nextDay t).year ≤ 9999 := le_trans (mono n (nextDay t)) hy
    obtain ⟨g1, g2, g3, g4, _⟩ := nextDay_spec t h
    obtain ⟨i1, i2, i3, i4⟩ := ih (nextDay t) (g2 hy') hy
    refine ⟨i1, ?_, ?_, ?_⟩
    · show ordinal (addDays n (nextDay t)) = _
      rw [i2, g1]; omega
    · exact i3.trans g3
    · exact i4.trans g4

theorem addDuration_spec (t t' : DateTime) (d : Nat) (h : Valid t) (e : addDuration t d = .ok t') :
    Valid t' ∧ usTime t' = usTime t + d ∧ (t.us = 0 → d % 1000000 = 0 → t'.us = 0) := by
  unfold addDuration at e
  simp only at e
  split at e
  · rename_i hy
    cases e
    obtain ⟨v, o, _, _⟩ := addDays_spec _ t h hy
    obtain ⟨v1, v2, v3, v4, v5, v6, _, _⟩ := v
    have hv : Valid ⟨_, _, _, (t.sec * 1000000 + t.us + d) / 1000000 % 86400, (t.sec * 1000000 + t.us + d) % 1000000⟩ :=
      ⟨v1, v2, v3, v4, v5, v6, Nat.mod_lt _ (by decide), Nat.mod_lt _ (by decide)⟩
    refine ⟨hv, ?_, ?_⟩
    · unfold usTime
      have : ordinal ⟨(addDays ((t.sec * 1000000 + t.us + d) / 86400000000) t).year,
          (addDays ((t.sec * 1000000 + t.us + d) / 86400000000) t).month,
          (addDays ((t.sec * 1000000 + t.us + d) / 86400000000) t).day,
          (t.sec * 1000000 + t.us + d) / 1000000 % 86400, (t.sec * 1000000 + t.us + d) % 1000000⟩ =
          ordinal t + (t.sec * 1000000 + t.us + d) / 86400000000 := o
      rw [this]
      dsimp only
      omega
    · intro h0 hd
      dsimp only
      omega
  · cases e

/-! ### text -/

theorem digit_lt (a b : Nat) (h : a < b) (hb : b < 10) : digitChar a < digitChar b := by
  interval_cases b <;> interval_cases a <;> decide

theorem pad_lt (w a b : Nat) (r r' : List Char) (h : a < b) (hb : b < 10 ^ w) : pad w a ++ r < pad w b ++ r' := by
  induction w generalizing a b with
  | zero => simp at hb; omega
  | succ w ih =>
    unfold pad
    rw [List.cons_append, List.cons_append, List.cons_lt_cons_iff]
    have hp : 0 < 10 ^ w := Nat.pos_of_ne_zero (by positivity)
    have hb10 : b / 10 ^ w < 10 := by
      rw [Nat.div_lt_iff_lt_mul hp]; rw [pow_succ] at hb; linarith
    rcases Nat.lt_or_ge (a / 10 ^ w) (b / 10 ^ w) with hq | hq
    · exact .inl (digit_lt _ _ hq hb10)
    · have hle : a / 10 ^ w ≤ b / 10 ^ w := Nat.div_le_div_right (by omega)
      have he : a / 10 ^ w = b / 10 ^ w := by omega
      right
      refine ⟨by rw [he], ih _ _ ?_ (Nat.mod_lt _ hp)⟩
      have e1 := Nat.div_add_mod a (10 ^ w)
      have e2 := Nat.div_add_mod b (10 ^ w)
      rw [he] at e1
      omega

theorem append_lt (p a b : List Char) (h : a < b) : p ++ a < p ++ b := by
  induction p with
  | nil => exact h
  | cons c p ih => rw [List.cons_append, List.cons_append, List.cons_lt_cons_iff]; exact .inr ⟨rfl, ih⟩

theorem cons_lt' (c : Char) (a b : List Char) (h : a < b) : c :: a < c :: b := append_lt [c] a b h

/-- what follows the date in a plain timestamp -/
def tailOf (s : Nat) (full : Bool) : List Char :=
  if full then 'T' :: (pad 2 (s / 3600) ++ ':' :: (pad 2 (s / 60 % 60) ++ ':' :: (pad 2 (s % 60) ++ ['Z']))) else []

theorem plain_form {s : Stamp} {t : DateTime} (h : Plain s t) : ∃ full, (full = false → t.sec = 0) ∧
    s = pad 4 t.year ++ '-' :: (pad 2 t.month ++ '-' :: (pad 2 t.day ++ tailOf t.sec full)) := by
  obtain ⟨_, hu, ⟨rfl, h0⟩ | rfl⟩ := h
  · exact ⟨false, fun _ => h0, by simp [isoDate, tailOf]⟩
  · exact ⟨true, by simp, by simp [isoformat, isoDate, tailOf, hu]⟩

theorem dim_le (y m : Nat) : dim y m < 100 := by have := dim_pos y m; omega

/-- plain timestamps of different times are in the order of their times -/
theorem plain_lt {s s' : Stamp} {t t' : DateTime} (h : Plain s t) (h' : Plain s' t') (hlt : usTime t < usTime t') :
    s < s' := by
  obtain ⟨full, hf, e⟩ := plain_form h
  obtain ⟨full', hf', e'⟩ := plain_form h'
  have hv := h.1
  have hv' := h'.1
  have hlex := usTime_lt t t' hv hv' h.2.1 h'.2.1 hlt
  obtain ⟨v1, v2, v3, v4, v5, v6, v7, v8⟩ := hv
  obtain ⟨w1, w2, w3, w4, w5, w6, w7, w8⟩ := hv'
  have := dim_le t'.year t'.month
  rw [e, e']
  rcases hlex with hy | ⟨hy, hlex⟩
  · exact pad_lt 4 _ _ _ _ hy (by norm_num; omega)
  rw [hy]
  apply append_lt
  apply cons_lt'
  rcases hlex with hm | ⟨hm, hlex⟩
  · exact pad_lt 2 _ _ _ _ hm (by norm_num; omega)
  rw [hm]
  apply append_lt
  apply cons_lt'
  rcases hlex with hd | ⟨hd, hs⟩
  · exact pad_lt 2 _ _ _ _ hd (by norm_num; omega)
  rw [hd]
  apply append_lt
  have hfull' : full' = true := by
    cases full' with
    | true => rfl
    | false => have := hf' rfl; omega
  subst hfull'
  cases full with
  | false => simp [tailOf, List.nil_lt_cons]
  | true =>
    simp only [tailOf, if_true]
    apply cons_lt'
    rcases Nat.lt_or_ge (t.sec / 3600) (t'.sec / 3600) with hh | hh
    · exact pad_lt 2 _ _ _ _ hh (by norm_num; omega)
    have hh0 : t.sec / 3600 = t'.sec / 3600 := by omega
    rw [hh0]
    apply append_lt
    apply cons_lt'
    rcases Nat.lt_or_ge (t.sec / 60 % 60) (t'.sec / 60 % 60) with hh | hh
    · exact pad_lt 2 _ _ _ _ hh (by norm_num; omega)
    have hh1 : t.sec / 60 % 60 = t'.sec / 60 % 60 := by omega
    rw [hh1]
    apply append_lt
    apply cons_lt'
    exact pad_lt 2 _ _ _ _ (by omega) (by norm_num; omega)

theorem two_digits (a b : Nat) (ha : a < 10) (hb : b < 10) : two (digitChar a) (digitChar b) = some (10 * a + b) := by
  unfold two
  rw [digitVal?_digitChar a ha, digitVal?_digitChar b hb]

theorem digitChar_ne_Z (a : Nat) (ha : a < 10) : digitChar a ≠ 'Z' := by
  interval_cases a <;> decide

theorem readTime_full (s : Nat) (hs : s < 86400) :
    readTime ('T' :: (pad 2 (s / 3600) ++ ':' :: (pad 2 (s / 60 % 60) ++ ':' :: pad 2 (s % 60)))) = some (s, 0) := by
  simp only [pad, List.cons_append, List.nil_append, pow_one, pow_zero, Nat.div_one]
  simp only [readTime]
  rw [two_digits _ _ (by omega) (by omega), two_digits _ _ (by omega) (by omega), two_digits _ _ (by omega) (by omega)]
  simp only [readFraction]
  rw [if_pos (by omega)]
  congr 2
  omega

theorem fromiso_plain (t : DateTime) (hv : Valid t) (hu : t.us = 0) (full : Bool) (hf : full = false → t.sec = 0)
    (r : List Char) (hr : r = if full then 'T' :: (pad 2 (t.sec / 3600) ++ ':' :: (pad 2 (t.sec / 60 % 60) ++ ':' :: pad 2 (t.sec % 60))) else []) :
    fromisoformat (pad 4 t.year ++ '-' :: (pad 2 t.month ++ '-' :: (pad 2 t.day ++ r))) = some t := by
  obtain ⟨v1, v2, v3, v4, v5, v6, v7, v8⟩ := id hv
  have := dim_le t.year t.month
  have hrt : readTime r = some (t.sec, 0) := by
    subst hr
    cases full with
    | true => exact readTime_full _ v7
    | false => simp only [Bool.false_eq_true, if_false, readTime]; rw [hf rfl]
  simp only [pad, List.cons_append, List.nil_append, pow_one, pow_zero, Nat.div_one]
  simp only [fromisoformat]
  rw [two_digits _ _ (by omega) (by omega), two_digits _ _ (by omega) (by omega), two_digits _ _ (by omega) (by omega),
    two_digits _ _ (by omega) (by omega), hrt]
  dsimp only
  have e : (⟨100 * (10 * (t.year / 10 ^ 3) + t.year % 10 ^ 3 / 10 ^ 2) +
      (10 * (t.year % 10 ^ 3 % 10 ^ 2 / 10) + t.year % 10 ^ 3 % 10 ^ 2 % 10), 10 * (t.month / 10) + t.month % 10,
      10 * (t.day / 10) + t.day % 10, t.sec, 0⟩ : DateTime) = t := by
    obtain ⟨y, m, d, s, u⟩ := t
    simp only at hu
    subst hu
    congr 1 <;> (dsimp only at *; omega)
  first
    | (rw [e, if_pos hv])
    | (norm_num at e ⊢; rw [e]; simp [hv])

theorem parse_plain {s : Stamp} {t : DateTime} (h : Plain s t) : parse s = some t := by
  obtain ⟨hv, hu, h⟩ := h
  obtain ⟨v1, v2, v3, v4, v5, v6, v7, v8⟩ := id hv
  have := dim_le t.year t.month
  unfold parse
  rcases h with ⟨rfl, h0⟩ | rfl
  · have e : stripZ (isoDate t) = pad 4 t.year ++ '-' :: (pad 2 t.month ++ '-' :: (pad 2 t.day ++ [])) := by
      unfold stripZ
      rw [if_neg]
      · simp [isoDate]
      · simp only [isoDate, pad, List.cons_append, List.nil_append, pow_one, pow_zero, Nat.div_one, List.getLast?_cons_cons]
        simp only [List.getLast?_singleton, Option.some.injEq]
        exact digitChar_ne_Z _ (by omega)
    rw [e]
    exact fromiso_plain t hv hu false (fun _ => h0) [] rfl
  · have e : stripZ (isoformat t ++ ['Z']) = isoformat t := by
      unfold stripZ
      rw [if_pos (by simp)]
      simp
    rw [e]
    have e2 : isoformat t = pad 4 t.year ++ '-' :: (pad 2 t.month ++ '-' :: (pad 2 t.day ++
        ('T' :: (pad 2 (t.sec / 3600) ++ ':' :: (pad 2 (t.sec / 60 % 60) ++ ':' :: pad 2 (t.sec % 60)))))) := by
      simp [isoformat, isoDate, hu]
    rw [e2]
    exact fromiso_plain t hv hu true (by simp) _ rfl

theorem timeOf_plain {s : Stamp} {t : DateTime} (h : Plain s t) : timeOf s = usTime t := by
  unfold timeOf; rw [parse_plain h]; rfl

/-- for plain timestamps the order of the strings is the order of the times -/
theorem plain_le {s s' : Stamp} (h : IsPlain s) (h' : IsPlain s') (hle : s ≤ s') : timeOf s ≤ timeOf s' := by
  obtain ⟨t, h⟩ := h
  obtain ⟨t', h'⟩ := h'
  rw [timeOf_plain h, timeOf_plain h']
  by_contra hc
  have := plain_lt h' h (by omega)
  exact absurd (lt_of_lt_of_le this hle) (lt_irrefl _)

theorem plain_time_lt {s s' : Stamp} (h : IsPlain s) (h' : IsPlain s') (hlt : timeOf s < timeOf s') : s < s' := by
  by_contra hc
  have := plain_le h' h (not_lt.1 hc)
  omega

theorem check_plain {s : Stamp} (h : IsPlain s) : checkTimestamp s = .ok () := by
  obtain ⟨t, h⟩ := h
  unfold checkTimestamp
  rw [parse_plain h]
  rfl

theorem duration_plain {s s' : Stamp} (h : IsPlain s) (h' : IsPlain s') :
    duration s s' = .ok (timeOf s' - timeOf s) := by
  obtain ⟨t, h⟩ := h
  obtain ⟨t', h'⟩ := h'
  unfold duration
  rw [parse_plain h, parse_plain h', timeOf_plain h, timeOf_plain h']

end Verif.TimeSeries
