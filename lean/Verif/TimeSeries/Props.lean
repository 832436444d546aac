import Verif.TimeSeries.Lemmas2

/-! # C20, C41: time series

Property C20: a time series stays in chronological order under any history of additions and extensions; the
searches by timestamp return the latest one not later, the earliest one not earlier, and the closest; durations
between timestamps add up. -/

namespace Verif.TimeSeries
open Verif.Py

/-- Whatever is added, with or without insertion, and whatever is refused: a series in order stays in order,
and keeps all it had. -/
theorem C20_additions_keep_order (ts : List Stamp) (h : Ordered ts) (ops : List Op)
    (hops : ∀ op ∈ ops, ∃ t b, op = .add t b) :
    Ordered (run ts ops) ∧ ∀ s ∈ ts, s ∈ run ts ops := by
  induction ops generalizing ts with
  | nil => exact ⟨h, fun s hs => hs⟩
  | cons op ops ih =>
    obtain ⟨t, b, rfl⟩ := hops op (by simp)
    have hstep : Ordered (step ts (.add t b)) ∧ ∀ s ∈ ts, s ∈ step ts (.add t b) := by
      cases e : addTimestamp ts t b with
      | error => simp only [step, apply, e]; exact ⟨h, fun s hs => hs⟩
      | ok ts' =>
        simp only [step, apply, e]
        exact ⟨addTimestamp_ordered h e, fun s hs => (addTimestamp_perm e).mem_iff.2 (List.mem_cons_of_mem _ hs)⟩
    obtain ⟨g1, g2⟩ := ih _ hstep.1 (fun o ho => hops o (List.mem_cons_of_mem _ ho))
    exact ⟨g1, fun s hs => g2 s (hstep.2 s hs)⟩

/-- An addition that is accepted puts in exactly the given timestamp; without insertion it is the new last one,
strictly later (as text) than the one before, and anything else is refused. -/
theorem C20_addition (ts : List Stamp) (t : Stamp) (hw : (parse t).isSome) :
    (∃ ts', addTimestamp ts t true = .ok ts' ∧ ts'.Perm (t :: ts)) ∧
    (∀ ts', addTimestamp ts t false = .ok ts' ↔ ts' = ts ++ [t] ∧ ∀ s, ts.getLast? = some s → s < t) := by
  have hc : checkTimestamp t = .ok () := by unfold checkTimestamp; rw [if_pos hw]
  constructor
  · unfold addTimestamp
    rw [hc]
    dsimp only
    rw [if_pos rfl]
    cases notLaterLoop ts t ts.length with
    | none => exact ⟨_, rfl, insertAt_perm _ _ _⟩
    | some i => exact ⟨_, rfl, insertAt_perm _ _ _⟩
  · intro ts'
    unfold addTimestamp
    rw [hc]
    dsimp only
    rw [if_neg (by decide)]
    cases hl : ts.getLast? with
    | none =>
      dsimp only
      constructor
      · intro h; cases h; exact ⟨rfl, fun s hs => by cases hs⟩
      · rintro ⟨rfl, _⟩; rfl
    | some last =>
      dsimp only
      split
      · rename_i hlt
        constructor
        · intro h; cases h; exact ⟨rfl, fun s hs => by cases hs; exact hlt⟩
        · rintro ⟨rfl, _⟩; rfl
      · rename_i hlt
        constructor
        · intro h; cases h
        · rintro ⟨_, h⟩; exact absurd (h last rfl) hlt

/-- The full statement fails: extending by half a second puts a timestamp that is later in time, but
earlier as text, at the end: the series is no longer in the order used by the searches, and a search for the
last timestamp not later than a time after all of them misses it. -/
theorem C20_extension_violated :
    ∃ ts d ts', Ordered ts ∧ (∀ s ∈ ts, IsPlain s) ∧ 0 < d ∧ TimeSeries.extend ts d = .ok ts' ∧ ¬ Ordered ts' := by
  refine ⟨["2020-01-01T00:00:00Z".toList], 500000,
    ["2020-01-01T00:00:00Z".toList, "2020-01-01T00:00:00.500000Z".toList], ?_, ?_, by decide, by decide +kernel, ?_⟩
  · exact List.pairwise_singleton _ _
  · intro s hs
    rw [List.mem_singleton] at hs
    subst hs
    exact ⟨⟨2020, 1, 1, 0, 0⟩, by decide, rfl, .inr (by decide +kernel)⟩
  · intro h
    have := (List.pairwise_cons.1 h).1 _ (List.mem_singleton.2 rfl)
    exact absurd this (by decide +kernel)

/-- a change using timestamps in the usual forms and whole seconds -/
def Usual : Op → Prop
  | .add t _ => IsPlain t
  | .extend d => d % 1000000 = 0

/-- For timestamps in the usual forms, and extensions by whole numbers of seconds (so any whole number of
days), every history leaves the series in chronological order. -/
theorem C20_history_partial (ts : List Stamp) (hp : ∀ s ∈ ts, IsPlain s) (h : Ordered ts) (ops : List Op)
    (hops : ∀ op ∈ ops, Usual op) :
    (∀ s ∈ run ts ops, IsPlain s) ∧ Ordered (run ts ops) ∧ Chronological (run ts ops) := by
  suffices hmain : (∀ s ∈ run ts ops, IsPlain s) ∧ Ordered (run ts ops) by
    refine ⟨hmain.1, hmain.2, ?_⟩
    refine List.Pairwise.imp_of_mem ?_ hmain.2
    intro a b ha hb hab
    exact plain_le (hmain.1 a ha) (hmain.1 b hb) hab
  induction ops generalizing ts with
  | nil => exact ⟨hp, h⟩
  | cons op ops ih =>
    have hstep : (∀ s ∈ step ts op, IsPlain s) ∧ Ordered (step ts op) := by
      have hu := hops op (by simp)
      cases op with
      | add t b =>
        cases e : addTimestamp ts t b with
        | error => simp only [step, apply, e]; exact ⟨hp, h⟩
        | ok ts' =>
          simp only [step, apply, e]
          refine ⟨fun s hs => ?_, addTimestamp_ordered h e⟩
          rcases List.mem_cons.1 ((addTimestamp_perm e).mem_iff.1 hs) with rfl | hs
          · exact hu
          · exact hp s hs
      | extend d =>
        cases e : TimeSeries.extend ts d with
        | error => simp only [step, apply, e]; exact ⟨hp, h⟩
        | ok ts' =>
          simp only [step, apply, e]
          unfold TimeSeries.extend at e
          split at e
          · cases e
          · rename_i hd
            split at e
            · cases e
            · rename_i last hl
              split at e
              · cases e
              · rename_i s' hs'
                cases e
                have hu' : d % 1000000 = 0 := hu
                obtain ⟨g1, _, g3⟩ := stampAfter_plain (hp _ (List.mem_of_getLast? hl)) (by omega) hs'
                refine ⟨fun s hs => ?_, append_ordered h s' (fun x hx => by rw [hl] at hx; cases hx; exact g3)⟩
                rcases List.mem_append.1 hs with hs | hs
                · exact hp s hs
                · rw [List.mem_singleton] at hs; subst hs; exact g1
    exact ih _ hstep.1 hstep.2 (fun o ho => hops o (List.mem_cons_of_mem _ ho))

/-- An extension by whole seconds adds one timestamp, later than the last one by exactly the duration. -/
theorem C20_extension (ts ts' : List Stamp) (hp : ∀ s ∈ ts, IsPlain s) (d : Int) (hd : d % 1000000 = 0)
    (h : TimeSeries.extend ts d = .ok ts') :
    0 ≤ d ∧ ∃ last new, ts.getLast? = some last ∧ ts' = ts ++ [new] ∧ timeOf new = timeOf last + d := by
  unfold TimeSeries.extend at h
  split at h
  · cases h
  · rename_i h0
    split at h
    · cases h
    · rename_i last hl
      split at h
      · cases h
      · rename_i s' hs'
        cases h
        obtain ⟨_, g2, _⟩ := stampAfter_plain (hp _ (List.mem_of_getLast? hl)) (by omega) hs'
        exact ⟨by omega, last, s', hl, rfl, by omega⟩

/-- Negative durations, however small, are refused and the series stays as it was. -/
theorem C20_negative_refused (ts : List Stamp) (d : Int) (hd : d < 0) :
    TimeSeries.extend ts d = .error .assertion ∧ step ts (.extend d) = ts := by
  have h : TimeSeries.extend ts d = .error .assertion := by
    unfold TimeSeries.extend
    rw [if_pos hd]
  refine ⟨h, ?_⟩
  unfold step apply
  dsimp only
  rw [h]

example : TimeSeries.extend ["2020-01-01".toList] (-1) = .error .assertion := (C20_negative_refused _ _ (by decide)).1

/-- The search for the last timestamp not later than a given one: the answer splits the series in two. -/
theorem C20_not_later (ts : List Stamp) (h : Ordered ts) (t : Stamp) (ht : (parse t).isSome) :
    ∃ r, notLater ts t = .ok r ∧
      ∀ k s, ts[k]? = some s → (s ≤ t ↔ ∃ i, r = some i ∧ k ≤ i) := by
  refine ⟨notLaterLoop ts t ts.length, by unfold notLater checkTimestamp; rw [if_pos ht], ?_⟩
  intro k s hk
  have hkl := (List.getElem?_eq_some_iff.1 hk).1
  cases e : notLaterLoop ts t ts.length with
  | none =>
    have := notLaterLoop_none ts t _ (le_refl _) e k s hkl hk
    simp [not_le.2 this]
  | some i =>
    obtain ⟨g1, ⟨s0, g2, g3⟩, g4⟩ := notLaterLoop_some ts t _ i (le_refl _) e
    constructor
    · intro hle
      refine ⟨i, rfl, ?_⟩
      by_contra hc
      exact absurd hle (not_le.2 (g4 k s (by omega) hkl hk))
    · rintro ⟨j, hj, hkj⟩
      cases hj
      exact le_trans (ordered_get h hkj hk g2) g3

/-- The search for the first timestamp not earlier than a given one: the answer splits the series in two. -/
theorem C20_not_earlier (ts : List Stamp) (h : Ordered ts) (t : Stamp) (ht : (parse t).isSome) :
    ∃ r, notEarlier ts t = .ok r ∧
      ∀ k s, ts[k]? = some s → (t ≤ s ↔ ∃ i, r = some i ∧ i ≤ k) := by
  refine ⟨notEarlierLoop t 0 ts, by unfold notEarlier checkTimestamp; rw [if_pos ht], ?_⟩
  intro k s hk
  cases e : notEarlierLoop t 0 ts with
  | none =>
    have := notEarlierLoop_none t ts 0 e s (List.mem_iff_getElem?.2 ⟨k, hk⟩)
    simp [not_le.2 this]
  | some i =>
    obtain ⟨_, ⟨s0, g2, g3⟩, g4⟩ := notEarlierLoop_some t ts 0 i e
    rw [Nat.sub_zero] at g2
    constructor
    · intro hle
      refine ⟨i, rfl, ?_⟩
      by_contra hc
      exact absurd hle (not_le.2 (g4 k s (by omega) hk))
    · rintro ⟨j, hj, hkj⟩
      cases hj
      exact le_trans g3 (ordered_get h hkj g2 hk)

/-- In terms of time, for timestamps in the usual forms: those strictly earlier than the given time are at or before
the answer, and those at or before the answer are not later. -/
theorem C20_not_later_in_time_partial (ts : List Stamp) (h : Ordered ts) (hp : ∀ s ∈ ts, IsPlain s) (t : Stamp)
    (ht : IsPlain t) :
    ∃ r, notLater ts t = .ok r ∧ ∀ k s, ts[k]? = some s →
      (timeOf s < timeOf t → ∃ i, r = some i ∧ k ≤ i) ∧ ((∃ i, r = some i ∧ k ≤ i) → timeOf s ≤ timeOf t) := by
  obtain ⟨t', hpt⟩ := id ht
  obtain ⟨r, hr, hk⟩ := C20_not_later ts h t (by rw [parse_plain hpt]; rfl)
  refine ⟨r, hr, fun k s hs => ?_⟩
  have hps := hp s (List.mem_iff_getElem?.2 ⟨k, hs⟩)
  exact ⟨fun hlt => (hk k s hs).1 (le_of_lt (plain_time_lt hps ht hlt)), fun hi => plain_le hps ht ((hk k s hs).2 hi)⟩

/-- written in full, `YYYY-MM-DDThh:mm:ssZ` -/
def IsFull (s : Stamp) : Prop := ∃ t, Valid t ∧ t.us = 0 ∧ s = isoformat t ++ ['Z']

theorem full_le_iff {s s' : Stamp} (h : IsFull s) (h' : IsFull s') : s ≤ s' ↔ timeOf s ≤ timeOf s' := by
  obtain ⟨t, hv, hu, e⟩ := h
  obtain ⟨t', hv', hu', e'⟩ := h'
  have p : Plain s t := ⟨hv, hu, .inr e⟩
  have p' : Plain s' t' := ⟨hv', hu', .inr e'⟩
  refine ⟨plain_le ⟨t, p⟩ ⟨t', p'⟩, fun hle => ?_⟩
  rcases lt_or_eq_of_le hle with h1 | h1
  · exact le_of_lt (plain_time_lt ⟨t, p⟩ ⟨t', p'⟩ h1)
  · rw [timeOf_plain p, timeOf_plain p'] at h1
    have := usTime_inj t t' hv hv' hu hu' h1
    subst this
    rw [e, e']

/-- When all timestamps are written in full the searches are exact in time. -/
theorem C20_searches_in_time (ts : List Stamp) (h : Ordered ts) (hp : ∀ s ∈ ts, IsFull s) (t : Stamp) (ht : IsFull t) :
    (∃ r, notLater ts t = .ok r ∧ ∀ k s, ts[k]? = some s → (timeOf s ≤ timeOf t ↔ ∃ i, r = some i ∧ k ≤ i)) ∧
    (∃ r, notEarlier ts t = .ok r ∧ ∀ k s, ts[k]? = some s → (timeOf t ≤ timeOf s ↔ ∃ i, r = some i ∧ i ≤ k)) := by
  obtain ⟨t', hv, hu, e⟩ := id ht
  have hw : (parse t).isSome := by rw [parse_plain ⟨hv, hu, .inr e⟩]; rfl
  constructor
  · obtain ⟨r, hr, hk⟩ := C20_not_later ts h t hw
    refine ⟨r, hr, fun k s hs => ?_⟩
    rw [← full_le_iff (hp s (List.mem_iff_getElem?.2 ⟨k, hs⟩)) ht]
    exact hk k s hs
  · obtain ⟨r, hr, hk⟩ := C20_not_earlier ts h t hw
    refine ⟨r, hr, fun k s hs => ?_⟩
    rw [← full_le_iff ht (hp s (List.mem_iff_getElem?.2 ⟨k, hs⟩))]
    exact hk k s hs

/-- With the two usual forms mixed they are not: the same instant written both ways is not found. -/
theorem C20_searches_mixed_forms_violated :
    ∃ ts t, Ordered ts ∧ (∀ s ∈ ts, IsPlain s) ∧ IsPlain t ∧ (∀ s ∈ ts, timeOf s ≤ timeOf t) ∧ ts ≠ [] ∧
      notLater ts t = .ok none := by
  have hv : Valid ⟨2020, 1, 1, 0, 0⟩ := by decide
  have p1 : Plain "2020-01-01T00:00:00Z".toList ⟨2020, 1, 1, 0, 0⟩ := ⟨hv, rfl, .inr (by decide +kernel)⟩
  have p2 : Plain "2020-01-01".toList ⟨2020, 1, 1, 0, 0⟩ := ⟨hv, rfl, .inl ⟨by decide +kernel, rfl⟩⟩
  refine ⟨["2020-01-01T00:00:00Z".toList], "2020-01-01".toList, List.pairwise_singleton _ _, ?_, ⟨_, p2⟩, ?_, by simp,
    by decide +kernel⟩
  · intro s hs; rw [List.mem_singleton] at hs; subst hs; exact ⟨_, p1⟩
  · intro s hs; rw [List.mem_singleton] at hs; subst hs; rw [timeOf_plain p1, timeOf_plain p2]

/-- The closest timestamp is found, as long as the given time is not after the first timestamp and nearer to the
second. -/
theorem C20_closest_partial (ts : List Stamp) (h : Ordered ts) (hp : ∀ s ∈ ts, IsPlain s) (hne : ts ≠ []) (t : Stamp)
    (ht : IsPlain t)
    (hfirst : ∀ a b, ts[0]? = some a → ts[1]? = some b → a ≤ t → t < b → |timeOf a - timeOf t| ≤ |timeOf b - timeOf t|) :
    ∃ i s, closest ts t = .ok (some i) ∧ ts[i]? = some s ∧
      ∀ s' ∈ ts, |timeOf s - timeOf t| ≤ |timeOf s' - timeOf t| := by
  have mono : ∀ {i j : Nat} {a b : Stamp}, i ≤ j → ts[i]? = some a → ts[j]? = some b → timeOf a ≤ timeOf b := by
    intro i j a b hij ha hb
    exact plain_le (hp a (List.mem_iff_getElem?.2 ⟨i, ha⟩)) (hp b (List.mem_iff_getElem?.2 ⟨j, hb⟩))
      (ordered_get h hij ha hb)
  have pl : ∀ {i : Nat} {a : Stamp}, ts[i]? = some a → IsPlain a := fun ha => hp _ (List.mem_iff_getElem?.2 ⟨_, ha⟩)
  have hlen : 0 < ts.length := List.length_pos_iff.2 hne
  unfold closest
  rw [check_plain ht]
  dsimp only
  rw [if_neg hne]
  cases e : notLaterLoop ts t ts.length with
  | none =>
    refine ⟨0, ts[0], rfl, List.getElem?_eq_getElem hlen, ?_⟩
    intro s' hs'
    obtain ⟨k, hk⟩ := List.mem_iff_getElem?.1 hs'
    have h0 := List.getElem?_eq_getElem hlen
    have g0 := plain_le ht (pl h0) (le_of_lt (notLaterLoop_none ts t _ (le_refl _) e 0 _ hlen h0))
    have g1 := mono (Nat.zero_le k) h0 hk
    rw [abs_of_nonneg (by omega), abs_of_nonneg (by omega)]
    omega
  | some i =>
    obtain ⟨g1, ⟨s0, g2, g3⟩, g4⟩ := notLaterLoop_some ts t _ i (le_refl _) e
    have hs0 := plain_le (pl g2) ht g3
    -- those at or before `i` are no nearer than `s0`
    have hbef : ∀ k s', k ≤ i → ts[k]? = some s' → |timeOf s0 - timeOf t| ≤ |timeOf s' - timeOf t| := by
      intro k s' hk hs'
      have := mono hk hs' g2
      rw [abs_of_nonpos (by omega), abs_of_nonpos (by omega)]
      omega
    -- those after are no nearer than the one just after
    have haft : ∀ s1, ts[i + 1]? = some s1 → timeOf t ≤ timeOf s1 ∧
        ∀ k s', i < k → ts[k]? = some s' → |timeOf s1 - timeOf t| ≤ |timeOf s' - timeOf t| := by
      intro s1 hs1
      have hl1 := (List.getElem?_eq_some_iff.1 hs1).1
      have ht1 := plain_le ht (pl hs1) (le_of_lt (g4 (i + 1) s1 (by omega) hl1 hs1))
      refine ⟨ht1, fun k s' hk hs' => ?_⟩
      have := mono (show i + 1 ≤ k by omega) hs1 hs'
      rw [abs_of_nonneg (by omega), abs_of_nonneg (by omega)]
      omega
    -- it is enough to compare the two neighbours
    have fin0 : (∀ s1, ts[i + 1]? = some s1 → |timeOf s0 - timeOf t| ≤ |timeOf s1 - timeOf t|) →
        ∀ s' ∈ ts, |timeOf s0 - timeOf t| ≤ |timeOf s' - timeOf t| := by
      intro hc s' hs'
      obtain ⟨k, hk⟩ := List.mem_iff_getElem?.1 hs'
      by_cases hki : k ≤ i
      · exact hbef k s' hki hk
      · have hkl := (List.getElem?_eq_some_iff.1 hk).1
        have h1 : ts[i + 1]? = some (ts[i + 1]'(by omega)) := List.getElem?_eq_getElem (by omega)
        exact le_trans (hc _ h1) ((haft _ h1).2 k s' (by omega) hk)
    cases i with
    | zero =>
      refine ⟨0, s0, rfl, g2, fin0 ?_⟩
      intro s1 hs1
      exact hfirst s0 s1 g2 hs1 g3 (g4 1 s1 (by omega) (List.getElem?_eq_some_iff.1 hs1).1 hs1)
    | succ i =>
      simp only [g2]
      cases e1 : ts[i + 1 + 1]? with
      | none => exact ⟨i + 1, s0, rfl, g2, fin0 (fun s1 hs1 => by rw [e1] at hs1; cases hs1)⟩
      | some s1 =>
        dsimp only
        split
        · rename_i heq
          refine ⟨i + 1, s0, rfl, g2, ?_⟩
          intro s' _
          rw [heq, sub_self, abs_zero]
          exact abs_nonneg _
        · unfold nearer
          rw [duration_plain (pl g2) ht, duration_plain ht (pl e1)]
          dsimp only
          have ht1 := (haft s1 e1).1
          split
          · refine ⟨i + 1, s0, rfl, g2, fin0 ?_⟩
            intro s1' hs1'
            rw [e1] at hs1'
            cases hs1'
            rw [abs_of_nonpos (by omega), abs_of_nonneg (by omega)]
            omega
          · refine ⟨i + 1 + 1, s1, rfl, e1, ?_⟩
            intro s' hs'
            obtain ⟨k, hk⟩ := List.mem_iff_getElem?.1 hs'
            by_cases hki : k ≤ i + 1
            · refine le_trans ?_ (hbef k s' hki hk)
              rw [abs_of_nonneg (by omega), abs_of_nonpos (by omega)]
              omega
            · exact (haft s1 e1).2 k s' (by omega) hk

/-- The full statement fails: between the first timestamp and the second the first is always returned. -/
theorem C20_closest_violated :
    ∃ ts t s s', Ordered ts ∧ ts = [s, s'] ∧ IsPlain t ∧ IsPlain s ∧ IsPlain s' ∧
      closest ts t = .ok (some 0) ∧ |timeOf s' - timeOf t| < |timeOf s - timeOf t| := by
  have p1 : Plain "2020-01-01".toList ⟨2020, 1, 1, 0, 0⟩ := ⟨by decide, rfl, .inl ⟨by decide +kernel, rfl⟩⟩
  have p2 : Plain "2020-01-11".toList ⟨2020, 1, 11, 0, 0⟩ := ⟨by decide, rfl, .inl ⟨by decide +kernel, rfl⟩⟩
  have p3 : Plain "2020-01-10".toList ⟨2020, 1, 10, 0, 0⟩ := ⟨by decide, rfl, .inl ⟨by decide +kernel, rfl⟩⟩
  refine ⟨["2020-01-01".toList, "2020-01-11".toList], "2020-01-10".toList, _, _, ?_, rfl, ⟨_, p3⟩, ⟨_, p1⟩, ⟨_, p2⟩,
    by decide +kernel, ?_⟩
  · refine List.pairwise_cons.2 ⟨?_, List.pairwise_singleton _ _⟩
    intro s hs; rw [List.mem_singleton] at hs; subst hs; decide +kernel
  · rw [timeOf_plain p1, timeOf_plain p2, timeOf_plain p3]; decide +kernel

/-- Durations add up, and are not negative when the series is chronological. -/
theorem C20_durations_add (ts : List Stamp) (hw : ∀ s ∈ ts, (parse s).isSome) (i j k : Nat) (hij : i ≤ j) (hjk : j ≤ k)
    (hk : k < ts.length) :
    ∃ a b, durationBetween ts i j = .ok (some a) ∧ durationBetween ts j k = .ok (some b) ∧
      durationBetween ts i k = .ok (some (a + b)) ∧ (Chronological ts → 0 ≤ a ∧ 0 ≤ b) := by
  have key : ∀ m n : Nat, (hmn : m ≤ n) → (hn : n < ts.length) →
      durationBetween ts m n = .ok (some (timeOf ts[n] - timeOf (ts[m]'(by omega)))) := by
    intro m n hmn hn
    unfold durationBetween
    rw [if_neg (by omega), Int.toNat_natCast, Int.toNat_natCast, List.getElem?_eq_getElem hn,
      List.getElem?_eq_getElem (show m < ts.length by omega)]
    dsimp only
    unfold duration timeOf
    obtain ⟨x, hx⟩ := Option.isSome_iff_exists.1 (hw ts[n] (List.getElem_mem _))
    obtain ⟨y, hy⟩ := Option.isSome_iff_exists.1 (hw (ts[m]'(by omega)) (List.getElem_mem _))
    rw [hx, hy]
    rfl
  refine ⟨_, _, key i j hij (by omega), key j k hjk hk, ?_, ?_⟩
  · rw [key i k (by omega) hk]
    congr 2
    omega
  · intro hc
    have g : ∀ m n : Nat, (hmn : m ≤ n) → (hn : n < ts.length) → timeOf (ts[m]'(by omega)) ≤ timeOf ts[n] := by
      intro m n hmn hn
      rcases Nat.lt_or_eq_of_le hmn with h1 | rfl
      · exact List.pairwise_iff_getElem.1 hc m n (by omega) hn h1
      · exact le_refl _
    have := g i j hij (by omega)
    have := g j k hjk hk
    constructor <;> omega

/-- Step durations are the durations from the timestamp before; none is given for the first. -/
theorem C20_step_duration (ts : List Stamp) (i : Nat) :
    stepDuration ts (i + 1 : Nat) = durationBetween ts i (i + 1 : Nat) ∧ stepDuration ts 0 = .ok none := by
  constructor
  · unfold stepDuration
    split
    · rename_i hc
      unfold durationBetween
      rw [if_pos (by omega)]
    · rw [show ((i + 1 : Nat) : Int) - 1 = (i : Int) from by omega]
  · rfl

/-! ### hypotheses are met -/

example : (∀ s ∈ ["2020-01-01".toList], IsPlain s) ∧ Ordered ["2020-01-01".toList] ∧
    ∀ op ∈ [Op.extend (86400000000 * 60), .add "2020-02-10".toList true, .extend (-1000000)], Usual op := by
  refine ⟨?_, List.pairwise_singleton _ _, ?_⟩
  · intro s hs; rw [List.mem_singleton] at hs; subst hs
    exact ⟨⟨2020, 1, 1, 0, 0⟩, by decide, rfl, .inl ⟨by decide +kernel, rfl⟩⟩
  · intro op hop
    simp only [List.mem_cons, List.not_mem_nil, or_false] at hop
    rcases hop with rfl | rfl | rfl
    · show (86400000000 * 60 : Int) % 1000000 = 0; decide
    · exact ⟨⟨2020, 2, 10, 0, 0⟩, by decide, rfl, .inl ⟨by decide +kernel, rfl⟩⟩
    · show (-1000000 : Int) % 1000000 = 0; decide

example : run ["2020-01-01".toList] [.extend (86400000000 * 60), .add "2020-02-10".toList true, .extend (-1000000)] =
    ["2020-01-01".toList, "2020-02-10".toList, "2020-03-01T00:00:00Z".toList] := by decide +kernel

example : notLater ["2020-01-01".toList, "2020-02-10".toList] "2020-01-31".toList = .ok (some 0) := by decide +kernel
example : notEarlier ["2020-01-01".toList, "2020-02-10".toList] "2020-01-31".toList = .ok (some 1) := by decide +kernel
example : closest ["2019-01-01".toList, "2020-01-01".toList, "2020-02-10".toList] "2020-01-31".toList = .ok (some 2) := by
  decide +kernel
example : durationBetween ["2020-01-01".toList, "2020-03-01".toList] 0 1 = .ok (some (60 * 86400000000)) := by
  decide +kernel

end Verif.TimeSeries
