import Verif.TimeSeries.Lemmas2

/-! # C41: making a time series from a list of timestamps -/

namespace Verif.TimeSeries
open Verif.Py

/-- the tidy text of a timestamp -/
def tidyOf (s : Stamp) : Stamp := (parse s).elim [] tidy

theorem tidyOf_plain {s : Stamp} {t : DateTime} (h : Plain s t) : tidyOf s = tidy t := by
  unfold tidyOf; rw [parse_plain h]; rfl

theorem timeOf_tidyOf {s : Stamp} (h : IsPlain s) : IsPlain (tidyOf s) ∧ timeOf (tidyOf s) = timeOf s := by
  obtain ⟨t, h⟩ := h
  have hp := tidy_plain h.1 h.2.1
  rw [tidyOf_plain h]
  exact ⟨⟨t, hp⟩, by rw [timeOf_plain h, timeOf_plain hp]⟩

theorem addCleaned_iff (ss : List Stamp) (hp : ∀ s ∈ ss, IsPlain s) (ts : List Stamp) (t0 : DateTime) (hv : Valid t0)
    (hu : t0.us = 0) (hl : ts.getLast? = some (tidy t0)) (out : List Stamp) :
    addCleaned ts ss = .ok out ↔ out = ts ++ ss.map tidyOf ∧ List.IsChain (· < ·) (usTime t0 :: ss.map timeOf) := by
  induction ss generalizing ts t0 with
  | nil =>
    unfold addCleaned
    simp [eq_comm]
  | cons s ss ih =>
    obtain ⟨t, ht⟩ := hp s (by simp)
    unfold addCleaned
    rw [cleaned_plain ht]
    dsimp only
    have hpt := tidy_plain ht.1 ht.2.1
    have hadd : addTimestamp ts (tidy t) false =
        if usTime t0 < usTime t then .ok (ts ++ [tidy t]) else .error .assertion := by
      unfold addTimestamp
      rw [check_plain ⟨t, hpt⟩, hl]
      dsimp only
      rw [if_neg (by decide)]
      simp only [tidy_lt_iff hv hu ht.1 ht.2.1]
    rw [hadd, List.map_cons, List.map_cons, List.isChain_cons_cons, timeOf_plain ht, tidyOf_plain ht]
    by_cases hlt : usTime t0 < usTime t
    · rw [if_pos hlt]
      dsimp only
      rw [ih (fun x hx => hp x (List.mem_cons_of_mem _ hx)) _ t ht.1 ht.2.1 (by simp)]
      simp [hlt]
    · rw [if_neg hlt]
      constructor
      · intro h; cases h
      · rintro ⟨_, h, _⟩; exact absurd h hlt

/-- A series can be made from a list of timestamps (in the usual forms, in any order) exactly when the list is not
empty and no two of them are the same time. -/
theorem C41_from_list_succeeds (l : List Stamp) (hp : ∀ s ∈ l, IsPlain s) :
    (∃ ts, fromList l = .ok ts) ↔ l ≠ [] ∧ (l.map timeOf).Nodup := by
  have hperm := List.perm_insertionSort (· ≤ ·) l
  have hsort := List.pairwise_insertionSort (· ≤ ·) l
  unfold fromList
  generalize hm : l.insertionSort (· ≤ ·) = m at hperm hsort
  rw [← (hperm.map timeOf).nodup_iff]
  have hpm : ∀ s ∈ m, IsPlain s := fun s hs => hp s (hperm.mem_iff.1 hs)
  have hne : l ≠ [] ↔ m ≠ [] := by
    rw [not_iff_not]
    constructor
    · rintro rfl; exact hperm.eq_nil
    · rintro rfl; exact hperm.symm.eq_nil
  rw [hne]
  cases m with
  | nil => simp
  | cons s ss =>
    obtain ⟨t, ht⟩ := hpm s (by simp)
    have hpt := tidy_plain ht.1 ht.2.1
    dsimp only
    rw [cleaned_plain ht]
    dsimp only
    rw [check_plain ⟨t, hpt⟩]
    dsimp only
    have key := addCleaned_iff ss (fun x hx => hpm x (List.mem_cons_of_mem _ hx)) [tidy t] t ht.1 ht.2.1 rfl
    have hchain : List.IsChain (· < ·) (usTime t :: ss.map timeOf) ↔ ((s :: ss).map timeOf).Nodup := by
      rw [List.map_cons, timeOf_plain ht, List.isChain_iff_pairwise]
      constructor
      · intro h; exact h.imp (fun h => ne_of_lt h)
      · intro hn
        have hle : (usTime t :: ss.map timeOf).Pairwise (· ≤ ·) := by
          rw [← timeOf_plain ht, ← List.map_cons, List.pairwise_map]
          refine List.Pairwise.imp_of_mem ?_ hsort
          intro a b ha hb hab
          exact plain_le (hpm a ha) (hpm b hb) hab
        exact (hle.and hn).imp (fun ⟨h1, h2⟩ => lt_of_le_of_ne h1 h2)
    rw [← hchain]
    constructor
    · rintro ⟨ts, h⟩
      exact ⟨by simp, ((key ts).1 h).2⟩
    · rintro ⟨_, h⟩
      exact ⟨_, (key _).2 ⟨rfl, h⟩⟩

/-- The series made holds exactly the given times, each once, in increasing order, each written in the tidy form. -/
theorem C41_from_list_times (l ts : List Stamp) (hp : ∀ s ∈ l, IsPlain s) (h : fromList l = .ok ts) :
    (ts.map timeOf).Perm (l.map timeOf) ∧ (ts.map timeOf).Pairwise (· < ·) ∧ (∀ s ∈ ts, IsPlain s) ∧
      ts.Pairwise (· < ·) ∧ ∀ s ∈ ts, cleaned s = .ok s := by
  have hperm := List.perm_insertionSort (· ≤ ·) l
  unfold fromList at h
  generalize hm : l.insertionSort (· ≤ ·) = m at hperm h
  have hpm : ∀ s ∈ m, IsPlain s := fun s hs => hp s (hperm.mem_iff.1 hs)
  cases m with
  | nil => cases h
  | cons s ss =>
    obtain ⟨t, ht⟩ := hpm s (by simp)
    have hpt := tidy_plain ht.1 ht.2.1
    dsimp only at h
    rw [cleaned_plain ht] at h
    dsimp only at h
    rw [check_plain ⟨t, hpt⟩] at h
    dsimp only at h
    obtain ⟨e, hc⟩ := (addCleaned_iff ss (fun x hx => hpm x (List.mem_cons_of_mem _ hx)) [tidy t] t ht.1 ht.2.1 rfl ts).1 h
    have e2 : ts = (s :: ss).map tidyOf := by rw [e, List.map_cons, tidyOf_plain ht]; rfl
    have e3 : ts.map timeOf = (s :: ss).map timeOf := by
      rw [e2, List.map_map]
      apply List.map_congr_left
      intro x hx
      exact (timeOf_tidyOf (hpm x hx)).2
    have hlt : (ts.map timeOf).Pairwise (· < ·) := by
      rw [e3, List.map_cons, timeOf_plain ht]
      exact List.isChain_iff_pairwise.1 hc
    have hpl : ∀ x ∈ ts, IsPlain x := by
      intro x hx
      rw [e2] at hx
      obtain ⟨y, hy, rfl⟩ := List.mem_map.1 hx
      exact (timeOf_tidyOf (hpm y hy)).1
    refine ⟨by rw [e3]; exact hperm.map _, hlt, hpl, ?_, ?_⟩
    · refine List.Pairwise.imp_of_mem ?_ (List.pairwise_map.1 hlt)
      intro a b ha hb hab
      exact plain_time_lt (hpl a ha) (hpl b hb) hab
    · intro x hx
      rw [e2] at hx
      obtain ⟨y, hy, rfl⟩ := List.mem_map.1 hx
      obtain ⟨ty, hty⟩ := hpm y hy
      rw [tidyOf_plain hty, cleaned_plain (tidy_plain hty.1 hty.2.1)]

example : fromList ["2020-03-01T12:00:00Z".toList, "2020-01-01T00:00:00Z".toList, "2020-02-10".toList] =
    .ok ["2020-01-01".toList, "2020-02-10".toList, "2020-03-01T12:00:00Z".toList] := by decide +kernel

example : fromList ["2020-01-01T00:00:00Z".toList, "2020-01-01".toList] = .error .assertion := by decide +kernel

end Verif.TimeSeries
