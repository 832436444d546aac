import Verif.PropColl.PropsFlags
import Mathlib.Data.List.Sort
import Mathlib.Data.Finset.Card
import Mathlib.Data.Finset.Dedup

/-! # C103: arrays over realizations, times and facets -/

namespace Verif.PropColl
open Verif.Py

section unique
variable {α : Type} [LinearOrder α]

theorem mem_insertU (x y : α) : ∀ l : List α, y ∈ insertU x l ↔ y = x ∨ y ∈ l
  | [] => by simp [insertU]
  | z :: t => by
    unfold insertU
    by_cases h : x = z
    · subst h; rw [if_pos rfl]; simp only [List.mem_cons]; tauto
    · rw [if_neg h]
      split
      · simp only [List.mem_cons]
      · simp only [List.mem_cons, mem_insertU x y t]; tauto

theorem sorted_insertU (x : α) : ∀ l : List α, l.Pairwise (· < ·) → (insertU x l).Pairwise (· < ·)
  | [], _ => by simp [insertU]
  | z :: t, h => by
    have hz := (List.pairwise_cons.mp h).1
    have ht := (List.pairwise_cons.mp h).2
    unfold insertU
    by_cases hx : x = z
    · rw [if_pos hx]; exact h
    · rw [if_neg hx]
      split
      next hlt =>
        refine List.pairwise_cons.mpr ⟨?_, h⟩
        intro y hy
        rcases List.mem_cons.mp hy with rfl | hy
        · exact hlt
        · exact hlt.trans (hz y hy)
      next hnlt =>
        refine List.pairwise_cons.mpr ⟨?_, sorted_insertU x t ht⟩
        intro y hy
        rcases (mem_insertU x y t).mp hy with rfl | hy
        · exact lt_of_le_of_ne (not_lt.mp hnlt) (fun h => hx h.symm)
        · exact hz y hy

theorem mem_uniqueSorted (l : List (Option α)) (x : α) : x ∈ uniqueSorted l ↔ some x ∈ l := by
  unfold uniqueSorted
  have : ∀ m : List α, x ∈ m.foldr insertU [] ↔ x ∈ m := by
    intro m
    induction m with
    | nil => simp
    | cons y t ih => simp only [List.foldr_cons, mem_insertU, ih, List.mem_cons]
  rw [this]
  simp

theorem sorted_uniqueSorted (l : List (Option α)) : (uniqueSorted l).Pairwise (· < ·) := by
  unfold uniqueSorted
  induction l.filterMap id with
  | nil => simp
  | cons y t ih => exact sorted_insertU y _ ih

theorem nodup_uniqueSorted (l : List (Option α)) : (uniqueSorted l).Nodup :=
  (sorted_uniqueSorted l).imp fun h => ne_of_lt h

/-- as many different values as members: every member has a value, and no two the same -/
theorem unique_count (l : List (Option α)) (h : l.length = (uniqueSorted l).length) :
    (∀ x ∈ l, x ≠ none) ∧ l.Nodup := by
  have hsub : (uniqueSorted l).map some ⊆ l := by
    intro x hx
    obtain ⟨y, hy, rfl⟩ := List.mem_map.mp hx
    exact (mem_uniqueSorted l y).mp hy
  have hnd : ((uniqueSorted l).map some).Nodup := (nodup_uniqueSorted l).map (Option.some_injective _)
  have hsp := List.subperm_of_subset hnd hsub
  have hperm : ((uniqueSorted l).map some).Perm l := hsp.perm_of_length_le (by simp [h])
  refine ⟨?_, hperm.nodup_iff.mp hnd⟩
  intro x hx
  obtain ⟨y, -, rfl⟩ := List.mem_map.mp (hperm.mem_iff.mpr hx)
  simp

theorem unique_count' (l : List (Option α)) (h1 : ∀ x ∈ l, x ≠ none) (h2 : l.Nodup) :
    l.length = (uniqueSorted l).length := by
  have hperm : ((uniqueSorted l).map some).Perm l := by
    rw [List.perm_ext_iff_of_nodup ((nodup_uniqueSorted l).map (Option.some_injective _)) h2]
    intro x
    constructor
    · intro hx
      obtain ⟨y, hy, rfl⟩ := List.mem_map.mp hx
      exact (mem_uniqueSorted l y).mp hy
    · intro hx
      obtain ⟨y, rfl⟩ := Option.ne_none_iff_exists'.mp (h1 x hx)
      exact List.mem_map.mpr ⟨y, (mem_uniqueSorted l y).mpr hx, rfl⟩
  have := hperm.length_eq
  simpa using this.symm

end unique

theorem stackChecks_parts (c c' : Coll) (h : stackChecks c = .ok c') :
    c'.parts = c.parts ∧ c'.realization = c.realization ∧ c'.support = c.support ∧ c.parts ≠ [] := by
  have hk : ∀ c : Coll, (hasSingleKind c).1.realization = c.realization ∧ (hasSingleKind c).1.support = c.support := by
    intro c; unfold hasSingleKind; split <;> exact ⟨rfl, rfl⟩
  have hi : ∀ c : Coll, (hasSingleIndexable c).1.realization = c.realization ∧ (hasSingleIndexable c).1.support = c.support := by
    intro c; unfold hasSingleIndexable; split <;> exact ⟨rfl, rfl⟩
  have hu : ∀ c : Coll, (hasSingleUom c).1.realization = c.realization ∧ (hasSingleUom c).1.support = c.support := by
    intro c; unfold hasSingleUom; split <;> exact ⟨rfl, rfl⟩
  unfold stackChecks at h
  simp only at h
  split at h
  · cases h
  · split at h
    · cases h
    · rename_i hne
      split at h
      · cases h
      · split at h
        · cases h
        · split at h
          · cases h
          · cases h
            refine ⟨?_, ?_, ?_, by simpa using hne⟩
            · rw [hasSingleUom_parts, hasSingleIndexable_parts, hasSingleKind_parts]
            · rw [(hu _).1, (hi _).1, (hk _).1]
            · rw [(hu _).2, (hi _).2, (hk _).2]

theorem addSelected_mem (rel : Related) (q : Query) (ig : Bool) : ∀ (l d : List Part) (x : Part),
    x ∈ (addSelected rel q ig d l).1 → x ∈ d ∨ (x ∈ l ∧ skipped rel q x = .ok false)
  | [], d, x, h => Or.inl h
  | p :: t, d, x, h => by
    unfold addSelected at h
    split at h
    · exact Or.inl h
    · rcases addSelected_mem rel q ig t d x h with h | ⟨h1, h2⟩
      · exact Or.inl h
      · exact Or.inr ⟨List.mem_cons_of_mem _ h1, h2⟩
    · rename_i hsk
      split at h
      · split at h
        · rcases addSelected_mem rel q ig t d x h with h | ⟨h1, h2⟩
          · exact Or.inl h
          · exact Or.inr ⟨List.mem_cons_of_mem _ h1, h2⟩
        · exact Or.inl h
      · rcases addSelected_mem rel q ig t (d ++ [p]) x h with h | ⟨h1, h2⟩
        · rcases List.mem_append.mp h with h | h
          · exact Or.inl h
          · simp only [List.mem_cons, List.not_mem_nil, or_false] at h
            subst h
            exact Or.inr ⟨List.mem_cons_self, hsk⟩
        · exact Or.inr ⟨List.mem_cons_of_mem _ h1, h2⟩

theorem singleton_mem (rel : Related) (c : Coll) (q : Query) (p : Part)
    (h : singleton rel c q .exception = .ok (some p)) : p ∈ c.parts ∧ skipped rel q p = .ok false := by
  have hsel : ∃ l, selectiveVersion rel c q = .ok l ∧ p ∈ l := by
    unfold singleton at h
    cases hs : selectiveVersion rel c q with
    | error e => rw [hs] at h; cases h
    | ok l =>
      rw [hs] at h
      match l with
      | [] => cases h
      | [x] =>
        simp only [Except.ok.injEq, Option.some.injEq] at h
        exact ⟨[x], rfl, by simp [h]⟩
      | x :: y :: t => simp at h
  obtain ⟨l, hl, hp⟩ := hsel
  unfold selectiveVersion at hl
  split at hl
  · cases hl
  · split at hl
    · cases hl
    · split at hl
      · cases hl
      · split at hl
        · rename_i l' hadd
          cases hl
          have : p ∈ (addSelected rel q false [] c.parts).1 := by rw [hadd]; exact hp
          rcases addSelected_mem rel q false c.parts [] p this with h | h
          · cases h
          · exact h
        · cases hl

theorem skipped_false (rel : Related) (q : Query) (p : Part) (h : skipped rel q p = .ok false) :
    failsBeforeTitle q p = false ∧ failsAfterTitle q p = false := by
  unfold skipped at h
  cases h1 : failsBeforeTitle q p with
  | true => rw [h1] at h; simp at h
  | false =>
    refine ⟨rfl, ?_⟩
    rw [h1] at h
    cases h2 : failsAfterTitle q p with
    | false => rfl
    | true =>
      rw [h2] at h
      simp only [Bool.false_eq_true, if_false, if_true] at h
      cases h3 : titleFails q.title q.mode p.title with
      | error e => rw [h3] at h; cases h
      | ok b => rw [h3] at h; cases b <;> simp at h

/-- the query finds only parts with the value of the attribute -/
def Selects (rel : Related) (key : Part → Option Int) (query : Int → Query) : Prop :=
  ∀ (r : Int) (p : Part), skipped rel (query r) p = .ok false → key p = some r

theorem selects_realization (rel : Related) : Selects rel (·.realization) fun r => { realization := .is r } := by
  intro r p h
  have := (skipped_false rel _ p h).1
  unfold failsBeforeTitle at this
  simp only [Bool.or_eq_false_iff] at this
  have h1 := (argFails_iff (.is r) p.realization).mp this.1.1.1.1.1.1.1.1.1.1
  exact h1

theorem selects_time (rel : Related) : Selects rel (·.timeIndex) fun t => { timeIndex := .is t } := by
  intro r p h
  have := (skipped_false rel _ p h).2
  unfold failsAfterTitle at this
  simp only [Bool.or_eq_false_iff] at this
  exact (argFails_iff (.is r) p.timeIndex).mp this.1.1.2

theorem setSlices_spec (key : Part → Option Int) (arr : Part → List Rat) (n : Nat) (ext : Int) :
    ∀ (l : List Part) (a b : List (List Rat)), (a.length : Int) = ext → (l.map key).Nodup →
      setSlices key arr n ext a l = .ok b →
      b.length = a.length ∧
      (∀ p ∈ l, ∃ r : Nat, key p = some (r : Int) ∧ b[r]? = some (arr p) ∧ (arr p).length = n) ∧
      (∀ i : Nat, (∀ p ∈ l, key p ≠ some (i : Int)) → b[i]? = a[i]?)
  | [], a, b, _, _, h => by
    simp only [setSlices, Except.ok.injEq] at h
    subst h; simp
  | p :: t, a, b, hext, hnd, h => by
    unfold setSlices at h
    cases hkp : key p with
    | none => rw [hkp] at h; cases h
    | some r =>
      rw [hkp] at h
      simp only at h
      by_cases hr : 0 ≤ r ∧ r < ext
      · rw [if_pos hr] at h
        by_cases hn : (arr p).length = n
        · rw [if_pos hn] at h
          rw [List.map_cons, List.nodup_cons] at hnd
          obtain ⟨h1, h2, h3⟩ := setSlices_spec key arr n ext t (a.set r.toNat (arr p)) b (by simpa using hext) hnd.2 h
          rw [List.length_set] at h1
          have hrn : (r.toNat : Int) = r := Int.toNat_of_nonneg hr.1
          refine ⟨h1, ?_, ?_⟩
          · intro x hx
            rcases List.mem_cons.mp hx with rfl | hx
            · refine ⟨r.toNat, by rw [hrn]; exact hkp, ?_, hn⟩
              rw [h3 r.toNat]
              · rw [List.getElem?_set_self]
                omega
              · intro y hy hy'
                rw [hrn, ← hkp] at hy'
                exact hnd.1 (hy' ▸ List.mem_map.mpr ⟨y, hy, rfl⟩)
            · exact h2 x hx
          · intro i hi
            rw [h3 i (fun x hx => hi x (List.mem_cons_of_mem _ hx))]
            apply List.getElem?_set_ne
            intro heq
            have := hi p List.mem_cons_self
            rw [hkp] at this
            apply this
            rw [← heq, hrn]
        · rw [if_neg hn] at h; cases h
      · rw [if_neg hr] at h; cases h

theorem listSlices_spec (rel : Related) (c : Coll) (key : Part → Option Int) (query : Int → Query)
    (hsel : Selects rel key query) (arr : Part → List Rat) (n : Nat) :
    ∀ (keys : List Int) (a : List (List Rat)), listSlices rel c query arr n keys = .ok a →
      a.length = keys.length ∧
      ∀ (i : Nat) (r : Int), keys[i]? = some r → ∃ p ∈ c.parts, key p = some r ∧ a[i]? = some (arr p) ∧ (arr p).length = n
  | [], a, h => by
    simp only [listSlices, Except.ok.injEq] at h
    subst h; simp
  | r :: t, a, h => by
    unfold listSlices at h
    cases hs : singleton rel c (query r) .exception with
    | error e => rw [hs] at h; cases h
    | ok o =>
      rw [hs] at h
      cases o with
      | none => cases h
      | some p =>
        simp only at h
        by_cases hn : (arr p).length = n
        · rw [if_pos hn] at h
          cases ht : listSlices rel c query arr n t with
          | error e => rw [ht] at h; cases h
          | ok l =>
            rw [ht] at h
            simp only [Except.ok.injEq] at h
            subst h
            obtain ⟨h1, h2⟩ := listSlices_spec rel c key query hsel arr n t l ht
            refine ⟨by simp [h1], ?_⟩
            intro i r' hr'
            cases i with
            | zero =>
              simp only [List.getElem?_cons_zero, Option.some.injEq] at hr'
              subst hr'
              obtain ⟨hp, hk⟩ := singleton_mem rel c _ p hs
              exact ⟨p, hp, hsel _ p hk, by simp, hn⟩
            | succ i =>
              simp only [List.getElem?_cons_succ] at hr' ⊢
              exact h2 i r' hr'
        · rw [if_neg hn] at h; cases h

/-- the slices of an array with one slice for each value from zero to the greatest: a member's array at the place of
its value, the fill value at the places no member has -/
def FilledStack (parts : List Part) (key : Part → Option Int) (arr : Part → List Rat) (n : Nat) (fill : Rat)
    (a : List (List Rat)) : Prop :=
  (∀ p ∈ parts, ∃ r : Nat, key p = some (r : Int) ∧ a[r]? = some (arr p)) ∧
  (∃ p ∈ parts, key p = some ((a.length : Int) - 1)) ∧
  (∀ i : Nat, i < a.length → (∀ p ∈ parts, key p ≠ some (i : Int)) → a[i]? = some (List.replicate n fill)) ∧
  (∀ p ∈ parts, ∀ q ∈ parts, key p = key q → p = q)

/-- the slices of an array with one slice for each value there is, in increasing order -/
def PresentStack (parts : List Part) (key : Part → Option Int) (arr : Part → List Rat) (a : List (List Rat)) : Prop :=
  ∃ values : List Int, values.Pairwise (· < ·) ∧ (∀ r, r ∈ values ↔ ∃ p ∈ parts, key p = some r) ∧
    a.length = values.length ∧
    (∀ (i : Nat) (r : Int), values[i]? = some r → ∀ p ∈ parts, key p = some r → a[i]? = some (arr p)) ∧
    (∀ p ∈ parts, ∃ r, key p = some r) ∧ (∀ p ∈ parts, ∀ q ∈ parts, key p = key q → p = q)

theorem keys_distinct (parts : List Part) (key : Part → Option Int)
    (h : parts.length = (uniqueSorted (parts.map key)).length) :
    (∀ p ∈ parts, key p ≠ none) ∧ (parts.map key).Nodup ∧ (∀ p ∈ parts, ∀ q ∈ parts, key p = key q → p = q) := by
  obtain ⟨h1, h2⟩ := unique_count (parts.map key) (by simpa using h)
  exact ⟨fun p hp => h1 _ (List.mem_map.mpr ⟨p, hp, rfl⟩), h2, fun p hp q hq hpq => List.inj_on_of_nodup_map h2 hp hq hpq⟩

theorem last_le {l : List Int} (h : l.Pairwise (· < ·)) {x : Int} (hx : x ∈ l) : x ≤ l.getLastD 0 := by
  induction l generalizing x with
  | nil => cases hx
  | cons y t ih =>
    cases t with
    | nil => simp only [List.mem_cons, List.not_mem_nil, or_false] at hx; subst hx; simp
    | cons z t =>
      rw [List.pairwise_cons] at h
      have hl : (y :: z :: t).getLastD 0 = (z :: t).getLastD 0 := by simp
      rw [hl]
      rcases List.mem_cons.mp hx with rfl | hx
      · exact (le_of_lt (h.1 z List.mem_cons_self)).trans (ih h.2 List.mem_cons_self)
      · exact ih h.2 hx

theorem last_mem {l : List Int} (h : l ≠ []) : l.getLastD 0 ∈ l := by
  cases l with
  | nil => exact absurd rfl h
  | cons y t =>
    rw [List.getLastD_cons]
    rw [List.getLastD_eq_getLast?]
    cases hx : t.getLast? with
    | none => simp
    | some z => simp [List.mem_of_getLast? hx]

theorem stack_fill (rel : Related) (c : Coll) (key : Part → Option Int) (query : Int → Query) (arr : Part → List Rat)
    (n : Nat) (fill : Rat) (a : List (List Rat)) (h : stack rel c key query arr n true fill = .ok a) :
    FilledStack c.parts key arr n fill a := by
  unfold stack at h
  cases hc : stackChecks c with
  | error e => rw [hc] at h; cases h
  | ok c' =>
    rw [hc] at h
    obtain ⟨hp, -, -, hne⟩ := stackChecks_parts c c' hc
    simp only [hp] at h
    by_cases hl : c.parts.length ≠ (uniqueSorted (c.parts.map key)).length
    · rw [if_pos hl] at h; cases h
    · rw [if_neg hl] at h
      push Not at hl
      obtain ⟨h1, h2, h3⟩ := keys_distinct c.parts key hl
      split at h
      · cases h
      · simp only [if_true] at h
        split at h
        · cases h
        · rename_i hext
          have hsl := setSlices_spec key arr n _ c.parts _ a (by rw [List.length_replicate]; omega) h2 h
          obtain ⟨g1, g2, g3⟩ := hsl
          have hlen : (a.length : Int) = (uniqueSorted (c.parts.map key)).getLastD 0 + 1 := by
            rw [g1, List.length_replicate]; omega
          have hkne : uniqueSorted (c.parts.map key) ≠ [] := by
            intro h0
            rw [h0] at hl
            exact hne (List.length_eq_zero_iff.mp hl)
          refine ⟨fun p hp => ?_, ?_, ?_, h3⟩
          · obtain ⟨r, hr, ha, -⟩ := g2 p hp
            exact ⟨r, hr, ha⟩
          · have := (mem_uniqueSorted _ _).mp (last_mem hkne)
            obtain ⟨p, hp, hpk⟩ := List.mem_map.mp this
            refine ⟨p, hp, hpk.trans ?_⟩
            congr 1
            omega
          · intro i hi hno
            rw [g3 i hno, List.getElem?_replicate, if_pos]
            rw [g1] at hi
            simpa using hi

theorem stack_present (rel : Related) (c : Coll) (key : Part → Option Int) (query : Int → Query)
    (hsel : Selects rel key query) (arr : Part → List Rat)
    (n : Nat) (fill : Rat) (a : List (List Rat)) (h : stack rel c key query arr n false fill = .ok a) :
    PresentStack c.parts key arr a := by
  unfold stack at h
  cases hc : stackChecks c with
  | error e => rw [hc] at h; cases h
  | ok c' =>
    rw [hc] at h
    obtain ⟨hp, -, -, hne⟩ := stackChecks_parts c c' hc
    simp only [hp] at h
    by_cases hl : c.parts.length ≠ (uniqueSorted (c.parts.map key)).length
    · rw [if_pos hl] at h; cases h
    · rw [if_neg hl] at h
      push Not at hl
      obtain ⟨h1, h2, h3⟩ := keys_distinct c.parts key hl
      split at h
      · cases h
      · simp only [Bool.false_eq_true, if_false] at h
        obtain ⟨g1, g2⟩ := listSlices_spec rel c' key query hsel arr n _ a h
        refine ⟨uniqueSorted (c.parts.map key), sorted_uniqueSorted _, ?_, g1, ?_, ?_, h3⟩
        · intro r
          rw [mem_uniqueSorted]
          simp only [List.mem_map]
        · intro i r hir p hpm hk
          obtain ⟨p', hp', hk', ha, -⟩ := g2 i r hir
          rw [hp] at hp'
          rw [h3 p hpm p' hp' (hk.trans hk'.symm)]
          exact ha
        · intro p hpm
          obtain ⟨r, hr⟩ := Option.ne_none_iff_exists'.mp (h1 p hpm)
          exact ⟨r, hr⟩

/-- Whenever an array over realizations or over time is returned with missing slices filled, it has a slice for every
value from zero to the greatest, each member's array is the slice of its value, and the slices no member has hold the
fill value.  For every collection, whatever has been done with it before. -/
theorem C103_filled (rel : Related) (c : Coll) (arr : Part → List Rat) (n : Nat) (fill : Rat) (a : List (List Rat)) :
    (realizationsArray rel c arr n true fill = .ok a → FilledStack c.parts (·.realization) arr n fill a) ∧
    (timeSeriesArray rel c arr n true fill = .ok a → FilledStack c.parts (·.timeIndex) arr n fill a) :=
  ⟨fun h => stack_fill rel c _ _ arr n fill a h, fun h => stack_fill rel c _ _ arr n fill a h⟩

/-- Without filling, there is one slice for each value present, in increasing order of the values. -/
theorem C103_present (rel : Related) (c : Coll) (arr : Part → List Rat) (n : Nat) (fill : Rat) (a : List (List Rat)) :
    (realizationsArray rel c arr n false fill = .ok a → PresentStack c.parts (·.realization) arr a) ∧
    (timeSeriesArray rel c arr n false fill = .ok a → PresentStack c.parts (·.timeIndex) arr a) :=
  ⟨fun h => stack_present rel c _ _ (selects_realization rel) arr n fill a h,
    fun h => stack_present rel c _ _ (selects_time rel) arr n fill a h⟩

theorem facetSlices_spec (facets : List Str) (arr : Part → List Rat) (n : Nat) (hf : facets.Nodup) :
    ∀ (l : List Part) (a b : List (List Rat)), a.length = facets.length → (l.map (·.facet)).Nodup →
      facetSlices facets arr n a l = .ok b →
      b.length = a.length ∧
      (∀ p ∈ l, ∀ (i : Nat) (f : Str), facets[i]? = some f → p.facet = some f → b[i]? = some (arr p)) ∧
      (∀ (i : Nat) (f : Str), facets[i]? = some f → (∀ p ∈ l, p.facet ≠ some f) → b[i]? = a[i]?)
  | [], a, b, _, _, h => by
    simp only [facetSlices, Except.ok.injEq] at h
    subst h; simp
  | p :: t, a, b, hlen, hnd, h => by
    unfold facetSlices at h
    cases hkp : p.facet with
    | none => rw [hkp] at h; cases h
    | some f =>
      rw [hkp] at h
      simp only at h
      by_cases hfm : f ∈ facets
      · rw [if_pos hfm] at h
        by_cases hn : (arr p).length = n
        · rw [if_pos hn] at h
          rw [List.map_cons, List.nodup_cons] at hnd
          obtain ⟨h1, h2, h3⟩ := facetSlices_spec facets arr n hf t (a.set (facets.idxOf f) (arr p)) b (by simpa using hlen)
            hnd.2 h
          rw [List.length_set] at h1
          have hidx : ∀ (i : Nat) (g : Str), facets[i]? = some g → (i = facets.idxOf f ↔ g = f) := by
            intro i g hg
            obtain ⟨hi, rfl⟩ := List.getElem?_eq_some_iff.mp hg
            constructor
            · intro hif
              subst hif
              exact List.getElem_idxOf _
            · intro hgf
              rw [← hgf]
              exact (hf.idxOf_getElem i hi).symm
          refine ⟨h1, ?_, ?_⟩
          · intro x hx i g hg hxg
            rcases List.mem_cons.mp hx with rfl | hx
            · rw [hkp] at hxg
              cases hxg
              rw [h3 i f hg]
              · have hif := (hidx i f hg).mpr rfl
                subst hif
                rw [List.getElem?_set_self]
                rw [hlen]; exact List.idxOf_lt_length_of_mem hfm
              · intro y hy hy'
                exact hnd.1 (by rw [hkp, ← hy']; exact List.mem_map.mpr ⟨y, hy, rfl⟩)
            · exact h2 x hx i g hg hxg
          · intro i g hg hno
            rw [h3 i g hg (fun x hx => hno x (List.mem_cons_of_mem _ hx))]
            apply List.getElem?_set_ne
            intro heq
            have hgf := (hidx i g hg).mp heq.symm
            subst hgf
            exact hno p List.mem_cons_self hkp
        · rw [if_neg hn] at h; cases h
      · rw [if_neg hfm] at h; cases h

/-- Over facets: the slices are in the order of the sorted list of facets, and each member's array is the slice of
its facet. -/
theorem C103_facets (c : Coll) (arr : Part → List Rat) (n : Nat) (a : List (List Rat)) (facets : List Str)
    (h : facetsArray c arr n = .ok (a, facets)) :
    facets.Pairwise (· < ·) ∧ (∀ f, f ∈ facets ↔ ∃ p ∈ c.parts, p.facet = some f) ∧ a.length = facets.length ∧
    a.length = c.parts.length ∧
    ∀ p ∈ c.parts, ∃ (i : Nat) (f : Str), facets[i]? = some f ∧ p.facet = some f ∧ a[i]? = some (arr p) := by
  unfold facetsArray at h
  cases hc : stackChecks c with
  | error e => rw [hc] at h; cases h
  | ok c' =>
    rw [hc] at h
    obtain ⟨hp, -, -, hne⟩ := stackChecks_parts c c' hc
    simp only [hp] at h
    split at h
    · cases h
    · by_cases hl : c.parts.length ≠ (uniqueSorted (c.parts.map (·.facet))).length
      · rw [if_pos hl] at h; cases h
      · rw [if_neg hl] at h
        push Not at hl
        split at h
        · cases h
        · split at h
          · cases h
          · rename_i b hb
            cases h
            obtain ⟨h1, h2⟩ := unique_count (c.parts.map (·.facet)) (by simpa using hl)
            obtain ⟨g1, g2, -⟩ := facetSlices_spec _ arr n (nodup_uniqueSorted _) c.parts _ a (by simp) h2 hb
            refine ⟨sorted_uniqueSorted _, ?_, by rw [g1]; simp, by rw [g1]; simpa using hl.symm, ?_⟩
            · intro f
              rw [mem_uniqueSorted]
              simp only [List.mem_map]
            · intro p hpm
              obtain ⟨f, hf⟩ := Option.ne_none_iff_exists'.mp (h1 p.facet (List.mem_map.mpr ⟨p, hpm, rfl⟩))
              have hfm : f ∈ uniqueSorted (c.parts.map (·.facet)) :=
                (mem_uniqueSorted _ _).mpr (List.mem_map.mpr ⟨p, hpm, hf⟩)
              obtain ⟨i, hi⟩ := List.mem_iff_getElem?.mp hfm
              exact ⟨i, f, hi, hf, g2 p hpm i f hi hf⟩

/-! ### success -/

theorem singleScan_of_same {α : Type} [DecidableEq α] : ∀ l : List (Option α), AllSame l → singleScan none l = true
  | [], _ => rfl
  | none :: t, h => by
    unfold singleScan
    exact singleScan_of_same t fun x hx y hy => h x (List.mem_cons_of_mem _ hx) y (List.mem_cons_of_mem _ hy)
  | some v :: t, h => by
    unfold singleScan
    rw [singleScan_some]
    intro x hx
    exact h x (List.mem_cons_of_mem _ hx) _ List.mem_cons_self

/-- a collection none of whose attributes has been established, with members alike in kind, indexable element, unit
and flavour -/
structure Coherent (c : Coll) : Prop where
  support : c.support ≠ none
  some : c.parts ≠ []
  keyed : Keyed c.parts
  fresh : c.singleKind = none ∧ c.singleIndexable = none ∧ c.singleUom = none
  kind : AllSame (c.parts.map (·.kind))
  indexable : AllSame (c.parts.map (·.indexable))
  uom : AllSame (c.parts.map (·.uom))
  flavour : AllSame (c.parts.map (·.continuous))

theorem stackChecks_ok (c : Coll) (h : Coherent c) : ∃ c', stackChecks c = .ok c' := by
  have h1 : hasSingleKind c = (establishKind c, true) := by
    unfold hasSingleKind
    rw [h.fresh.1]
    simp only [Prod.mk.injEq, true_and]
    exact singleScan_of_same _ h.kind
  have h2 : hasSingleIndexable (establishKind c) = (establishIndexable (establishKind c), true) := by
    unfold hasSingleIndexable
    have : (establishKind c).singleIndexable = none := h.fresh.2.1
    rw [this]
    simp only [Prod.mk.injEq, true_and]
    exact singleScan_of_same _ h.indexable
  have h3 : hasSingleUom (establishIndexable (establishKind c)) = (establishUom (establishIndexable (establishKind c)), true) := by
    unfold hasSingleUom
    have : (establishIndexable (establishKind c)).singleUom = none := h.fresh.2.2
    rw [this]
    simp only [Prod.mk.injEq, true_and]
    exact singleScan_of_same _ h.uom
  refine ⟨establishUom (establishIndexable (establishKind c)), ?_⟩
  unfold stackChecks
  rw [if_neg h.support, if_neg (by simpa using h.some)]
  simp only [h1, h2, h3]
  rfl

theorem oneFlavour_ok (l : List Part) (h : AllSame (l.map (·.continuous))) (hne : l ≠ []) : oneFlavour l = true := by
  cases l with
  | nil => exact absurd rfl hne
  | cons p t =>
    simp only [oneFlavour, List.all_eq_true, decide_eq_true_eq]
    intro x hx
    exact h _ (List.mem_map.mpr ⟨x, List.mem_cons_of_mem _ hx, rfl⟩) _ (List.mem_map.mpr ⟨p, List.mem_cons_self, rfl⟩)

theorem setSlices_ok (key : Part → Option Int) (arr : Part → List Rat) (n : Nat) (ext : Int) :
    ∀ (l : List Part) (a : List (List Rat)), (∀ p ∈ l, ∃ r, key p = some r ∧ 0 ≤ r ∧ r < ext) →
      (∀ p ∈ l, (arr p).length = n) → ∃ b, setSlices key arr n ext a l = .ok b
  | [], a, _, _ => ⟨a, rfl⟩
  | p :: t, a, h1, h2 => by
    obtain ⟨r, hr, h0, hx⟩ := h1 p List.mem_cons_self
    unfold setSlices
    rw [hr]
    simp only
    rw [if_pos ⟨h0, hx⟩, if_pos (h2 p List.mem_cons_self)]
    exact setSlices_ok key arr n ext t _ (fun x hx => h1 x (List.mem_cons_of_mem _ hx))
      (fun x hx => h2 x (List.mem_cons_of_mem _ hx))

/-- A coherent collection whose members have different non negative realizations, and arrays of the right size, gives
an array over realizations; likewise over times. -/
theorem C103_succeeds (rel : Related) (c : Coll) (arr : Part → List Rat) (n : Nat) (fill : Rat) (hc : Coherent c)
    (ha : ∀ p ∈ c.parts, (arr p).length = n) :
    ((∀ p ∈ c.parts, ∃ r, p.realization = some r ∧ 0 ≤ r) → (c.parts.map (·.realization)).Nodup →
      ∃ a, realizationsArray rel c arr n true fill = .ok a) ∧
    ((∀ p ∈ c.parts, ∃ r, p.timeIndex = some r ∧ 0 ≤ r) → (c.parts.map (·.timeIndex)).Nodup →
      ∃ a, timeSeriesArray rel c arr n true fill = .ok a) := by
  have main : ∀ (key : Part → Option Int) (query : Int → Query), (∀ p ∈ c.parts, ∃ r, key p = some r ∧ 0 ≤ r) →
      (c.parts.map key).Nodup → ∃ a, stack rel c key query arr n true fill = .ok a := by
    intro key query hk hnd
    obtain ⟨c', hc'⟩ := stackChecks_ok c hc
    obtain ⟨hp, -, -, -⟩ := stackChecks_parts c c' hc'
    have hlen : c.parts.length = (uniqueSorted (c.parts.map key)).length := by
      have := unique_count' (c.parts.map key) (by
        intro x hx
        obtain ⟨p, hp, rfl⟩ := List.mem_map.mp hx
        obtain ⟨r, hr, -⟩ := hk p hp
        rw [hr]; simp) hnd
      simpa using this
    have hle : ∀ p ∈ c.parts, ∃ r, key p = some r ∧ 0 ≤ r ∧ r < (uniqueSorted (c.parts.map key)).getLastD 0 + 1 := by
      intro p hp
      obtain ⟨r, hr, h0⟩ := hk p hp
      refine ⟨r, hr, h0, ?_⟩
      have := last_le (sorted_uniqueSorted (c.parts.map key)) ((mem_uniqueSorted _ r).mpr (List.mem_map.mpr ⟨p, hp, hr⟩))
      omega
    have hext : ¬ (uniqueSorted (c.parts.map key)).getLastD 0 + 1 < 0 := by
      obtain ⟨p, hp⟩ := List.exists_mem_of_ne_nil _ hc.some
      obtain ⟨r, -, h0, hr⟩ := hle p hp
      omega
    unfold stack
    rw [hc']
    simp only [hp]
    rw [if_neg (not_not.mpr hlen), oneFlavour_ok c.parts hc.flavour hc.some]
    simp only [Bool.not_true, Bool.false_eq_true, if_false, if_true]
    rw [if_neg hext]
    exact setSlices_ok key arr n _ c.parts _ hle ha
  exact ⟨fun h1 h2 => main _ _ h1 h2, fun h1 h2 => main _ _ h1 h2⟩

/-- two realizations of porosity, 2 and 0 -/
def exStack : Coll :=
  { parts := [{ name := 1, realization := some 2, kind := some ['p'], facet := some ['b'] },
      { name := 2, realization := some 0, kind := some ['p'], facet := some ['a'] }], support := some 5 }

/-- an array for each part -/
def exArr (p : Part) : List Rat := [(p.name : Rat), 7]

example : Coherent exStack :=
  ⟨by decide, by decide, by decide, by decide, by unfold AllSame; decide, by unfold AllSame; decide,
    by unfold AllSame; decide, by unfold AllSame; decide⟩

example : (match realizationsArray none exStack exArr 2 true (-1) with
      | .ok a => decide (a = [[2, 7], [-1, -1], [1, 7]]) | .error _ => false) = true ∧
    (match realizationsArray none exStack exArr 2 false (-1) with
      | .ok a => decide (a = [[2, 7], [1, 7]]) | .error _ => false) = true ∧
    (match facetsArray exStack exArr 2 with
      | .ok a => decide (a = ([[2, 7], [1, 7]], [['a'], ['b']])) | .error _ => false) = true := by decide +kernel

/-- The test that the members are of one kind relies on the answer given the first time it was asked for: after
inheriting a part of another kind the array is still built, although a new collection of the very same members
refuses. -/
theorem C103_mixed_kinds_violated : ∃ (c o : Coll) (arr : Part → List Rat) (n : Nat),
    let c' := (inheritAll (hasSingleKind c).1 o false).1
    (inheritAll (hasSingleKind c).1 o false).2 = none ∧
    (∃ p ∈ c'.parts, ∃ q ∈ c'.parts, p.kind ≠ q.kind) ∧
    (∃ a, realizationsArray none c' arr n true 0 = .ok a) ∧
    realizationsArray none { parts := c'.parts, support := c'.support } arr n true 0 = .error .assertion := by
  refine ⟨{ parts := [{ name := 1, realization := some 0, kind := some ['a'] }], support := some 5 },
    { parts := [{ name := 2, realization := some 1, kind := some ['b'] }], support := some 5 }, exArr, 2, by decide, ?_, ?_, ?_⟩
  · exact ⟨{ name := 1, realization := some 0, kind := some ['a'] }, by decide,
      { name := 2, realization := some 1, kind := some ['b'] }, by decide, by decide⟩
  · exact ⟨[[1, 7], [2, 7]], by decide +kernel⟩
  · decide +kernel

end Verif.PropColl
