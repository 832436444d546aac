/-!
# Python notions shared by the models

Exceptions as values and insertion-ordered dictionaries.  The definitions in `Verif/Py` model parts of the Python language and library
(exceptions, `dict`, `list`, slices, `str`, `int`), not lines of the repository; the areas which use them cite the lines.
-/

namespace Verif.Py

/-- The kinds of Python exception that occur in the modelled code. -/
inductive PyErr where
  | assertion   -- a failed `assert`
  | key         -- KeyError
  | index       -- IndexError
  | type        -- TypeError
  | value       -- ValueError
  | attribute   -- AttributeError
  | notImpl     -- NotImplementedError
  | custom      -- library specific exceptions (InvalidUnitError ...)
  | unbound     -- UnboundLocalError
  | zeroDiv     -- ZeroDivisionError
deriving DecidableEq, Repr

/-- Result of a Python function that may raise. -/
abbrev Res (α : Type u) := Except PyErr α

deriving instance DecidableEq for Except

/-- `assert c`. -/
def pyAssert (c : Bool) : Res Unit := if c then .ok () else .error .assertion

@[simp] theorem pyAssert_true : pyAssert true = .ok () := rfl
@[simp] theorem pyAssert_false : pyAssert false = .error .assertion := rfl

theorem pyAssert_eq_ok {c : Bool} {u : Unit} : pyAssert c = .ok u ↔ c = true := by
  cases c <;> simp [pyAssert]

/-- A Python dictionary: association list in insertion order, keys unique when built by `set`. -/
abbrev Dict (κ : Type u) (α : Type v) := List (κ × α)

namespace Dict

variable {κ : Type u} {α : Type v} [DecidableEq κ]

/-- `d.get(k)` -/
def get? : Dict κ α → κ → Option α
  | [], _ => none
  | (k', v) :: d, k => if k' = k then some v else get? d k

/-- `d[k] = v`: replaces in place if present, else appends. -/
def set : Dict κ α → κ → α → Dict κ α
  | [], k, v => [(k, v)]
  | (k', v') :: d, k, v => if k' = k then (k', v) :: d else (k', v') :: set d k v

/-- `d.pop(k, None)` -/
def erase : Dict κ α → κ → Dict κ α
  | [], _ => []
  | (k', v') :: d, k => if k' = k then erase d k else (k', v') :: erase d k

/-- `k in d` -/
def has (d : Dict κ α) (k : κ) : Bool := (d.get? k).isSome

/-- `d.keys()` in order -/
def keys (d : Dict κ α) : List κ := d.map Prod.fst

/-- `d.values()` in order -/
def values (d : Dict κ α) : List α := d.map Prod.snd

@[simp] theorem get?_nil (k : κ) : get? ([] : Dict κ α) k = none := rfl

theorem get?_set_self (d : Dict κ α) (k : κ) (v : α) : (d.set k v).get? k = some v := by
  induction d with
  | nil => simp [set, get?]
  | cons h t ih =>
    obtain ⟨k', v'⟩ := h
    by_cases hk : k' = k <;> simp [set, get?, hk, ih]

theorem get?_set_ne (d : Dict κ α) {k k₂ : κ} (v : α) (h : k₂ ≠ k) :
    (d.set k v).get? k₂ = d.get? k₂ := by
  induction d with
  | nil => simp [set, get?, Ne.symm h]
  | cons hd t ih =>
    obtain ⟨k', v'⟩ := hd
    by_cases hk : k' = k
    · subst hk; simp [set, get?, Ne.symm h]
    · simp [set, get?, hk, ih]

theorem get?_set (d : Dict κ α) (k k₂ : κ) (v : α) :
    (d.set k v).get? k₂ = if k₂ = k then some v else d.get? k₂ := by
  by_cases h : k₂ = k
  · subst h; simp [get?_set_self]
  · simp [h, get?_set_ne]

theorem get?_erase_self (d : Dict κ α) (k : κ) : (d.erase k).get? k = none := by
  induction d with
  | nil => rfl
  | cons hd t ih =>
    obtain ⟨k', v'⟩ := hd
    by_cases hk : k' = k <;> simp [erase, get?, hk, ih]

theorem get?_erase_ne (d : Dict κ α) {k k₂ : κ} (h : k₂ ≠ k) :
    (d.erase k).get? k₂ = d.get? k₂ := by
  induction d with
  | nil => rfl
  | cons hd t ih =>
    obtain ⟨k', v'⟩ := hd
    by_cases hk : k' = k
    · subst hk; simp [erase, get?, Ne.symm h, ih]
    · simp [erase, get?, hk, ih]

theorem get?_erase (d : Dict κ α) (k k₂ : κ) :
    (d.erase k).get? k₂ = if k₂ = k then none else d.get? k₂ := by
  by_cases h : k₂ = k
  · subst h; simp [get?_erase_self]
  · simp [h, get?_erase_ne]

theorem has_iff_mem_keys (d : Dict κ α) (k : κ) : d.has k = true ↔ k ∈ d.keys := by
  induction d with
  | nil => simp [has, keys]
  | cons hd t ih =>
    obtain ⟨k', v'⟩ := hd
    simp only [has, keys] at ih ⊢
    by_cases hk : k' = k
    · subst hk; simp [get?]
    · simp [get?, hk, ih, Ne.symm hk]

theorem get?_some_mem {d : Dict κ α} {k : κ} {v : α} (h : d.get? k = some v) : (k, v) ∈ d := by
  induction d with
  | nil => simp at h
  | cons hd t ih =>
    obtain ⟨k', v'⟩ := hd
    by_cases hk : k' = k
    · simp [get?, hk] at h; subst h; subst hk; simp
    · simp [get?, hk] at h; exact List.mem_cons_of_mem _ (ih h)

theorem get?_of_mem_nodup {d : Dict κ α} {k : κ} {v : α} (hn : d.keys.Nodup) (h : (k, v) ∈ d) :
    d.get? k = some v := by
  induction d with
  | nil => simp at h
  | cons hd t ih =>
    obtain ⟨k', v'⟩ := hd
    simp only [keys, List.map_cons, List.nodup_cons] at hn
    rcases List.mem_cons.1 h with h | h
    · cases h; simp [get?]
    · have hk : k' ≠ k := by
        rintro rfl
        exact hn.1 (List.mem_map.2 ⟨_, h, rfl⟩)
      simp [get?, hk]; exact ih hn.2 h

theorem keys_set_of_has (d : Dict κ α) (k : κ) (v : α) (h : k ∈ d.keys) :
    (d.set k v).keys = d.keys := by
  induction d with
  | nil => simp [keys] at h
  | cons hd t ih =>
    obtain ⟨k', v'⟩ := hd
    by_cases hk : k' = k
    · simp [set, keys, hk]
    · have : k ∈ keys t := by
        simp only [keys, List.map_cons, List.mem_cons] at h
        rcases h with h | h
        · exact absurd h.symm hk
        · exact h
      have := ih this
      simp only [keys] at this
      simp [set, keys, hk, this]

theorem keys_set_of_not (d : Dict κ α) (k : κ) (v : α) (h : k ∉ d.keys) :
    (d.set k v).keys = d.keys ++ [k] := by
  induction d with
  | nil => simp [keys, set]
  | cons hd t ih =>
    obtain ⟨k', v'⟩ := hd
    simp only [keys, List.map_cons, List.mem_cons, not_or] at h
    have := ih h.2
    simp only [keys] at this
    simp [set, keys, Ne.symm h.1, this]

theorem nodup_set (d : Dict κ α) (k : κ) (v : α) (h : d.keys.Nodup) : (d.set k v).keys.Nodup := by
  by_cases hk : k ∈ d.keys
  · rw [keys_set_of_has _ _ _ hk]; exact h
  · rw [keys_set_of_not _ _ _ hk]
    rw [List.nodup_append]
    refine ⟨h, by simp, ?_⟩
    intro a ha b hb
    simp at hb
    subst hb
    intro hab; subst hab; exact hk ha

theorem erase_sublist (d : Dict κ α) (k : κ) : List.Sublist (d.erase k) d := by
  induction d with
  | nil => exact List.Sublist.refl _
  | cons hd t ih =>
    obtain ⟨k', v'⟩ := hd
    by_cases hk : k' = k
    · simp [erase, hk]; exact ih.trans (List.sublist_cons_self _ _)
    · simp [erase, hk]; exact ih

theorem nodup_erase (d : Dict κ α) (k : κ) (h : d.keys.Nodup) : (d.erase k).keys.Nodup :=
  List.Sublist.nodup ((erase_sublist d k).map _) h

theorem mem_keys_set (d : Dict κ α) (k k₂ : κ) (v : α) :
    k₂ ∈ (d.set k v).keys ↔ k₂ = k ∨ k₂ ∈ d.keys := by
  rw [← has_iff_mem_keys, ← has_iff_mem_keys]
  simp only [has, get?_set]
  by_cases h : k₂ = k <;> simp [h]

theorem mem_keys_erase (d : Dict κ α) (k k₂ : κ) :
    k₂ ∈ (d.erase k).keys ↔ k₂ ≠ k ∧ k₂ ∈ d.keys := by
  rw [← has_iff_mem_keys, ← has_iff_mem_keys]
  simp only [has, get?_erase]
  by_cases h : k₂ = k <;> simp [h]

theorem not_mem_keys_iff (d : Dict κ α) (k : κ) : k ∉ d.keys ↔ d.get? k = none := by
  rw [← has_iff_mem_keys]; simp [has]

end Dict

end Verif.Py
