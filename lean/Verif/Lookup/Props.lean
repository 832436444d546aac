import Verif.Lookup.Model

/-! # C19: string lookup tables -/

namespace Verif.Lookup
open Verif.Py

/-- A table answers according to a dictionary. -/
def Represents (t : Table) (d : Dict Int Str) : Prop := ∀ k, getString t k = .ok (d.get? k)

private theorem minKey_spec (k : Int) (ks : List Int) : minKey k ks ≤ k ∧ (∀ x ∈ ks, minKey k ks ≤ x) ∧
    (minKey k ks = k ∨ minKey k ks ∈ ks) := by
  induction ks generalizing k with
  | nil => simp [minKey]
  | cons k' ks ih =>
    unfold minKey
    split
    · obtain ⟨a, b, c⟩ := ih k'
      refine ⟨by omega, ?_, ?_⟩
      · intro x hx
        rcases List.mem_cons.1 hx with rfl | hx
        · exact a
        · exact b x hx
      · rcases c with c | c
        · right; rw [c]; simp
        · right; simp [c]
    · obtain ⟨a, b, c⟩ := ih k
      refine ⟨a, ?_, ?_⟩
      · intro x hx
        rcases List.mem_cons.1 hx with rfl | hx
        · omega
        · exact b x hx
      · rcases c with c | c
        · left; exact c
        · right; simp [c]

private theorem maxKey_spec (k : Int) (ks : List Int) : k ≤ maxKey k ks ∧ (∀ x ∈ ks, x ≤ maxKey k ks) ∧
    (maxKey k ks = k ∨ maxKey k ks ∈ ks) := by
  induction ks generalizing k with
  | nil => simp [maxKey]
  | cons k' ks ih =>
    unfold maxKey
    split
    · obtain ⟨a, b, c⟩ := ih k'
      refine ⟨by omega, ?_, ?_⟩
      · intro x hx
        rcases List.mem_cons.1 hx with rfl | hx
        · exact a
        · exact b x hx
      · rcases c with c | c
        · right; rw [c]; simp
        · right; simp [c]
    · obtain ⟨a, b, c⟩ := ih k
      refine ⟨a, ?_, ?_⟩
      · intro x hx
        rcases List.mem_cons.1 hx with rfl | hx
        · omega
        · exact b x hx
      · rcases c with c | c
        · left; exact c
        · right; simp [c]

/-- The limits enclose the keys, and a list form holds the dictionary. -/
private structure Good (t : Table) (lo hi : Int) : Prop where
  min : t.min = .int lo
  max : t.max = .int hi
  keys : ∀ k v, t.dict.get? k = some v → lo ≤ k ∧ k ≤ hi
  list : t.asList = true → 0 ≤ lo ∧ t.list = (List.range (hi.toNat + 1)).map fun (k : Nat) => t.dict.get? (k : Int)

private theorem good_get {t : Table} {lo hi : Int} (h : Good t lo hi) (k : Int) : getString t k = .ok (t.dict.get? k) := by
  unfold getString
  rw [h.min, h.max]
  dsimp only
  by_cases hk : k < lo ∨ hi < k
  · rw [if_pos hk]
    cases hg : t.dict.get? k with
    | none => rfl
    | some v => have := h.keys k v hg; omega
  · rw [if_neg hk]
    split
    · rename_i hl
      obtain ⟨h0, hlist⟩ := h.list hl
      have hk0 : 0 ≤ k := by omega
      have hlt : k.toNat < hi.toNat + 1 := by omega
      have : t.list[k.toNat]? = some (t.dict.get? k) := by
        rw [hlist]
        rw [List.getElem?_map, List.getElem?_range hlt]
        simp only [Option.map_some]
        congr 2
        omega
      rw [this]
    · rfl

private theorem good_setList {t : Table} {lo hi : Int} (hm : t.min = .int lo) (hM : t.max = .int hi)
    (hk : ∀ k v, t.dict.get? k = some v → lo ≤ k ∧ k ≤ hi) : Good (setList t lo hi) lo hi := by
  unfold setList
  split
  · rename_i h
    exact ⟨hm, hM, hk, fun _ => ⟨h.1, rfl⟩⟩
  · exact ⟨hm, hM, hk, fun h => by cases h⟩

private theorem setList_dict (t : Table) (lo hi : Int) : (setList t lo hi).dict = t.dict := by
  unfold setList; split <;> rfl

private theorem good_ofDict {d : Dict Int Str} {t : Table} (h : ofDict d = .ok t) :
    t.dict = d ∧ ∃ lo hi, Good t lo hi := by
  unfold ofDict at h
  split at h
  · cases h
  · rename_i k v rest
    simp only [Except.ok.injEq] at h
    subst h
    refine ⟨setList_dict _ _ _, _, _, good_setList rfl rfl ?_⟩
    intro k' v' hk
    obtain ⟨a1, a2, _⟩ := minKey_spec k (Dict.keys rest)
    obtain ⟨b1, b2, _⟩ := maxKey_spec k (Dict.keys rest)
    have hmem : k' ∈ k :: Dict.keys rest := by
      have := (Dict.has_iff_mem_keys ((k, v) :: rest) k').1 (by simp only [Dict.has]; rw [hk]; rfl)
      exact this
    rcases List.mem_cons.1 hmem with rfl | hm
    · exact ⟨a1, b1⟩
    · exact ⟨a2 _ hm, b2 _ hm⟩

/-- A lookup made from a dictionary returns for every integer the string of the dictionary, and nothing
for any other integer, whichever internal form is used. -/
theorem C19_from_dict_partial (d : Dict Int Str) (hd : d ≠ []) : ∃ t, ofDict d = .ok t ∧ Represents t d := by
  cases h : ofDict d with
  | error e =>
    unfold ofDict at h
    split at h
    · exact absurd rfl hd
    · cases h
  | ok t =>
    obtain ⟨e, lo, hi, g⟩ := good_ofDict h
    exact ⟨t, rfl, fun k => by rw [good_get g, e]⟩

private def Loaded (t : Table) : Prop :=
  t.asList = false ∧ ((t.min = .none ∧ t.max = .none ∧ t.dict = []) ∨ ∃ lo hi, Good t lo hi)

private theorem loadOne_good {t : Table} (h : Loaded t) (kv : Int × Str) (hn : t.dict.has kv.1 = false) :
    ∃ t', loadOne t kv = .ok t' ∧ Loaded t' ∧ t'.dict = t.dict.set kv.1 kv.2 ∧ ∃ lo hi, Good t' lo hi := by
  unfold loadOne
  rw [hn]
  simp only [Bool.false_eq_true, if_false]
  obtain ⟨hl, h⟩ := h
  have mk : ∀ t' : Table, (∃ lo hi, Good t' lo hi) → t'.asList = false → Loaded t' := fun t' g hl => ⟨hl, .inr g⟩
  rcases h with ⟨h1, h2, h3⟩ | ⟨lo, hi, g⟩
  · have g' : Good ⟨.int kv.1, .int kv.1, t.list, t.dict.set kv.1 kv.2, t.asList⟩ kv.1 kv.1 := by
      refine ⟨rfl, rfl, ?_, fun h => by simp only at h; rw [hl] at h; cases h⟩
      intro k v hk
      dsimp only at hk
      rw [h3, Dict.get?_set] at hk
      by_cases e : k = kv.1
      · omega
      · rw [if_neg e] at hk; cases hk
    refine ⟨_, rfl, ?_, ?_, ?_⟩
    · rw [h1, h2]; exact mk _ ⟨_, _, g'⟩ hl
    · rfl
    · rw [h1, h2]; exact ⟨_, _, g'⟩
  · have g' : Good ⟨.int (if kv.1 < lo then kv.1 else lo), .int (if hi < kv.1 then kv.1 else hi), t.list,
        t.dict.set kv.1 kv.2, t.asList⟩ (if kv.1 < lo then kv.1 else lo) (if hi < kv.1 then kv.1 else hi) := by
      refine ⟨rfl, rfl, ?_, fun h => by simp only at h; rw [hl] at h; cases h⟩
      intro k v hk
      dsimp only at hk
      rw [Dict.get?_set] at hk
      by_cases e : k = kv.1
      · subst e; split <;> split <;> omega
      · rw [if_neg e] at hk
        have := g.keys k v hk
        split <;> split <;> omega
    have e : lowered t.min kv.1 =
        .int (if kv.1 < lo then kv.1 else lo) := by
      rw [g.min]; unfold lowered; dsimp only; split <;> rfl
    have e' : raised t.max kv.1 =
        .int (if hi < kv.1 then kv.1 else hi) := by
      rw [g.max]; unfold raised; dsimp only; split <;> rfl
    rw [e, e']
    exact ⟨_, rfl, mk _ ⟨_, _, g'⟩ hl, rfl, _, _, g'⟩

private theorem set_append (d : Dict Int Str) (k : Int) (v : Str) (h : d.has k = false) : d.set k v = d ++ [(k, v)] := by
  induction d with
  | nil => rfl
  | cons hd d ih =>
    obtain ⟨k', v'⟩ := hd
    unfold Dict.set
    have hne : k' ≠ k := by
      rintro rfl
      simp [Dict.has, Dict.get?] at h
    rw [if_neg hne, ih]
    · rfl
    · simpa [Dict.has, Dict.get?, hne] using h

private theorem loadXml_good (kvs : List (Int × Str)) (t : Table) (h : Loaded t) (hn : (Dict.keys (t.dict ++ kvs)).Nodup) :
    ∃ t', loadXml t kvs = .ok t' ∧ Loaded t' ∧ t'.dict = t.dict ++ kvs ∧ (kvs ≠ [] → ∃ lo hi, Good t' lo hi) := by
  induction kvs generalizing t with
  | nil => exact ⟨t, rfl, h, by simp, fun h => absurd rfl h⟩
  | cons kv kvs ih =>
    have hnot : t.dict.has kv.1 = false := by
      rw [← Bool.not_eq_true, Dict.has_iff_mem_keys]
      intro hm
      unfold Dict.keys at hn hm
      rw [List.map_append, List.map_cons, List.nodup_append] at hn
      exact hn.2.2 _ hm kv.1 (by simp) rfl
    obtain ⟨t1, e1, l1, d1, g1⟩ := loadOne_good h kv hnot
    have hd1 : t1.dict = t.dict ++ [kv] := by rw [d1, set_append _ _ _ hnot]
    obtain ⟨t2, e2, l2, d2, g2⟩ := ih t1 l1 (by rw [hd1, List.append_assoc]; exact hn)
    refine ⟨t2, by unfold loadXml; rw [e1]; exact e2, l2, by rw [d2, hd1, List.append_assoc]; rfl, ?_⟩
    intro _
    cases kvs with
    | nil => simp only [loadXml] at e2; cases e2; exact g1
    | cons x xs => exact g2 (by simp)

/-- A lookup written to xml and loaded again gives the same string for every integer. -/
theorem C19_reloaded_lookup_partial (d : Dict Int Str) (hd : d ≠ []) (hn : d.keys.Nodup) (t : Table)
    (ht : ofDict d = .ok t) : ∃ t', loadXml empty (written t) = .ok t' ∧ t'.dict = d ∧ Represents t' d ∧
      ∀ k, getString t' k = getString t k := by
  obtain ⟨e, lo, hi, g⟩ := good_ofDict ht
  have hl : Loaded empty := ⟨rfl, .inl ⟨rfl, rfl, rfl⟩⟩
  obtain ⟨t', e', _, d', g'⟩ := loadXml_good (written t) empty hl (by
    show (Dict.keys ([] ++ t.dict)).Nodup
    rw [List.nil_append, e]; exact hn)
  have hdd : t'.dict = d := by rw [d']; show [] ++ t.dict = d; rw [List.nil_append, e]
  obtain ⟨lo', hi', gg⟩ := g' (by unfold written; rw [e]; exact hd)
  refine ⟨t', e', hdd, fun k => by rw [good_get gg, hdd], fun k => by rw [good_get gg, good_get g, hdd, e]⟩

/-- Xml with a key twice is refused. -/
theorem C19_duplicate_key_refused (k : Int) (v v' : Str) (l1 l2 l3 : List (Int × Str))
    (hn : (Dict.keys (l1 ++ [(k, v)] ++ l2)).Nodup) :
    loadXml empty (l1 ++ [(k, v)] ++ l2 ++ (k, v') :: l3) = .error .assertion := by
  have app : ∀ (a b : List (Int × Str)) (t t' : Table), loadXml t a = .ok t' → loadXml t (a ++ b) = loadXml t' b := by
    intro a
    induction a with
    | nil => intro b t t' h; cases h; rfl
    | cons x a ih =>
      intro b t t' h
      simp only [List.cons_append]
      simp only [loadXml] at h ⊢
      cases hx : loadOne t x with
      | error e => rw [hx] at h; cases h
      | ok t1 => rw [hx] at h; exact ih b t1 t' h
  obtain ⟨t', e, _, d, _⟩ := loadXml_good (l1 ++ [(k, v)] ++ l2) empty ⟨rfl, .inl ⟨rfl, rfl, rfl⟩⟩ (by
    show (Dict.keys ([] ++ _)).Nodup
    rw [List.nil_append]; exact hn)
  rw [app _ _ _ _ e]
  have : t'.dict.has k = true := by
    rw [Dict.has_iff_mem_keys, d]
    simp [Dict.keys]
  unfold loadXml loadOne
  rw [if_pos this]

private theorem keyOf_spec (s : Str) (d : Dict Int Str) (hn : d.keys.Nodup) :
    (∀ k, keyOf s d = some k → d.get? k = some s) ∧ (keyOf s d = none → ∀ k, d.get? k ≠ some s) := by
  induction d with
  | nil => simp [keyOf]
  | cons hd d ih =>
    obtain ⟨k', v'⟩ := hd
    simp only [Dict.keys, List.map_cons, List.nodup_cons] at hn
    obtain ⟨i1, i2⟩ := ih hn.2
    unfold keyOf
    constructor
    · intro k h
      split at h
      · rename_i hv
        simp only [Option.some.injEq] at h
        subst h
        simp [Dict.get?, hv]
      · have hg := i1 k h
        have : k' ≠ k := by
          rintro rfl
          apply hn.1
          exact List.mem_map.2 ⟨_, Dict.get?_some_mem hg, rfl⟩
        simp [Dict.get?, this, hg]
    · intro h k
      split at h
      · cases h
      · rename_i hv
        have hg := i2 h k
        by_cases e : k' = k
        · simp [Dict.get?, e, hv]
        · simpa [Dict.get?, e] using hg

private theorem indexOf_spec (s : Str) (l : List (Option Str)) :
    (∀ n, indexOf s l = some n → l[n]? = some (some s)) ∧ (indexOf s l = none → ∀ n : Nat, l[n]? ≠ some (some s)) := by
  induction l with
  | nil => simp [indexOf]
  | cons o l ih =>
    unfold indexOf
    split
    · rename_i h
      refine ⟨?_, by simp⟩
      intro n hn
      cases hn
      simp [h]
    · rename_i h
      constructor
      · intro n hn
        cases hi : indexOf s l with
        | none => rw [hi] at hn; cases hn
        | some m =>
          rw [hi] at hn
          simp only [Option.map_some, Option.some.injEq] at hn
          subst hn
          simpa using ih.1 m hi
      · intro hn n
        have hi : indexOf s l = none := by simpa using hn
        cases n with
        | zero => simpa using h
        | succ n => simpa using ih.2 hi n

/-- Reverse lookup returns a key holding the string, and nothing exactly when no key holds it; for tables
made from a dictionary. -/
theorem C19_reverse_lookup_partial (d : Dict Int Str) (hn : d.keys.Nodup) (t : Table) (ht : ofDict d = .ok t) (s : Str) :
    (∀ k, getIndex t s = some k → getString t k = .ok (some s)) ∧
    (getIndex t s = none ↔ ∀ k, getString t k ≠ .ok (some s)) := by
  obtain ⟨e, lo, hi, g⟩ := good_ofDict ht
  have gs : ∀ k, getString t k = .ok (some s) ↔ d.get? k = some s := by
    intro k
    rw [good_get g, e]; simp
  have main : (∀ k, getIndex t s = some k → d.get? k = some s) ∧ (getIndex t s = none → ∀ k, d.get? k ≠ some s) := by
    unfold getIndex
    split
    · rename_i hl
      obtain ⟨h0, hlist⟩ := g.list hl
      obtain ⟨i1, i2⟩ := indexOf_spec s t.list
      constructor
      · intro k hk
        cases hix : indexOf s t.list with
        | none => rw [hix] at hk; cases hk
        | some n =>
          rw [hix] at hk
          simp only [Option.map_some, Option.some.injEq] at hk
          subst hk
          have := i1 n hix
          rw [hlist, List.getElem?_map] at this
          rcases hr : (List.range (hi.toNat + 1))[n]? with _ | m
          · rw [hr] at this; cases this
          · rw [hr] at this
            obtain ⟨hlt, hm⟩ := List.getElem?_eq_some_iff.1 hr
            simp only [List.getElem_range] at hm
            subst hm
            simp only [Option.map_some, Option.some.injEq] at this
            rw [← e]; exact this
      · intro hk k hd
        have hix : indexOf s t.list = none := by
          cases h : indexOf s t.list with
          | none => rfl
          | some n => rw [h] at hk; cases hk
        rw [← e] at hd
        have hb := g.keys k s hd
        apply i2 hix k.toNat
        rw [hlist, List.getElem?_map, List.getElem?_range (by omega)]
        simp only [Option.map_some, Option.some.injEq]
        have : ((k.toNat : Nat) : Int) = k := by omega
        rw [this]; exact hd
    · rw [e]; exact keyOf_spec s d hn
  refine ⟨fun k h => (gs k).2 (main.1 k h), ?_⟩
  constructor
  · intro h k hk
    exact main.2 h k ((gs k).1 hk)
  · intro h
    cases hg : getIndex t s with
    | none => rfl
    | some k => exact absurd ((gs k).2 (main.1 k hg)) (h k)

/-- `set_string` never succeeds on a lookup made from a dictionary: it always raises TypeError. -/
theorem C19_set_string_violated (d : Dict Int Str) (t : Table) (ht : ofDict d = .ok t) (key : Int) (v : Str) :
    (setString t key v).2 = some .type := by
  obtain ⟨_, lo, hi, g⟩ := good_ofDict ht
  unfold setString
  rw [g.min]
  rfl

/-- After the exception the dictionary has been changed and the list has not, so that the two forms of the
lookup disagree. -/
theorem C19_set_string_inconsistent_violated : ∃ (d : Dict Int Str) (t : Table), ofDict d = .ok t ∧
    (setString t 0 ['b']).1.dict.get? 0 = some ['b'] ∧ getString (setString t 0 ['b']).1 0 = .ok (some ['a']) :=
  ⟨[(0, ['a'])], _, rfl, rfl, by decide⟩

/-- On an empty lookup `set_string` succeeds, but no string can be read afterwards: every `get_string`
raises TypeError (as it does on the empty lookup itself). -/
theorem C19_set_string_on_empty_violated (key : Int) (v : Str) (k : Int) :
    (setString empty key v).2 = none ∧ getString (setString empty key v).1 k = .error .type ∧
      getString empty k = .error .type := ⟨rfl, rfl, rfl⟩

/-- The list of values and the length are not preserved by writing and reloading: gaps between keys count
in one form and not in the other. -/
theorem C19_list_after_reload_violated : ∃ (d : Dict Int Str) (t t' : Table), ofDict d = .ok t ∧
    loadXml empty (written t) = .ok t' ∧ length t = 3 ∧ length t' = 2 ∧
    getList t = [some ['a'], none, some ['c']] ∧ getList t' = [some ['a'], some ['c']] :=
  ⟨[(0, ['a']), (2, ['c'])], _, _, rfl, rfl, by decide, by decide, by decide, by decide⟩

/-- Reverse lookup of a string held by several keys may give a different key after reloading. -/
theorem C19_reverse_lookup_after_reload_violated : ∃ (d : Dict Int Str) (t t' : Table), ofDict d = .ok t ∧
    loadXml empty (written t) = .ok t' ∧ getIndex t ['a'] = some 1 ∧ getIndex t' ['a'] = some 2 :=
  ⟨[(2, ['a']), (1, ['a'])], _, _, rfl, rfl, by decide, by decide⟩

theorem insertKey_perm (kv : Int × Str) (l : List (Int × Str)) : (insertKey kv l).Perm (kv :: l) := by
  induction l with
  | nil => exact List.Perm.refl _
  | cons x l ih =>
    unfold insertKey
    split
    · exact List.Perm.refl _
    · exact (List.Perm.cons x ih).trans (List.Perm.swap kv x l)

theorem insertKey_sorted (kv : Int × Str) (l : List (Int × Str)) (h : l.Pairwise fun a b => a.1 ≤ b.1) :
    (insertKey kv l).Pairwise fun a b => a.1 ≤ b.1 := by
  induction l with
  | nil => exact List.pairwise_singleton _ _
  | cons x l ih =>
    rw [List.pairwise_cons] at h
    unfold insertKey
    split
    · rename_i hlt
      refine List.pairwise_cons.mpr ⟨?_, List.pairwise_cons.mpr h⟩
      intro y hy
      rcases List.mem_cons.mp hy with rfl | hy
      · omega
      · have := h.1 y hy
        omega
    · rename_i hge
      refine List.pairwise_cons.mpr ⟨?_, ih h.2⟩
      intro y hy
      rcases List.mem_cons.mp ((insertKey_perm kv l).mem_iff.mp hy) with rfl | hy
      · omega
      · exact h.1 y hy

theorem sortKeys_spec (d : Dict Int Str) : (sortKeys d).Perm d ∧ (sortKeys d).Pairwise fun a b => a.1 ≤ b.1 := by
  unfold sortKeys
  induction d with
  | nil => exact ⟨List.Perm.refl _, List.Pairwise.nil⟩
  | cons x d ih =>
    rw [List.foldr_cons]
    exact ⟨(insertKey_perm x _).trans (List.Perm.cons x ih.1), insertKey_sorted x _ ih.2⟩

/-- The list of values goes by key: a lookup made from a dictionary lists either all the pairs of the dictionary in the order of their keys,
or, for each number from 0 to the largest key, the string for that number. -/
theorem C19_list_by_key (d : Dict Int Str) (t : Table) (ht : ofDict d = .ok t) :
    (∃ l : List (Int × Str), l.Perm d ∧ (l.Pairwise fun a b => a.1 ≤ b.1) ∧ getList t = l.map fun kv => some kv.2) ∨
    (∃ m : Nat, (∀ k s, d.get? k = some s → 0 ≤ k ∧ k < (m : Int)) ∧ (getList t).length = m ∧ ∀ k : Nat, k < m → (getList t)[k]? = some (d.get? (k : Int))) := by
  obtain ⟨e, lo, hi, g⟩ := good_ofDict ht
  unfold getList
  split
  · rename_i hl
    right
    obtain ⟨h0, hlist⟩ := g.list hl
    refine ⟨hi.toNat + 1, ?_, by rw [hlist]; simp, ?_⟩
    · intro k s hk
      have := g.keys k s (by rw [e]; exact hk)
      omega
    · intro k hk
      rw [hlist, List.getElem?_map, List.getElem?_range hk, e]
      rfl
  · left
    obtain ⟨s1, s2⟩ := sortKeys_spec t.dict
    exact ⟨sortKeys t.dict, by rw [← e]; exact s1, s2, rfl⟩

/-! ### concrete cases of both internal forms -/

example : ∃ t, ofDict [(3, ['x']), (-100, ['y'])] = .ok t ∧ t.asList = false ∧ getString t (-100) = .ok (some ['y']) ∧
    getString t 0 = .ok none := ⟨_, rfl, by decide, by decide, by decide⟩

example : ∃ t, ofDict [(3, ['x']), (0, ['y'])] = .ok t ∧ t.asList = true ∧ getString t 3 = .ok (some ['x']) ∧
    getString t 1 = .ok none := ⟨_, rfl, by decide, by decide, by decide⟩

end Verif.Lookup
