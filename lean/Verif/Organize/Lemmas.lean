import Verif.Organize.Spec
import Verif.Box.Lemmas
import Mathlib.Data.List.Nodup
import Mathlib.Data.List.Basic
import Mathlib.Data.List.Perm.Subperm
import Mathlib.Tactic.Tauto

/-!
# Lemmas on the xml trees of features and interpretations
-/

namespace Verif.Organize

open Verif.Py

/-- First child with a tag. -/
def ft (k : List Node) (tag : String) : Option Node := k.find? fun n => n.tag == tag

/-- All children with a tag. -/
def lt' (k : List Node) (tag : String) : List Node := k.filter fun n => n.tag == tag

theorem findTag_mk (t u x k tag) : findTag (.mk t u x k) tag = ft k tag := rfl
theorem listOfTag_mk (t u x k tag) : listOfTag (.mk t u x k) tag = lt' k tag := rfl

theorem ft_nil (tag) : ft [] tag = none := rfl
theorem ft_cons (n k tag) : ft (n :: k) tag = if n.tag = tag then some n else ft k tag := by
  unfold ft
  rw [List.find?_cons]
  by_cases h : n.tag = tag
  · simp [h]
  · rw [if_neg h, beq_eq_false_iff_ne.2 h]
theorem ft_append (a b tag) : ft (a ++ b) tag = (ft a tag).or (ft b tag) := by
  unfold ft
  rw [List.find?_append]

theorem lt_nil (tag) : lt' [] tag = [] := rfl
theorem lt_cons (n k tag) : lt' (n :: k) tag = if n.tag = tag then n :: lt' k tag else lt' k tag := by
  unfold lt'
  rw [List.filter_cons]
  by_cases h : n.tag = tag <;> simp [h]
theorem lt_append (a b tag) : lt' (a ++ b) tag = lt' a tag ++ lt' b tag := by
  unfold lt'
  rw [List.filter_append]

theorem lt_map {α : Type} (g : α → Node) (t : String) (hg : ∀ a, (g a).tag = t) (l : List α) (tag) :
    lt' (l.map g) tag = if t = tag then l.map g else [] := by
  induction l with
  | nil => simp [lt']
  | cons a l ih =>
    rw [List.map_cons, lt_cons, hg, ih]
    by_cases h : t = tag <;> simp [h]

theorem ft_map_ne {α : Type} (g : α → Node) (t : String) (hg : ∀ a, (g a).tag = t) (l : List α) (tag) (h : t ≠ tag) :
    ft (l.map g) tag = none := by
  unfold ft
  rw [List.find?_eq_none]
  intro n hn
  rw [List.mem_map] at hn
  obtain ⟨a, _, rfl⟩ := hn
  rw [hg]
  simpa using h

theorem ft_base (title m tag) (h1 : tag ≠ "Citation") (h2 : tag ≠ "ExtraMetadata") : ft (baseKids title m) tag = none := by
  unfold baseKids
  rw [ft_cons, if_neg (by simpa [citation, Node.tag] using h1.symm),
    ft_map_ne metaNode "ExtraMetadata" (fun _ => rfl) m tag h2.symm]

theorem ft_base_citation (title m) : ft (baseKids title m) "Citation" = some (citation title) := by
  unfold baseKids
  rw [ft_cons, if_pos (show (citation title).tag = "Citation" from rfl)]

theorem lt_base (title m tag) (h1 : tag ≠ "Citation") :
    lt' (baseKids title m) tag = if tag = "ExtraMetadata" then m.map metaNode else [] := by
  unfold baseKids
  rw [lt_cons, if_neg (by simpa [citation, Node.tag] using h1.symm), lt_map metaNode "ExtraMetadata" (fun _ => rfl)]
  by_cases h : tag = "ExtraMetadata" <;> simp [h, eq_comm]

theorem ft_optLeaf (t x tag) : ft (optLeaf t x) tag = if t = tag then x.map (fun x => leaf t (.str x)) else none := by
  by_cases h : t = tag <;> cases x <;> simp [h, optLeaf, ft_cons, ft_nil, leaf, Node.tag]
theorem lt_optLeaf (t x tag) : lt' (optLeaf t x) tag = if t = tag then optLeaf t x else [] := by
  by_cases h : t = tag <;> cases x <;> simp [h, optLeaf, lt_cons, lt_nil, leaf, Node.tag]
theorem ft_optRef (t x tag) : ft (optRef t x) tag = if t = tag then x.map (refNode t) else none := by
  by_cases h : t = tag <;> cases x <;> simp [h, optRef, ft_cons, ft_nil, refNode, Node.tag]
theorem lt_optRef (t x tag) : lt' (optRef t x) tag = if t = tag then optRef t x else [] := by
  by_cases h : t = tag <;> cases x <;> simp [h, optRef, lt_cons, lt_nil, refNode, Node.tag]
theorem ft_optNum (t x tag) : ft (optNum t x) tag = if t = tag then x.map (fun x => leaf t (.num x)) else none := by
  by_cases h : t = tag <;> cases x <;> simp [h, optNum, ft_cons, ft_nil, leaf, Node.tag]
theorem lt_optNum (t x tag) : lt' (optNum t x) tag = if t = tag then optNum t x else [] := by
  by_cases h : t = tag <;> cases x <;> simp [h, optNum, lt_cons, lt_nil, leaf, Node.tag]
theorem ft_numUom (t u x tag) :
    ft (numUom t u x) tag = if t = tag then x.map (fun x => Node.mk t u (some (.num x)) []) else none := by
  by_cases h : t = tag <;> cases x <;> simp [h, numUom, ft_cons, ft_nil, Node.tag]
theorem lt_numUom (t u x tag) : lt' (numUom t u x) tag = if t = tag then numUom t u x else [] := by
  by_cases h : t = tag <;> cases x <;> simp [h, numUom, lt_cons, lt_nil, Node.tag]
theorem ft_truthy (t x tag) : ft (truthyLeaf t x) tag =
    if t = tag then (if falsy x then none else x.map (fun x => leaf t (.str x))) else none := by
  unfold truthyLeaf
  by_cases h : falsy x = true <;> simp [h, ft_nil, ft_optLeaf]
theorem lt_truthy (t x tag) : lt' (truthyLeaf t x) tag = if t = tag then truthyLeaf t x else [] := by
  unfold truthyLeaf
  by_cases h : falsy x = true <;> simp [h, lt_nil, lt_optLeaf]
theorem ft_bool (t : String) (x : Option Bool) (tag) :
    ft (optBool t x) tag = if t = tag then x.map (fun b => leaf t (.bool b)) else none := by
  by_cases h : t = tag <;> cases x <;> simp [h, optBool, ft_cons, ft_nil, leaf, Node.tag]
theorem lt_bool (t : String) (x : Option Bool) (tag) : lt' (optBool t x) tag = if t = tag then optBool t x else [] := by
  by_cases h : t = tag <;> cases x <;> simp [h, optBool, lt_cons, lt_nil, leaf, Node.tag]
theorem ft_hod_ne (h : Hod) (tag) (hn : tag ≠ "HasOccuredDuring") : ft (hodKids h) tag = none := by
  obtain ⟨a, b⟩ := h
  cases a <;> cases b <;> simp [hodKids, ft_cons, ft_nil, Node.tag, hn.symm]
theorem lt_hod_ne (h : Hod) (tag) (hn : tag ≠ "HasOccuredDuring") : lt' (hodKids h) tag = [] := by
  obtain ⟨a, b⟩ := h
  cases a <;> cases b <;> simp [hodKids, lt_cons, lt_nil, Node.tag, hn.symm]
theorem ft_relations_ne (r tag) (hn : tag ≠ "BoundaryRelation") : ft (relationKids r) tag = none :=
  ft_map_ne _ "BoundaryRelation" (fun _ => rfl) _ tag hn.symm
theorem lt_relations (r tag) : lt' (relationKids r) tag = if tag = "BoundaryRelation" then relationKids r else [] := by
  unfold relationKids
  rw [lt_map _ "BoundaryRelation" (fun _ => rfl)]
  by_cases h : tag = "BoundaryRelation" <;> simp [h, eq_comm]
theorem ft_dip (f tag) : ft (dipKids f) tag = if tag = "MeanDip" then (dipKids f).head? else none := by
  unfold dipKids
  cases f.dip
  · simp [ft_nil]
  · simp [ft_cons, ft_nil, Node.tag, eq_comm]
theorem lt_dip (f tag) (hn : tag ≠ "MeanDip") : lt' (dipKids f) tag = [] := by
  unfold dipKids
  cases f.dip
  · simp [lt_nil]
  · simp [lt_cons, lt_nil, Node.tag, hn.symm]
theorem ft_throws_ne (t tag) (hn : tag ≠ "ThrowInterpretation") : ft (throwKids t) tag = none :=
  ft_map_ne _ "ThrowInterpretation" (fun _ => rfl) _ tag hn.symm
theorem lt_throws (t tag) : lt' (throwKids t) tag = if tag = "ThrowInterpretation" then throwKids t else [] := by
  unfold throwKids
  rw [lt_map _ "ThrowInterpretation" (fun _ => rfl)]
  by_cases h : tag = "ThrowInterpretation" <;> simp [h, eq_comm]
theorem ft_age_ne (a tag) (hn : tag ≠ "AbsoluteAge") : ft (ageKids a) tag = none := by
  rcases a with _ | ⟨d, y⟩ <;> simp [ageKids, ft_cons, ft_nil, Node.tag, hn.symm]
theorem lt_age_ne (a tag) (hn : tag ≠ "AbsoluteAge") : lt' (ageKids a) tag = [] := by
  rcases a with _ | ⟨d, y⟩ <;> simp [ageKids, lt_cons, lt_nil, Node.tag, hn.symm]

theorem nodeText_leaf {t x} (h : Clean x) : nodeText (leaf t (.str x)) = some x := by
  unfold nodeText leaf Node.text
  simp [h.1, h.2]

theorem nodeText_some {t x} (h : ∀ y, x = some y → Clean y) : (x.map fun x => leaf t (.str x)).bind nodeText = x := by
  cases x with
  | none => rfl
  | some y => simp [nodeText_leaf (h y rfl)]

theorem falsy_clean {x} (h : Clean x) : falsy (some x) = false := by
  simp [falsy, h.2]

theorem citation_title {title} (h : GoodTitle title) (t u x k) (hk : ft k "Citation" = some (citation title)) :
    citationTitle (.mk t u x k) = title := by
  obtain ⟨y, rfl, hy⟩ := h
  unfold citationTitle
  rw [findTag_mk, hk]
  simp [citation, falsy_clean hy, findText, findTag_mk, ft_cons, leaf, Node.tag]
  exact nodeText_leaf hy

/-! ### Metadata -/

theorem set_not_mem (d : Meta) (k v) (h : k ∉ d.map Prod.fst) : Dict.set d k v = d ++ [(k, v)] := by
  induction d with
  | nil => rfl
  | cons x d ih =>
    obtain ⟨k', v'⟩ := x
    simp only [List.map_cons, List.mem_cons, not_or] at h
    simp [Dict.set, Ne.symm h.1, ih h.2]

theorem loadMeta_fold (m : Meta) (h : GoodMeta m) (d : Meta)
    (hd : ∀ k ∈ m.map Prod.fst, k ∉ d.map Prod.fst) : (m.map metaNode).foldl loadMetaStep d = d ++ m := by
  induction m generalizing d with
  | nil => simp
  | cons x m ih =>
    obtain ⟨k, v⟩ := x
    obtain ⟨⟨k', hk, ck⟩, v', hv, cv⟩ := h.clean (k, v) (by simp)
    simp only at hk hv
    subst hk hv
    rw [List.map_cons, List.foldl_cons]
    have e : loadMetaStep d (metaNode (some k', some v')) = d ++ [(some k', some v')] := by
      unfold loadMetaStep metaNode findText
      simp only [findTag_mk, ft_cons, leaf, Node.tag, strOf, Option.getD_some]
      simp only [if_true, if_neg (show ¬ ("Name" = "Value") by decide), Option.bind_some]
      have e1 : nodeText (.mk "Name" none (some (.str k')) []) = some k' := nodeText_leaf ck
      have e2 : nodeText (.mk "Value" none (some (.str v')) []) = some v' := nodeText_leaf cv
      rw [e1, e2]
      exact set_not_mem d _ _ (hd _ (by simp))
    rw [e, ih ⟨fun kv hkv => h.clean kv (by simp [hkv]), (List.nodup_cons.1 h.nodup).2⟩]
    · simp
    · intro q hq
      have hn := (List.nodup_cons.1 h.nodup).1
      simp only [List.map_append, List.map_cons, List.map_nil, List.mem_append, List.mem_singleton, not_or]
      refine ⟨hd q (by simp only [List.map_cons, List.mem_cons]; right; exact hq), ?_⟩
      rintro rfl
      exact hn hq

theorem load_meta {m : Meta} (h : GoodMeta m) (t u x k) (hk : lt' k "ExtraMetadata" = m.map metaNode) :
    loadMeta (.mk t u x k) = m := by
  unfold loadMeta
  rw [listOfTag_mk, hk, loadMeta_fold m h [] (by simp)]
  rfl

theorem get?_of_mem {m : Meta} (h : (m.map Prod.fst).Nodup) {k v} (hm : (k, v) ∈ m) : Dict.get? m k = some v := by
  induction m with
  | nil => simp at hm
  | cons x m ih =>
    obtain ⟨k', v'⟩ := x
    rw [List.map_cons, List.nodup_cons] at h
    rcases List.mem_cons.1 hm with e | hm
    · obtain ⟨rfl, rfl⟩ := Prod.mk.inj e
      simp [Dict.get?]
    · have : k' ≠ k := by
        rintro rfl
        exact h.1 (List.mem_map.2 ⟨_, hm, rfl⟩)
      simp [Dict.get?, this, ih h.2 hm]

theorem mem_of_get? {m : Meta} {k v} (h : Dict.get? m k = some v) : (k, v) ∈ m := by
  induction m with
  | nil => simp [Dict.get?] at h
  | cons x m ih =>
    obtain ⟨k', v'⟩ := x
    by_cases hk : k' = k
    · simp only [Dict.get?, hk, if_true, Option.some.injEq] at h
      simp [hk, h]
    · simp only [Dict.get?, hk, if_false] at h
      exact List.mem_cons_of_mem _ (ih h)

theorem dictEq_iff {a b : Meta} (ha : (a.map Prod.fst).Nodup) (hb : (b.map Prod.fst).Nodup) :
    dictEq a b = true ↔ SameMeta a b := by
  unfold dictEq SameMeta
  simp only [Bool.and_eq_true, beq_iff_eq, List.all_eq_true]
  constructor
  · rintro ⟨hl, h⟩
    have sub : a.map Prod.fst ⊆ b.map Prod.fst := by
      intro k hk
      obtain ⟨⟨k', v⟩, hkv, rfl⟩ := List.mem_map.1 hk
      have := mem_of_get? (h _ hkv)
      exact List.mem_map.2 ⟨_, this, rfl⟩
    have sup : b.map Prod.fst ⊆ a.map Prod.fst := by
      have hs := List.Nodup.subperm ha sub
      have := hs.perm_of_length_le (by simp [hl])
      exact this.symm.subset
    intro k
    cases e : Dict.get? a k with
    | some v => exact (h _ (mem_of_get? e)).symm
    | none =>
      cases e' : Dict.get? b k with
      | none => rfl
      | some v =>
        have := sup (List.mem_map.2 ⟨_, mem_of_get? e', rfl⟩)
        obtain ⟨⟨k', v'⟩, hkv, rfl⟩ := List.mem_map.1 this
        rw [get?_of_mem ha hkv] at e
        simp at e
  · intro h
    have key : ∀ {x y : Meta}, (x.map Prod.fst).Nodup → SameMeta x y → x.map Prod.fst ⊆ y.map Prod.fst := by
      intro x y hx hs k hk
      obtain ⟨⟨k', v⟩, hkv, rfl⟩ := List.mem_map.1 hk
      have e := hs k'
      rw [get?_of_mem hx hkv] at e
      exact List.mem_map.2 ⟨_, mem_of_get? e.symm, rfl⟩
    refine ⟨?_, fun kv hkv => ?_⟩
    · have h1 := (List.Nodup.subperm ha (key ha h)).length_le
      have h2 := (List.Nodup.subperm hb (key hb fun k => (h k).symm)).length_le
      simp only [List.length_map] at h1 h2
      omega
    · rw [← h kv.1]
      exact get?_of_mem ha hkv

theorem eqvMeta_eq (a b : Meta) : eqvMeta a b = dictEq a b := by
  unfold eqvMeta
  cases a with
  | nil =>
    cases b with
    | nil => simp [dictEq]
    | cons y b => simp [dictEq]
  | cons x a =>
    cases b with
    | nil => simp [dictEq]
    | cons y b => simp

theorem eqvMeta_iff {a b : Meta} (ha : (a.map Prod.fst).Nodup) (hb : (b.map Prod.fst).Nodup) :
    eqvMeta a b = true ↔ SameMeta a b := by
  rw [eqvMeta_eq, dictEq_iff ha hb]

/-! ### The pair of chronostratigraphic units -/

theorem load_hod (h : Hod) (t u x k) (hk : ft k "HasOccuredDuring" = ft (hodKids h) "HasOccuredDuring") :
    loadHod (.mk t u x k) = reloaded h := by
  unfold loadHod
  rw [findTag_mk, hk]
  obtain ⟨a, b⟩ := h
  cases a <;> cases b <;>
    simp [hodKids, ft_cons, ft_nil, Node.tag, reloaded, refUuid, findTag_mk, refNode, leaf, nodeUuid, Node.text]

theorem eqvHod_iff (a b : Hod) : eqvHod a b = true ↔ a = b := by
  unfold eqvHod
  by_cases h : a = b <;> simp [h]

/-! ### Parts -/

theorem rootFor_append {s : Store} {u : Nat} (h : (rootFor s u).isSome) (t : Store) : rootFor (s ++ t) u = rootFor s u := by
  unfold rootFor at h ⊢
  rw [List.find?_append]
  cases e : s.find? fun p => p.uuid == u with
  | none => simp [e] at h
  | some p => simp

theorem rootFor_fresh {s : Store} {u : Nat} (h : rootFor s u = none) (typ : String) (n : Node) (t : Store) :
    rootFor (s ++ ⟨u, typ, n⟩ :: t) u = some n := by
  unfold rootFor at h ⊢
  rw [List.find?_append]
  cases e : s.find? fun p => p.uuid == u with
  | none => simp
  | some p => simp [e] at h

theorem rootFor_mem {s : Store} {p : Part} (h : p ∈ s) : (rootFor s p.uuid).isSome := by
  unfold rootFor
  rw [Option.isSome_map, List.find?_isSome]
  exact ⟨p, h, by simp⟩

theorem rootFor_some {s : Store} {u : Nat} {n : Node} (h : rootFor s u = some n) : ∃ p ∈ s, p.uuid = u ∧ p.root = n := by
  unfold rootFor at h
  rw [Option.map_eq_some_iff] at h
  obtain ⟨p, hp, rfl⟩ := h
  exact ⟨p, List.mem_of_find?_eq_some hp, by simpa using List.find?_some hp, rfl⟩

end Verif.Organize
