import Verif.Organize.Lemmas

/-!
# Lemmas on features: writing, reading, comparing, and the search for a part to reuse
-/

namespace Verif.Organize

open Verif.Py

theorem set_keys (d : Meta) (k v) : (Dict.set d k v).map Prod.fst = if k ∈ d.map Prod.fst then d.map Prod.fst else d.map Prod.fst ++ [k] := by
  induction d with
  | nil => simp [Dict.set]
  | cons x d ih =>
    obtain ⟨k', v'⟩ := x
    by_cases h : k' = k
    · simp [Dict.set, h]
    · simp only [Dict.set, h, if_false, List.map_cons, ih, List.mem_cons, Ne.symm h, false_or]
      split_ifs <;> simp

theorem loadMeta_nodup_aux (l : List Node) (d : Meta) (h : (d.map Prod.fst).Nodup) : ((l.foldl loadMetaStep d).map Prod.fst).Nodup := by
  induction l generalizing d with
  | nil => exact h
  | cons n l ih =>
    apply ih
    unfold loadMetaStep
    rw [set_keys]
    split_ifs with hk
    · exact h
    · rw [List.nodup_append]
      refine ⟨h, by simp, ?_⟩
      intro a ha b hb
      rw [List.mem_singleton] at hb
      rintro rfl
      exact hk (hb ▸ ha)

theorem loadMeta_nodup (n : Node) : ((loadMeta n).map Prod.fst).Nodup := loadMeta_nodup_aux _ [] (by simp)

theorem loadFeat_facts {c s u g} (h : loadFeat c s u = .ok g) :
    g.cls = c ∧ g.uuid = u ∧ (g.md.map Prod.fst).Nodup ∧ (rootFor s u).isSome := by
  unfold loadFeat at h
  cases e : rootFor s u with
  | none => rw [e] at h; simp at h
  | some n =>
    rw [e] at h
    cases c <;> simp only [Except.ok.injEq] at h <;> subst h <;> exact ⟨rfl, rfl, loadMeta_nodup n, rfl⟩

theorem loadFeat_total {c : FC} {s : Store} {u : Nat} (h : (rootFor s u).isSome) : ∃ g, loadFeat c s u = .ok g := by
  obtain ⟨n, hn⟩ := Option.isSome_iff_exists.1 h
  unfold loadFeat
  rw [hn]
  cases c <;> exact ⟨_, rfl⟩

theorem eqvFeat_iff {md : Bool} {f g : Feat} (hf : (f.md.map Prod.fst).Nodup) (hg : (g.md.map Prod.fst).Nodup) :
    eqvFeat md f g = true ↔ f.cls = g.cls ∧ (f.uuid = g.uuid ∨ SameFeature md f g) := by
  unfold eqvFeat SameFeature
  by_cases hc : f.cls = g.cls
  · rw [if_neg (by simp [hc])]
    by_cases hu : f.uuid = g.uuid
    · simp [hc, hu]
    · rw [if_neg hu]
      have hm := eqvMeta_iff hf hg
      cases md with
      | false =>
        simp only [Bool.false_and, Bool.false_eq_true, if_false]
        rw [← hc]
        cases e : f.cls <;> simp [hu] <;> tauto
      | true =>
        by_cases hs : SameMeta f.md g.md
        · rw [hm.2 hs]
          simp only [Bool.not_true, Bool.and_false, Bool.false_eq_true, if_false]
          rw [← hc]
          cases e : f.cls <;> simp [hu, hs] <;> tauto
        · have : eqvMeta f.md g.md = false := by
            rw [← Bool.not_eq_true, hm]
            exact hs
          simp [this, hs, hu, hc]
  · rw [if_pos (fun h => hc h.symm)]
    simp [hc]

/-! ### Round trip of features -/

theorem load_ageKids {a : Option (Option String × Option Int)} (h : ∀ d y, a = some (d, y) → ∃ t, d = some t ∧ Clean t) (t u x k)
    (hk : ft k "AbsoluteAge" = ft (ageKids a) "AbsoluteAge") : loadAge (.mk t u x k) = a := by
  unfold loadAge
  rw [findTag_mk, hk]
  rcases a with _ | ⟨d, y⟩
  · rfl
  · obtain ⟨t, rfl, ht⟩ := h d y rfl
    have e : nodeText (.mk "DateTime" none (some (.str t)) []) = some t := nodeText_leaf ht
    cases y <;>
      simp [ageKids, ft_cons, ft_nil, Node.tag, findText, findInt, findTag_mk, leaf, strOf, e, nodeInt, Node.text]

theorem valid_clean {c : FC} {x : String} (h : x ∈ c.validKinds) : Clean x := by
  cases c <;> simp [FC.validKinds] at h <;> (rcases h with rfl | rfl | rfl | rfl | rfl) <;>
    exact ⟨by decide +kernel, by decide +kernel⟩

theorem feat_roundtrip {f : Feat} (hf : GoodFeature f) {n : Node} (hn : featNode f = .ok n) {s : Store}
    (hs : rootFor s f.uuid = some n) : loadFeat f.cls s f.uuid = .ok f := by
  unfold loadFeat
  rw [hs]
  unfold featNode at hn
  have hk := hf.kind
  have ha := hf.age
  have hu := hf.units
  obtain ⟨cls, uuid, title, md, kind, age, bottom, top⟩ := f
  have ht := hf.title
  have hm := hf.md
  have hd := hf.date
  simp only at hn hk ha hu ht hm hd ⊢
  have kindOf : ∀ {c : FC} {l : List String}, l = c.validKinds → (kind.any fun x => decide (x ∈ l)) = true → ∀ y, kind = some y → Clean y := by
    intro c l hl h y hy
    subst hl hy
    simp only [Option.any_some, decide_eq_true_eq] at h
    exact valid_clean h
  cases cls <;> simp only at hn ⊢
  case genetic =>
    split_ifs at hn with hv
    simp only [Except.ok.injEq] at hn
    subst hn
    obtain ⟨rfl, rfl⟩ := hu (by simp)
    rw [citation_title ht _ _ _ _ (by simp [ft_append, ft_base_citation]),
      load_meta hm _ _ _ _ (by simp [lt_append, lt_base, lt_optLeaf, lt_age_ne]),
      load_ageKids hd _ _ _ _ (by simp [ft_append, ft_base, ft_optLeaf]), findText, findTag_mk]
    simp only [ft_append, ft_optLeaf, if_true, ft_base _ _ "GeneticBoundaryKind" (by decide) (by decide), Option.none_or,
      ft_age_ne _ "GeneticBoundaryKind" (by decide), Option.or_none]
    rw [nodeText_some (kindOf rfl hv)]
  case tectonic =>
    split_ifs at hn with hv
    simp only [Except.ok.injEq] at hn
    subst hn
    obtain ⟨rfl, rfl⟩ := hu (by simp)
    obtain rfl := ha (by simp)
    rw [citation_title ht _ _ _ _ (by simp [ft_append, ft_base_citation]),
      load_meta hm _ _ _ _ (by simp [lt_append, lt_base, lt_optLeaf]), findText, findTag_mk]
    simp only [ft_append, ft_optLeaf, if_true, ft_base _ _ "TectonicBoundaryKind" (by decide) (by decide), Option.none_or]
    rw [nodeText_some (kindOf rfl hv)]
    cases kind with
    | none => simp at hv
    | some x => simp [faultIfNone, falsy_clean (kindOf rfl hv x rfl)]
  case fluid =>
    split_ifs at hn with hv
    simp only [Except.ok.injEq] at hn
    subst hn
    obtain ⟨rfl, rfl⟩ := hu (by simp)
    obtain rfl := ha (by simp)
    rw [citation_title ht _ _ _ _ (by simp [ft_append, ft_base_citation]),
      load_meta hm _ _ _ _ (by simp [lt_append, lt_base, lt_optLeaf]), findText, findTag_mk]
    simp only [ft_append, ft_optLeaf, if_true, ft_base _ _ "FluidContact" (by decide) (by decide), Option.none_or]
    rw [nodeText_some (kindOf rfl hv)]
  case organization =>
    split_ifs at hn with hv
    simp only [Except.ok.injEq] at hn
    subst hn
    obtain ⟨rfl, rfl⟩ := hu (by simp)
    obtain rfl := ha (by simp)
    rw [citation_title ht _ _ _ _ (by simp [ft_append, ft_base_citation]),
      load_meta hm _ _ _ _ (by simp [lt_append, lt_base, lt_optLeaf]), findText, findTag_mk]
    simp only [ft_append, ft_optLeaf, if_true, ft_base _ _ "OrganizationKind" (by decide) (by decide), Option.none_or]
    rw [nodeText_some (kindOf rfl hv)]
  case stratUnit =>
    simp only [Except.ok.injEq] at hn
    subst hn
    obtain rfl := hk (by simp)
    obtain rfl := ha (by simp)
    rw [citation_title ht _ _ _ _ (by simp [ft_append, ft_base_citation]),
      load_meta hm _ _ _ _ (by simp [lt_append, lt_base, lt_optRef]), refUuid, findTag_mk, refUuid, findTag_mk]
    cases bottom <;> cases top <;>
      simp [ft_append, ft_optRef, ft_base, refNode, findTag_mk, ft_cons, leaf, Node.tag, nodeUuid, Node.text]
  all_goals
    simp only [Except.ok.injEq] at hn
    subst hn
    obtain ⟨rfl, rfl⟩ := hu (by simp)
    obtain rfl := hk (by simp)
    obtain rfl := ha (by simp)
    rw [citation_title ht _ _ _ _ (by simp [ft_base_citation]), load_meta hm _ _ _ _ (by simp [lt_base])]

/-! ### The search for a part to reuse -/

theorem tryReuseIn_spec {α : Type} (c : Cls α) {s : Store} {x x' : α} {b : Bool} {us : List Nat} (hne : ∀ u ∈ us, c.uuid x ≠ u)
    (h : tryReuseIn c s x us = .ok (b, x')) :
    (b = true ∧ ∃ u ∈ us, ∃ y, c.load s u = .ok y ∧ c.eqv s x y = .ok true ∧ x' = c.setUuid x u) ∨
      (b = false ∧ x' = x ∧ ((∃ u ∈ us, ∃ e, c.load s u = .error e) ∨
        ∀ u ∈ us, ∃ y, c.load s u = .ok y ∧ c.eqv s x y = .ok false)) := by
  induction us with
  | nil =>
    simp only [tryReuseIn, Except.ok.injEq, Prod.mk.injEq] at h
    exact Or.inr ⟨h.1.symm, h.2.symm, Or.inr (by simp)⟩
  | cons u us ih =>
    rw [tryReuseIn, if_neg (hne u (by simp))] at h
    cases hl : c.load s u with
    | error e =>
      rw [hl] at h
      simp only [Except.ok.injEq, Prod.mk.injEq] at h
      exact Or.inr ⟨h.1.symm, h.2.symm, Or.inl ⟨u, by simp, e, hl⟩⟩
    | ok y =>
      rw [hl] at h
      simp only at h
      cases he : c.eqv s x y with
      | error e => rw [he] at h; simp at h
      | ok v =>
        rw [he] at h
        cases v with
        | true =>
          simp only [Except.ok.injEq, Prod.mk.injEq] at h
          exact Or.inl ⟨h.1.symm, u, by simp, y, hl, he, h.2.symm⟩
        | false =>
          rcases ih (fun v hv => hne v (by simp [hv])) h with ⟨hb, v, hv, r⟩ | ⟨hb, hx, r⟩
          · exact Or.inl ⟨hb, v, by simp [hv], r⟩
          · refine Or.inr ⟨hb, hx, ?_⟩
            rcases r with ⟨v, hv, r⟩ | r
            · exact Or.inl ⟨v, by simp [hv], r⟩
            · refine Or.inr fun v hv => ?_
              rcases List.mem_cons.1 hv with rfl | hv
              · exact ⟨y, hl, he⟩
              · exact r v hv

theorem mem_uuidsOf {s : Store} {t : String} {u : Nat} : u ∈ uuidsOf s t ↔ ∃ p ∈ s, p.typ = t ∧ p.uuid = u := by
  simp only [uuidsOf, List.mem_map, List.mem_filter, beq_iff_eq]
  constructor
  · rintro ⟨p, ⟨hp, ht⟩, hu⟩
    exact ⟨p, hp, ht, hu⟩
  · rintro ⟨p, hp, ht, hu⟩
    exact ⟨p, ⟨hp, ht⟩, hu⟩

theorem create_spec {α : Type} (c : Cls α) {s s' : Store} {x x' x0 : α} (hp : c.prep s x = .ok x0)
    (h : create c s x true = .ok (s', x')) :
    (s' = s ∧ ((x' = x0 ∧ (rootFor s (c.uuid x0)).isSome) ∨
      ∃ p ∈ s, p.typ = c.typ ∧ (∃ y, c.load s p.uuid = .ok y ∧ c.eqv s x0 y = .ok true) ∧ x' = c.setUuid x0 p.uuid)) ∨
    (rootFor s (c.uuid x0) = none ∧
      ((∃ p ∈ s, p.typ = c.typ ∧ ∃ e, c.load s p.uuid = .error e) ∨
        ∀ p ∈ s, p.typ = c.typ → ∃ y, c.load s p.uuid = .ok y ∧ c.eqv s x0 y = .ok false) ∧
      ∃ s1 n, c.write s x0 = .ok (s1, n, x') ∧ s' = s1 ++ [⟨c.uuid x', c.typ, n⟩]) := by
  unfold create at h
  rw [hp] at h
  simp only [if_true] at h
  unfold tryReuse at h
  split_ifs at h with hr
  · simp only [Except.ok.injEq, Prod.mk.injEq] at h
    exact Or.inl ⟨h.1.symm, Or.inl ⟨h.2.symm, hr⟩⟩
  · have hr' : rootFor s (c.uuid x0) = none := by simpa using hr
    cases ht : tryReuseIn c s x0 (uuidsOf s c.typ) with
    | error e => rw [ht] at h; simp at h
    | ok r =>
      obtain ⟨b, x1⟩ := r
      rw [ht] at h
      have hne : ∀ u ∈ uuidsOf s c.typ, c.uuid x0 ≠ u := by
        rintro u hu rfl
        obtain ⟨p, hp, _, hpu⟩ := mem_uuidsOf.1 hu
        have := rootFor_mem hp
        rw [hpu, hr'] at this
        simp at this
      rcases tryReuseIn_spec c hne ht with ⟨rfl, u, hu, y, hl, he, hx⟩ | ⟨rfl, rfl, r⟩
      · simp only [Except.ok.injEq, Prod.mk.injEq] at h
        obtain ⟨p, hp, htyp, rfl⟩ := mem_uuidsOf.1 hu
        exact Or.inl ⟨h.1.symm, Or.inr ⟨p, hp, htyp, ⟨y, hl, he⟩, h.2.symm.trans hx⟩⟩
      · simp only at h
        refine Or.inr ⟨hr', ?_, ?_⟩
        · rcases r with ⟨u, hu, r⟩ | r
          · obtain ⟨p, hp, htyp, rfl⟩ := mem_uuidsOf.1 hu
            exact Or.inl ⟨p, hp, htyp, r⟩
          · exact Or.inr fun p hp htyp => r _ (mem_uuidsOf.2 ⟨p, hp, htyp, rfl⟩)
        · cases hw : c.write s x1 with
          | error e => rw [hw] at h; simp at h
          | ok r =>
            obtain ⟨s1, n, x2⟩ := r
            rw [hw] at h
            simp only [Except.ok.injEq, Prod.mk.injEq] at h
            obtain ⟨h1, rfl⟩ := h
            exact ⟨s1, n, rfl, h1.symm⟩

end Verif.Organize
