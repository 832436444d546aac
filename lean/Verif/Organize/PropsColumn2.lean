import Verif.Organize.PropsColumn

/-!
# C154: ranks and columns are stored and loaded
-/

namespace Verif.Organize

open Verif.Py

theorem mapRes_map {α β γ : Type} {f : β → Res γ} {g : α → β} {h : α → γ} {l : List α} (hl : ∀ a ∈ l, f (g a) = .ok (h a)) :
    mapRes f (l.map g) = .ok (l.map h) := by
  induction l with
  | nil => rfl
  | cons a l ih =>
    simp only [List.map_cons, mapRes]
    rw [hl a (by simp), ih fun b hb => hl b (by simp [hb])]

theorem relationship_clean {t : String} (h : t ∈ validRelationships) : Clean t := by
  simp only [validRelationships, List.mem_cons, List.not_mem_nil, or_false] at h
  rcases h with rfl | rfl | rfl | rfl | rfl | rfl | rfl | rfl | rfl <;> exact ⟨by decide +kernel, by decide +kernel⟩

theorem verb_clean {t : String} (h : t ∈ validVerbs) : Clean t := by
  simp only [validVerbs, List.mem_cons, List.not_mem_nil, or_false] at h
  rcases h with rfl | rfl | rfl | rfl | rfl | rfl | rfl <;> exact ⟨by decide +kernel, by decide +kernel⟩

theorem side_clean {t : String} (h : t ∈ validSides) : Clean t := by
  simp only [validSides, List.mem_cons, List.not_mem_nil, or_false] at h
  rcases h with rfl | rfl | rfl | rfl | rfl | rfl | rfl | rfl | rfl <;> exact ⟨by decide +kernel, by decide +kernel⟩

theorem mode_clean {t : String} (h : t ∈ validModes) : Clean t := by
  simp only [validModes, List.mem_cons, List.not_mem_nil, or_false] at h
  rcases h with rfl | rfl | rfl | rfl <;> exact ⟨by decide +kernel, by decide +kernel⟩

/-- A contact as the constructor accepts it. -/
def GoodContact (c : Contact) : Prop :=
  0 ≤ c.index ∧ c.relationship ∈ validRelationships ∧ c.verb ∈ validVerbs ∧ (∀ t, c.subjectSide = some t → t ∈ validSides) ∧
    (∀ t, c.subjectMode = some t → t ∈ validModes) ∧ (∀ t, c.objectSide = some t → t ∈ validSides) ∧
    ∀ t, c.objectMode = some t → t ∈ validModes

theorem listed_iff {l : List String} {t : Option String} : listed l t = true ↔ ∀ x, t = some x → x ∈ l := by
  cases t <;> simp [listed]

/-- C154: the constructor of contacts accepts those whose texts are among the allowed ones, and refuses all others. -/
theorem C154_contact_checked (c : Contact) :
    (GoodContact c → mkContact c = .ok c) ∧ (¬ GoodContact c → mkContact c = .error .assertion) := by
  unfold mkContact
  simp only [listed_iff]
  exact ⟨fun h => if_pos h, fun h => if_neg h⟩

theorem qualifier {l : List String} (hl : ∀ t ∈ l, Clean t) {x : Option String} (h : ∀ t, x = some t → t ∈ l) (tag : String) :
    (ft (truthyLeaf tag x) tag).bind nodeText = x := by
  rw [ft_truthy]
  cases x with
  | none => simp [falsy]
  | some t =>
    have hc := hl t (h t rfl)
    simp [falsy_clean hc, nodeText_leaf hc]

theorem contact_round {c : Contact} (h : GoodContact c) : loadContact (contactNode c) = .ok c := by
  obtain ⟨h1, h2, h3, h4, h5, h6, h7⟩ := h
  obtain ⟨i, r, v, su, ob, ss, sm, os, om, po⟩ := c
  simp only at h1 h2 h3 h4 h5 h6 h7
  have e1 : findText (contactNode ⟨i, r, v, su, ob, ss, sm, os, om, po⟩) "ContactRelationship" = some r := by
    rw [findText, contactNode, findTag_mk]
    have : ft ([leaf "ContactRelationship" (.str r), leaf "Index" (.int i)] ++ optRef "PartOf" po ++
      [contactRef "DirectObject" ob os om, leaf "Verb" (.str v), contactRef "Subject" su ss sm]) "ContactRelationship" =
        some (leaf "ContactRelationship" (.str r)) := by kids
    simp only
    rw [this]
    exact nodeText_leaf (t := "ContactRelationship") (relationship_clean h2)
  have e2 : findInt (contactNode ⟨i, r, v, su, ob, ss, sm, os, om, po⟩) "Index" = some i := by
    rw [findInt, contactNode, findTag_mk]
    have : ft ([leaf "ContactRelationship" (.str r), leaf "Index" (.int i)] ++ optRef "PartOf" po ++
      [contactRef "DirectObject" ob os om, leaf "Verb" (.str v), contactRef "Subject" su ss sm]) "Index" =
        some (leaf "Index" (.int i)) := by kids
    simp only
    rw [this]
    rfl
  have e3 : findText (contactNode ⟨i, r, v, su, ob, ss, sm, os, om, po⟩) "Verb" = some v := by
    rw [findText, contactNode, findTag_mk]
    have : ft ([leaf "ContactRelationship" (.str r), leaf "Index" (.int i)] ++ optRef "PartOf" po ++
      [contactRef "DirectObject" ob os om, leaf "Verb" (.str v), contactRef "Subject" su ss sm]) "Verb" =
        some (leaf "Verb" (.str v)) := by cases po <;> simp [optRef, ft_cons, ft_append, ft_nil, leaf, refNode, contactRef, Node.tag]
    simp only
    rw [this]
    exact nodeText_leaf (t := "Verb") (verb_clean h3)
  have e4 : findTag (contactNode ⟨i, r, v, su, ob, ss, sm, os, om, po⟩) "Subject" = some (contactRef "Subject" su ss sm) := by
    rw [contactNode, findTag_mk]
    cases po <;> simp [optRef, ft_cons, ft_append, ft_nil, leaf, refNode, contactRef, Node.tag]
  have e5 : findTag (contactNode ⟨i, r, v, su, ob, ss, sm, os, om, po⟩) "DirectObject" = some (contactRef "DirectObject" ob os om) := by
    rw [contactNode, findTag_mk]
    cases po <;> simp [optRef, ft_cons, ft_append, ft_nil, leaf, refNode, contactRef, Node.tag]
  have e6 : refUuid (contactNode ⟨i, r, v, su, ob, ss, sm, os, om, po⟩) "PartOf" = po := by
    rw [refUuid, contactNode, findTag_mk]
    cases po <;> simp [optRef, ft_cons, ft_append, ft_nil, leaf, refNode, contactRef, Node.tag, findTag_mk, nodeUuid, Node.text]
  have er : ∀ tag u side mode, (∀ t, side = some t → t ∈ validSides) → (∀ t, mode = some t → t ∈ validModes) →
      (findTag (contactRef tag u side mode) "UUID").bind nodeUuid = some u ∧ findText (contactRef tag u side mode) "Qualifier" = side ∧
      findText (contactRef tag u side mode) "SecondaryQualifier" = mode := by
    intro tag u side mode hs hm
    refine ⟨?_, ?_, ?_⟩
    · rw [contactRef, findTag_mk]
      simp [ft_cons, leaf, Node.tag, nodeUuid, Node.text]
    · rw [findText, contactRef, findTag_mk, ft_cons, ft_append, ft_truthy "SecondaryQualifier"]
      rw [if_neg (by simp [leaf, Node.tag])]
      simp only [String.reduceEq, if_false, Option.or_none]
      exact qualifier (fun t => side_clean) hs _
    · rw [findText, contactRef, findTag_mk, ft_cons, ft_append, ft_truthy "Qualifier"]
      rw [if_neg (by simp [leaf, Node.tag])]
      simp only [String.reduceEq, if_false, Option.none_or]
      exact qualifier (fun t => mode_clean) hm _
  obtain ⟨a1, a2, a3⟩ := er "Subject" su ss sm h4 h5
  obtain ⟨b1, b2, b3⟩ := er "DirectObject" ob os om h6 h7
  unfold loadContact
  rw [e1, e2, e4, e5, e3]
  simp only
  rw [a1, b1, e6, a2, a3, b2, b3]
  simp only
  rw [if_pos ⟨h2, h3⟩]

theorem typeOf_fresh {s : Store} {u : Nat} (h : rootFor s u = none) (typ : String) (n : Node) (t : Store) :
    typeOf (s ++ ⟨u, typ, n⟩ :: t) u = some typ := by
  unfold rootFor at h
  rw [Option.map_eq_none_iff] at h
  simp [typeOf, List.find?_append, h]

/-- C154: a rank which is stored is loaded again: units with distinct numbers in their order, contacts in the order of their numbers, and
everything else as it was; the number of the rank is zero if there was none. -/
theorem C154_rank_stored {lu : String → Bool} {r r' : Rank} {s s' : Store} (more : Store) (hnew : rootFor s r.uuid = none)
    (ht : GoodTitle r.title) (hm : GoodMeta r.md) (hu : r.units.Pairwise fun a b => a.1 < b.1)
    (hc : r.contacts.Pairwise fun a b => a.index ≤ b.index) (hg : ∀ c ∈ r.contacts, GoodContact c)
    (h : create (rankCls lu) s r false = .ok (s', r'))
    (hl : ∀ u ∈ r.units, typeOf (s' ++ more) u.2.uuid = some "StratigraphicUnitInterpretation" ∧
      loadStrat lu (s' ++ more) u.2.uuid = .ok u.2) :
    loadRank lu (s' ++ more) r.uuid = .ok { r with hod := reloaded r.hod, index := some (r.index.getD 0) } := by
  obtain ⟨x0, s1, n, hp, hw, rfl⟩ := create_false h
  simp only [rankCls] at hp hw ⊢
  split_ifs at hp with hn
  simp only [Except.ok.injEq] at hp
  subst hp
  unfold writeRank at hw
  obtain ⟨xu, xt, xm, xf, xd, xh, xi, xus, xcs⟩ := r
  simp only at hnew ht hm hu hc hg hl hw ⊢
  cases xf with
  | none => simp at hw
  | some f =>
    simp only at hw
    split_ifs at hw with w1 w2
    simp only [Except.ok.injEq, Prod.mk.injEq] at hw
    obtain ⟨rfl, rfl, rfl⟩ := hw
    simp only [rankCls] at hl ⊢
    simp only [Bool.not_eq_true', Bool.not_eq_false] at w2
    have lu_ : ∀ tag, tag ≠ "StratigraphicUnits" → ft (xus.map rankUnitNode) tag = none := fun tag h =>
      ft_map_ne _ "StratigraphicUnits" (fun _ => rfl) _ _ (Ne.symm h)
    have lc_ : ∀ tag, tag ≠ "ContactInterpretation" → ft (xcs.map contactNode) tag = none := fun tag h =>
      ft_map_ne _ "ContactInterpretation" (fun _ => rfl) _ _ (Ne.symm h)
    have lu' : ∀ tag, lt' (xus.map rankUnitNode) tag = if "StratigraphicUnits" = tag then xus.map rankUnitNode else [] := fun tag =>
      lt_map _ "StratigraphicUnits" (fun _ => rfl) _ _
    have lc' : ∀ tag, lt' (xcs.map contactNode) tag = if "ContactInterpretation" = tag then xcs.map contactNode else [] := fun tag =>
      lt_map _ "ContactInterpretation" (fun _ => rfl) _ _
    have hroot : rootFor (s ++ [⟨xu, "StratigraphicColumnRankInterpretation", .mk "StratigraphicColumnRankInterpretation" none none
        (baseKids xt xm ++ [refNode "InterpretedFeature" f] ++ optLeaf "Domain" xd ++ hodKids xh ++
          [leaf "OrderingCriteria" (.str "age"), leaf "Index" (.int (xi.getD 0))] ++ xus.map rankUnitNode ++
          xcs.map contactNode)⟩] ++ more) xu = some (.mk "StratigraphicColumnRankInterpretation" none none
        (baseKids xt xm ++ [refNode "InterpretedFeature" f] ++ optLeaf "Domain" xd ++ hodKids xh ++
          [leaf "OrderingCriteria" (.str "age"), leaf "Index" (.int (xi.getD 0))] ++ xus.map rankUnitNode ++
          xcs.map contactNode)) := by
      rw [List.append_assoc, List.singleton_append, rootFor_fresh hnew]
    generalize (s ++ [⟨xu, "StratigraphicColumnRankInterpretation", .mk "StratigraphicColumnRankInterpretation" none none
        (baseKids xt xm ++ [refNode "InterpretedFeature" f] ++ optLeaf "Domain" xd ++ hodKids xh ++
          [leaf "OrderingCriteria" (.str "age"), leaf "Index" (.int (xi.getD 0))] ++ xus.map rankUnitNode ++
          xcs.map contactNode)⟩] ++ more) = st at *
    unfold loadRank
    rw [hroot]
    simp only
    have o1 : ft (baseKids xt xm ++ [refNode "InterpretedFeature" f] ++ optLeaf "Domain" xd ++ hodKids xh ++
          [leaf "OrderingCriteria" (.str "age"), leaf "Index" (.int (xi.getD 0))] ++ xus.map rankUnitNode ++
          xcs.map contactNode) "OrderingCriteria" = some (leaf "OrderingCriteria" (.str "age")) := by
      simp [ft_append, ft_base, ft_optLeaf, ft_hod_ne, ft_cons, ft_nil, refNode, leaf, Node.tag]
    have o2 : ft (baseKids xt xm ++ [refNode "InterpretedFeature" f] ++ optLeaf "Domain" xd ++ hodKids xh ++
          [leaf "OrderingCriteria" (.str "age"), leaf "Index" (.int (xi.getD 0))] ++ xus.map rankUnitNode ++
          xcs.map contactNode) "Index" = some (leaf "Index" (.int (xi.getD 0))) := by
      simp [ft_append, ft_base, ft_optLeaf, ft_hod_ne, ft_cons, ft_nil, refNode, leaf, Node.tag]
    have o3 : ft (baseKids xt xm ++ [refNode "InterpretedFeature" f] ++ optLeaf "Domain" xd ++ hodKids xh ++
          [leaf "OrderingCriteria" (.str "age"), leaf "Index" (.int (xi.getD 0))] ++ xus.map rankUnitNode ++
          xcs.map contactNode) "Domain" = xd.map fun x => leaf "Domain" (.str x) := by
      simp [ft_append, ft_base, ft_optLeaf, ft_hod_ne, ft_cons, ft_nil, refNode, leaf, Node.tag, lu_, lc_]
    have o4 : ft (baseKids xt xm ++ [refNode "InterpretedFeature" f] ++ optLeaf "Domain" xd ++ hodKids xh ++
          [leaf "OrderingCriteria" (.str "age"), leaf "Index" (.int (xi.getD 0))] ++ xus.map rankUnitNode ++
          xcs.map contactNode) "InterpretedFeature" = some (refNode "InterpretedFeature" f) := by
      simp [ft_append, ft_base, ft_optLeaf, ft_hod_ne, ft_cons, ft_nil, refNode, leaf, Node.tag]
    have o5 : ft (baseKids xt xm ++ [refNode "InterpretedFeature" f] ++ optLeaf "Domain" xd ++ hodKids xh ++
          [leaf "OrderingCriteria" (.str "age"), leaf "Index" (.int (xi.getD 0))] ++ xus.map rankUnitNode ++
          xcs.map contactNode) "HasOccuredDuring" = ft (hodKids xh) "HasOccuredDuring" := by
      simp [ft_append, ft_base, ft_optLeaf, ft_cons, ft_nil, refNode, leaf, Node.tag, lu_, lc_]
    have o6 : ft (baseKids xt xm ++ [refNode "InterpretedFeature" f] ++ optLeaf "Domain" xd ++ hodKids xh ++
          [leaf "OrderingCriteria" (.str "age"), leaf "Index" (.int (xi.getD 0))] ++ xus.map rankUnitNode ++
          xcs.map contactNode) "Citation" = some (citation xt) := by
      simp [ft_append, ft_base_citation]
    have o7 : lt' (baseKids xt xm ++ [refNode "InterpretedFeature" f] ++ optLeaf "Domain" xd ++ hodKids xh ++
          [leaf "OrderingCriteria" (.str "age"), leaf "Index" (.int (xi.getD 0))] ++ xus.map rankUnitNode ++
          xcs.map contactNode) "ExtraMetadata" = xm.map metaNode := by
      simp [lt_append, lt_base, lt_optLeaf, lt_hod_ne, lt_cons, lt_nil, refNode, leaf, Node.tag, lu', lc']
    have o8 : lt' (baseKids xt xm ++ [refNode "InterpretedFeature" f] ++ optLeaf "Domain" xd ++ hodKids xh ++
          [leaf "OrderingCriteria" (.str "age"), leaf "Index" (.int (xi.getD 0))] ++ xus.map rankUnitNode ++
          xcs.map contactNode) "StratigraphicUnits" = xus.map rankUnitNode := by
      simp [lt_append, lt_base, lt_optLeaf, lt_hod_ne, lt_cons, lt_nil, refNode, leaf, Node.tag, lu', lc']
    have o9 : lt' (baseKids xt xm ++ [refNode "InterpretedFeature" f] ++ optLeaf "Domain" xd ++ hodKids xh ++
          [leaf "OrderingCriteria" (.str "age"), leaf "Index" (.int (xi.getD 0))] ++ xus.map rankUnitNode ++
          xcs.map contactNode) "ContactInterpretation" = xcs.map contactNode := by
      simp [lt_append, lt_base, lt_optLeaf, lt_hod_ne, lt_cons, lt_nil, refNode, leaf, Node.tag, lu', lc']
    rw [citation_title ht _ _ _ _ o6, load_meta hm _ _ _ _ o7, load_hod xh _ _ _ _ o5]
    simp only [findText, findInt, refUuid, findTag_mk, listOfTag_mk, o1, o2, o3, o4, o8, o9]
    generalize (baseKids xt xm ++ [refNode "InterpretedFeature" f] ++ optLeaf "Domain" xd ++ hodKids xh ++
          [leaf "OrderingCriteria" (.str "age"), leaf "Index" (.int (xi.getD 0))] ++ xus.map rankUnitNode ++
          xcs.map contactNode) = kk at *
    have hunits : mapRes (loadRankUnit lu st) (xus.map rankUnitNode) = .ok (xus.map id) := by
      apply mapRes_map
      intro u hu'
      obtain ⟨a1, a2⟩ := hl u hu'
      simp [loadRankUnit, rankUnitNode, findInt, findTag_mk, refUuid, ft_cons, leaf, Node.tag, nodeInt, Node.text, refNode, nodeUuid,
        unitOf, a1, a2, Except.map]
    have hcons : mapRes loadContact (xcs.map contactNode) = .ok (xcs.map id) := by
      apply mapRes_map
      intro c hc'
      exact contact_round (hg c hc')
    have hsort : sortUnits st xus = .ok xus := by
      unfold sortUnits
      rw [if_pos]
      · rw [List.mergeSort_of_pairwise]
        exact hu.imp fun h => by simpa [unitLe] using le_of_lt h
      · simp only [List.all_eq_true, Bool.or_eq_true, bne_iff_ne]
        intro a ha b hb
        by_cases hab : a.1 = b.1
        · right
          obtain ⟨i, hi, rfl⟩ := List.mem_iff_getElem.1 ha
          obtain ⟨j, hj, rfl⟩ := List.mem_iff_getElem.1 hb
          have : i = j := by
            rcases Nat.lt_trichotomy i j with hlt | rfl | hlt
            · have := List.pairwise_iff_getElem.1 hu i j hi hj hlt
              omega
            · rfl
            · have := List.pairwise_iff_getElem.1 hu j i hj hi hlt
              omega
          subst this
          simp [eqvStrat, eqvUnit]
        · exact Or.inl hab
    have hsc : sortContacts xcs = xcs := by
      unfold sortContacts
      rw [List.mergeSort_of_pairwise]
      exact hc.imp fun h => by simpa [contactLe] using h
    have hage : (some (leaf "OrderingCriteria" (.str "age"))).bind nodeText = some "age" :=
      nodeText_leaf (t := "OrderingCriteria") (x := "age") ⟨by decide +kernel, by decide +kernel⟩
    rw [hage, if_neg (by simp), hunits]
    simp only [List.map_id]
    rw [hsort]
    simp only
    rw [hcons]
    simp only [List.map_id]
    rw [hsc, nodeText_some (domain_clean w2)]
    simp [refNode, findTag_mk, ft_cons, leaf, Node.tag, nodeUuid, Node.text, nodeInt]

/-- C154: a column which is stored is loaded again with the same ranks in the same order, where each of its ranks is stored and loads as
itself. -/
theorem C154_column_stored {lu : String → Bool} {c c' : Column} {s s' : Store} (more : Store) (hnew : rootFor s c.uuid = none)
    (ht : GoodTitle c.title) (hm : GoodMeta c.md) (hr : ∀ r ∈ c.ranks, r.index.isSome)
    (hs : c.ranks.Pairwise fun a b => a.index.getD 0 ≤ b.index.getD 0) (h : create (columnCls lu) s c false = .ok (s', c'))
    (hl : ∀ r ∈ c.ranks, loadRank lu (s' ++ more) r.uuid = .ok r) : loadColumn lu (s' ++ more) c.uuid = .ok c := by
  obtain ⟨x0, s1, n, hp, hw, rfl⟩ := create_false h
  simp only [columnCls] at hp hw ⊢
  split_ifs at hp with hn
  simp only [Except.ok.injEq] at hp
  subst hp
  unfold writeColumn at hw
  simp only [Except.ok.injEq, Prod.mk.injEq] at hw
  obtain ⟨rfl, rfl, rfl⟩ := hw
  obtain ⟨xu, xt, xm, xr⟩ := c
  simp only [columnCls] at hnew ht hm hr hs hl ⊢
  have lr : ∀ tag, lt' (xr.map fun r => refNode "Ranks" r.uuid) tag = if "Ranks" = tag then xr.map fun r => refNode "Ranks" r.uuid else [] :=
    fun tag => lt_map _ "Ranks" (fun _ => rfl) _ _
  have hroot : rootFor (s ++ [⟨xu, "StratigraphicColumn", .mk "StratigraphicColumn" none none
      (baseKids xt xm ++ xr.map fun r => refNode "Ranks" r.uuid)⟩] ++ more) xu = some (.mk "StratigraphicColumn" none none
      (baseKids xt xm ++ xr.map fun r => refNode "Ranks" r.uuid)) := by
    rw [List.append_assoc, List.singleton_append, rootFor_fresh hnew]
  generalize (s ++ [⟨xu, "StratigraphicColumn", .mk "StratigraphicColumn" none none
      (baseKids xt xm ++ xr.map fun r => refNode "Ranks" r.uuid)⟩] ++ more) = st at *
  unfold loadColumn
  rw [hroot]
  simp only
  have o1 : ft (baseKids xt xm ++ xr.map fun r => refNode "Ranks" r.uuid) "Citation" = some (citation xt) := by
    simp [ft_append, ft_base_citation]
  have o2 : lt' (baseKids xt xm ++ xr.map fun r => refNode "Ranks" r.uuid) "ExtraMetadata" = xm.map metaNode := by
    simp [lt_append, lt_base, lr]
  have o3 : lt' (baseKids xt xm ++ xr.map fun r => refNode "Ranks" r.uuid) "Ranks" = xr.map fun r => refNode "Ranks" r.uuid := by
    simp [lt_append, lt_base, lr]
  rw [citation_title ht _ _ _ _ o1, load_meta hm _ _ _ _ o2, listOfTag_mk, o3]
  have hranks : mapRes (rankOfRef lu st) (xr.map fun r => refNode "Ranks" r.uuid) = .ok (xr.map id) := by
    apply mapRes_map
    intro r hr'
    simp [rankOfRef, refNode, findTag_mk, ft_cons, leaf, Node.tag, nodeUuid, Node.text, hl r hr']
  rw [hranks]
  simp only [List.map_id]
  have hadd : ∀ (rs pre : List Rank), (∀ r ∈ rs, r.index.isSome) →
      (pre ++ rs).Pairwise (fun a b => a.index.getD 0 ≤ b.index.getD 0) → addRanks pre rs = .ok (pre ++ rs) := by
    intro rs
    induction rs with
    | nil => intro pre _ _; simp [addRanks]
    | cons r rs ih =>
      intro pre h1 h2
      rw [addRanks, addRank]
      obtain ⟨i, hi⟩ := Option.isSome_iff_exists.1 (h1 r (by simp))
      rw [hi]
      simp only
      have e : (pre ++ [r]).mergeSort rankLe = pre ++ [r] := by
        apply List.mergeSort_of_pairwise
        have h3 : (pre ++ [r]).Sublist (pre ++ r :: rs) := List.Sublist.append_left (by simp) _
        exact (h2.sublist h3).imp fun h => by simpa [rankLe] using h
      rw [e, ih (pre ++ [r]) (fun q hq => h1 q (by simp [hq])) (by simpa using h2)]
      simp
  rw [hadd xr [] hr (by simpa using hs)]
  rfl

theorem loadRank_uuid {lu : String → Bool} {s : Store} {u : Nat} {r : Rank} (h : loadRank lu s u = .ok r) : r.uuid = u := by
  unfold loadRank at h
  cases e : rootFor s u with
  | none => simp [e] at h
  | some n =>
    simp only [e] at h
    split_ifs at h
    cases e1 : mapRes (loadRankUnit lu s) (listOfTag n "StratigraphicUnits") with
    | error x => simp [e1] at h
    | ok us =>
      simp only [e1] at h
      cases e2 : sortUnits s us with
      | error x => simp [e2] at h
      | ok us' =>
        simp only [e2] at h
        cases e3 : mapRes loadContact (listOfTag n "ContactInterpretation") with
        | error x => simp [e3] at h
        | ok cs =>
          simp only [e3, Except.ok.injEq] at h
          rw [← h]

/-- C154 says that storing a rank or a column twice adds it once.  It does not hold of ranks: two with the same content are only equal if
they are the same object, so that with reuse asked for the second is always added. -/
theorem C154_rank_reuse_violated {lu : String → Bool} {s s' : Store} {r r' : Rank} (hu : rootFor s r.uuid = none)
    (h : create (rankCls lu) s r true = .ok (s', r')) :
    ∃ n, s' = s ++ [⟨r.uuid, "StratigraphicColumnRankInterpretation", n⟩] := by
  have hp : (rankCls lu).prep s r = .ok r := by
    cases e : (rankCls lu).prep s r with
    | error x =>
      unfold create at h
      simp [e] at h
    | ok x =>
      simp only [rankCls] at e
      split_ifs at e
      exact e.symm
  obtain ⟨s1, n, hw, hs⟩ := never_reused (rankCls lu) hp hu (by
    intro u y hy hl
    have e := loadRank_uuid hl
    simp [rankCls, e, ne_of_roots hu hy]) h
  simp only [rankCls, writeRank] at hw hs
  cases e : r.featureUuid with
  | none => simp [e] at hw
  | some f =>
    simp only [e] at hw
    split_ifs at hw
    simp only [Except.ok.injEq, Prod.mk.injEq] at hw
    obtain ⟨rfl, rfl, rfl⟩ := hw
    exact ⟨_, hs⟩

theorem any_zip {a b : List Rank} (h : a.length = b.length) :
    (a.zip b).any (fun p => decide (p.1.uuid ≠ p.2.uuid)) = false ↔ a.map Rank.uuid = b.map Rank.uuid := by
  induction a generalizing b with
  | nil =>
    cases b with
    | nil => simp
    | cons y b => simp at h
  | cons x a ih =>
    cases b with
    | nil => simp at h
    | cons y b =>
      simp only [List.length_cons, Nat.add_right_cancel_iff] at h
      have := ih h
      simp only [List.zip_cons_cons, List.any_cons, Bool.or_eq_false_iff, List.map_cons, List.cons.injEq, this]
      simp

/-- C154: two columns are equivalent where they are the same part, or have the same ranks in the same order and the same metadata; the
titles are not compared. -/
theorem C154_column_equivalent {a b : Column} (ha : (a.md.map Prod.fst).Nodup) (hb : (b.md.map Prod.fst).Nodup) :
    eqvColumn true a b = true ↔ a.uuid = b.uuid ∨ (a.ranks.map Rank.uuid = b.ranks.map Rank.uuid ∧ SameMeta a.md b.md) := by
  unfold eqvColumn
  by_cases h1 : a.uuid = b.uuid
  · simp [h1]
  · rw [if_neg h1]
    by_cases h2 : a.ranks.length = b.ranks.length
    · rw [if_neg (by simp [h2])]
      by_cases h3 : a.ranks.map Rank.uuid = b.ranks.map Rank.uuid
      · rw [if_neg (by rw [(any_zip h2).2 h3]; simp)]
        have := eqvMeta_iff ha hb
        by_cases h4 : eqvMeta a.md b.md = true
        · simp [h1, h3, h4, this.1 h4]
        · have h5 : ¬ SameMeta a.md b.md := fun h => h4 (this.2 h)
          simp [h1, h3, h4, h5]
      · rw [if_pos (by
          rw [← Bool.not_eq_false]
          exact fun h => h3 ((any_zip h2).1 h))]
        simp [h1, h3]
    · rw [if_pos (by simp [h2])]
      have : a.ranks.map Rank.uuid ≠ b.ranks.map Rank.uuid := fun h => h2 (by simpa using congrArg List.length h)
      simp [h1, this]

/-- C154: with reuse asked for, a column which has the ranks and metadata of one in the model is not added, but takes its uuid, where every
column of the model can be loaded. -/
theorem C154_column_reuse {lu : String → Bool} {s s' : Store} {c c' old : Column} (hu : rootFor s c.uuid = none)
    (hm : (c.md.map Prod.fst).Nodup) (h : create (columnCls lu) s c true = .ok (s', c'))
    (hall : ∀ p ∈ s, p.typ = "StratigraphicColumn" → ∃ y, loadColumn lu s p.uuid = .ok y ∧ (y.md.map Prod.fst).Nodup)
    (hold : ∃ p ∈ s, p.typ = "StratigraphicColumn" ∧ loadColumn lu s p.uuid = .ok old)
    (hsame : c.ranks.map Rank.uuid = old.ranks.map Rank.uuid ∧ SameMeta c.md old.md) :
    s' = s ∧ ∃ p ∈ s, p.typ = "StratigraphicColumn" ∧ c' = { c with uuid := p.uuid } ∧
      ∃ y, loadColumn lu s p.uuid = .ok y ∧ y.ranks.map Rank.uuid = c.ranks.map Rank.uuid ∧ SameMeta c.md y.md := by
  have hp : (columnCls lu).prep s c = .ok c := by
    cases e : (columnCls lu).prep s c with
    | error x =>
      unfold create at h
      simp [e] at h
    | ok x =>
      simp only [columnCls] at e
      split_ifs at e
      exact e.symm
  rcases create_spec (columnCls lu) hp h with ⟨hs, r⟩ | ⟨_, r, _⟩
  · refine ⟨hs, ?_⟩
    rcases r with ⟨_, hr⟩ | ⟨p, hp', ht, ⟨y, hy, he⟩, hx⟩
    · simp only [columnCls] at hr
      rw [hu] at hr
      simp at hr
    · obtain ⟨z, hz, hzm⟩ := hall p hp' ht
      simp only [columnCls] at hy he hx
      rw [hy] at hz
      simp only [Except.ok.injEq] at hz
      subst hz
      simp only [Except.ok.injEq] at he
      rcases (C154_column_equivalent hm hzm).1 he with h1 | ⟨h1, h2⟩
      · have : y.uuid = p.uuid := by
          unfold loadColumn at hy
          cases e : rootFor s p.uuid with
          | none => simp [e] at hy
          | some n =>
            simp only [e] at hy
            cases e1 : mapRes (rankOfRef lu s) (listOfTag n "Ranks") with
            | error x => simp [e1] at hy
            | ok rs =>
              simp only [e1] at hy
              cases e2 : addRanks [] rs with
              | error x => simp [e2] at hy
              | ok rs' =>
                simp only [e2, Except.ok.injEq] at hy
                rw [← hy]
        exact absurd (h1.trans this) (ne_of_roots hu (rootFor_mem hp'))
      · exact ⟨p, hp', ht, hx, y, hy, h1.symm, h2⟩
  · exfalso
    rcases r with ⟨p, hp', ht, e, he⟩ | r
    · obtain ⟨y, hy, _⟩ := hall p hp' ht
      simp only [columnCls] at he
      rw [hy] at he
      simp at he
    · obtain ⟨p, hp', ht, hl⟩ := hold
      obtain ⟨y, hy, he⟩ := r p hp' ht
      obtain ⟨z, hz, hzm⟩ := hall p hp' ht
      simp only [columnCls] at hy he
      rw [hl] at hy hz
      simp only [Except.ok.injEq] at hy hz he
      subst hy hz
      rw [(C154_column_equivalent hm hzm).2 (Or.inr hsame)] at he
      simp at he

/-! ### A rank and a column which can be stored -/

/-- the model with a feature and a unit of it, and an organization feature -/
def exBase : Res (Store × StratUnit) := create (stratCls fun u => u == "m") [exStratFeature, exOrg] exStrat false
where
  /-- an organization feature -/
  exOrg : Part := ⟨3, "OrganizationFeature", .mk "OrganizationFeature" none none (baseKids (some "O") [])⟩

/-- a rank of that unit -/
def exRank : Rank := ⟨4, some "R", [], some 3, some "depth", (none, none), some 0, [(0, exStrat)], []⟩

/-- a column of that rank -/
def exColumn : Column := ⟨5, some "C", [], [exRank]⟩

theorem exBase_ok : ∃ n, exBase = .ok ([exStratFeature, exBase.exOrg] ++ [⟨2, "StratigraphicUnitInterpretation", n⟩], exStrat) := by
  have hw : ∃ n, writeStrat (fun u => u == "m") [exStratFeature, exBase.exOrg] exStrat = .ok ([exStratFeature, exBase.exOrg], n, exStrat) := by
    have hf : featureRoot .assertion [exStratFeature, exBase.exOrg] exStrat.feature = .ok 1 := rfl
    unfold writeStrat unitKids
    rw [hf]
    simp only
    rw [if_neg (by decide +kernel), if_neg (by decide +kernel), if_neg (by decide +kernel)]
    simp only
    rw [if_neg (by decide +kernel)]
    exact ⟨_, rfl⟩
  obtain ⟨n, hn⟩ := hw
  have hp : (stratCls fun u => u == "m").prep [exStratFeature, exBase.exOrg] exStrat = .ok exStrat := rfl
  have hw : (stratCls fun u => u == "m").write [exStratFeature, exBase.exOrg] exStrat = .ok ([exStratFeature, exBase.exOrg], n, exStrat) := hn
  unfold exBase create
  rw [hp]
  simp only [Bool.false_eq_true, if_false]
  rw [hw]
  exact ⟨_, rfl⟩

/-- they are stored and loaded again -/
example : ∃ s s' s'' u r c, exBase = .ok (s, u) ∧ create (rankCls fun u => u == "m") s exRank false = .ok (s', r) ∧
    create (columnCls fun u => u == "m") s' exColumn false = .ok (s'', c) ∧
    loadRank (fun u => u == "m") s'' 4 = .ok exRank ∧ loadColumn (fun u => u == "m") s'' 5 = .ok exColumn := by
  have ht : ∀ t, t ≠ "" → strip t = t → GoodTitle (some t) := fun t h1 h2 => ⟨t, rfl, h2, h1⟩
  have hm : GoodMeta [] := ⟨by simp, by simp⟩
  obtain ⟨n, hn⟩ := exBase_ok
  have hu : ∀ more, loadStrat (fun u => u == "m") ([exStratFeature, exBase.exOrg] ++ [⟨2, "StratigraphicUnitInterpretation", n⟩] ++ more) 2 =
      .ok exStrat := fun more => C153_stratigraphic_unit more rfl rfl rfl (ht _ (by decide +kernel) (by decide +kernel)) hm hn
  have hr : ∃ m, create (rankCls fun u => u == "m") ([exStratFeature, exBase.exOrg] ++ [⟨2, "StratigraphicUnitInterpretation", n⟩]) exRank false =
      .ok ([exStratFeature, exBase.exOrg] ++ [⟨2, "StratigraphicUnitInterpretation", n⟩] ++ [⟨4, "StratigraphicColumnRankInterpretation", m⟩],
        exRank) := ⟨_, rfl⟩
  obtain ⟨m, hr⟩ := hr
  have hrl : ∀ more, loadRank (fun u => u == "m") ([exStratFeature, exBase.exOrg] ++ [⟨2, "StratigraphicUnitInterpretation", n⟩] ++
      [⟨4, "StratigraphicColumnRankInterpretation", m⟩] ++ more) 4 = .ok exRank := by
    intro more
    refine C154_rank_stored more rfl (ht _ (by decide +kernel) (by decide +kernel)) hm (by simp [exRank]) (by simp [exRank])
      (by simp [exRank]) hr ?_
    intro u hu'
    simp only [exRank, List.mem_singleton] at hu'
    subst hu'
    refine ⟨rfl, ?_⟩
    have := hu ([⟨4, "StratigraphicColumnRankInterpretation", m⟩] ++ more)
    rw [← List.append_assoc] at this
    exact this
  have hc : ∃ q, create (columnCls fun u => u == "m") ([exStratFeature, exBase.exOrg] ++ [⟨2, "StratigraphicUnitInterpretation", n⟩] ++
      [⟨4, "StratigraphicColumnRankInterpretation", m⟩]) exColumn false = .ok ([exStratFeature, exBase.exOrg] ++
        [⟨2, "StratigraphicUnitInterpretation", n⟩] ++ [⟨4, "StratigraphicColumnRankInterpretation", m⟩] ++
        [⟨5, "StratigraphicColumn", q⟩], exColumn) := ⟨_, rfl⟩
  obtain ⟨q, hc⟩ := hc
  refine ⟨_, _, _, _, _, _, hn, hr, hc, hrl _, ?_⟩
  have := C154_column_stored (lu := fun u => u == "m") [] rfl (ht _ (by decide +kernel) (by decide +kernel)) hm (by simp [exColumn, exRank])
    (by simp [exColumn]) hc (by
      intro r hr'
      simp only [exColumn, List.mem_singleton] at hr'
      subst hr'
      rw [List.append_nil]
      exact hrl _)
  rw [List.append_nil] at this
  exact this

/-- units and contacts are accepted -/
example : ∃ r', setContacts [⟨9, "HorizonInterpretation", .mk "HorizonInterpretation" none none []⟩]
    { exRank with units := [(0, exStrat), (1, { exStrat with uuid := 6 })] } [9] none (some "erosion") = .ok r' :=
  C154_contacts_accepted (by decide) (by simp) (by intro m hm; cases hm; decide +kernel) (by
    intro u hu
    simp only [List.mem_singleton] at hu
    subst hu
    rfl)

/-- the unit of the model is found by its number -/
example : ∃ s u l, exBase = .ok (s, u) ∧ setUnits (fun u => u == "m") s [2] = .ok l := by
  obtain ⟨s, u, h, hl⟩ : ∃ s u, exBase = .ok (s, u) ∧ (typeOf s 2 = some "StratigraphicUnitInterpretation" ∧
      ∃ x, loadStrat (fun u => u == "m") s 2 = .ok x) := by
    obtain ⟨n, hn⟩ := exBase_ok
    refine ⟨_, _, hn, rfl, exStrat, ?_⟩
    have := C153_stratigraphic_unit [] rfl rfl rfl ⟨_, rfl, by decide +kernel, by decide +kernel⟩ ⟨by simp [exStrat], by simp [exStrat]⟩ hn
    rw [List.append_nil] at this
    exact this
  obtain ⟨l, hl⟩ := C154_units_accepted (us := [2]) (s := s) (lu := fun u => u == "m") (by
    intro v hv
    simp only [List.mem_singleton] at hv
    subst hv
    exact hl)
  exact ⟨s, u, l, h, hl⟩

/-- a good contact -/
example : GoodContact ⟨0, "stratigraphic unit to stratigraphic unit", "stops at", 1, 2, some "older", none, some "younger", some "erosion",
    some 3⟩ := by
  refine ⟨by decide, by decide +kernel, by decide +kernel, ?_, ?_, ?_, ?_⟩ <;> rintro t ht <;> cases ht <;> decide +kernel

end Verif.Organize
