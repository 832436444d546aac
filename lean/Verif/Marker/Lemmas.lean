import Verif.Marker.Spec
import Verif.Organize.Lemmas
import Verif.Organize.PropsRound
import Mathlib.Tactic.Push

/-!
# Lemmas: wellbore markers
-/

namespace Verif.Marker

open Verif.Py Verif.Organize

theorem boundaryKind_eq {k g : String} (h : KindIn k g) : boundaryKind (some k) = .ok g := by
  cases h with
  | geologic h => rcases h with rfl | rfl | rfl <;> rfl
  | marker h => rcases h with rfl | rfl | rfl | rfl | rfl | rfl <;> rfl
  | contact h => rcases h with rfl | rfl | rfl | rfl | rfl <;> rfl

theorem kind_clean {k g : String} (h : KindIn k g) : Clean k := by
  cases h with
  | geologic h => rcases h with rfl | rfl | rfl <;> exact ⟨by decide +kernel, by decide +kernel⟩
  | marker h => rcases h with rfl | rfl | rfl | rfl | rfl | rfl <;> exact ⟨by decide +kernel, by decide +kernel⟩
  | contact h => rcases h with rfl | rfl | rfl | rfl | rfl <;> exact ⟨by decide +kernel, by decide +kernel⟩

theorem kind_valid {k : String} (h : k ∈ validKinds) : ∃ g, KindIn k g := by
  simp only [validKinds, List.mem_cons, List.not_mem_nil, or_false] at h
  rcases h with rfl | rfl | rfl | rfl | rfl | rfl | rfl | rfl | rfl | rfl | rfl | rfl | rfl | rfl
  · exact ⟨_, .geologic (by simp)⟩
  · exact ⟨_, .geologic (by simp)⟩
  · exact ⟨_, .geologic (by simp)⟩
  · exact ⟨_, .marker (by simp)⟩
  · exact ⟨_, .marker (by simp)⟩
  · exact ⟨_, .marker (by simp)⟩
  · exact ⟨_, .marker (by simp)⟩
  · exact ⟨_, .marker (by simp)⟩
  · exact ⟨_, .marker (by simp)⟩
  · exact ⟨_, .contact (by simp)⟩
  · exact ⟨_, .contact (by simp)⟩
  · exact ⟨_, .contact (by simp)⟩
  · exact ⟨_, .contact (by simp)⟩
  · exact ⟨_, .contact (by simp)⟩

theorem group_cases {k g : String} (h : KindIn k g) : g = "GeologicBoundaryKind" ∨ g = "FluidMarker" ∨ g = "FluidContact" := by
  cases h <;> simp

theorem orTitle_eq (t d) : orTitle t d = titleOr t d := by
  unfold orTitle titleOr falsy
  cases t with
  | none => rfl
  | some x => by_cases h : x = "" <;> simp [h]

theorem orTitle_good {t : Option String} {d : String} (h : TitleOrNone t) (hd : Clean d) : GoodTitle (orTitle t d) := by
  rcases h with rfl | rfl | ⟨x, rfl, hx⟩
  · exact ⟨d, rfl, hd⟩
  · exact ⟨d, rfl, hd⟩
  · exact ⟨x, by simp [orTitle, falsy_clean hx], hx⟩

theorem citable_raw {s u} (h : Citable s u) : ∃ t, (rootFor s u).bind rawTitle = some t := by
  obtain ⟨n, c, t, hn, hc, ht⟩ := h
  exact ⟨rawText t, by simp [hn, rawTitle, hc, ht]⟩

theorem interpKids_eq {s i} (h : ∀ u, i = some u → Citable s u) : interpKids s i = .ok (optRef "Interpretation" i) := by
  cases i with
  | none => rfl
  | some u =>
    obtain ⟨t, ht⟩ := citable_raw (h u rfl)
    simp [interpKids, ht, optRef]

/-- The node written for a marker. -/
theorem markerNode_eq {s m} (h : GoodMark s m) (title : String) : ∃ k g, m.kind = some k ∧ KindIn k g ∧
    markerNode s m title = .ok (.mk "WellboreMarker" none none
      ([leaf "@uuid" (.uuid m.uuid), citation (if falsy m.title then some title else m.title), leaf g (.str k)] ++
        optRef "Interpretation" m.interp ++ m.md.map metaNode)) := by
  obtain ⟨k, g, hk, hg⟩ := h.kind
  refine ⟨k, g, hk, hg, ?_⟩
  unfold markerNode
  rw [hk, boundaryKind_eq hg]
  simp only
  rw [interpKids_eq h.interp]
  simp

theorem citation_text (t : Option String) : findText (citation t) "Title" =
    (let x := if falsy t then "untitled" else t.getD ""; if strip x = "" then none else some (strip x)) := by
  simp [citation, findText, findTag_mk, ft_cons, leaf, Node.tag, nodeText, Node.text]

theorem leaf_tag (t x) : (leaf t x).tag = t := rfl
theorem ref_tag (t x) : (refNode t x).tag = t := rfl
theorem ref_uuid (t u) : (findTag (refNode t u) "UUID").bind nodeUuid = some u := rfl
theorem mk_tag (t u x k) : (Node.mk t u x k).tag = t := rfl

/-- What is read from a marker's node. -/
theorem loadMarker_eq {s m title n} (h : GoodMark s m) (hn : markerNode s m title = .ok n) (s2 : Store) :
    loadMarker s2 n = .ok ⟨m.uuid, m.kind, m.interp,
      findText (citation (if falsy m.title then some title else m.title)) "Title", m.md⟩ := by
  obtain ⟨k, g, hk, hg, e⟩ := markerNode_eq h title
  rw [e] at hn
  simp only [Except.ok.injEq] at hn
  subst hn
  have hm : ∀ tag, tag ≠ "ExtraMetadata" → ft (m.md.map metaNode) tag = none := fun tag ht =>
    ft_map_ne metaNode "ExtraMetadata" (fun _ => rfl) _ _ (Ne.symm ht)
  have hc : ∀ t, (citation t).tag = "Citation" := fun _ => rfl
  have hl : lt' (m.md.map metaNode) "ExtraMetadata" = m.md.map metaNode := by
    rw [lt_map metaNode "ExtraMetadata" (fun _ => rfl)]
    simp
  have hi : refUuid (.mk "WellboreMarker" none none
      ([leaf "@uuid" (.uuid m.uuid), citation (if falsy m.title then some title else m.title), leaf g (.str k)] ++
        optRef "Interpretation" m.interp ++ m.md.map metaNode)) "Interpretation" = m.interp := by
    unfold refUuid
    rw [findTag_mk]
    have : g ≠ "Interpretation" := by rcases group_cases hg with rfl | rfl | rfl <;> decide
    cases e : m.interp <;>
      simp [ft_cons, ft_nil, ft_append, ft_optRef, hm, hc, leaf_tag, this, ref_uuid]
  unfold loadMarker
  have h1 : findTag (Node.mk "WellboreMarker" none none
      ([leaf "@uuid" (.uuid m.uuid), citation (if falsy m.title then some title else m.title), leaf g (.str k)] ++
        optRef "Interpretation" m.interp ++ m.md.map metaNode)) "Citation" =
        some (citation (if falsy m.title then some title else m.title)) := by
    rw [findTag_mk]
    simp [ft_cons, hc, leaf_tag]
  have h2 : kindFromTags (Node.mk "WellboreMarker" none none
      ([leaf "@uuid" (.uuid m.uuid), citation (if falsy m.title then some title else m.title), leaf g (.str k)] ++
        optRef "Interpretation" m.interp ++ m.md.map metaNode)) = some k := by
    have hx : nodeText (leaf g (.str k)) = some k := nodeText_leaf (kind_clean hg)
    unfold kindFromTags findText
    simp only [findTag_mk]
    rcases group_cases hg with rfl | rfl | rfl <;>
      simp [ft_cons, ft_nil, ft_append, ft_optRef, hm, hc, leaf_tag, hx]
  have h3 : findTag (Node.mk "WellboreMarker" none none
      ([leaf "@uuid" (.uuid m.uuid), citation (if falsy m.title then some title else m.title), leaf g (.str k)] ++
        optRef "Interpretation" m.interp ++ m.md.map metaNode)) "@uuid" = some (leaf "@uuid" (.uuid m.uuid)) := by
    rw [findTag_mk]
    simp [ft_cons, leaf_tag]
  have h4 : loadMeta (Node.mk "WellboreMarker" none none
      ([leaf "@uuid" (.uuid m.uuid), citation (if falsy m.title then some title else m.title), leaf g (.str k)] ++
        optRef "Interpretation" m.interp ++ m.md.map metaNode)) = m.md := by
    apply load_meta h.md
    have : g ≠ "ExtraMetadata" := by rcases group_cases hg with rfl | rfl | rfl <;> decide
    simp [lt_cons, lt_nil, lt_append, lt_optRef, hl, hc, leaf_tag, this]
  rw [h1]
  simp only
  rw [h2, h3, h4, hi, hk]
  simp [leaf, nodeUuid, Node.text]

theorem generated_ok {s m wn} (h : GoodMark s m) : ∃ t, generatedTitle s wn m = .ok t := by
  obtain ⟨k, g, hk, hg⟩ := h.kind
  unfold generatedTitle
  rw [hk, boundaryKind_eq hg]
  exact ⟨_, rfl⟩

theorem frameMarker_ok {s m wn} (h : GoodMark s m) : ∃ n t, generatedTitle s wn m = .ok t ∧ frameMarker s wn m = .ok n ∧
    markerNode s m t = .ok n ∧ n.tag = "WellboreMarker" := by
  obtain ⟨t, ht⟩ := generated_ok (wn := wn) h
  obtain ⟨k, g, hk, hg, e⟩ := markerNode_eq h t
  refine ⟨_, t, ht, ?_, e, rfl⟩
  unfold frameMarker
  rw [ht]
  exact e

theorem mapR_ok {α β : Type} {f : α → Res β} {l : List α} (h : ∀ a ∈ l, ∃ b, f a = .ok b) :
    ∃ bs, mapR f l = .ok bs ∧ List.Forall₂ (fun a b => f a = .ok b) l bs := by
  induction l with
  | nil => exact ⟨[], rfl, .nil⟩
  | cons a l ih =>
    obtain ⟨b, hb⟩ := h a (by simp)
    obtain ⟨bs, h1, h2⟩ := ih fun x hx => h x (by simp [hx])
    exact ⟨b :: bs, by simp [mapR, hb, h1], .cons hb h2⟩

theorem mapR_forall₂ {α β : Type} {f : α → Res β} {l : List α} {bs : List β} (h : mapR f l = .ok bs) :
    List.Forall₂ (fun a b => f a = .ok b) l bs := by
  induction l generalizing bs with
  | nil =>
    simp only [mapR, Except.ok.injEq] at h
    subst h
    exact .nil
  | cons a l ih =>
    unfold mapR at h
    cases e : f a with
    | error x => simp [e] at h
    | ok b =>
      cases e2 : mapR f l with
      | error x => simp [e, e2] at h
      | ok bs' =>
        simp only [e, e2, Except.ok.injEq] at h
        subst h
        exact .cons e (ih e2)

theorem mapR_error {α β : Type} {f : α → Res β} {l : List α} {a : α} (ha : a ∈ l) {e} (h : f a = .error e) :
    ∃ e', mapR f l = .error e' := by
  induction l with
  | nil => simp at ha
  | cons b l ih =>
    unfold mapR
    cases e1 : f b with
    | error x => exact ⟨x, rfl⟩
    | ok y =>
      rcases List.mem_cons.1 ha with rfl | ha
      · rw [h] at e1
        simp at e1
      · obtain ⟨e', he⟩ := ih ha
        exact ⟨e', by simp [he]⟩

theorem lookup_append {α β : Type} [BEq α] [LawfulBEq α] {l m : List (α × β)} {a : α} (h : ∀ q ∈ l, q.1 ≠ a) :
    (l ++ m).lookup a = m.lookup a := by
  induction l with
  | nil => rfl
  | cons q l ih =>
    have hq : (a == q.1) = false := by simpa using Ne.symm (h q (by simp))
    rw [List.cons_append, List.lookup_cons, hq]
    exact ih fun x hx => h x (by simp [hx])

theorem typeOf_append {s : Store} {u : Nat} (h : (typeOf s u).isSome) (t : Store) : typeOf (s ++ t) u = typeOf s u := by
  unfold typeOf at h ⊢
  rw [List.find?_append]
  cases e : s.find? fun p => p.uuid == u with
  | none => simp [e] at h
  | some p => simp

end Verif.Marker
