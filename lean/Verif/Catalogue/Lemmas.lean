import Verif.Catalogue.Model
import Verif.Xml.Props

/-! Helper lemmas for the catalogue. -/

namespace Verif.Catalogue
open Verif.Py Verif.Xml

/-! ## sets -/

theorem mem_sAdd (x y : Nat) (s : List Nat) : y ∈ sAdd x s ↔ y = x ∨ y ∈ s := by
  unfold sAdd
  by_cases h : x ∈ s
  · rw [if_pos h]
    constructor
    · exact fun h => .inr h
    · rintro (rfl | h')
      · exact h
      · exact h'
  · rw [if_neg h]; simp [or_comm]

theorem nodup_sAdd (x : Nat) (s : List Nat) (h : s.Nodup) : (sAdd x s).Nodup := by
  unfold sAdd
  by_cases hx : x ∈ s
  · rw [if_pos hx]; exact h
  · rw [if_neg hx, List.nodup_append]
    refine ⟨h, by simp, ?_⟩
    intro a ha b hb
    simp at hb
    subst hb
    rintro rfl
    exact hx ha

/-! ## removal: what changes -/

theorem removeFromRelatives_frame (part : List Char) (ps : List (List Char)) (s : Cat) :
    ∃ f, (removeFromRelatives part ps s).1 = { s with relsForest := f } := by
  induction ps generalizing s with
  | nil => exact ⟨s.relsForest, rfl⟩
  | cons p ps ih =>
    unfold removeFromRelatives
    cases relsPartName p with
    | none => exact ⟨s.relsForest, rfl⟩
    | some q =>
      cases h : s.relsForest.get? q with
      | none => exact ⟨s.relsForest, by simp [h]⟩
      | some v =>
        obtain ⟨v, ts⟩ := v
        obtain ⟨f, hf⟩ := ih { s with relsForest := s.relsForest.set q (v, ts.filter (· ≠ part)) }
        refine ⟨f, ?_⟩
        simp only [h]
        rw [hf]

theorem removeRelsPart_frame (part : List Char) (s : Cat) :
    ∃ f, (removeRelsPart part s).1 = { s with relsForest := f } := by
  unfold removeRelsPart
  cases uuidInPartName part with
  | error e => exact ⟨s.relsForest, rfl⟩
  | ok o =>
    cases o with
    | none => exact ⟨s.relsForest, rfl⟩
    | some u =>
      dsimp only
      cases filteredByRelated s s.objects.keys u with
      | error e => exact ⟨s.relsForest, rfl⟩
      | ok o =>
        cases o with
        | none => exact ⟨s.relsForest, rfl⟩
        | some related =>
          dsimp only
          obtain ⟨f, hf⟩ := removeFromRelatives_frame part related s
          generalize hx : removeFromRelatives part related s = x at hf
          obtain ⟨s', r⟩ := x
          dsimp only at hf
          subst hf
          cases r with
          | error e => exact ⟨f, rfl⟩
          | ok _ =>
            unfold andThen
            dsimp only
            cases relsPartName part with
            | none => exact ⟨f, rfl⟩
            | some q =>
              dsimp only
              cases f.get? q with
              | none => exact ⟨f, rfl⟩
              | some _ => exact ⟨f.erase q, rfl⟩

/-- the lookup by uuid after the removal of a part has been attempted: unchanged, or without the uuid
in the part name -/
def ByUuidAfter (part : List Char) (s s' : Cat) : Prop :=
  (∃ u, uuidInPartName part = .ok (some u) ∧ s'.byUuid = s.byUuid.erase u) ∨
  ((∀ u, uuidInPartName part ≠ .ok (some u)) ∧ s'.byUuid = s.byUuid)

/-- what the removal of a part does, in all cases -/
inductive Removal (part : List Char) (s s' : Cat) : Res Unit → Prop where
  | early (e : PyErr) (h1 : s'.parts = s.parts) (h2 : s'.objects = s.objects)
      (h3 : s'.overrides = s.overrides) (h4 : s'.byUuid = s.byUuid) (h5 : s'.rels = s.rels) :
      Removal part s s' (.error e)
  | absent (h0 : s.parts.get? part = none) (h1 : s'.parts = s.parts) (h2 : s'.objects = s.objects)
      (h3 : s'.overrides = s.overrides) (h4 : ByUuidAfter part s s') (h5 : s'.rels = s.rels) :
      Removal part s s' (.error .key)
  | rels (i : Info) (e : PyErr) (h0 : s.parts.get? part = some i) (h1 : s'.parts = s.parts)
      (h2 : s'.objects = s.objects) (h3 : s'.overrides = s.overrides) (h4 : ByUuidAfter part s s')
      (h5 : delRels i.uuid s.rels = (s'.rels, .error e)) :
      Removal part s s' (.error e)
  | external (i : Info) (h0 : s.parts.get? part = some i) (h1 : s'.parts = s.parts.erase part)
      (h : s.objects.get? part = none)
      (h2 : s'.objects = s.objects) (h3 : s'.overrides = s.overrides) (h4 : ByUuidAfter part s s')
      (h5 : delRels i.uuid s.rels = (s'.rels, .ok ())) :
      Removal part s s' (.error .key)
  | done (i : Info) (h0 : s.parts.get? part = some i) (h1 : s'.parts = s.parts.erase part)
      (h : s.objects.get? part = some ())
      (h2 : s'.objects = s.objects.erase part) (h3 : s'.overrides = removeOverride part s.overrides)
      (h4 : ByUuidAfter part s s') (h5 : delRels i.uuid s.rels = (s'.rels, .ok ())) :
      Removal part s s' (.ok ())

theorem removePart_cases (part : List Char) (rr : Bool) (s : Cat) :
    Removal part s (removePart part rr s).1 (removePart part rr s).2 := by
  unfold removePart
  have hfr : ∃ f r, (if rr then removeRelsPart part s else (s, .ok ())) =
      (({ s with relsForest := f } : Cat), (r : Res Unit)) := by
    cases rr with
    | false => exact ⟨s.relsForest, .ok (), rfl⟩
    | true =>
      obtain ⟨f, hf⟩ := removeRelsPart_frame part s
      refine ⟨f, (removeRelsPart part s).2, ?_⟩
      simp only [if_true]
      rw [← hf]
  obtain ⟨f, r, hfr⟩ := hfr
  rw [hfr]
  cases r with
  | error e => exact .early e rfl rfl rfl rfl rfl
  | ok _ =>
    simp only [andThen]
    generalize hs1 : ({ s with relsForest := f } : Cat) = s1
    have hp : s1.parts = s.parts := by rw [← hs1]
    have ho : s1.objects = s.objects := by rw [← hs1]
    have hv : s1.overrides = s.overrides := by rw [← hs1]
    have hb : s1.byUuid = s.byUuid := by rw [← hs1]
    have hr : s1.rels = s.rels := by rw [← hs1]
    have hd : (∃ e, delUuidToPart part s1 = (s1, .error e)) ∨
        ∃ b, delUuidToPart part s1 = ({ s1 with byUuid := b }, .ok ()) ∧
          ((∃ u, uuidInPartName part = .ok (some u) ∧ b = s.byUuid.erase u) ∨
           ((∀ u, uuidInPartName part ≠ .ok (some u)) ∧ b = s.byUuid)) := by
      unfold delUuidToPart
      cases h : uuidInPartName part with
      | error e => exact .inl ⟨e, rfl⟩
      | ok o =>
        right
        cases o with
        | none => exact ⟨s1.byUuid, rfl, .inr ⟨by simp, hb⟩⟩
        | some u => exact ⟨s1.byUuid.erase u, rfl, .inl ⟨u, rfl, by rw [hb]⟩⟩
    rcases hd with ⟨e, hd⟩ | ⟨b, hd, hb'⟩
    · rw [hd]; exact .early e hp ho hv hb hr
    · rw [hd]
      dsimp only
      unfold delUuidRelations
      dsimp only
      cases hpp : s1.parts.get? part with
      | none =>
        rw [hp] at hpp
        exact .absent hpp hp ho hv hb' hr
      | some i =>
        dsimp only
        rw [hp] at hpp
        cases hdr : delRels i.uuid s1.rels with
        | mk d r =>
          rw [hr] at hdr
          cases r with
          | error e => exact .rels i e hpp hp ho hv hb' hdr
          | ok _ =>
            dsimp only
            rw [hp, hpp]
            dsimp only
            cases hob : s1.objects.get? part with
            | none =>
              rw [ho] at hob
              exact .external i hpp rfl hob ho hv hb' hdr
            | some _ =>
              rw [ho] at hob
              exact .done i hpp rfl hob (by dsimp only; rw [ho]) (by dsimp only; rw [hv]) hb' hdr

/-! ## addition: what changes -/

/-- the content type under which a part is filed -/
def filedType (ctype : List Char) : List Char :=
  match ctype with
  | [] => []
  | c :: _ => if isUpperAscii c then objPrefix ++ ctype else ctype

theorem addPart_cases (ctype : List Char) (u : Nat) (sp : Option Nat) (refs : List Nat) (ar : Bool)
    (sub : List Char) (s : Cat) :
    (∃ e, addPart ctype u sp refs ar sub s = (s, .error e)) ∨
    ∃ part i s', addPart ctype u sp refs ar sub s = (s', .ok ()) ∧
      partNameForObject (filedType ctype) u false sub = .ok part ∧
      i = ⟨filedType ctype, u, sp, refs⟩ ∧
      s'.relsPresent = s.relsPresent ∧
      s'.parts = s.parts.set part i ∧
      s'.objects = (if isObjPart part then s.objects.set part () else s.objects) ∧
      s'.byUuid = s.byUuid.set u part ∧ s'.overrides = s.overrides ++ [part] ∧
      s'.rels = addRelations u part i.allRefs s.rels := by
  unfold addPart filedType
  cases ctype with
  | nil => exact .inl ⟨_, rfl⟩
  | cons c cs =>
    dsimp only
    generalize (if isUpperAscii c then objPrefix ++ c :: cs else c :: cs) = ct
    cases h : partNameForObject ct u false sub with
    | error e => exact .inl ⟨e, rfl⟩
    | ok part =>
      right
      dsimp only
      refine ⟨part, _, _, rfl, rfl, rfl, ?_, ?_, ?_, ?_, ?_, ?_⟩ <;>
      · unfold addToObjects
        cases isObjPart part <;> cases ar <;> cases s.relsPresent <;> cases relsPartName part <;> rfl

/-! ## the other operations leave the lookups alone -/

theorem addTarget_frame (q t : List Char) (s : Cat) : ∃ f, addTarget q t s = { s with relsForest := f } := by
  unfold addTarget
  cases s.relsForest.get? q with
  | none => exact ⟨s.relsForest, rfl⟩
  | some v =>
    obtain ⟨v, ts⟩ := v
    by_cases h : t ∈ ts
    · exact ⟨s.relsForest, by simp [h]⟩
    · exact ⟨s.relsForest.set q (v, ts ++ [t]), by simp [h]⟩

theorem relate_cases (ta : List Char) (ua : Nat) (tb : List Char) (ub : Nat) (s : Cat) :
    ∃ f d, (relate ta ua tb ub s).1 = { s with relsForest := f, rels := d } ∧
      (d = s.rels ∨ ∃ pa qa va ta' pb qb vb tb', partNameForObject ta ua false [] = .ok pa ∧ relsPartName pa = some qa ∧
        s.relsForest.get? qa = some (va, ta') ∧ partNameForObject tb ub false [] = .ok pb ∧
        relsPartName pb = some qb ∧ s.relsForest.get? qb = some (vb, tb') ∧
        d = addSoft vb va (addSoft va vb s.rels)) := by
  unfold relate
  by_cases hrp : s.relsPresent
  · rw [if_pos hrp]
    cases hpa : partNameForObject ta ua false [] with
    | error e => exact ⟨s.relsForest, s.rels, rfl, .inl rfl⟩
    | ok pa =>
      cases hpb : partNameForObject tb ub false [] with
      | error e => exact ⟨s.relsForest, s.rels, rfl, .inl rfl⟩
      | ok pb =>
        dsimp only
        cases hqa : relsPartName pa with
        | none => exact ⟨s.relsForest, s.rels, rfl, .inl rfl⟩
        | some qa =>
          dsimp only
          cases hva : s.relsForest.get? qa with
          | none => exact ⟨s.relsForest, s.rels, rfl, .inl rfl⟩
          | some v =>
            obtain ⟨va, ta'⟩ := v
            dsimp only
            cases hqb : relsPartName pb with
            | none => exact ⟨s.relsForest, s.rels, rfl, .inl rfl⟩
            | some qb =>
              dsimp only
              cases hvb : s.relsForest.get? qb with
              | none => exact ⟨s.relsForest, s.rels, rfl, .inl rfl⟩
              | some v =>
                obtain ⟨vb, tb'⟩ := v
                dsimp only
                obtain ⟨f1, h1⟩ := addTarget_frame qa pb s
                rw [h1]
                obtain ⟨f2, h2⟩ := addTarget_frame qb pa { s with relsForest := f1 }
                rw [h2]
                by_cases hx : (hasSub epcExternalPart qa || hasSub epcExternalPart qb) = true
                · rw [if_pos hx]
                  exact ⟨f2, s.rels, rfl, .inl rfl⟩
                · rw [if_neg hx]
                  exact ⟨f2, _, rfl, .inr ⟨pa, qa, va, ta', pb, qb, vb, tb', rfl, hqa, hva, rfl, hqb, hvb, rfl⟩⟩
  · rw [if_neg hrp]
    exact ⟨s.relsForest, s.rels, rfl, .inl rfl⟩

theorem changeSupport_cases (part : List Char) (old new : Nat) (s : Cat) :
    (∃ b, changeSupport part old new s = (s, .ok b)) ∨
    ∃ i d, s.parts.get? part = some i ∧ i.support = some old ∧
      ((∃ e, changeSupportRels i.uuid old new s.rels = (d, .error e) ∧
          changeSupport part old new s = ({ s with rels := d }, .error e)) ∨
       (changeSupportRels i.uuid old new s.rels = (d, .ok ()) ∧
          changeSupport part old new s =
            ({ s with rels := d, parts := s.parts.set part { i with support := some new } }, .ok true))) := by
  unfold changeSupport
  cases hp : s.parts.get? part with
  | none => exact .inl ⟨_, rfl⟩
  | some i =>
    dsimp only
    by_cases hs : i.support = some old
    · rw [if_pos hs]
      right
      cases hc : changeSupportRels i.uuid old new s.rels with
      | mk d r =>
        cases r with
        | error e => exact ⟨i, d, rfl, hs, .inl ⟨e, hc, rfl⟩⟩
        | ok _ => exact ⟨i, d, rfl, hs, .inr ⟨hc, rfl⟩⟩
    · rw [if_neg hs]; exact .inl ⟨_, rfl⟩

end Verif.Catalogue
