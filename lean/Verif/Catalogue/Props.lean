import Verif.Catalogue.Spec
import Verif.Catalogue.Lemmas

/-!
# Property C12: the catalogue stays consistent
-/

namespace Verif.Catalogue
open Verif.Py Verif.Xml

/-- invariant of all histories -/
private structure Inv (s : Cat) : Prop where
  found : ∀ u p, s.byUuid.get? u = some p → ∃ i, s.parts.get? p = some i ∧ i.uuid = u
  named : ∀ p i, s.parts.get? p = some i → uuidInPartName p = .ok (some i.uuid)
  objs : ∀ p, s.objects.get? p = some () ↔ (s.parts.get? p).isSome ∧ isObjPart p = true

private theorem byUuidAfter_some {part : List Char} {s s' : Cat} (h : ByUuidAfter part s s') {u : Nat}
    {p : List Char} (hp : s'.byUuid.get? u = some p) :
    s.byUuid.get? u = some p ∧ uuidInPartName part ≠ .ok (some u) := by
  rcases h with ⟨v, hv, e⟩ | ⟨hn, e⟩
  · rw [e, Dict.get?_erase] at hp
    by_cases huv : u = v
    · simp [huv] at hp
    · rw [if_neg huv] at hp
      refine ⟨hp, ?_⟩
      rw [hv]
      simp only [ne_eq, Except.ok.injEq, Option.some.injEq]
      exact fun h => huv h.symm
  · rw [e] at hp; exact ⟨hp, hn u⟩

private theorem inv_add (s : Cat) (h : Inv s) (c : List Char) (u : Nat) (sp : Option Nat) (refs : List Nat)
    (ar : Bool) (sub : List Char) (hu : u < 2 ^ 128) : Inv (addPart c u sp refs ar sub s).1 := by
  rcases addPart_cases c u sp refs ar sub s with ⟨e, he⟩ | ⟨part, i, s', he, hn, hi, _, hp, ho, hb, _, _⟩
  · rw [he]; exact h
  · rw [he]
    dsimp only
    have hnamed := C09_part_name_gives_uuid _ u hu _ _ _ hn
    have hiu : i.uuid = u := by rw [hi]
    refine ⟨?_, ?_, ?_⟩
    · intro v p hv
      rw [hb, Dict.get?_set] at hv
      by_cases hvu : v = u
      · rw [if_pos hvu] at hv
        simp only [Option.some.injEq] at hv
        subst hv
        exact ⟨i, by rw [hp, Dict.get?_set_self], by rw [hiu, hvu]⟩
      · rw [if_neg hvu] at hv
        obtain ⟨j, hj, hju⟩ := h.found v p hv
        refine ⟨j, ?_, hju⟩
        rw [hp, Dict.get?_set]
        by_cases hpp : p = part
        · exfalso
          subst hpp
          have := h.named _ _ hj
          rw [hnamed, hju] at this
          simp only [Except.ok.injEq, Option.some.injEq] at this
          exact hvu this.symm
        · rw [if_neg hpp]; exact hj
    · intro p j hj
      rw [hp, Dict.get?_set] at hj
      by_cases hpp : p = part
      · rw [if_pos hpp] at hj
        simp only [Option.some.injEq] at hj
        rw [← hj, hpp, hiu]; exact hnamed
      · rw [if_neg hpp] at hj; exact h.named p j hj
    · intro p
      rw [ho, hp, Dict.get?_set]
      by_cases hpp : p = part
      · subst hpp
        rw [if_pos rfl]
        by_cases hob : isObjPart p = true
        · rw [if_pos hob, Dict.get?_set_self]; simp [hob]
        · rw [if_neg hob, h.objs p]; simp [hob]
      · rw [if_neg hpp, ← h.objs p]
        by_cases hob : isObjPart part = true
        · rw [if_pos hob, Dict.get?_set_ne _ _ hpp]
        · rw [if_neg hob]

private theorem inv_remove (s : Cat) (h : Inv s) (part : List Char) (rr : Bool) :
    Inv (removePart part rr s).1 := by
  have keep : ∀ s' : Cat, s'.parts = s.parts → s'.objects = s.objects →
      (s'.byUuid = s.byUuid ∨ ByUuidAfter part s s') → Inv s' := by
    intro s' h1 h2 h4
    refine ⟨?_, ?_, ?_⟩
    · intro u p hup
      have : s.byUuid.get? u = some p := by
        rcases h4 with h4 | h4
        · rw [← h4]; exact hup
        · exact (byUuidAfter_some h4 hup).1
      rw [h1]; exact h.found u p this
    · intro p i hp; rw [h1] at hp; exact h.named p i hp
    · intro p; rw [h1, h2]; exact h.objs p
  have gone : ∀ (s' : Cat) (i : Info), s.parts.get? part = some i → s'.parts = s.parts.erase part →
      ((s'.objects = s.objects ∧ s.objects.get? part = none) ∨ s'.objects = s.objects.erase part) →
      ByUuidAfter part s s' → Inv s' := by
    intro s' i h0 h1 h2 h4
    refine ⟨?_, ?_, ?_⟩
    · intro u p hup
      obtain ⟨hb, hne⟩ := byUuidAfter_some h4 hup
      obtain ⟨j, hj, hju⟩ := h.found u p hb
      refine ⟨j, ?_, hju⟩
      rw [h1, Dict.get?_erase]
      by_cases hpp : p = part
      · exfalso
        subst hpp
        have := h.named _ _ hj
        rw [hju] at this
        exact hne this
      · rw [if_neg hpp]; exact hj
    · intro p j hp
      rw [h1, Dict.get?_erase] at hp
      by_cases hpp : p = part
      · simp [hpp] at hp
      · rw [if_neg hpp] at hp; exact h.named p j hp
    · intro p
      rw [h1, Dict.get?_erase]
      by_cases hpp : p = part
      · subst hpp
        rw [if_pos rfl]
        rcases h2 with ⟨h2, h2'⟩ | h2
        · rw [h2, h2']; simp
        · rw [h2, Dict.get?_erase_self]; simp
      · rw [if_neg hpp, ← h.objs p]
        rcases h2 with ⟨h2, h2'⟩ | h2
        · rw [h2]
        · rw [h2, Dict.get?_erase_ne _ hpp]
  have hc := removePart_cases part rr s
  generalize (removePart part rr s).1 = s' at hc
  generalize (removePart part rr s).2 = r at hc
  cases hc with
  | early e h1 h2 h3 h4 h5 => exact keep s' h1 h2 (.inl h4)
  | absent h0 h1 h2 h3 h4 h5 => exact keep s' h1 h2 (.inr h4)
  | rels i e h0 h1 h2 h3 h4 h5 => exact keep s' h1 h2 (.inr h4)
  | external i h0 h1 h h2 h3 h4 h5 => exact gone s' i h0 h1 (.inl ⟨h2, h⟩) h4
  | done i h0 h1 h h2 h3 h4 h5 => exact gone s' i h0 h1 (.inr h2) h4

private theorem inv_step (s : Cat) (h : Inv s) (o : Op) (hv : ValidOp o) : Inv (step s o).1 := by
  cases o with
  | add c u sp refs ar sub => exact inv_add s h c u sp refs ar sub hv
  | remove p rr => exact inv_remove s h p rr
  | relate ta ua tb ub =>
    obtain ⟨f, d, he, _⟩ := relate_cases ta ua tb ub s
    show Inv (relate ta ua tb ub s).1
    rw [he]
    exact ⟨h.found, h.named, h.objs⟩
  | changeSupport p o n =>
    unfold step
    rcases changeSupport_cases p o n s with ⟨b, hb⟩ | ⟨i, d, hp, hs, ⟨e, _, hc⟩ | ⟨_, hc⟩⟩
    · simp only [hb]; exact h
    · simp only [hc]; exact ⟨h.found, h.named, h.objs⟩
    · simp only [hc]
      refine ⟨?_, ?_, ?_⟩
      · intro u q hq
        obtain ⟨j, hj, hju⟩ := h.found u q hq
        dsimp only
        rw [Dict.get?_set]
        by_cases hqp : q = p
        · subst hqp
          rw [if_pos rfl]
          refine ⟨_, rfl, ?_⟩
          rw [hp] at hj
          simp only [Option.some.injEq] at hj
          dsimp only
          rw [hj, hju]
        · rw [if_neg hqp]; exact ⟨j, hj, hju⟩
      · intro q j hj
        dsimp only at hj
        rw [Dict.get?_set] at hj
        by_cases hqp : q = p
        · subst hqp
          rw [if_pos rfl] at hj
          simp only [Option.some.injEq] at hj
          rw [← hj]
          exact h.named q i hp
        · rw [if_neg hqp] at hj; exact h.named q j hj
      · intro q
        dsimp only
        rw [Dict.get?_set, h.objs q]
        by_cases hqp : q = p
        · subst hqp; simp [hp]
        · rw [if_neg hqp]

private theorem inv_empty (b : Bool) : Inv (Cat.empty b) :=
  ⟨by intro u p h; simp [Cat.empty] at h, by intro p i h; simp [Cat.empty] at h,
   by intro p; simp [Cat.empty]⟩

private theorem inv_run (ops : List Op) (hv : ∀ o ∈ ops, ValidOp o) :
    ∀ s, Inv s → Inv (run s ops) := by
  induction ops with
  | nil => intro s h; exact h
  | cons o os ih =>
    intro s h
    exact ih (fun o' ho' => hv o' (by simp [ho'])) _ (inv_step s h o (hv o (by simp)))

/-- After any history whatever, also one in which operations raised exceptions, a part found by uuid is
the part filed under its name with that uuid. -/
theorem C12_found_is_filed (b : Bool) (ops : List Op) (hv : ∀ o ∈ ops, ValidOp o) :
    FoundIsFiled (run (Cat.empty b) ops) := by
  intro u p h
  obtain ⟨i, hi, hu⟩ := (inv_run ops hv _ (inv_empty b)).found u p h
  simp [uuidForPart, hi, hu]

/-- After any history, the list of objects is the list of all parts without the external ones. -/
theorem C12_listings_agree (b : Bool) (ops : List Op) (hv : ∀ o ∈ ops, ValidOp o) (p : List Char) :
    p ∈ listOfParts (run (Cat.empty b) ops) true ↔
      p ∈ listOfParts (run (Cat.empty b) ops) false ∧ isObjPart p = true := by
  have h := (inv_run ops hv _ (inv_empty b)).objs p
  simp only [listOfParts, if_true, Bool.false_eq_true, if_false]
  rw [← Dict.has_iff_mem_keys, ← Dict.has_iff_mem_keys, Dict.has, Dict.has, ← h]
  cases (run (Cat.empty b) ops).objects.get? p <;> simp

/-- Attempting to remove a part, with or without success, leaves every other part filed as it was, and
every uuid other than the one in the part's name is found as before. -/
theorem C12_remove_leaves_others (s : Cat) (part : List Char) (rr : Bool) :
    (∀ p, p ≠ part → uuidForPart (removePart part rr s).1 p = uuidForPart s p) ∧
    (∀ u, uuidInPartName part ≠ .ok (some u) →
      partForUuid (removePart part rr s).1 u = partForUuid s u) := by
  have hc := removePart_cases part rr s
  generalize (removePart part rr s).1 = s' at hc
  generalize (removePart part rr s).2 = r at hc
  have hbu : ByUuidAfter part s s' → ∀ u, uuidInPartName part ≠ .ok (some u) →
      partForUuid s' u = partForUuid s u := by
    intro h u hu
    unfold partForUuid
    rcases h with ⟨v, hv, e⟩ | ⟨_, e⟩
    · rw [e, Dict.get?_erase_ne]
      rintro rfl; exact hu hv
    · rw [e]
  have hpe : s'.parts = s.parts.erase part → ∀ p, p ≠ part → uuidForPart s' p = uuidForPart s p := by
    intro h p hp
    unfold uuidForPart
    rw [h, Dict.get?_erase_ne _ hp]
  have hps : s'.parts = s.parts → ∀ p, p ≠ part → uuidForPart s' p = uuidForPart s p := by
    intro h p hp; unfold uuidForPart; rw [h]
  cases hc with
  | early e h1 h2 h3 h4 h5 => exact ⟨hps h1, fun u _ => by unfold partForUuid; rw [h4]⟩
  | absent h0 h1 h2 h3 h4 h5 => exact ⟨hps h1, hbu h4⟩
  | rels i e h0 h1 h2 h3 h4 h5 => exact ⟨hps h1, hbu h4⟩
  | external i h0 h1 h h2 h3 h4 h5 => exact ⟨hpe h1, hbu h4⟩
  | done i h0 h1 h h2 h3 h4 h5 => exact ⟨hpe h1, hbu h4⟩

/-- Nothing removed can be found: once removal of a part has returned, neither its name nor the uuid in
its name is found, and it is in no listing. -/
theorem C12_removed_not_found (s : Cat) (part : List Char) (rr : Bool)
    (hok : (removePart part rr s).2 = .ok ()) :
    uuidForPart (removePart part rr s).1 part = none ∧
    (∀ b, part ∉ listOfParts (removePart part rr s).1 b) ∧
    ∀ u, uuidInPartName part = .ok (some u) → partForUuid (removePart part rr s).1 u = none := by
  have hc := removePart_cases part rr s
  rw [hok] at hc
  generalize (removePart part rr s).1 = s' at hc
  cases hc with
  | done i h0 h1 h h2 h3 h4 h5 =>
    refine ⟨?_, ?_, ?_⟩
    · simp [uuidForPart, h1, Dict.get?_erase_self]
    · intro b
      cases b with
      | true =>
        simp only [listOfParts, if_true, h2]
        rw [Dict.mem_keys_erase]; simp
      | false =>
        simp only [listOfParts, Bool.false_eq_true, if_false, h1]
        rw [Dict.mem_keys_erase]; simp
    · intro u hu
      unfold partForUuid
      rcases h4 with ⟨v, hv, e⟩ | ⟨hn, _⟩
      · rw [hu] at hv
        simp only [Except.ok.injEq, Option.some.injEq] at hv
        rw [e, hv, Dict.get?_erase_self]
      · exact absurd hu (hn u)

/-- A part added is found by its uuid and filed under its name, and everything else is found as before. -/
theorem C12_added_is_found (s : Cat) (c : List Char) (u : Nat) (sp : Option Nat) (refs : List Nat) (ar : Bool)
    (sub : List Char) (hok : (addPart c u sp refs ar sub s).2 = .ok ()) :
    ∃ part, partForUuid (addPart c u sp refs ar sub s).1 u = some part ∧
      uuidForPart (addPart c u sp refs ar sub s).1 part = some u ∧
      part ∈ listOfParts (addPart c u sp refs ar sub s).1 false ∧
      (∀ v, v ≠ u → partForUuid (addPart c u sp refs ar sub s).1 v = partForUuid s v) ∧
      (∀ p, p ≠ part → uuidForPart (addPart c u sp refs ar sub s).1 p = uuidForPart s p) := by
  rcases addPart_cases c u sp refs ar sub s with ⟨e, he⟩ | ⟨part, i, s', he, hn, hi, _, hp, ho, hb, _, _⟩
  · rw [he] at hok; simp at hok
  · rw [he]
    dsimp only
    refine ⟨part, ?_, ?_, ?_, ?_, ?_⟩
    · rw [partForUuid, hb, Dict.get?_set_self]
    · rw [uuidForPart, hp, Dict.get?_set_self, hi]; rfl
    · simp only [listOfParts, Bool.false_eq_true, if_false, hp]
      rw [Dict.mem_keys_set]; simp
    · intro v hv; rw [partForUuid, hb, Dict.get?_set_ne _ _ hv]; rfl
    · intro p hpp; rw [uuidForPart, hp, Dict.get?_set_ne _ _ hpp]; rfl

/-! ### the other direction fails, and holds for clean histories -/

private def crsType : List Char := ['o', 'b', 'j', '_', 'C']

/-- Removing a part that has no relationships raises KeyError half way: the part stays filed under its
name but is no longer found by its uuid. -/
theorem C12_unrelated_removal_violated :
    ∃ part, let s := run (Cat.empty false) [.add crsType 7 none [] false []]
      let t := step s (.remove part false)
      uuidForPart s part = some 7 ∧ t.2 = .error .key ∧ uuidForPart t.1 part = some 7 ∧
        partForUuid t.1 7 = none ∧ ¬ FiledIsFound t.1 := by
  have h : ∃ part, partNameForObject crsType 7 false [] = .ok part := ⟨_, rfl⟩
  obtain ⟨part, hp⟩ := h
  refine ⟨part, ?_⟩
  have hnm : uuidInPartName part = .ok (some 7) := C09_part_name_gives_uuid _ 7 (by decide) _ _ _ hp
  have hp' : part = ['o', 'b', 'j', '_', 'C', '_'] ++ (uuidStr 7 ++ dotXml) := by
    have : partNameForObject crsType 7 false [] = .ok (['o', 'b', 'j', '_', 'C', '_'] ++ (uuidStr 7 ++ dotXml)) := rfl
    rw [this] at hp
    simpa using hp.symm
  intro s t
  have hs : s = ⟨false, [(part, ⟨crsType, 7, none, []⟩)], [(part, ())], [(7, part)], [], [], [part]⟩ := by
    subst hp'; decide
  have ht : t = (⟨false, [(part, ⟨crsType, 7, none, []⟩)], [(part, ())], [], [], [], [part]⟩, .error .key) := by
    subst hp'
    show step s _ = _
    rw [hs]
    decide
  rw [ht, hs]
  refine ⟨by simp [uuidForPart, Dict.get?], rfl, by simp [uuidForPart, Dict.get?], rfl, ?_⟩
  intro hf
  have := hf 7 part (by simp [uuidForPart, Dict.get?])
  simp [partForUuid] at this

private structure InvClean (s : Cat) : Prop where
  filed : ∀ p i, s.parts.get? p = some i → s.byUuid.get? i.uuid = some p
  nodup : s.overrides.Nodup
  main : ∀ p, p ∈ s.overrides ↔ (s.parts.get? p).isSome
  slash : ∀ p i, s.parts.get? p = some i → p.head? ≠ some '/'

private theorem removeOverride_spec (part : List Char) (os : List (List Char))
    (hs : ∀ o ∈ os, o.head? ≠ some '/') : removeOverride part os = os.erase part := by
  induction os with
  | nil => rfl
  | cons o os ih =>
    have ih := ih (fun o' ho' => hs o' (by simp [ho']))
    have ho := hs o (by simp)
    unfold removeOverride
    have hname : unslashed o = o := by
      clear hs ih
      cases o with
      | nil => rfl
      | cons c cs =>
        have hc : c ≠ '/' := by simpa using ho
        unfold unslashed
        split
        · rename_i h; simp only [List.cons.injEq] at h; exact absurd h.1 hc
        · rfl
    rw [hname, List.erase_cons, ih]
    by_cases h : o = part <;> simp [h]

private theorem partName_head (t : List Char) (u : Nat) (sub p : List Char) (hs : sub.head? ≠ some '/')
    (ht : t.head? ≠ some '/')
    (h : partNameForObject t u false sub = .ok p) : p.head? ≠ some '/' := by
  unfold partNameForObject at h
  simp only [Bool.false_eq_true, if_false, bind, Except.bind, pure, Except.pure, Except.ok.injEq] at h
  subst h
  by_cases hsub : sub = []
  · simp only [hsub, if_true]
    by_cases ho : startsWith objPrefix t = true
    · simp only [ho, if_true]
      cases t with
      | nil => simp
      | cons c cs => simpa using ht
    · simp only [ho]; simp [objPrefix]
  · simp only [hsub, if_false]
    cases sub with
    | nil => exact absurd rfl hsub
    | cons c cs =>
      have hc : c ≠ '/' := by simpa using hs
      by_cases he : endsWith ['/'] (c :: cs) = true <;> simp [he, hc]

private theorem filedType_head (c : List Char) (h : c.head? ≠ some '/') : (filedType c).head? ≠ some '/' := by
  unfold filedType
  cases c with
  | nil => simp
  | cons x xs =>
    by_cases hx : isUpperAscii x = true
    · simp [hx, objPrefix]
    · simpa [hx] using h

private theorem clean_step (s : Cat) (h : Inv s) (hc : InvClean s) (o : Op) (ha : Allowed s o)
    (hok : (step s o).2 = .ok ()) : InvClean (step s o).1 := by
  cases o with
  | add c u sp refs ar sub =>
    obtain ⟨hu, hfresh, hsub, hct⟩ := ha
    unfold step at hok ⊢
    dsimp only at hok ⊢
    rcases addPart_cases c u sp refs ar sub s with ⟨e, he⟩ | ⟨part, i, s', he, hn, hi, _, hp, ho, hb, hov, _⟩
    · rw [he] at hok; simp at hok
    · rw [he]
      dsimp only
      have hiu : i.uuid = u := by rw [hi]
      have hnew : s.parts.get? part = none := by
        cases hx : s.parts.get? part with
        | none => rfl
        | some j =>
          exfalso
          have h1 := h.named _ _ hx
          rw [C09_part_name_gives_uuid _ u hu _ _ _ hn] at h1
          simp only [Except.ok.injEq, Option.some.injEq] at h1
          exact hfresh part (by simp [uuidForPart, hx, h1])
      refine ⟨?_, ?_, ?_, ?_⟩
      · intro p j hj
        rw [hp, Dict.get?_set] at hj
        rw [hb, Dict.get?_set]
        by_cases hpp : p = part
        · rw [if_pos hpp] at hj
          simp only [Option.some.injEq] at hj
          rw [← hj, hiu, if_pos rfl, hpp]
        · rw [if_neg hpp] at hj
          have hne : j.uuid ≠ u := by
            intro e
            exact hfresh p (by simp [uuidForPart, hj, e])
          rw [if_neg hne]
          exact hc.filed p j hj
      · rw [hov, List.nodup_append]
        refine ⟨hc.nodup, by simp, ?_⟩
        intro a ha b hb'
        simp at hb'
        subst hb'
        rintro rfl
        have := (hc.main a).1 ha
        rw [hnew] at this
        simp at this
      · intro p
        rw [hov, hp, Dict.get?_set, List.mem_append]
        by_cases hpp : p = part
        · simp [hpp]
        · rw [if_neg hpp, ← hc.main p]; simp [hpp]
      · intro p j hj
        rw [hp, Dict.get?_set] at hj
        by_cases hpp : p = part
        · rw [hpp]
          exact partName_head _ u sub part hsub (filedType_head c hct) hn
        · rw [if_neg hpp] at hj; exact hc.slash p j hj
  | remove part rr =>
    unfold step at hok ⊢
    dsimp only at hok ⊢
    have hr := removePart_cases part rr s
    rw [hok] at hr
    generalize (removePart part rr s).1 = s' at hr
    cases hr with
    | done i h0 h1 h' h2 h3 h4 h5 =>
      have hover : s'.overrides = s.overrides.erase part := by
        rw [h3]
        apply removeOverride_spec
        intro o ho
        have := (hc.main o).1 ho
        cases hx : s.parts.get? o with
        | none => rw [hx] at this; simp at this
        | some j => exact hc.slash o j hx
      refine ⟨?_, ?_, ?_, ?_⟩
      · intro p j hj
        rw [h1, Dict.get?_erase] at hj
        by_cases hpp : p = part
        · simp [hpp] at hj
        · rw [if_neg hpp] at hj
          have hf := hc.filed p j hj
          rcases h4 with ⟨v, hv, e⟩ | ⟨_, e⟩
          · rw [e, Dict.get?_erase]
            by_cases hjv : j.uuid = v
            · exfalso
              have h6 := h.named _ _ h0
              rw [hv] at h6
              simp only [Except.ok.injEq, Option.some.injEq] at h6
              have h7 := hc.filed part i h0
              rw [← h6, ← hjv, hf] at h7
              simp only [Option.some.injEq] at h7
              exact hpp h7
            · rw [if_neg hjv]; exact hf
          · rw [e]; exact hf
      · rw [hover]; exact hc.nodup.erase _
      · intro p
        rw [hover, hc.nodup.mem_erase_iff, h1, Dict.get?_erase]
        by_cases hpp : p = part
        · simp [hpp]
        · simp [hpp, hc.main p]
      · intro p j hj
        rw [h1, Dict.get?_erase] at hj
        by_cases hpp : p = part
        · simp [hpp] at hj
        · rw [if_neg hpp] at hj; exact hc.slash p j hj
  | relate ta ua tb ub =>
    obtain ⟨f, d, he, _⟩ := relate_cases ta ua tb ub s
    show InvClean (relate ta ua tb ub s).1
    rw [he]
    exact ⟨hc.filed, hc.nodup, hc.main, hc.slash⟩
  | changeSupport p o n =>
    unfold step
    rcases changeSupport_cases p o n s with ⟨b, hb⟩ | ⟨i, d, hp, hs, ⟨e, _, hcc⟩ | ⟨_, hcc⟩⟩
    · simp only [hb]; exact hc
    · simp only [hcc]; exact ⟨hc.filed, hc.nodup, hc.main, hc.slash⟩
    · simp only [hcc]
      refine ⟨?_, hc.nodup, ?_, ?_⟩
      · intro q j hj
        dsimp only at hj ⊢
        rw [Dict.get?_set] at hj
        by_cases hqp : q = p
        · rw [if_pos hqp] at hj
          simp only [Option.some.injEq] at hj
          rw [← hj, hqp]
          exact hc.filed p i hp
        · rw [if_neg hqp] at hj; exact hc.filed q j hj
      · intro q
        dsimp only
        rw [Dict.get?_set, hc.main q]
        by_cases hqp : q = p
        · subst hqp; simp [hp]
        · rw [if_neg hqp]
      · intro q j hj
        dsimp only at hj
        rw [Dict.get?_set] at hj
        by_cases hqp : q = p
        · rw [hqp]; exact hc.slash p i hp
        · rw [if_neg hqp] at hj; exact hc.slash q j hj

/-- For histories in which no operation raises and uuids added are new, the lookups agree in both
directions and the main tree names exactly the parts filed.  Missing: removal of a part without
relationships (which raises), and the same uuid added again. -/
theorem C12_catalogue_consistent_partial (b : Bool) (ops : List Op) (hc : Clean (Cat.empty b) ops) :
    FoundIsFiled (run (Cat.empty b) ops) ∧ FiledIsFound (run (Cat.empty b) ops) ∧
      MainTreeComplete (run (Cat.empty b) ops) := by
  have key : ∀ (ops : List Op) (s : Cat), Inv s → InvClean s → Clean s ops →
      Inv (run s ops) ∧ InvClean (run s ops) := by
    intro ops
    induction ops with
    | nil => intro s h1 h2 _; exact ⟨h1, h2⟩
    | cons o os ih =>
      intro s h1 h2 h3
      obtain ⟨hok, ha, hcl⟩ := h3
      have hv : ValidOp o := by
        cases o with
        | add c u sp refs ar sub => exact ha.1
        | remove p rr => trivial
        | relate ta ua tb ub => trivial
        | changeSupport p o n => trivial
      exact ih _ (inv_step s h1 o hv) (clean_step s h1 h2 o ha hok) hcl
  have h0 : InvClean (Cat.empty b) :=
    ⟨by intro p i h; simp [Cat.empty] at h, by simp [Cat.empty], by intro p; simp [Cat.empty],
     by intro p i h; simp [Cat.empty] at h⟩
  obtain ⟨h1, h2⟩ := key ops _ (inv_empty b) h0 hc
  refine ⟨?_, ?_, h2.nodup, ?_⟩
  · intro u p h
    obtain ⟨i, hi, hu⟩ := h1.found u p h
    simp [uuidForPart, hi, hu]
  · intro u p h
    unfold uuidForPart at h
    cases hx : (run (Cat.empty b) ops).parts.get? p with
    | none => rw [hx] at h; simp at h
    | some i =>
      rw [hx] at h
      simp only [Option.map_some, Option.some.injEq] at h
      rw [← h]; exact h2.filed p i hx
  · intro p
    rw [h2.main p]
    simp only [listOfParts, Bool.false_eq_true, if_false]
    rw [← Dict.has_iff_mem_keys]; rfl

/-- a clean history with two additions and a removal -/
example : ∃ part, Clean (Cat.empty false)
    [.add crsType 7 none [] false [], .add crsType 8 none [7] false [], .remove part false] ∧
    (step (run (Cat.empty false) [.add crsType 7 none [] false [], .add crsType 8 none [7] false []])
      (.remove part false)).1.parts.length = 1 := by
  refine ⟨['o', 'b', 'j', '_', 'C', '_'] ++ (uuidStr 8 ++ dotXml), ?_, by decide⟩
  refine ⟨by decide, ⟨by decide, by intro p; simp [uuidForPart, Cat.empty], by decide, by decide⟩, by decide, ⟨by decide, ?_, by decide, by decide⟩, by decide, trivial, trivial⟩
  have : (step (Cat.empty false) (.add crsType 7 none [] false [])).1.parts =
    [(['o', 'b', 'j', '_', 'C', '_'] ++ (uuidStr 7 ++ dotXml), ⟨crsType, 7, none, []⟩)] := by decide
  intro p
  unfold uuidForPart
  rw [this]
  unfold Dict.get?
  split <;> simp [Dict.get?]

end Verif.Catalogue
