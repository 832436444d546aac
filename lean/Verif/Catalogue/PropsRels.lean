import Verif.Catalogue.RelsLemmas

/-!
# Property C13: relationships stay mutual
-/

namespace Verif.Catalogue
open Verif.Py Verif.Xml

private theorem related_of_relate {s : Cat} {ta tb : List Char} {ua ub : Nat} {pa qa pb qb : List Char}
    {va vb : Nat} {ta' tb' : List (List Char)} (h1 : partNameForObject ta ua false [] = .ok pa)
    (h2 : relsPartName pa = some qa) (h3 : s.relsForest.get? qa = some (va, ta'))
    (h4 : partNameForObject tb ub false [] = .ok pb) (h5 : relsPartName pb = some qb)
    (h6 : s.relsForest.get? qb = some (vb, tb')) : related s ta ua tb ub = some (va, vb) := by
  unfold related
  simp [h1, h2, h3, h4, h5, h6, Except.toOption]

private theorem invR_step (s : Cat) (h : InvR s.rels) (o : Op) (hd : Disciplined s o) :
    InvR (step s o).1.rels := by
  cases o with
  | add c u sp refs ar sub =>
    show InvR (addPart c u sp refs ar sub s).1.rels
    rcases addPart_cases c u sp refs ar sub s with ⟨e, he⟩ | ⟨part, i, s', he, _, _, _, _, _, _, _, hr⟩
    · rw [he]; exact h
    · rw [he]; dsimp only; rw [hr]; exact InvR_addRelations _ _ _ _ h
  | remove part rr =>
    show InvR (removePart part rr s).1.rels
    have hc := removePart_cases part rr s
    generalize (removePart part rr s).1 = s' at hc
    generalize (removePart part rr s).2 = r at hc
    cases hc with
    | early e h1 h2 h3 h4 h5 => rw [h5]; exact h
    | absent h0 h1 h2 h3 h4 h5 => rw [h5]; exact h
    | rels i e h0 h1 h2 h3 h4 h5 =>
      rcases delRels_spec i.uuid s.rels h with ⟨_, e'⟩ | ⟨_, d', e', _⟩
      · rw [e'] at h5; simp only [Prod.mk.injEq] at h5; rw [← h5.1]; exact h
      · rw [e'] at h5; simp at h5
    | external i h0 h1 hx h2 h3 h4 h5 =>
      rcases delRels_spec i.uuid s.rels h with ⟨_, e'⟩ | ⟨_, d', e', hg⟩
      · rw [e'] at h5; simp at h5
      · rw [e'] at h5; simp only [Prod.mk.injEq, and_true] at h5; rw [← h5]; exact InvR_purge _ _ _ h hg
    | done i h0 h1 hx h2 h3 h4 h5 =>
      rcases delRels_spec i.uuid s.rels h with ⟨_, e'⟩ | ⟨_, d', e', hg⟩
      · rw [e'] at h5; simp at h5
      · rw [e'] at h5; simp only [Prod.mk.injEq, and_true] at h5; rw [← h5]; exact InvR_purge _ _ _ h hg
  | relate ta ua tb ub =>
    obtain ⟨f, d, he, hdd⟩ := relate_cases ta ua tb ub s
    show InvR (relate ta ua tb ub s).1.rels
    rw [he]
    dsimp only
    rcases hdd with hdd | ⟨pa, qa, va, ta', pb, qb, vb, tb', h1, h2, h3, h4, h5, h6, hdd⟩
    · rw [hdd]; exact h
    · obtain ⟨hne, hk⟩ := hd va vb (related_of_relate h1 h2 h3 h4 h5 h6)
      rw [hdd]; exact InvR_relate va vb _ h hne hk
  | changeSupport p o n =>
    unfold step
    rcases changeSupport_cases p o n s with ⟨b, hb⟩ | ⟨i, d, hp, hs, ⟨e, hc, hcc⟩ | ⟨hc, hcc⟩⟩
    · simp only [hb]; exact h
    · simp only [hcc]
      obtain ⟨k1, k2, k3⟩ := hd i hp hs
      obtain ⟨d', hd', _⟩ := changeSupportRels_spec i.uuid o n s.rels k1 k2 k3
      rw [hd'] at hc; simp at hc
    · simp only [hcc]
      obtain ⟨k1, k2, k3⟩ := hd i hp hs
      obtain ⟨d', hd', eff⟩ := changeSupportRels_spec i.uuid o n s.rels k1 k2 k3
      rw [hd'] at hc
      simp only [Prod.mk.injEq, and_true] at hc
      rw [← hc]
      exact InvR_changeSupport _ _ _ _ _ h eff

private theorem invR_run (ops : List Op) : ∀ s, InvR s.rels → Along Disciplined s ops →
    InvR (run s ops).rels := by
  induction ops with
  | nil => intro s h _; exact h
  | cons o os ih => intro s h hd; exact ih _ (invR_step s h o hd.1) hd.2

/-- For histories that follow the discipline, relationships are mutual, whether or not operations
raised.  Missing: soft relationships made while only one of the two parts has a record, changes of
supporting representation to a part without record (see the violations below). -/
theorem C13_mutual_partial (b : Bool) (ops : List Op) (hd : Along Disciplined (Cat.empty b) ops) :
    Mutual (run (Cat.empty b) ops) := by
  have h := invR_run ops (Cat.empty b) InvR_empty hd
  intro x y
  exact ⟨h.hard x y, h.soft x y⟩

/-- After a disciplined history, removal of a part leaves no relationship that names it. -/
theorem C13_removed_not_named_partial (b : Bool) (ops : List Op) (hd : Along Disciplined (Cat.empty b) ops)
    (part : List Char) (rr : Bool) (u : Nat) (hu : uuidForPart (run (Cat.empty b) ops) part = some u)
    (hok : (removePart part rr (run (Cat.empty b) ops)).2 = .ok ()) :
    Unnamed (removePart part rr (run (Cat.empty b) ops)).1 u := by
  have h := invR_run ops (Cat.empty b) InvR_empty hd
  generalize run (Cat.empty b) ops = s at *
  have hc := removePart_cases part rr s
  rw [hok] at hc
  generalize (removePart part rr s).1 = s' at hc
  cases hc with
  | done i h0 h1 hx h2 h3 h4 h5 =>
    have hiu : i.uuid = u := by simpa [uuidForPart, h0] using hu
    rcases delRels_spec i.uuid s.rels h with ⟨_, e'⟩ | ⟨_, d', e', hg⟩
    · rw [e'] at h5; simp at h5
    · rw [e'] at h5
      simp only [Prod.mk.injEq, and_true] at h5
      rw [h5, hiu] at hg
      have e := purge_eff u s.rels s'.rels hg
      refine ⟨by rw [hg u, if_pos rfl], ?_⟩
      intro a
      have m : ∀ l : List Nat, u ∉ (if a = u then [] else l.filter (· ≠ u)) := by
        intro l
        by_cases ha : a = u
        · simp [ha]
        · rw [if_neg ha, List.mem_filter]; simp
      refine ⟨?_, ?_, ?_⟩
      · show u ∉ dOut s'.rels a
        rw [(e a).1]; exact m _
      · show u ∉ dIn s'.rels a
        rw [(e a).2.1]; exact m _
      · show u ∉ dSoft s'.rels a
        rw [(e a).2.2]; exact m _

/-- After a disciplined history, a part which is an object with a record can be removed (without its
relationships part) without exception, and the relationships among the others stay as they were. -/
theorem C13_removal_succeeds_partial (b : Bool) (ops : List Op) (hd : Along Disciplined (Cat.empty b) ops)
    (part : List Char) (u : Nat) (hu : uuidForPart (run (Cat.empty b) ops) part = some u)
    (hn : uuidInPartName part = .ok (some u))
    (hobj : part ∈ listOfParts (run (Cat.empty b) ops) true)
    (hrec : ((run (Cat.empty b) ops).rels.get? u).isSome) :
    (removePart part false (run (Cat.empty b) ops)).2 = .ok () ∧
    ∀ x y, x ≠ u → y ≠ u →
      (y ∈ outs (removePart part false (run (Cat.empty b) ops)).1 x ↔ y ∈ outs (run (Cat.empty b) ops) x) ∧
      (y ∈ ins (removePart part false (run (Cat.empty b) ops)).1 x ↔ y ∈ ins (run (Cat.empty b) ops) x) ∧
      (y ∈ softs (removePart part false (run (Cat.empty b) ops)).1 x ↔ y ∈ softs (run (Cat.empty b) ops) x) := by
  have h := invR_run ops (Cat.empty b) InvR_empty hd
  generalize run (Cat.empty b) ops = s at *
  cases hp : s.parts.get? part with
  | none => simp [uuidForPart, hp] at hu
  | some i =>
    have hiu : i.uuid = u := by simpa [uuidForPart, hp] using hu
    rcases delRels_spec i.uuid s.rels h with ⟨hnone, _⟩ | ⟨_, d', e', hg⟩
    · rw [hiu] at hnone; rw [hnone] at hrec; simp at hrec
    · have ho : s.objects.get? part = some () := by
        have : part ∈ s.objects.keys := by simpa [listOfParts] using hobj
        rw [← Dict.has_iff_mem_keys] at this
        unfold Dict.has at this
        cases hx : s.objects.get? part with
        | none => rw [hx] at this; simp at this
        | some _ => rfl
      have hres : removePart part false s =
          (⟨s.relsPresent, s.parts.erase part, s.objects.erase part, s.byUuid.erase u, d', s.relsForest,
            removeOverride part s.overrides⟩, .ok ()) := by
        simp only [removePart, andThen, Bool.false_eq_true, if_false, delUuidToPart, hn, delUuidRelations, hp, e', ho]
      rw [hres]
      refine ⟨rfl, ?_⟩
      intro x y hx hy
      rw [hiu] at hg
      have e := purge_eff u s.rels d' hg x
      rw [if_neg hx, if_neg hx, if_neg hx] at e
      refine ⟨?_, ?_, ?_⟩
      · show y ∈ dOut d' x ↔ y ∈ dOut s.rels x
        rw [e.1, List.mem_filter]; simp [hy]
      · show y ∈ dIn d' x ↔ y ∈ dIn s.rels x
        rw [e.2.1, List.mem_filter]; simp [hy]
      · show y ∈ dSoft d' x ↔ y ∈ dSoft s.rels x
        rw [e.2.2, List.mem_filter]; simp [hy]

private theorem strict_step (s : Cat) (h : InvR s.rels) (h1 : OneStrength s) (o : Op) (hd : Disciplined s o)
    (hs : Strict s o) : OneStrength (step s o).1 := by
  have h1' : ∀ a b, b ∈ dSoft s.rels a → b ∉ dOut s.rels a ∧ b ∉ dIn s.rels a := h1
  suffices key : ∀ a b, b ∈ dSoft (step s o).1.rels a → b ∉ dOut (step s o).1.rels a ∧ b ∉ dIn (step s o).1.rels a from key
  intro a b
  cases o with
  | add c u sp refs ar sub =>
    show b ∈ dSoft (addPart c u sp refs ar sub s).1.rels a → b ∉ dOut (addPart c u sp refs ar sub s).1.rels a ∧
      b ∉ dIn (addPart c u sp refs ar sub s).1.rels a
    rcases addPart_cases c u sp refs ar sub s with ⟨e, he⟩ | ⟨part, i, s', he, _, hi, _, _, _, _, _, hr⟩
    · rw [he]; exact h1' a b
    · rw [he]
      dsimp only
      rw [hr]
      obtain ⟨m1, m2, m3⟩ := addRelations_mem u part i.allRefs s.rels a b
      rw [m3]
      intro hb
      obtain ⟨k1, k2⟩ := h1' a b hb
      have hi' : i.allRefs = sp.toList ++ refs := by rw [hi]; rfl
      rw [hi'] at m1 m2 ⊢
      refine ⟨?_, ?_⟩
      · intro hc
        rcases m1 hc with hc | ⟨hau, hbr⟩
        · exact k1 hc
        · subst hau; exact (hs b hbr).1 hb
      · intro hc
        rcases m2 hc with hc | ⟨hbu, har⟩
        · exact k2 hc
        · subst hbu; exact (hs a har).2 hb
  | remove part rr =>
    show b ∈ dSoft (removePart part rr s).1.rels a → b ∉ dOut (removePart part rr s).1.rels a ∧
      b ∉ dIn (removePart part rr s).1.rels a
    have hc := removePart_cases part rr s
    generalize (removePart part rr s).1 = s' at hc
    generalize (removePart part rr s).2 = r at hc
    have purged : ∀ (u : Nat) (d' : RelsDict), (∀ w, d'.get? w = if w = u then none else (s.rels.get? w).map (purge u)) →
        b ∈ dSoft d' a → b ∉ dOut d' a ∧ b ∉ dIn d' a := by
      intro u d' hg hb
      obtain ⟨e1, e2, e3⟩ := purge_eff u s.rels d' hg a
      rw [e1, e2]
      rw [e3] at hb
      by_cases ha : a = u
      · simp [ha]
      · rw [if_neg ha] at hb ⊢
        rw [List.mem_filter] at hb
        obtain ⟨k1, k2⟩ := h1' a b hb.1
        rw [if_neg ha]
        exact ⟨fun hc => k1 (List.mem_filter.1 hc).1, fun hc => k2 (List.mem_filter.1 hc).1⟩
    cases hc with
    | early e _ h2 h3 h4 h5 => rw [h5]; exact h1' a b
    | absent h0 _ h2 h3 h4 h5 => rw [h5]; exact h1' a b
    | rels i e h0 _ h2 h3 h4 h5 =>
      rcases delRels_spec i.uuid s.rels h with ⟨_, e'⟩ | ⟨_, d', e', _⟩
      · rw [e'] at h5; simp only [Prod.mk.injEq] at h5; rw [← h5.1]; exact h1' a b
      · rw [e'] at h5; simp at h5
    | external i h0 _ hx h2 h3 h4 h5 =>
      rcases delRels_spec i.uuid s.rels h with ⟨_, e'⟩ | ⟨_, d', e', hg⟩
      · rw [e'] at h5; simp at h5
      · rw [e'] at h5; simp only [Prod.mk.injEq, and_true] at h5; rw [← h5]; exact purged _ _ hg
    | done i h0 _ hx h2 h3 h4 h5 =>
      rcases delRels_spec i.uuid s.rels h with ⟨_, e'⟩ | ⟨_, d', e', hg⟩
      · rw [e'] at h5; simp at h5
      · rw [e'] at h5; simp only [Prod.mk.injEq, and_true] at h5; rw [← h5]; exact purged _ _ hg
  | relate ta ua tb ub =>
    obtain ⟨f, d, he, hdd⟩ := relate_cases ta ua tb ub s
    show b ∈ dSoft (relate ta ua tb ub s).1.rels a → b ∉ dOut (relate ta ua tb ub s).1.rels a ∧
      b ∉ dIn (relate ta ua tb ub s).1.rels a
    rw [he]
    dsimp only
    rcases hdd with hdd | ⟨pa, qa, va, ta', pb, qb, vb, tb', g1, g2, g3, g4, g5, g6, hdd⟩
    · rw [hdd]; exact h1' a b
    · rw [hdd]
      intro hb
      rw [(addSoft_eff vb va _ a).1, (addSoft_eff va vb _ a).1, (addSoft_eff vb va _ a).2.1, (addSoft_eff va vb _ a).2.1]
      rw [addSoft_pair_mem] at hb
      rcases hb with hb | ⟨rfl, rfl, hc⟩ | ⟨rfl, rfl, hc⟩
      · exact h1' a b hb
      · exact hc.2
      · exact hc.2
  | changeSupport p o n =>
    unfold step
    rcases changeSupport_cases p o n s with ⟨x, hb⟩ | ⟨i, d, hp, hsup, ⟨e, hc, hcc⟩ | ⟨hc, hcc⟩⟩
    · simp only [hb]; exact h1' a b
    · simp only [hcc]
      obtain ⟨k1, k2, k3⟩ := hd i hp hsup
      obtain ⟨d', hd', _⟩ := changeSupportRels_spec i.uuid o n s.rels k1 k2 k3
      rw [hd'] at hc; simp at hc
    · simp only [hcc]
      obtain ⟨k1, k2, k3⟩ := hd i hp hsup
      obtain ⟨d', hd', eff⟩ := changeSupportRels_spec i.uuid o n s.rels k1 k2 k3
      rw [hd'] at hc
      simp only [Prod.mk.injEq, and_true] at hc
      rw [← hc]
      obtain ⟨e1, e2, e3⟩ := eff a
      rw [e1, e2, e3]
      intro hb
      obtain ⟨q1, q2⟩ := h1' a b hb
      obtain ⟨t1, t2⟩ := hs i hp
      refine ⟨?_, ?_⟩
      · by_cases ha : a = i.uuid
        · rw [if_pos ha, mem_sAdd]
          rintro (hbn | hbf)
          · subst hbn; subst ha; exact t1 hb
          · exact q1 (List.mem_filter.1 hbf).1
        · rw [if_neg ha]; exact q1
      · have q3 : b ∉ (if a = o then (dIn s.rels a).filter (· ≠ i.uuid) else dIn s.rels a) := by
          by_cases hao : a = o
          · rw [if_pos hao]; exact fun hc => q2 (List.mem_filter.1 hc).1
          · rw [if_neg hao]; exact q2
        by_cases han : a = n
        · rw [if_pos han, mem_sAdd]
          rintro (hbu | hbf)
          · subst hbu; subst han; exact t2 hb
          · exact q3 hbf
        · rw [if_neg han]; exact q3

/-- When in addition references are never added between softly related parts, every pair is recorded
with one strength. -/
theorem C13_one_strength_partial (b : Bool) (ops : List Op) (hd : Along Disciplined (Cat.empty b) ops)
    (hs : Along Strict (Cat.empty b) ops) : OneStrength (run (Cat.empty b) ops) := by
  have key : ∀ (ops : List Op) (s : Cat), InvR s.rels → OneStrength s → Along Disciplined s ops →
      Along Strict s ops → OneStrength (run s ops) := by
    intro ops
    induction ops with
    | nil => intro s _ h _ _; exact h
    | cons o os ih =>
      intro s h1 h2 h3 h4
      exact ih _ (invR_step s h1 o h3.1) (strict_step s h1 h2 o h3.1 h4.1) h3.2 h4.2
  exact key ops _ InvR_empty (by intro x y h; simp [softs, Cat.empty] at h) hd hs

/-! ### violations -/

private def ty : List Char := ['o', 'b', 'j', '_', 'C']
private def nm (u : Nat) : List Char := ['o', 'b', 'j', '_', 'C', '_'] ++ (uuidStr u ++ dotXml)
private def ad (u : Nat) (refs : List Nat) : Op := .add ty u none refs true []

/-- A reciprocal relationship made with a part that so far has no relationships is recorded on one side
only; once that part is referred to by another, removal of its partner raises and leaves the partner
filed but not found by uuid. -/
theorem C13_one_sided_violated :
    let s := run (Cat.empty true) [ad 1 [], ad 2 [1], ad 3 [], .relate ty 2 ty 3]
    let t := run s [ad 4 [3]]
    (3 ∈ softs s 2 ∧ 2 ∉ softs s 3) ∧ ¬ Mutual s ∧
    (step t (.remove (nm 2) false)).2 = .error .key ∧
    partForUuid (step t (.remove (nm 2) false)).1 2 = none ∧
    uuidForPart (step t (.remove (nm 2) false)).1 (nm 2) = some 2 := by
  have h : 3 ∈ softs (run (Cat.empty true) [ad 1 [], ad 2 [1], ad 3 [], .relate ty 2 ty 3]) 2 ∧
      2 ∉ softs (run (Cat.empty true) [ad 1 [], ad 2 [1], ad 3 [], .relate ty 2 ty 3]) 3 := by decide +kernel
  refine ⟨h, ?_, ?_⟩
  · intro hm
    exact h.2 ((hm 2 3).2.1 h.1)
  · decide +kernel

/-- A part with a soft relationship that is then made the supporting representation is recorded with both
strengths. -/
theorem C13_two_strengths_violated :
    let s := run (Cat.empty true) [ad 1 [], ad 2 [1], .add ty 3 (some 1) [] true [], .relate ty 2 ty 3,
      .changeSupport (nm 3) 1 2]
    (2 ∈ softs s 3 ∧ 2 ∈ outs s 3) ∧ ¬ OneStrength s := by
  have h : 2 ∈ softs (run (Cat.empty true) [ad 1 [], ad 2 [1], .add ty 3 (some 1) [] true [], .relate ty 2 ty 3,
      .changeSupport (nm 3) 1 2]) 3 ∧ 2 ∈ outs (run (Cat.empty true) [ad 1 [], ad 2 [1],
      .add ty 3 (some 1) [] true [], .relate ty 2 ty 3, .changeSupport (nm 3) 1 2]) 3 := by decide +kernel
  refine ⟨h, ?_⟩
  intro hm
  exact (hm 3 2 h.1).1 h.2

/-- Changing the supporting representation to a part that has no relationships raises, leaving a
reference recorded on one side. -/
theorem C13_support_change_violated :
    let s := run (Cat.empty true) [ad 1 [], ad 2 [], .add ty 3 (some 1) [] true []]
    let t := step s (.changeSupport (nm 3) 1 2)
    t.2 = .error .key ∧ (2 ∈ outs t.1 3 ∧ 3 ∉ ins t.1 2) ∧ ¬ Mutual t.1 := by
  have h : (step (run (Cat.empty true) [ad 1 [], ad 2 [], .add ty 3 (some 1) [] true []])
      (.changeSupport (nm 3) 1 2)).2 = .error .key ∧
      2 ∈ outs (step (run (Cat.empty true) [ad 1 [], ad 2 [], .add ty 3 (some 1) [] true []])
      (.changeSupport (nm 3) 1 2)).1 3 ∧
      3 ∉ ins (step (run (Cat.empty true) [ad 1 [], ad 2 [], .add ty 3 (some 1) [] true []])
      (.changeSupport (nm 3) 1 2)).1 2 := by decide +kernel
  refine ⟨h.1, h.2, ?_⟩
  intro hm
  exact h.2.2 ((hm 3 2).1.1 h.2.1)

/-- a disciplined and strict history with a reference, a soft relationship and a removal -/
example : let ops := [ad 1 [], ad 2 [1], ad 3 [1], .relate ty 2 ty 3]
    Along Disciplined (Cat.empty true) ops ∧ Along Strict (Cat.empty true) ops ∧
      3 ∈ softs (run (Cat.empty true) ops) 2 ∧ 2 ∈ softs (run (Cat.empty true) ops) 3 ∧
      (removePart (nm 2) true (run (Cat.empty true) ops)).2 = .ok () := by
  intro ops
  refine ⟨⟨trivial, trivial, trivial, ?_, trivial⟩, ⟨by intro r hr; simp at hr, ?_, ?_, trivial, trivial⟩, by decide +kernel⟩
  · intro va vb h
    have h' : related (run (Cat.empty true) [ad 1 [], ad 2 [1], ad 3 [1]]) ty 2 ty 3 = some (2, 3) := by decide +kernel
    have h2 : some (va, vb) = some (2, 3) := h.symm.trans h'
    simp only [Option.some.injEq, Prod.mk.injEq] at h2
    obtain ⟨rfl, rfl⟩ := h2
    refine ⟨by decide, ?_⟩
    have : ((run (Cat.empty true) [ad 1 [], ad 2 [1], ad 3 [1]]).rels.get? 2).isSome = true ∧
      ((run (Cat.empty true) [ad 1 [], ad 2 [1], ad 3 [1]]).rels.get? 3).isSome = true := by decide +kernel
    exact iff_of_true this.1 this.2
  · intro r hr
    have : r = 1 := by simpa [ad] using hr
    subst this
    decide +kernel
  · intro r hr
    have : r = 1 := by simpa [ad] using hr
    subst this
    decide +kernel

end Verif.Catalogue
