import Verif.Query.Spec
import Verif.Box.Lemmas

/-!
# Property C14: filtering parts is set selection
-/

namespace Verif.Query
open Verif.Py Verif.Catalogue

/-! ## helper lemmas -/

private theorem selects_nil (db : Db) (ps : List Name) : Selects db ps [] ps :=
  ⟨List.Sublist.refl _, fun p => by simp⟩

private theorem selects_append {db : Db} {ps l1 l2 : List Name} {c1 c2 : List Criterion}
    (h1 : Selects db ps c1 l1) (h2 : Selects db l1 c2 l2) : Selects db ps (c1 ++ c2) l2 := by
  refine ⟨h2.1.trans h1.1, ?_⟩
  intro p
  rw [h2.2 p, h1.2 p]
  constructor
  · rintro ⟨⟨a, b⟩, c⟩
    refine ⟨a, fun x hx => ?_⟩
    rcases List.mem_append.1 hx with hx | hx
    · exact b x hx
    · exact c x hx
  · rintro ⟨a, b⟩
    exact ⟨⟨a, fun x hx => b x (List.mem_append_left _ hx)⟩, fun x hx => b x (List.mem_append_right _ hx)⟩

private theorem selects_empty {db : Db} {ps : List Name} {c1 : List Criterion} (c2 : List Criterion)
    (h1 : Selects db ps c1 []) : Selects db ps (c1 ++ c2) [] :=
  selects_append h1 ⟨List.Sublist.refl _, fun p => by simp⟩

private theorem selects_filter (db : Db) (ps : List Name) (cs : List Criterion) (f : Name → Bool)
    (h : ∀ p ∈ ps, f p = true ↔ ∀ c ∈ cs, Sat db p c) : Selects db ps cs (ps.filter f) := by
  refine ⟨List.filter_sublist, ?_⟩
  intro p
  rw [List.mem_filter]
  constructor
  · rintro ⟨a, b⟩; exact ⟨a, (h p a).1 b⟩
  · rintro ⟨a, b⟩; exact ⟨a, (h p a).2 b⟩

private theorem filterRes_eq (t : Name → Res Bool) (f : Name → Bool) (ps : List Name)
    (h : ∀ p ∈ ps, t p = .ok (f p)) : filterRes t ps = .ok (ps.filter f) := by
  induction ps with
  | nil => rfl
  | cons p ps ih =>
    unfold filterRes
    rw [h p (by simp)]
    dsimp only
    rw [ih (fun q hq => h q (by simp [hq]))]
    dsimp only
    rw [List.filter_cons]

theorem hasSub_iff (t s : List Char) : hasSub t s = true ↔ t <:+: s := by
  induction s with
  | nil =>
    rw [hasSub, List.isPrefixOf_iff_prefix]
    simp
  | cons c cs ih =>
    rw [hasSub, Bool.or_eq_true, ih, List.isPrefixOf_iff_prefix, List.infix_cons_iff]

private theorem titleTest_iff (mode : TitleMode) (pt t : List Char) :
    titleTest mode pt t = true ↔ TitleFits mode pt t := by
  cases mode <;> simp [titleTest, TitleFits, startsWith, endsWith, ← hasSub_iff, ← List.isPrefixOf_iff_prefix,
    ← List.isSuffixOf_iff_suffix]

private theorem metadataMatch_iff (tag : List Char → Option (List Char)) (md : List (List Char × List Char)) :
    metadataMatch tag md = true ↔ ∀ kv ∈ md, tag kv.1 = some kv.2 := by
  induction md with
  | nil => simp [metadataMatch]
  | cons kv md ih =>
    obtain ⟨k, v⟩ := kv
    unfold metadataMatch
    cases h : tag k with
    | none => simp [h]
    | some t =>
      dsimp only
      by_cases ht : t = v
      · subst ht; simp [ih, h]
      · simp [ht, h]

private theorem extraMatch_iff (ex : Dict (List Char) (List Char)) (md : List (List Char × List Char)) :
    extraMatch ex md = true ↔ ∀ kv ∈ md, ex.get? kv.1 = some kv.2 := by
  induction md with
  | nil => simp [extraMatch]
  | cons kv md ih =>
    obtain ⟨k, v⟩ := kv
    unfold extraMatch
    cases h : ex.get? k with
    | none => simp [h]
    | some t =>
      dsimp only
      by_cases ht : t = v
      · subst ht; simp [ih, h]
      · simp [ht, h]

private theorem stageUuid_spec (db : Db) (uuid : Option Nat) (ps : List Name) (hn : ps.Nodup) :
    Selects db ps (uuid.toList.map .uuid) (stageUuid db uuid ps).1 ∧
    ((stageUuid db uuid ps).2 = false → (stageUuid db uuid ps).1 = []) := by
  unfold stageUuid
  cases uuid with
  | none => exact ⟨selects_nil db ps, by simp⟩
  | some u =>
    dsimp only
    cases h : db.byUuid u with
    | none =>
      refine ⟨⟨by simp, ?_⟩, by simp⟩
      intro p; simp [Sat, h]
    | some q =>
      dsimp only
      by_cases hq : q ∈ ps
      · rw [if_pos hq]
        refine ⟨⟨by simpa using hq, ?_⟩, by simp⟩
        intro p
        simp only [List.mem_singleton, Option.toList_some, List.map_cons, List.map_nil, Sat, h, Option.some.injEq,
          forall_eq]
        constructor
        · rintro rfl; exact ⟨hq, rfl⟩
        · rintro ⟨_, h⟩; exact h.symm
      · rw [if_neg hq]
        refine ⟨⟨by simp, ?_⟩, by simp⟩
        intro p
        simp only [List.not_mem_nil, Option.toList_some, List.map_cons, List.map_nil, List.mem_singleton, Sat, h,
          Option.some.injEq, forall_eq, false_iff, not_and]
        rintro hp rfl; exact hq hp

private theorem stageType_spec (db : Db) (t : List Char) (ps : List Name) (hk : ∀ p ∈ ps, (db.info p).isSome) :
    ∃ l b, stageType db t ps = .ok (l, b) ∧ Selects db ps (if t = [] then [] else [.objType t]) l ∧
      (b = false → l = []) := by
  unfold stageType
  cases t with
  | nil => exact ⟨ps, true, rfl, selects_nil db ps, by simp⟩
  | cons c cs =>
    dsimp only
    generalize hT : (if isUpperAscii c = true then Xml.objPrefix ++ c :: cs else c :: cs) = T
    rw [filterRes_eq _ (fun p => (db.info p).elim false fun i => decide (i.ctype = T)) ps]
    · refine ⟨_, _, rfl, ?_, ?_⟩
      · simp only [List.cons_ne_nil, if_false]
        apply selects_filter
        intro p hp
        cases hi : db.info p with
        | none => have := hk p hp; rw [hi] at this; simp at this
        | some i =>
          simp only [Option.elim_some, decide_eq_true_eq, List.mem_singleton, forall_eq, Sat, hi,
            Option.some.injEq, exists_eq_left', List.headD_cons, ← hT]
          exact Iff.rfl
      · simp
    · intro p hp
      cases hi : db.info p with
      | none => have := hk p hp; rw [hi] at this; simp at this
      | some i => rfl

private theorem stageTitle_spec (db : Db) (t : List Char) (mode : TitleMode) (cs : Bool) (ps : List Name)
    (hk : ∀ p ∈ ps, (db.info p).isSome) (hm : mode ≠ .invalid) :
    ∃ l, (if t = [] then .ok ps else filteredByTitle db ps t mode cs) = .ok l ∧
      Selects db ps (if t = [] then [] else [.title t mode cs]) l := by
  by_cases ht : t = []
  · rw [if_pos ht, if_pos ht]; exact ⟨ps, rfl, selects_nil db ps⟩
  · rw [if_neg ht, if_neg ht]
    unfold filteredByTitle
    rw [if_neg hm]
    refine ⟨_, rfl, ?_⟩
    apply selects_filter
    intro p hp
    cases hi : db.info p with
    | none => have := hk p hp; rw [hi] at this; simp at this
    | some i =>
      dsimp only
      rw [titleTest_iff]
      cases cs <;> simp [Sat, hi, titleOf]

private theorem stageMetadata_spec (db : Db) (md : List (List Char × List Char)) (ps : List Name)
    (hk : ∀ p ∈ ps, (db.info p).isSome) :
    Selects db ps (md.map fun kv => .metadata kv.1 kv.2) (if md = [] then ps else filteredByMetadata db ps md) := by
  by_cases h : md = []
  · rw [if_pos h, h]; exact selects_nil db ps
  · rw [if_neg h]
    apply selects_filter
    intro p hp
    cases hi : db.info p with
    | none => have := hk p hp; rw [hi] at this; simp at this
    | some i =>
      dsimp only
      rw [metadataMatch_iff]
      simp only [List.mem_map, forall_exists_index, and_imp, forall_apply_eq_imp_iff₂, Sat, hi, Option.some.injEq,
        exists_eq_left']

private theorem stageExtra_spec (db : Db) (ex : List (List Char × List Char)) (ps : List Name)
    (hk : ∀ p ∈ ps, (db.info p).isSome) :
    Selects db ps (ex.map fun kv => .extra kv.1 kv.2) (if ex = [] then ps else filteredByExtra db ps ex) := by
  by_cases h : ex = []
  · rw [if_pos h, h]; exact selects_nil db ps
  · rw [if_neg h]
    apply selects_filter
    intro p hp
    cases hi : db.info p with
    | none => have := hk p hp; rw [hi] at this; simp at this
    | some i =>
      dsimp only
      by_cases he : i.extra = []
      · rw [if_pos he]
        cases ex with
        | nil => exact absurd rfl h
        | cons kv ex => simp [Sat, hi, he]
      · rw [if_neg he, extraMatch_iff]
        simp only [List.mem_map, forall_exists_index, and_imp, forall_apply_eq_imp_iff₂, Sat, hi, Option.some.injEq,
          exists_eq_left']

private theorem stageRelated_spec (db : Db) (rel : Option Nat) (mode : Option Nat) (ps : List Name)
    (hk : ∀ p ∈ ps, (db.info p).isSome) (hm : ∀ m, mode = some m → m < 3) (hr : rel.isSome → db.relsPresent = true) :
    ∃ l, (match rel with | none => .ok (some ps) | some u => filteredByRelated db ps u mode) = (.ok (some l) : Res _) ∧
      Selects db ps (rel.toList.map fun u => .related u mode) l := by
  cases rel with
  | none => exact ⟨ps, rfl, selects_nil db ps⟩
  | some u =>
    dsimp only
    unfold filteredByRelated
    rw [if_pos (hr rfl)]
    cases hu : db.rels u with
    | none =>
      refine ⟨[], rfl, by simp, ?_⟩
      intro p; simp [Sat, hu]
    | some r =>
      dsimp only
      have hset : ∃ all, relSet r mode = .ok all ∧ ∀ v, v ∈ all ↔ RelHas r mode v := by
        cases mode with
        | none => exact ⟨_, rfl, by simp [RelHas]⟩
        | some m =>
          have := hm m rfl
          match m, this with
          | 0, _ => exact ⟨_, rfl, by simp [RelHas]⟩
          | 1, _ => exact ⟨_, rfl, by simp [RelHas]⟩
          | 2, _ => exact ⟨_, rfl, by simp [RelHas]⟩
      obtain ⟨all, ha, hall⟩ := hset
      rw [ha]
      dsimp only
      rw [filterRes_eq _ (fun p => (db.info p).elim false fun i => decide (i.uuid ∈ all)) ps]
      · refine ⟨_, rfl, ?_⟩
        apply selects_filter
        intro p hp
        cases hi : db.info p with
        | none => have := hk p hp; rw [hi] at this; simp at this
        | some i =>
          simp only [Option.elim_some, decide_eq_true_eq, Option.toList_some, List.map_cons, List.map_nil,
            List.mem_singleton, forall_eq, Sat, hi, hu]
          rw [hall]
          constructor
          · intro h; exact ⟨i, r, rfl, rfl, h⟩
          · rintro ⟨i', r', e1, e2, h⟩
            cases e1; cases e2; exact h
      · intro p hp
        cases hi : db.info p with
        | none => have := hk p hp; rw [hi] at this; simp at this
        | some i => rfl

private theorem selects_known {db : Db} {ps l : List Name} {cs : List Criterion} (h : Selects db ps cs l)
    (hk : ∀ p ∈ ps, (db.info p).isSome) : ∀ p ∈ l, (db.info p).isSome :=
  fun p hp => hk p (h.1.subset hp)

private theorem selects_nodup {db : Db} {ps l : List Name} {cs : List Criterion} (h : Selects db ps cs l)
    (hk : ps.Nodup) : l.Nodup := hk.sublist h.1

/-! ## the property -/

/-- A query returns, in the order of the starting list, exactly those of its parts that satisfy every
criterion given.  Missing (see the violations): an empty starting list, restriction to a sub-directory. -/
theorem C14_query_selects_partial (db : Db) (q : Query) (hw : WellFormed db q) (hs : q.start ≠ some [])
    (hd : q.subdir = []) (hsort : q.sortBy = none) :
    ∃ l, parts db q = .ok (some l) ∧ Selects db (startList db q) (criteria q) l := by
  have hstart : startOf db q.start = startList db q := by
    unfold startList startOf
    cases h : q.start with
    | none => rfl
    | some l =>
      cases l with
      | nil => exact absurd h hs
      | cons a as => rfl
  unfold parts
  rw [hstart]
  obtain ⟨u1, u2⟩ := stageUuid_spec db q.uuid (startList db q) hw.once
  generalize hx : stageUuid db q.uuid (startList db q) = x at u1 u2
  obtain ⟨l1, go1⟩ := x
  dsimp only at u1 u2 ⊢
  unfold criteria
  cases go1 with
  | false =>
    have := u2 rfl
    subst this
    refine ⟨[], rfl, ?_⟩
    simp only [List.append_assoc]
    exact selects_empty _ u1
  | true =>
    have k1 := selects_known u1 hw.known
    dsimp only
    rw [if_pos hd]
    dsimp only
    obtain ⟨l2, go2, e2, s2, n2⟩ := stageType_spec db q.objType l1 k1
    rw [e2]
    have t2 := selects_append u1 s2
    cases go2 with
    | false =>
      have := n2 rfl
      subst this
      refine ⟨[], rfl, ?_⟩
      have := selects_empty ((if q.title = [] then [] else [Criterion.title q.title q.mode q.caseSensitive]) ++
        ((q.metadata.map fun kv => Criterion.metadata kv.1 kv.2) ++ ((q.extra.map fun kv => Criterion.extra kv.1 kv.2) ++
        (q.related.toList.map fun u => Criterion.related u q.relMode)))) t2
      simpa only [List.append_assoc] using this
    | true =>
      have k2 := selects_known s2 k1
      obtain ⟨l3, e3, s3⟩ := stageTitle_spec db q.title q.mode q.caseSensitive l2 k2 hw.mode
      have k3 := selects_known s3 k2
      have s4 := stageMetadata_spec db q.metadata l3 k3
      have k4 := selects_known s4 k3
      have s5 := stageExtra_spec db q.extra _ k4
      have k5 := selects_known s5 k4
      obtain ⟨l6, e6, s6⟩ := stageRelated_spec db q.related q.relMode _ k5 hw.relMode hw.rels
      have hrest : stageRest db q l2 = .ok (some l6) := by
        unfold stageRest
        rw [e3]
        exact e6
      refine ⟨l6, ?_, ?_⟩
      · dsimp only
        rw [hrest, hsort]
        rfl
      · exact selects_append (selects_append (selects_append (selects_append t2 s3) s4) s5) s6

private theorem selects_unique {db : Db} {ps l l' : List Name} {cs : List Criterion} (hn : ps.Nodup)
    (h : Selects db ps cs l) (h' : Selects db ps cs l') : l = l' := by
  have gen : ∀ (ps l l' : List Name), ps.Nodup → l.Sublist ps → l'.Sublist ps → (∀ p, p ∈ l ↔ p ∈ l') → l = l' := by
    intro ps
    induction ps with
    | nil => intro l l' _ h1 h2 _; simp at h1 h2; rw [h1, h2]
    | cons a ps ih =>
      intro l l' hn h1 h2 he
      rw [List.nodup_cons] at hn
      have nin : ∀ m : List Name, m.Sublist ps → a ∉ m := fun m hm ha => hn.1 (hm.subset ha)
      rcases List.sublist_cons_iff.1 h1 with g1 | ⟨r, rfl, g1⟩
      · rcases List.sublist_cons_iff.1 h2 with g2 | ⟨r', rfl, g2⟩
        · exact ih l l' hn.2 g1 g2 he
        · exact absurd ((he a).2 (by simp)) (nin _ g1)
      · rcases List.sublist_cons_iff.1 h2 with g2 | ⟨r', rfl, g2⟩
        · exact absurd ((he a).1 (by simp)) (nin _ g2)
        · congr 1
          apply ih r r' hn.2 g1 g2
          intro p
          have := he p
          simp only [List.mem_cons] at this
          by_cases hp : p = a
          · subst hp
            exact iff_of_false (nin _ g1) (nin _ g2)
          · simpa [hp] using this
  exact gen ps l l' hn h.1 h'.1 (fun p => by rw [h.2 p, h'.2 p])

/-- The result depends only on which criteria are given, not on the order in which they are considered,
and giving more criteria only narrows the result. -/
theorem C14_criteria_narrow_partial (db : Db) (q q' : Query) (hw : WellFormed db q) (hw' : WellFormed db q')
    (hs : q.start ≠ some []) (hs' : q'.start = q.start)
    (hd : q.subdir = []) (hd' : q'.subdir = []) (hsort : q.sortBy = none) (hsort' : q'.sortBy = none)
    (l l' : List Name) (h : parts db q = .ok (some l)) (h' : parts db q' = .ok (some l')) :
    ((∀ c ∈ criteria q, c ∈ criteria q') → l'.Sublist l) ∧
    ((∀ c, c ∈ criteria q ↔ c ∈ criteria q') → l = l') := by
  obtain ⟨m, e, s⟩ := C14_query_selects_partial db q hw hs hd hsort
  obtain ⟨m', e', s'⟩ := C14_query_selects_partial db q' hw' (hs' ▸ hs) hd' hsort'
  rw [h] at e
  rw [h'] at e'
  simp only [Except.ok.injEq, Option.some.injEq] at e e'
  subst e; subst e'
  have hst : startList db q' = startList db q := by unfold startList; rw [hs']
  rw [hst] at s'
  have narrow : (∀ c ∈ criteria q, c ∈ criteria q') → l'.Sublist l := by
    intro hc
    have gen : ∀ (ps l l' : List Name), ps.Nodup → l.Sublist ps → l'.Sublist ps → (∀ p ∈ l', p ∈ l) →
        l'.Sublist l := by
      intro ps
      induction ps with
      | nil => intro l l' _ h1 h2 _; simp at h1 h2; rw [h1, h2]; exact .refl _
      | cons a ps ih =>
        intro l l' hn h1 h2 he
        rw [List.nodup_cons] at hn
        have nin : ∀ m : List Name, m.Sublist ps → a ∉ m := fun m hm ha => hn.1 (hm.subset ha)
        rcases List.sublist_cons_iff.1 h1 with g1 | ⟨r, rfl, g1⟩
        · rcases List.sublist_cons_iff.1 h2 with g2 | ⟨r', rfl, g2⟩
          · exact ih l l' hn.2 g1 g2 he
          · exact absurd (he a (by simp)) (nin _ g1)
        · rcases List.sublist_cons_iff.1 h2 with g2 | ⟨r', rfl, g2⟩
          · apply List.Sublist.cons
            apply ih r l' hn.2 g1 g2
            intro p hp
            have := he p hp
            simp only [List.mem_cons] at this
            rcases this with rfl | h
            · exact absurd hp (nin _ g2)
            · exact h
          · apply List.Sublist.cons_cons
            apply ih r r' hn.2 g1 g2
            intro p hp
            have := he p (by simp [hp])
            simp only [List.mem_cons] at this
            rcases this with rfl | h
            · exact absurd hp (nin _ g2)
            · exact h
    apply gen (startList db q) l l' hw.once s.1 s'.1
    intro p hp
    obtain ⟨a, b⟩ := (s'.2 p).1 hp
    exact (s.2 p).2 ⟨a, fun c hcq => b c (hc c hcq)⟩
  refine ⟨narrow, ?_⟩
  intro hc
  apply selects_unique hw.once s
  refine ⟨s'.1, ?_⟩
  intro p
  rw [s'.2 p]
  constructor
  · rintro ⟨a, b⟩; exact ⟨a, fun c h => b c ((hc c).1 h)⟩
  · rintro ⟨a, b⟩; exact ⟨a, fun c h => b c ((hc c).2 h)⟩

/-- An empty starting list selects from all the parts of the model, instead of from nothing. -/
theorem C14_empty_start_violated : ∃ (db : Db) (p : Name),
    parts db { start := some [] } = .ok (some [p]) ∧ ¬ Selects db [] (criteria { start := some [] }) [p] := by
  refine ⟨⟨[['a']], fun _ => none, fun _ => none, true, fun _ => none⟩, ['a'], rfl, ?_⟩
  rintro ⟨h, _⟩
  simp at h

/-- Restriction to a sub-directory always raises TypeError, whatever parts there are to look at. -/
theorem C14_subdir_violated (db : Db) (q : Query) (hu : q.uuid = none) (hs : startOf db q.start ≠ [])
    (hd : unslashed q.subdir ≠ []) : parts db q = .error .type := by
  unfold parts
  rw [hu]
  simp only [stageUuid]
  have : q.subdir ≠ [] := by intro h; rw [h] at hd; exact hd rfl
  rw [if_neg this]
  unfold filteredBySubdir
  rw [if_neg hd]
  cases h : startOf db q.start with
  | nil => exact absurd h hs
  | cons p ps => rfl

/-! ### sorting -/

private theorem leText_total (a b : List Char) : leText a b = true ∨ leText b a = true := by
  induction a generalizing b with
  | nil => left; rfl
  | cons x xs ih =>
    cases b with
    | nil => right; rfl
    | cons y ys =>
      unfold leText
      by_cases h : x = y
      · subst h; simpa using ih ys
      · simp only [h, Ne.symm h, if_false, decide_eq_true_eq]; omega

private theorem leText_trans (a b c : List Char) (h1 : leText a b = true) (h2 : leText b c = true) :
    leText a c = true := by
  induction a generalizing b c with
  | nil => rfl
  | cons x xs ih =>
    cases b with
    | nil => simp [leText] at h1
    | cons y ys =>
      cases c with
      | nil => simp [leText] at h2
      | cons z zs =>
        unfold leText at h1 h2 ⊢
        have inj : ∀ c d : Char, c.toNat = d.toNat → c = d := fun c d h => Char.toNat_inj.1 h
        by_cases hxy : x = y
        · subst hxy
          by_cases hxz : x = z
          · subst hxz; simp only [if_true] at h1 h2 ⊢; exact ih ys zs h1 h2
          · simp only [hxz, if_false] at h2 ⊢; exact h2
        · simp only [hxy, if_false, decide_eq_true_eq] at h1
          by_cases hyz : y = z
          · subst hyz; simp only [hxy, if_false, decide_eq_true_eq]; exact h1
          · simp only [hyz, if_false, decide_eq_true_eq] at h2
            by_cases hxz : x = z
            · subst hxz
              exact absurd (inj x y (by omega)) hxy
            · simp only [hxz, if_false, decide_eq_true_eq]; omega

private theorem leText_antisymm (a b : List Char) (h1 : leText a b = true) (h2 : leText b a = true) : a = b := by
  induction a generalizing b with
  | nil => cases b with
    | nil => rfl
    | cons y ys => simp [leText] at h2
  | cons x xs ih =>
    cases b with
    | nil => simp [leText] at h1
    | cons y ys =>
      unfold leText at h1 h2
      by_cases h : x = y
      · subst h; simp only [if_true] at h1 h2; rw [ih ys h1 h2]
      · simp only [h, Ne.symm h, if_false, decide_eq_true_eq] at h1 h2
        exact absurd (Char.toNat_inj.1 (by omega)) h

private theorem leKey_total (a b : List Char × Nat) : (leKey a b || leKey b a) = true := by
  unfold leKey
  rw [Bool.or_eq_true]
  by_cases h : a.1 = b.1
  · simp only [h, if_true, decide_eq_true_eq]; omega
  · simp only [h, Ne.symm h, if_false]; exact leText_total _ _

private theorem leKey_trans (a b c : List Char × Nat) (h1 : leKey a b = true) (h2 : leKey b c = true) :
    leKey a c = true := by
  unfold leKey at h1 h2 ⊢
  by_cases hab : a.1 = b.1
  · by_cases hbc : b.1 = c.1
    · simp only [hab, hbc, if_true, decide_eq_true_eq] at h1 h2 ⊢; omega
    · rw [if_neg hbc] at h2
      rw [hab, if_neg hbc]; exact h2
  · rw [if_neg hab] at h1
    by_cases hbc : b.1 = c.1
    · rw [← hbc, if_neg hab]; exact h1
    · rw [if_neg hbc] at h2
      have h3 := leText_trans _ _ _ h1 h2
      by_cases hac : a.1 = c.1
      · exfalso
        rw [← hac] at h2
        exact hab (leText_antisymm _ _ h1 h2)
      · rw [if_neg hac]; exact h3

private theorem sortOn_perm (key : Name → List Char) (ps : List Name) : (sortOn key ps).Perm ps := by
  unfold sortOn
  have h := (List.mergeSort_perm (ps.zipIdx.map fun (p, i) => ((key p, i), p)) (fun a b => leKey a.1 b.1)).map Prod.snd
  refine h.trans ?_
  rw [List.map_map]
  have : (ps.zipIdx.map (Prod.snd ∘ fun (p, i) => ((key p, i), p))) = ps := by
    have e : (Prod.snd ∘ fun (x : Name × Nat) => ((key x.1, x.2), x.1)) = Prod.fst := rfl
    show ps.zipIdx.map (Prod.snd ∘ fun (x : Name × Nat) => ((key x.1, x.2), x.1)) = ps
    rw [e]
    simp
  rw [this]

private theorem sortOn_sorted (key : Name → List Char) (ps : List Name) :
    (sortOn key ps).Pairwise fun p p' => leText (key p) (key p') = true := by
  unfold sortOn
  have h := List.pairwise_mergeSort (le := fun (a b : (List Char × Nat) × Name) => leKey a.1 b.1)
    (fun a b c => leKey_trans a.1 b.1 c.1) (fun a b => leKey_total a.1 b.1)
    (ps.zipIdx.map fun (p, i) => ((key p, i), p))
  rw [List.pairwise_map]
  have hm : ∀ x ∈ (ps.zipIdx.map fun (p, i) => ((key p, i), p)).mergeSort (fun a b => leKey a.1 b.1),
      x.1.1 = key x.2 := by
    intro x hx
    rw [List.mem_mergeSort, List.mem_map] at hx
    obtain ⟨⟨p, i⟩, _, rfl⟩ := hx
    rfl
  refine List.Pairwise.imp_of_mem ?_ h
  intro a b ha hb hab
  rw [← hm a ha, ← hm b hb]
  unfold leKey at hab
  by_cases he : a.1.1 = b.1.1
  · rw [he]
    rcases leText_total b.1.1 b.1.1 with h | h <;> exact h
  · rw [if_neg he] at hab; exact hab

/-- the text by which a way of sorting orders parts -/
def sortKey (db : Db) : SortBy → Name → List Char
  | .type, p => p
  | .newest, p => (db.info p).elim [] Info.created
  | .oldest, p => (db.info p).elim [] Info.created
  | .uuid, p => (db.info p).elim [] fun i => Xml.uuidStr i.uuid
  | .title, p => titleOf db p
  | .invalid, _ => []

/-- A sorted query returns the parts of the unsorted query, each as often, ordered by the key asked for
(newest first for `newest`, in ascending order otherwise). -/
theorem C14_sorting_permutes (db : Db) (q : Query) (s : SortBy) (hs : s ≠ .invalid) (l : List Name)
    (hk : ∀ p ∈ l, (db.info p).isSome)
    (h : parts db { q with sortBy := none } = .ok (some l)) :
    ∃ l', parts db { q with sortBy := some s } = .ok (some l') ∧ l'.Perm l ∧
      l'.Pairwise fun p p' => if s = .newest then leText (sortKey db s p') (sortKey db s p) = true
        else leText (sortKey db s p) (sortKey db s p') = true := by
  have hsort : ∀ (ps : List Name), (∀ p ∈ ps, (db.info p).isSome) → ∃ l', sortedParts db ps s = .ok l' ∧ l'.Perm ps ∧
      l'.Pairwise fun p p' => if s = .newest then leText (sortKey db s p') (sortKey db s p) = true
        else leText (sortKey db s p) (sortKey db s p') = true := by
    intro ps hps
    cases s with
    | type => exact ⟨_, rfl, sortOn_perm _ _, sortOn_sorted _ _⟩
    | newest =>
      refine ⟨_, rfl, (List.reverse_perm _).trans (sortOn_perm _ _), ?_⟩
      unfold newestFirst
      rw [List.pairwise_reverse]
      exact sortOn_sorted _ _
    | oldest =>
      refine ⟨_, rfl, (List.reverse_perm _).trans ((List.reverse_perm _).trans (sortOn_perm _ _)), ?_⟩
      unfold newestFirst
      rw [List.reverse_reverse]
      exact sortOn_sorted _ _
    | uuid =>
      unfold sortedParts
      rw [filterRes_eq _ (fun _ => true)]
      · exact ⟨_, rfl, sortOn_perm _ _, sortOn_sorted _ _⟩
      · intro p hp; rw [if_pos (hps p hp)]
    | title => exact ⟨_, rfl, sortOn_perm _ _, sortOn_sorted _ _⟩
    | invalid => exact absurd rfl hs
  unfold parts at h ⊢
  dsimp only at h ⊢
  generalize stageUuid db q.uuid (startOf db q.start) = x at h ⊢
  obtain ⟨l1, b⟩ := x
  cases b with
  | false =>
    dsimp only at h ⊢
    simp only [Except.ok.injEq, Option.some.injEq] at h
    subst h
    exact ⟨[], rfl, .refl _, .nil⟩
  | true =>
    dsimp only at h ⊢
    cases h2 : (if q.subdir = [] then (.ok l1 : Res (List Name)) else filteredBySubdir l1 q.subdir) with
    | error e => rw [h2] at h; simp at h
    | ok l2 =>
      rw [h2] at h
      dsimp only at h ⊢
      cases h3 : stageType db q.objType l2 with
      | error e => rw [h3] at h; simp at h
      | ok x =>
        obtain ⟨l3, b⟩ := x
        rw [h3] at h
        cases b with
        | false =>
          dsimp only at h ⊢
          simp only [Except.ok.injEq, Option.some.injEq] at h
          subst h
          exact ⟨[], rfl, .refl _, .nil⟩
        | true =>
          dsimp only at h ⊢
          have hr : ∀ sb, stageRest db { q with sortBy := sb } l3 = stageRest db q l3 := fun _ => rfl
          rw [hr] at h ⊢
          cases h4 : stageRest db q l3 with
          | error e => rw [h4] at h; simp at h
          | ok r =>
            rw [h4] at h
            simp only [stageSort, Except.ok.injEq] at h
            subst h
            dsimp only
            cases l with
            | nil => exact ⟨[], rfl, .refl _, .nil⟩
            | cons p ps =>
              obtain ⟨l', e, hp, ho⟩ := hsort (p :: ps) hk
              refine ⟨l', ?_, hp, ho⟩
              simp only [stageSort, e]

/-- `Model.part` with the default handling: the part when there is exactly one, nothing when there is
none, an exception when there are several. -/
theorem C14_single_part (db : Db) (q : Query) (l : List Name) (h : parts db q = .ok (some l)) :
    (part db q .exception = .ok none ↔ l = []) ∧
    (∀ p, part db q .exception = .ok (some p) ↔ l = [p]) ∧
    (part db q .exception = .error .value ↔ 2 ≤ l.length) := by
  unfold part
  rw [h]
  match l with
  | [] => simp
  | [p] => simp
  | p :: p' :: ps => simp

theorem newestFirst_spec (db : Db) (ps : List Name) : (newestFirst db ps).Perm ps ∧
    (newestFirst db ps).Pairwise fun p p' => leText (sortKey db .newest p') (sortKey db .newest p) = true := by
  refine ⟨(List.reverse_perm _).trans (sortOn_perm _ _), ?_⟩
  unfold newestFirst
  rw [List.pairwise_reverse]
  exact sortOn_sorted _ _

/-- `Model.part` with the other ways of handling several parts: the first found, nothing, one than which none is newer, or one than which
none is older. -/
theorem C14_several_parts (db : Db) (q : Query) (l : List Name) (h : parts db q = .ok (some l)) (h2 : 2 ≤ l.length) :
    part db q .first = .ok l.head? ∧ part db q .none = .ok none ∧
    (∃ p ∈ l, part db q .newest = .ok (some p) ∧ ∀ p' ∈ l, p' ≠ p → leText (sortKey db .newest p') (sortKey db .newest p) = true) ∧
    (∃ p ∈ l, part db q .oldest = .ok (some p) ∧ ∀ p' ∈ l, p' ≠ p → leText (sortKey db .newest p) (sortKey db .newest p') = true) := by
  match l, h2 with
  | p :: p' :: ps, _ =>
    obtain ⟨hp, hs⟩ := newestFirst_spec db (p :: p' :: ps)
    unfold part
    rw [h]
    dsimp only
    refine ⟨rfl, rfl, ?_, ?_⟩
    · cases hl : newestFirst db (p :: p' :: ps) with
      | nil =>
        rw [hl] at hp
        exact absurd hp.length_eq (by simp)
      | cons a as =>
        rw [hl] at hp hs
        refine ⟨a, hp.mem_iff.mp (by simp), rfl, ?_⟩
        intro x hx hne
        rcases List.mem_cons.mp (hp.mem_iff.mpr hx) with rfl | hx
        · exact absurd rfl hne
        · exact (List.pairwise_cons.mp hs).1 x hx
    · rcases List.eq_nil_or_concat (newestFirst db (p :: p' :: ps)) with hl | ⟨as, a, hl⟩
      · rw [hl] at hp
        exact absurd hp.length_eq (by simp)
      · rw [List.concat_eq_append] at hl
        rw [hl] at hp hs
        refine ⟨a, hp.mem_iff.mp (by simp), by rw [hl]; simp, ?_⟩
        intro x hx hne
        rcases List.mem_append.mp (hp.mem_iff.mpr hx) with hx | hx
        · exact (List.pairwise_append.mp hs).2.2 x hx a (by simp)
        · exact absurd (List.mem_singleton.mp hx) hne

/-! ### a concrete case -/

private def exInfo (u : Nat) (t : List Char) : Info := ⟨['o', 'b', 'j', '_', 'G'], u, t, [], fun _ => none, []⟩

private def exDb : Db :=
  ⟨[['a'], ['b'], ['c']], fun p => if p = ['a'] then some (exInfo 1 ['T', ' ']) else if p = ['b'] then some (exInfo 2 ['x'])
    else if p = ['c'] then some (exInfo 3 ['t']) else none, fun _ => none, true, fun _ => none⟩

example : WellFormed exDb { objType := ['G'], title := ['t'] } ∧
    parts exDb { objType := ['G'], title := ['t'] } = .ok (some [['a'], ['c']]) := by
  refine ⟨⟨by decide, by decide, by decide, by simp, by simp⟩, by decide⟩

end Verif.Query
