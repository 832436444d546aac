import Verif.Marker.Lemmas

/-!
# Lemmas: interpretations for the rows of a table
-/

namespace Verif.Marker

open Verif.Py Verif.Organize

theorem le_foldr_max {l : List Nat} {x : Nat} (h : x ∈ l) : x ≤ l.foldr max 0 := by
  induction l with
  | nil => simp at h
  | cons a l ih =>
    rcases List.mem_cons.1 h with rfl | h
    · simp
    · have := ih h
      simp only [List.foldr_cons]
      omega

theorem rootFor_none {s : Store} {u : Nat} : rootFor s u = none ↔ u ∉ s.map Part.uuid := by
  unfold rootFor
  rw [Option.map_eq_none_iff, List.find?_eq_none]
  simp only [beq_iff_eq, List.mem_map, not_exists, not_and]

theorem fresh_none (s : Store) : rootFor s (fresh s) = none := by
  rw [rootFor_none]
  intro h
  have := le_foldr_max h
  unfold fresh at this
  omega

theorem rootFor_nodup {s : Store} (h : (s.map Part.uuid).Nodup) {p : Part} (hp : p ∈ s) : rootFor s p.uuid = some p.root := by
  induction s with
  | nil => simp at hp
  | cons q s ih =>
    simp only [List.map_cons, List.nodup_cons] at h
    unfold rootFor
    rw [List.find?_cons]
    rcases List.mem_cons.1 hp with rfl | hp
    · simp
    · have : q.uuid ≠ p.uuid := fun e => h.1 (e ▸ List.mem_map_of_mem hp)
      simp only [beq_eq_false_iff_ne.2 this]
      exact ih h.2 hp

theorem nodup_snoc {s : Store} (h : (s.map Part.uuid).Nodup) {p : Part} (hp : rootFor s p.uuid = none) :
    ((s ++ [p]).map Part.uuid).Nodup := by
  rw [List.map_append, List.nodup_append]
  refine ⟨h, by simp, ?_⟩
  rintro a ha b hb rfl
  simp only [List.map_cons, List.map_nil, List.mem_singleton] at hb
  subst hb
  exact rootFor_none.1 hp ha

/-- Creating a feature: at most one part is added, and the title stays. -/
theorem feature_created {c : FC} {s s' : Store} {x x' : Feat} (h : create (featCls c) s x true = .ok (s', x'))
    (hn : rootFor s x.uuid = none) : x'.title = x.title ∧
      (s' = s ∨ ∃ p, s' = s ++ [p] ∧ p.typ = c.typ ∧ rootFor s p.uuid = none) := by
  rcases create_spec (featCls c) (x0 := x) rfl h with ⟨hs, r⟩ | ⟨_, _, s1, n, hw, hs⟩
  · rcases r with ⟨rfl, _⟩ | ⟨p, _, _, _, rfl⟩
    · exact ⟨rfl, Or.inl hs⟩
    · exact ⟨rfl, Or.inl hs⟩
  · simp only [featCls] at hw
    cases e : featNode x with
    | error y => simp [e, Except.map] at hw
    | ok m =>
      simp only [e, Except.map, Except.ok.injEq, Prod.mk.injEq] at hw
      obtain ⟨rfl, rfl, rfl⟩ := hw
      exact ⟨rfl, Or.inr ⟨_, hs, rfl, hn⟩⟩

/-- The title read from a part written with a title. -/
theorem title_read {title : Option String} {m : Meta} {k : List Node} {t u x} (h : title = none ∨ GoodTitle title) :
    citationTitle (.mk t u x (baseKids title m ++ k)) = some (if falsy title then "untitled" else title.getD "") := by
  have hk : ft (baseKids title m ++ k) "Citation" = some (citation title) := by
    rw [ft_append, ft_base_citation]
    rfl
  rcases h with rfl | h
  · have e : citationTitle (.mk t u x (baseKids none m ++ k)) = findText (citation none) "Title" := by
      unfold citationTitle
      rw [findTag_mk, hk]
      rfl
    rw [e, citation_text]
    have : strip "untitled" = "untitled" := by decide +kernel
    simp [falsy, this]
  · rw [citation_title h _ _ _ _ hk]
    obtain ⟨y, rfl, hy⟩ := h
    simp [falsy_clean hy]

theorem candidates_nil {s : Store} {typ : String} {t : Option String} (h : candidates s typ t = []) {p : Part} (hp : p ∈ s)
    (ht : p.typ = typ) : falsy t = false ∧ titleMatches (t.getD "") p = false := by
  unfold candidates at h
  rw [List.filter_eq_nil_iff] at h
  have := h p hp
  simp only [ht, beq_self_eq_true, Bool.true_and, Bool.or_eq_true, not_or, Bool.not_eq_true] at this
  exact this

theorem horizon_differs {s : Store} {x y : Horizon} (hx : rootFor s x.uuid = none) (hy : (rootFor s y.uuid).isSome) :
    eqvHorizon true s x y = false := by
  unfold eqvHorizon
  rw [if_neg (ne_of_roots hx hy), sameRoots_false hx hy]
  split_ifs <;> simp_all

theorem horizon_write {s s' : Store} {x i : Horizon} (hx : rootFor s x.uuid = none) (hw : withTitle x.toInterp = .ok x.toInterp)
    (h : create horizonCls s x true = .ok (s', i)) :
    i.uuid = x.uuid ∧ ∃ k, s' = s ++ [⟨x.uuid, "HorizonInterpretation", .mk "HorizonInterpretation" none none (baseKids x.title x.md ++ k)⟩] := by
  have hpre : horizonCls.prep s x = .ok x := by
    show (withTitle x.toInterp).map _ = _
    rw [hw]
    rfl
  obtain ⟨s3, n, hw, hs2⟩ := never_reused horizonCls hpre hx (by
    intro v y hv hy
    have hy' : y.uuid = v := loadHorizon_uuid hy
    have := horizon_differs hx (show (rootFor s y.uuid).isSome by rw [hy']; exact hv)
    show Except.ok (eqvHorizon true s _ y) = Except.ok false
    rw [this]) h
  have hw' : writeHorizon s x = .ok (s3, n, i) := hw
  unfold writeHorizon at hw'
  split_ifs at hw'
  cases e3 : featureRoot .attribute s x.feature with
  | error y => rw [e3] at hw'; simp at hw'
  | ok fu =>
    rw [e3] at hw'
    simp only [Except.ok.injEq, Prod.mk.injEq] at hw'
    obtain ⟨rfl, rfl, rfl⟩ := hw'
    simp only [List.append_assoc] at hs2
    exact ⟨rfl, _, hs2⟩

theorem withTitle_self (u : Nat) (f : Feat) : withTitle ⟨u, f.title, [], some "depth", some f, (none, none)⟩ =
    .ok ⟨u, f.title, [], some "depth", some f, (none, none)⟩ := by
  unfold withTitle
  split_ifs <;> rfl

/-- What is added for a horizon whose title is not found. -/
theorem horizon_created {s s' : Store} {t : Option String} {u : Nat} (ht : t = none ∨ GoodTitle t)
    (h : createInterp s "horizon" t = .ok (s', u)) : ∃ fs p, s' = s ++ fs ++ [p] ∧ (fs = [] ∨ ∃ q, fs = [q] ∧ q.typ = "GeneticBoundaryFeature" ∧
      rootFor s q.uuid = none) ∧ p.typ = "HorizonInterpretation" ∧ p.uuid = u ∧ rootFor (s ++ fs) u = none ∧
      citationTitle p.root = some (if falsy t then "untitled" else t.getD "") := by
  unfold createInterp at h
  rw [if_neg (by decide)] at h
  cases e : create (featCls .genetic) s ⟨.genetic, fresh s, t, [], some "horizon", none, none, none⟩ true with
  | error x => simp [e] at h
  | ok r =>
    obtain ⟨s1, f⟩ := r
    simp only [e, if_true] at h
    obtain ⟨hf, hs1⟩ := feature_created e (fresh_none s)
    have hft : f.title = t := hf
    cases e2 : create horizonCls s1 ⟨⟨fresh s1, f.title, [], some "depth", some f, (none, none)⟩, none, none⟩ true with
    | error x => simp [e2] at h
    | ok r =>
      obtain ⟨s2, i⟩ := r
      simp only [e2, Except.ok.injEq, Prod.mk.injEq] at h
      obtain ⟨rfl, rfl⟩ := h
      obtain ⟨hu, k, hs2⟩ := horizon_write (fresh_none s1) (withTitle_self _ f) e2
      dsimp only at hu hs2
      rw [hft] at hs2
      rw [hu]
      rcases hs1 with rfl | ⟨q, rfl, hq, hqn⟩
      · exact ⟨[], ⟨fresh s1, "HorizonInterpretation", .mk "HorizonInterpretation" none none (baseKids t [] ++ k)⟩,
          by rw [List.append_nil]; exact hs2, Or.inl rfl, rfl, rfl, by rw [List.append_nil]; exact fresh_none _, title_read ht⟩
      · exact ⟨[q], ⟨fresh (s ++ [q]), "HorizonInterpretation", .mk "HorizonInterpretation" none none (baseKids t [] ++ k)⟩,
          hs2, Or.inr ⟨q, rfl, hq, hqn⟩, rfl, rfl, fresh_none _, title_read ht⟩

theorem loadFault_title {s : Store} {u : Nat} {y : Fault} (h : loadFault s u = .ok y) : ∃ n, rootFor s u = some n ∧ y.title = citationTitle n ∧
    y.uuid = u := by
  unfold loadFault at h
  cases e : loadInterp .tectonic s u with
  | error x => simp [e] at h
  | ok r =>
    obtain ⟨i, n⟩ := r
    have hi : rootFor s u = some n ∧ i.title = citationTitle n ∧ i.uuid = u := by
      unfold loadInterp at e
      cases e1 : rootFor s u with
      | none => simp [e1] at e
      | some m =>
        simp only [e1] at e
        cases e2 : loadFeature .tectonic s m with
        | error x => simp [e2] at e
        | ok f =>
          simp only [e2, Except.ok.injEq, Prod.mk.injEq] at e
          obtain ⟨rfl, rfl⟩ := e
          exact ⟨rfl, rfl, rfl⟩
    simp only [e] at h
    split_ifs at h
    · simp only [Except.ok.injEq] at h
      subst h
      exact ⟨n, hi⟩
    · simp only [Except.ok.injEq] at h
      subst h
      exact ⟨n, hi⟩

theorem fault_write {s s' : Store} {x i : Fault} (hnd : (s.map Part.uuid).Nodup) (hx : rootFor s x.uuid = none)
    (hp : prepFault x = .ok x) (hno : ∀ p ∈ s, p.typ = "FaultInterpretation" → citationTitle p.root ≠ x.title)
    (h : create faultCls s x true = .ok (s', i)) :
    i.uuid = x.uuid ∧ ∃ k, s' = s ++ [⟨x.uuid, "FaultInterpretation", .mk "FaultInterpretation" none none (baseKids x.title x.md ++ k)⟩] := by
  rcases create_spec faultCls (s := s) (x0 := x) hp h with ⟨hs, r⟩ | ⟨_, _, s3, n, hw, hs2⟩
  · exfalso
    rcases r with ⟨_, hr⟩ | ⟨p, hpm, hpt, ⟨y, hy, he⟩, _⟩
    · have hr' : (rootFor s x.uuid).isSome := hr
      rw [hx] at hr'
      simp at hr'
    · obtain ⟨m, hm, hyt, hyu⟩ := loadFault_title hy
      rw [rootFor_nodup hnd hpm, Option.some.injEq] at hm
      subst hm
      have hne : x.uuid ≠ y.uuid := by
        rw [hyu]
        exact ne_of_roots hx (by rw [rootFor_nodup hnd hpm]; rfl)
      have he' : eqvFault true x y = true := by
        simpa [faultCls] using he
      unfold eqvFault at he'
      rw [if_neg hne] at he'
      by_cases htt : x.title = y.title
      · exact hno p hpm hpt (by rw [htt, hyt])
      · rw [if_pos htt] at he'
        simp at he'
  · have hw' : writeFault s x = .ok (s3, n, i) := hw
    unfold writeFault at hw'
    cases e3 : featureRoot .assertion s x.feature with
    | error y => rw [e3] at hw'; simp at hw'
    | ok fu =>
      rw [e3] at hw'
      dsimp only at hw'
      split_ifs at hw'
      simp only [Except.ok.injEq, Prod.mk.injEq] at hw'
      obtain ⟨rfl, rfl, rfl⟩ := hw'
      simp only [List.append_assoc] at hs2
      exact ⟨rfl, _, hs2⟩

/-- What is added for a fault whose title is not found. -/
theorem fault_created {s s' : Store} {t : Option String} {u : Nat} (hnd : (s.map Part.uuid).Nodup) (ht : t = none ∨ GoodTitle t)
    (hc : candidates s "FaultInterpretation" t = [])
    (h : createInterp s "fault" t = .ok (s', u)) : ∃ fs p, s' = s ++ fs ++ [p] ∧ (fs = [] ∨ ∃ q, fs = [q] ∧ q.typ = "TectonicBoundaryFeature" ∧
      rootFor s q.uuid = none) ∧ p.typ = "FaultInterpretation" ∧ p.uuid = u ∧ rootFor (s ++ fs) u = none ∧
      citationTitle p.root = some (if falsy t then "untitled" else t.getD "") := by
  unfold createInterp at h
  rw [if_pos rfl] at h
  cases e : create (featCls .tectonic) s ⟨.tectonic, fresh s, t, [], some "fault", none, none, none⟩ true with
  | error x => simp [e] at h
  | ok r =>
    obtain ⟨s1, f⟩ := r
    simp only [e] at h
    obtain ⟨hf, hs1⟩ := feature_created e (fresh_none s)
    have hft : f.title = t := hf
    cases e2 : create faultCls s1 ⟨⟨fresh s1, f.title, [], some "depth", some f, (none, none)⟩, some true, none, none, none, none, none⟩ true with
    | error x => simp [e2] at h
    | ok r =>
      obtain ⟨s2, i⟩ := r
      simp only [e2, Except.ok.injEq, Prod.mk.injEq] at h
      obtain ⟨rfl, rfl⟩ := h
      have hnd1 : (s1.map Part.uuid).Nodup := by
        rcases hs1 with rfl | ⟨q, rfl, _, hq⟩
        · exact hnd
        · exact nodup_snoc hnd hq
      have hno : ∀ p ∈ s1, p.typ = "FaultInterpretation" → citationTitle p.root ≠ f.title := by
        intro p hp hpt hcon
        have hps : p ∈ s := by
          rcases hs1 with rfl | ⟨q, rfl, hq, _⟩
          · exact hp
          · rcases List.mem_append.1 hp with hp | hp
            · exact hp
            · simp only [List.mem_singleton] at hp
              subst hp
              rw [hq] at hpt
              exact absurd hpt (by decide)
        obtain ⟨h1, h2⟩ := candidates_nil hc hps hpt
        unfold titleMatches at h2
        rw [hcon, hft] at h2
        simp at h2
      obtain ⟨hu, k, hs2⟩ := fault_write hnd1 (fresh_none s1) rfl hno e2
      dsimp only at hu hs2
      rw [hft] at hs2
      rw [hu]
      rcases hs1 with rfl | ⟨q, rfl, hq, hqn⟩
      · exact ⟨[], ⟨fresh s1, "FaultInterpretation", .mk "FaultInterpretation" none none (baseKids t [] ++ k)⟩,
          by rw [List.append_nil]; exact hs2, Or.inl rfl, rfl, rfl, by rw [List.append_nil]; exact fresh_none _, title_read ht⟩
      · exact ⟨[q], ⟨fresh (s ++ [q]), "FaultInterpretation", .mk "FaultInterpretation" none none (baseKids t [] ++ k)⟩,
          hs2, Or.inr ⟨q, rfl, hq, hqn⟩, rfl, rfl, fresh_none _, title_read ht⟩

/-- What is added for a geobody, if anything. -/
theorem geobody_created {s s' : Store} {t : Option String} {u : Nat} (hnd : (s.map Part.uuid).Nodup)
    (h : createInterp s "geobody" t = .ok (s', u)) : ∃ new, s' = s ++ new ∧ (s'.map Part.uuid).Nodup ∧
      ∀ p ∈ new, p.typ = "GeneticBoundaryFeature" ∨ p.typ = "GeobodyBoundaryInterpretation" := by
  unfold createInterp at h
  rw [if_neg (by decide)] at h
  cases e : create (featCls .genetic) s ⟨.genetic, fresh s, t, [], some "geobody", none, none, none⟩ true with
  | error x => simp [e] at h
  | ok r =>
    obtain ⟨s1, f⟩ := r
    rw [e] at h
    simp only [show ¬ "geobody" = "horizon" by decide, if_false] at h
    obtain ⟨hf, hs1⟩ := feature_created e (fresh_none s)
    have hnd1 : (s1.map Part.uuid).Nodup := by
      rcases hs1 with rfl | ⟨q, rfl, _, hq⟩
      · exact hnd
      · exact nodup_snoc hnd hq
    have hn1 : ∃ new, s1 = s ++ new ∧ ∀ p ∈ new, p.typ = "GeneticBoundaryFeature" := by
      rcases hs1 with rfl | ⟨q, rfl, hq, _⟩
      · exact ⟨[], by simp⟩
      · exact ⟨[q], rfl, by
          intro p hp
          simp only [List.mem_singleton] at hp
          subst hp
          exact hq⟩
    cases e2 : create geobodyBoundaryCls s1 ⟨⟨fresh s1, f.title, [], some "depth", some f, (none, none)⟩, none, none⟩ true with
    | error x => simp [e2] at h
    | ok r =>
      obtain ⟨s2, i⟩ := r
      simp only [e2, Except.ok.injEq, Prod.mk.injEq] at h
      obtain ⟨rfl, rfl⟩ := h
      have hpre : geobodyBoundaryCls.prep s1 ⟨⟨fresh s1, f.title, [], some "depth", some f, (none, none)⟩, none, none⟩ =
          .ok ⟨⟨fresh s1, f.title, [], some "depth", some f, (none, none)⟩, none, none⟩ := by
        simp only [geobodyBoundaryCls, withTitle]
        split_ifs <;> rfl
      obtain ⟨new, rfl, hnew⟩ := hn1
      rcases create_spec geobodyBoundaryCls hpre e2 with ⟨hs, _⟩ | ⟨_, _, s3, n, hw, hs2⟩
      · exact ⟨new, hs, by rw [hs]; exact hnd1, fun p hp => Or.inl (hnew p hp)⟩
      · simp only [geobodyBoundaryCls] at hw hs2
        unfold writeGeobodyBoundary at hw
        simp only [reduceCtorEq, if_false, domainOk, Option.any_some, validDomains, List.mem_cons, true_or, decide_true, Bool.not_true,
          Bool.false_eq_true, Option.getD_none, List.all_nil] at hw
        cases e3 : featureRoot .attribute (s ++ new) (some f) with
        | error x => simp [e3] at hw
        | ok fu =>
          simp only [e3, Except.ok.injEq, Prod.mk.injEq] at hw
          obtain ⟨rfl, rfl, rfl⟩ := hw
          refine ⟨new ++ [_], by rw [hs2, List.append_assoc], ?_, ?_⟩
          · rw [hs2]
            exact nodup_snoc hnd1 (fresh_none _)
          · intro p hp
            rcases List.mem_append.1 hp with hp | hp
            · exact Or.inl (hnew p hp)
            · simp only [List.mem_singleton] at hp
              subst hp
              exact Or.inr rfl

/-! ### One row -/

theorem titled_append (s t : Store) (typ x : String) : titled (s ++ t) typ x = titled s typ x ++ titled t typ x := by
  simp [titled]

theorem titled_other {s : Store} {typ : String} (h : ∀ p ∈ s, p.typ ≠ typ) (x : String) : titled s typ x = [] := by
  unfold titled
  rw [List.map_eq_nil_iff, List.filter_eq_nil_iff]
  intro p hp
  simp [h p hp]

theorem titled_eq {s : Store} {typ x : String} (h : x ≠ "") : titled s typ x = (candidates s typ (some x)).map Part.uuid := by
  unfold titled candidates
  apply congrArg
  apply List.filter_congr
  intro p _
  by_cases h1 : p.typ = typ <;> by_cases h2 : upper (strip ((citationTitle p.root).getD "")) = upper (strip x) <;>
    simp [h1, h2, falsy, h, titleMatches]

theorem titled_congr {s : Store} {typ x y : String} (h : upper (strip x) = upper (strip y)) : titled s typ x = titled s typ y := by
  simp [titled, h]

theorem titled_cons_self {p : Part} {typ x y : String} (h1 : p.typ = typ) (h2 : citationTitle p.root = some y)
    (h3 : upper (strip y) = upper (strip x)) : titled [p] typ x = [p.uuid] := by
  simp [titled, h1, h2, h3]

theorem titled_cons_ne {p : Part} {typ x y : String} (h2 : citationTitle p.root = some y)
    (h3 : upper (strip y) ≠ upper (strip x)) : titled [p] typ x = [] := by
  simp [titled, h2, h3]

/-- A new interpretation of a type, with a feature before it perhaps: nothing else changes, and it can be found by its title. -/
theorem new_titled {s fs : Store} {p : Part} {typ : String} {t : Option String} (hfs : fs = [] ∨ ∃ q, fs = [q] ∧ (q.typ = "GeneticBoundaryFeature" ∨
      q.typ = "TectonicBoundaryFeature")) (hp : p.typ = typ) (htyp : typ = "HorizonInterpretation" ∨ typ = "FaultInterpretation" ∨ typ = "GeobodyInterpretation")
    (hc : candidates s typ t = []) (ht : t = none ∨ GoodTitle t)
    (hcit : citationTitle p.root = some (if falsy t then "untitled" else t.getD "")) :
    (∀ x, t = some x → titled (s ++ fs ++ [p]) typ x = [p.uuid]) ∧
      ∀ typ' x v, typ' = "HorizonInterpretation" ∨ typ' = "FaultInterpretation" ∨ typ' = "GeobodyInterpretation" →
        titled s typ' x = [v] → titled (s ++ fs ++ [p]) typ' x = [v] := by
  have hf : ∀ typ' x, typ' = "HorizonInterpretation" ∨ typ' = "FaultInterpretation" ∨ typ' = "GeobodyInterpretation" → titled fs typ' x = [] := by
    intro typ' x hx
    apply titled_other
    intro q hq
    rcases hfs with rfl | ⟨r, rfl, hr⟩
    · simp at hq
    · simp only [List.mem_singleton] at hq
      subst hq
      rcases hr with hr | hr <;> rcases hx with rfl | rfl | rfl <;> rw [hr] <;> decide
  constructor
  · rintro x rfl
    have hx : Clean x := by
      rcases ht with h | ⟨y, h, hy⟩
      · simp at h
      · simp only [Option.some.injEq] at h
        subst h
        exact hy
    rw [titled_append, titled_append, hf _ _ htyp, titled_eq hx.2, hc]
    have hcit' : citationTitle p.root = some x := by
      rw [hcit, falsy_clean hx]
      rfl
    rw [titled_cons_self hp hcit' rfl]
    rfl
  · intro typ' x v htyp' hv
    rw [titled_append, titled_append, hv, hf _ _ htyp']
    by_cases he : typ' = typ
    · subst he
      rcases ht with rfl | ⟨y, rfl, hy⟩
      · exfalso
        have : ∀ q ∈ s, q.typ ≠ typ' := by
          intro q hq hqt
          have := (candidates_nil hc hq hqt).1
          simp [falsy] at this
        rw [titled_other this] at hv
        simp at hv
      · have hcit' : citationTitle p.root = some y := by
          rw [hcit, falsy_clean hy]
          rfl
        have hne : upper (strip y) ≠ upper (strip x) := by
          intro e
          rw [titled_congr e.symm, titled_eq hy.2, hc] at hv
          simp at hv
        rw [titled_cons_ne hcit' hne]
        rfl
    · rw [titled_other (s := [p]) (by
        intro q hq
        simp only [List.mem_singleton] at hq
        subst hq
        rw [hp]
        exact Ne.symm he)]
      rfl

theorem nodup_two {s fs : Store} {p : Part} (h : (s.map Part.uuid).Nodup) (hfs : fs = [] ∨ ∃ q, fs = [q] ∧ rootFor s q.uuid = none)
    (hp : rootFor (s ++ fs) p.uuid = none) : ((s ++ fs ++ [p]).map Part.uuid).Nodup := by
  apply nodup_snoc _ hp
  rcases hfs with rfl | ⟨q, rfl, hq⟩
  · rw [List.append_nil]
    exact h
  · exact nodup_snoc h hq

/-- One row of the table. -/
theorem row_step {s s' : Store} {kind : String} {col : Option (Nat → Option String)} {make : Bool} {i : Nat} {u : Option Nat}
    (hnd : (s.map Part.uuid).Nodup) (hcell : ∀ g, col = some g → g i = none ∨ GoodTitle (g i))
    (h : rowInterp s kind col make i = .ok (s', u)) :
    (∃ new, s' = s ++ new) ∧ (s'.map Part.uuid).Nodup ∧
    (∀ typ x v, typ = "HorizonInterpretation" ∨ typ = "FaultInterpretation" ∨ typ = "GeobodyInterpretation" →
      titled s typ x = [v] → titled s' typ x = [v]) ∧
    (∀ typ g x, kind ≠ "geobody" → InterpOf kind typ → col = some g → g i = some x → ∃ v, u = some v ∧ titled s' typ x = [v]) ∧
    ((¬ ∃ typ, InterpOf kind typ) ∨ col = none → u = none ∧ s' = s) := by
  unfold rowInterp at h
  have same : (∃ new, s = s ++ new) := ⟨[], by simp⟩
  cases ek : interpType kind with
  | none =>
    simp only [ek, Except.ok.injEq, Prod.mk.injEq] at h
    obtain ⟨rfl, rfl⟩ := h
    refine ⟨same, hnd, fun _ _ _ _ h => h, ?_, fun _ => ⟨rfl, rfl⟩⟩
    intro typ g x _ hi
    cases hi <;> simp [interpType] at ek
  | some typ0 =>
    have hof : InterpOf kind typ0 := by
      unfold interpType at ek
      split_ifs at ek with h1 h2 h3 <;> simp only [Option.some.injEq] at ek <;> subst ek
      · subst h1; exact .horizon
      · subst h2; exact .fault
      · subst h3; exact .geobody
    have huniq : ∀ typ, InterpOf kind typ → typ = typ0 := by
      intro typ ht
      have : ∀ {k t}, InterpOf k t → interpType k = some t := by
        intro k t h
        cases h <;> rfl
      have e := this ht
      rw [ek] at e
      simpa using e.symm
    cases ec : col with
    | none =>
      simp only [ek, ec, Except.ok.injEq, Prod.mk.injEq] at h
      obtain ⟨rfl, rfl⟩ := h
      exact ⟨same, hnd, fun _ _ _ _ h => h, by simp, fun _ => ⟨rfl, rfl⟩⟩
    | some g =>
      simp only [ek, ec] at h
      have hcell := hcell g ec
      have nope : ¬ ((¬ ∃ typ, InterpOf kind typ) ∨ (some g : Option (Nat → Option String)) = none) := by
        rintro (h | h)
        · exact h ⟨_, hof⟩
        · simp at h
      cases eu : uuidFor s typ0 (g i) with
      | error x => simp [eu] at h
      | ok r =>
        cases r with
        | some v =>
          simp only [eu, Except.ok.injEq, Prod.mk.injEq] at h
          obtain ⟨rfl, rfl⟩ := h
          refine ⟨same, hnd, fun _ _ _ _ h => h, ?_, fun h => absurd h nope⟩
          intro typ g' x _ hi hg hx
          simp only [Option.some.injEq] at hg
          subst hg
          rw [huniq typ hi]
          refine ⟨v, rfl, ?_⟩
          have hxne : x ≠ "" := by
            rcases hcell with e | ⟨y, e, hy⟩
            · rw [hx] at e
              simp at e
            · rw [hx] at e
              simp only [Option.some.injEq] at e
              subst e
              exact hy.2
          rw [titled_eq hxne]
          unfold uuidFor at eu
          rw [hx] at eu
          cases ecand : candidates s typ0 (some x) with
          | nil => simp [ecand] at eu
          | cons p ps =>
            cases ps with
            | nil =>
              simp only [ecand, Except.ok.injEq, Option.some.injEq] at eu
              simp [eu]
            | cons q qs => simp [ecand] at eu
        | none =>
          simp only [eu] at h
          have hcand : candidates s typ0 (g i) = [] := by
            unfold uuidFor at eu
            cases ecand : candidates s typ0 (g i) with
            | nil => rfl
            | cons p ps => cases ps <;> simp [ecand] at eu
          split_ifs at h
          cases ecr : createInterp s kind (g i) with
          | error x => simp [ecr] at h
          | ok r =>
            obtain ⟨s2, v⟩ := r
            simp only [ecr, Except.ok.injEq, Prod.mk.injEq] at h
            obtain ⟨rfl, rfl⟩ := h
            cases hof with
            | horizon =>
              obtain ⟨fs, p, rfl, hfs, hpt, hpu, hroot, hcit⟩ := horizon_created hcell ecr
              have hfs1 : fs = [] ∨ ∃ q, fs = [q] ∧ rootFor s q.uuid = none := by
                rcases hfs with h | ⟨q, h, _, h'⟩
                · exact Or.inl h
                · exact Or.inr ⟨q, h, h'⟩
              have hfs2 : fs = [] ∨ ∃ q, fs = [q] ∧ (q.typ = "GeneticBoundaryFeature" ∨ q.typ = "TectonicBoundaryFeature") := by
                rcases hfs with h | ⟨q, h, h', _⟩
                · exact Or.inl h
                · exact Or.inr ⟨q, h, Or.inl h'⟩
              obtain ⟨k1, k2⟩ := new_titled hfs2 hpt (Or.inl rfl) hcand hcell hcit
              refine ⟨⟨fs ++ [p], by rw [List.append_assoc]⟩, nodup_two hnd hfs1 (by rw [hpu]; exact hroot), k2, ?_, fun h => absurd h nope⟩
              intro typ g' x _ hi hg hx
              simp only [Option.some.injEq] at hg
              subst hg
              rw [huniq typ hi]
              exact ⟨v, rfl, by rw [k1 x hx, hpu]⟩
            | fault =>
              obtain ⟨fs, p, rfl, hfs, hpt, hpu, hroot, hcit⟩ := fault_created hnd hcell hcand ecr
              have hfs1 : fs = [] ∨ ∃ q, fs = [q] ∧ rootFor s q.uuid = none := by
                rcases hfs with h | ⟨q, h, _, h'⟩
                · exact Or.inl h
                · exact Or.inr ⟨q, h, h'⟩
              have hfs2 : fs = [] ∨ ∃ q, fs = [q] ∧ (q.typ = "GeneticBoundaryFeature" ∨ q.typ = "TectonicBoundaryFeature") := by
                rcases hfs with h | ⟨q, h, h', _⟩
                · exact Or.inl h
                · exact Or.inr ⟨q, h, Or.inr h'⟩
              obtain ⟨k1, k2⟩ := new_titled hfs2 hpt (Or.inr (Or.inl rfl)) hcand hcell hcit
              refine ⟨⟨fs ++ [p], by rw [List.append_assoc]⟩, nodup_two hnd hfs1 (by rw [hpu]; exact hroot), k2, ?_, fun h => absurd h nope⟩
              intro typ g' x _ hi hg hx
              simp only [Option.some.injEq] at hg
              subst hg
              rw [huniq typ hi]
              exact ⟨v, rfl, by rw [k1 x hx, hpu]⟩
            | geobody =>
              obtain ⟨new, rfl, hn, htn⟩ := geobody_created hnd ecr
              refine ⟨⟨new, rfl⟩, hn, ?_, fun _ _ _ hne => absurd rfl hne, fun h => absurd h nope⟩
              intro typ x w htyp hw
              rw [titled_append, hw, titled_other]
              · rfl
              · intro p hp
                rcases htn p hp with e | e <;> rcases htyp with rfl | rfl | rfl <;> rw [e] <;> decide

end Verif.Marker
