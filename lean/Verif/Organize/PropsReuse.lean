import Verif.Organize.Feature

/-!
# C151: creating a part for an object uses the part of an equivalent object if there is one
-/

namespace Verif.Organize

open Verif.Py

/-- C151, for every class of features and interpretations: creating with reuse either leaves the model as it is and gives the object the
uuid of a stored part of its class which loads and is equivalent to it (or the object was a part already), or it adds one part under the
uuid of the object, after the parts the object itself needs; the latter only if no stored part of the class is equivalent, unless one
of them does not load. -/
theorem C151_reuse {α : Type} (c : Cls α) {s s' : Store} {x x' x0 : α} (hp : c.prep s x = .ok x0)
    (h : create c s x true = .ok (s', x')) :
    (s' = s ∧ ((x' = x0 ∧ (rootFor s (c.uuid x0)).isSome) ∨
      ∃ p ∈ s, p.typ = c.typ ∧ (∃ y, c.load s p.uuid = .ok y ∧ c.eqv s x0 y = .ok true) ∧ x' = c.setUuid x0 p.uuid)) ∨
    (rootFor s (c.uuid x0) = none ∧
      ((∃ p ∈ s, p.typ = c.typ ∧ ∃ e, c.load s p.uuid = .error e) ∨
        ∀ p ∈ s, p.typ = c.typ → ∃ y, c.load s p.uuid = .ok y ∧ c.eqv s x0 y = .ok false) ∧
      ∃ s1 n, c.write s x0 = .ok (s1, n, x') ∧ s' = s1 ++ [⟨c.uuid x', c.typ, n⟩]) :=
  create_spec c hp h

/-- C151: a feature is reused exactly if a feature of the same class with the same content is stored (or it is a part itself). -/
theorem C151_feature {f f' : Feat} {s s' : Store} (hm : (f.md.map Prod.fst).Nodup)
    (h : create (featCls f.cls) s f true = .ok (s', f')) :
    (s' = s ∧ (f' = f ∧ (rootFor s f.uuid).isSome ∨
      ∃ p ∈ s, p.typ = f.cls.typ ∧ (∃ g, loadFeat f.cls s p.uuid = .ok g ∧ SameFeature true f g) ∧ f' = { f with uuid := p.uuid })) ∨
    (f' = f ∧ rootFor s f.uuid = none ∧ (∃ n, featNode f = .ok n ∧ s' = s ++ [⟨f.uuid, f.cls.typ, n⟩]) ∧
      ∀ p ∈ s, p.typ = f.cls.typ → ∀ g, loadFeat f.cls s p.uuid = .ok g → ¬ SameFeature true f g) := by
  have key : ∀ p ∈ s, ∀ g, loadFeat f.cls s p.uuid = .ok g → rootFor s f.uuid = none →
      (eqvFeat true f g = true ↔ SameFeature true f g) := by
    intro p hp g hg hr
    obtain ⟨hc, hu, hn, hs⟩ := loadFeat_facts hg
    rw [eqvFeat_iff hm hn]
    have : f.uuid ≠ g.uuid := by
      intro e
      rw [← hu, ← e, hr] at hs
      simp at hs
    simp [this, hc]
  by_cases hr : (rootFor s f.uuid).isSome
  · rcases create_spec (featCls f.cls) (x0 := f) rfl h with ⟨hs, r⟩ | ⟨hn, r, s1, n, hw, hs⟩
    · refine Or.inl ⟨hs, Or.inl ⟨?_, hr⟩⟩
      rcases r with ⟨hx, _⟩ | ⟨p, hp, ht, ⟨y, hl, he⟩, hx⟩
      · exact hx
      · unfold create at h
        simp only [featCls, if_true, tryReuse, hr, Except.ok.injEq, Prod.mk.injEq] at h
        exact h.2.symm
    · simp only [featCls] at hn
      rw [hn] at hr
      simp at hr
  · have hr' : rootFor s f.uuid = none := by simpa using hr
    rcases create_spec (featCls f.cls) (x0 := f) rfl h with ⟨hs, r⟩ | ⟨hn, r, s1, n, hw, hs⟩
    · rcases r with ⟨hx, h1⟩ | ⟨p, hp, ht, ⟨y, hl, he⟩, hx⟩
      · exact absurd h1 hr
      · simp only [featCls, Except.ok.injEq] at hl he
        exact Or.inl ⟨hs, Or.inr ⟨p, hp, ht, ⟨y, hl, (key p hp y hl hr').1 he⟩, hx⟩⟩
    · simp only [featCls] at hw hs r
      cases e : featNode f with
      | error x => rw [e] at hw; simp [Except.map] at hw
      | ok m =>
        rw [e] at hw
        simp only [Except.map, Except.ok.injEq, Prod.mk.injEq] at hw
        obtain ⟨rfl, rfl, rfl⟩ := hw
        refine Or.inr ⟨rfl, hr', ⟨m, rfl, hs⟩, ?_⟩
        intro p hp ht g hg hsame
        rcases r with ⟨q, hq, _, e, he⟩ | r
        · obtain ⟨g, hg⟩ := loadFeat_total (c := f.cls) (rootFor_mem hq)
          rw [hg] at he
          simp at he
        · obtain ⟨y, hy, he⟩ := r p hp ht
          rw [hg] at hy
          simp only [Except.ok.injEq] at hy he
          subst hy
          rw [(key p hp g hg hr').2 hsame] at he
          simp at he

theorem sameFeature_trans {m : Bool} {f g h : Feat} (a : SameFeature m f g) (b : SameFeature m g h) : SameFeature m f h := by
  obtain ⟨a1, a2, a3, a4, a5⟩ := a
  obtain ⟨b1, b2, b3, b4, b5⟩ := b
  refine ⟨a1.trans b1, a2.trans b2, ?_, ?_, ?_⟩
  · intro hc
    exact (a3 hc).trans (b3 (a1 ▸ hc))
  · intro hc
    exact (a4 hc).trans (b4 (a1 ▸ hc))
  · intro hm k
    exact (a5 hm k).trans (b5 hm k)

theorem loadFeat_append {c : FC} {s : Store} {u : Nat} {g : Feat} (h : loadFeat c s u = .ok g) (t : Store) :
    loadFeat c (s ++ t) u = .ok g := by
  have hr := (loadFeat_facts h).2.2.2
  unfold loadFeat at h ⊢
  rw [rootFor_append hr]
  exact h

/-- C151: once a feature has been created, with or without reuse, any feature with the same content created later, whatever other parts
were added in between, adds no part and gets the uuid of a stored part which loads with that content. -/
theorem C151_feature_twice {f f1 g : Feat} {s s1 more s2 : Store} {g1 : Feat} (reuse : Bool) (hf : GoodFeature f)
    (hg : (g.md.map Prod.fst).Nodup) (hfg : SameFeature true g f) (hnew : rootFor s f.uuid = none)
    (h1 : create (featCls f.cls) s f reuse = .ok (s1, f1)) (hu : rootFor (s1 ++ more) g.uuid = none)
    (h2 : create (featCls g.cls) (s1 ++ more) g true = .ok (s2, g1)) :
    s2 = s1 ++ more ∧ g1 = { g with uuid := g1.uuid } ∧
      ∃ p ∈ s1 ++ more, p.uuid = g1.uuid ∧ ∃ y, loadFeat g.cls (s1 ++ more) p.uuid = .ok y ∧ SameFeature true g y := by
  have hc : g.cls = f.cls := hfg.1
  have hwritten : ∀ n, featNode f = .ok n → s1 = s ++ [⟨f.uuid, f.cls.typ, n⟩] →
      ∃ p ∈ s1 ++ more, p.typ = f.cls.typ ∧ loadFeat f.cls (s1 ++ more) p.uuid = .ok f := by
    rintro n e rfl
    refine ⟨⟨f.uuid, f.cls.typ, n⟩, by simp, rfl, ?_⟩
    apply feat_roundtrip hf e
    rw [List.append_assoc]
    exact rootFor_fresh hnew _ _ _
  have refl : SameFeature true f f := ⟨rfl, rfl, fun _ => rfl, fun _ => rfl, fun _ _ => rfl⟩
  have hload : ∃ p ∈ s1 ++ more, p.typ = f.cls.typ ∧ ∃ y, loadFeat f.cls (s1 ++ more) p.uuid = .ok y ∧ SameFeature true f y := by
    cases reuse with
    | false =>
      unfold create at h1
      simp only [featCls, Bool.false_eq_true, if_false] at h1
      cases e : featNode f with
      | error x => rw [e] at h1; simp [Except.map] at h1
      | ok n =>
        rw [e] at h1
        simp only [Except.map, Except.ok.injEq, Prod.mk.injEq] at h1
        obtain ⟨p, hp, ht, hl⟩ := hwritten n e h1.1.symm
        exact ⟨p, hp, ht, f, hl, refl⟩
    | true =>
      rcases C151_feature hf.md.nodup h1 with ⟨hs, r⟩ | ⟨_, _, ⟨n, e, hs⟩, _⟩
      · rcases r with ⟨_, hr⟩ | ⟨p, hp, ht, ⟨y, hy, hsame⟩, _⟩
        · rw [hnew] at hr
          simp at hr
        · subst hs
          exact ⟨p, by simp [hp], ht, y, loadFeat_append hy more, hsame⟩
      · obtain ⟨p, hp, ht, hl⟩ := hwritten n e hs
        exact ⟨p, hp, ht, f, hl, refl⟩
  rcases C151_feature hg h2 with ⟨hs, r⟩ | ⟨_, _, _, r⟩
  · refine ⟨hs, ?_⟩
    rcases r with ⟨_, hr⟩ | ⟨p, hp, ht, ⟨y, hy, hsame⟩, hx⟩
    · rw [hu] at hr
      simp at hr
    · subst hx
      exact ⟨rfl, p, hp, rfl, y, hy, hsame⟩
  · obtain ⟨p, hp, ht, y, hl, hsame⟩ := hload
    rw [← hc] at hl ht
    exact absurd (sameFeature_trans hfg hsame) (r p hp ht y hl)

/-! ### Classes whose parts are never reused -/

/-- If nothing that loads is equivalent, a part is added. -/
theorem never_reused {α : Type} (c : Cls α) {s s' : Store} {x x' x0 : α} (hp : c.prep s x = .ok x0)
    (hne : rootFor s (c.uuid x0) = none) (hl : ∀ u y, (rootFor s u).isSome → c.load s u = .ok y → c.eqv s x0 y = .ok false)
    (h : create c s x true = .ok (s', x')) :
    ∃ s1 n, c.write s x0 = .ok (s1, n, x') ∧ s' = s1 ++ [⟨c.uuid x', c.typ, n⟩] := by
  rcases create_spec c hp h with ⟨hs, r⟩ | ⟨_, _, r⟩
  · rcases r with ⟨_, hr⟩ | ⟨p, hp', _, ⟨y, hy, he⟩, _⟩
    · rw [hne] at hr
      simp at hr
    · rw [hl _ y (rootFor_mem hp') hy] at he
      simp at he
  · exact r

theorem sameRoots_false {s : Store} {u v : Nat} (hu : rootFor s u = none) (hv : (rootFor s v).isSome) : sameRoots s u v = false := by
  obtain ⟨n, hn⟩ := Option.isSome_iff_exists.1 hv
  unfold sameRoots
  rw [hu, hn]

theorem ne_of_roots {s : Store} {u v : Nat} (hu : rootFor s u = none) (hv : (rootFor s v).isSome) : u ≠ v := by
  rintro rfl
  rw [hu] at hv
  simp at hv

theorem loadInterp_uuid {c s u i n} (h : loadInterp c s u = .ok (i, n)) : i.uuid = u := by
  unfold loadInterp at h
  cases e : rootFor s u with
  | none => rw [e] at h; simp at h
  | some m =>
    rw [e] at h
    cases e' : loadFeature c s m with
    | error x => simp [e'] at h
    | ok f =>
      simp only [e', Except.ok.injEq, Prod.mk.injEq] at h
      rw [← h.1]

theorem loadHorizon_uuid {s u x} (h : loadHorizon s u = .ok x) : x.uuid = u := by
  unfold loadHorizon at h
  cases e : loadInterp .genetic s u with
  | error y => simp [e] at h
  | ok r =>
    obtain ⟨i, n⟩ := r
    simp only [e, Except.ok.injEq] at h
    rw [← h]
    exact loadInterp_uuid e

theorem loadGeobodyBoundary_uuid {s u x} (h : loadGeobodyBoundary s u = .ok x) : x.uuid = u := by
  unfold loadGeobodyBoundary at h
  cases e : loadInterp .genetic s u with
  | error y => simp [e] at h
  | ok r =>
    obtain ⟨i, n⟩ := r
    simp only [e, Except.ok.injEq] at h
    rw [← h]
    exact loadInterp_uuid e

theorem loadGeobody_uuid {s u x} (h : loadGeobody s u = .ok x) : x.uuid = u := by
  unfold loadGeobody at h
  cases e : loadInterp .geobody s u with
  | error y => simp [e] at h
  | ok r =>
    obtain ⟨i, n⟩ := r
    simp only [e, Except.ok.injEq] at h
    rw [← h]
    exact (loadInterp_uuid e : i.uuid = u)

theorem loadWellbore_uuid {s u x} (h : loadWellbore s u = .ok x) : x.uuid = u := by
  unfold loadWellbore at h
  cases e : rootFor s u with
  | none => rw [e] at h; simp at h
  | some n =>
    rw [e] at h
    simp only at h
    split at h
    · simp at h
    · simp only [Except.ok.injEq] at h
      rw [← h]

theorem loadUnitRaw_uuid {c s u x n} (h : loadUnitRaw c s u = .ok (x, n)) : x.uuid = u := by
  unfold loadUnitRaw at h
  cases e : rootFor s u with
  | none => rw [e] at h; simp at h
  | some m =>
    rw [e] at h
    cases e' : loadUnitFeature c s m with
    | error y => simp [e'] at h
    | ok f =>
      simp only [e', Except.ok.injEq, Prod.mk.injEq] at h
      rw [← h.1]

theorem checkUnit_uuid {x y} (h : checkUnit x = .ok y) : y.uuid = x.uuid := by
  unfold checkUnit at h
  split_ifs at h <;> simp only [Except.ok.injEq] at h <;> rw [← h]

theorem loadUnit_uuid {s u x} (h : loadUnit s u = .ok x) : x.uuid = u := by
  unfold loadUnit at h
  cases e : loadUnitRaw .geologicUnit s u with
  | error y => simp [e] at h
  | ok r =>
    obtain ⟨g, n⟩ := r
    simp only [e] at h
    rw [checkUnit_uuid h]
    exact loadUnitRaw_uuid e

theorem loadStrat_uuid {lu s u x} (h : loadStrat lu s u = .ok x) : x.uuid = u := by
  unfold loadStrat at h
  cases e : loadUnitRaw .stratUnit s u with
  | error y => simp [e] at h
  | ok r =>
    obtain ⟨g, n⟩ := r
    simp only [e] at h
    cases e1 : loadThick n "MinThickness" none with
    | error y => simp [e1] at h
    | ok r1 =>
      obtain ⟨lo, uo⟩ := r1
      simp only [e1] at h
      cases e2 : loadThick n "MaxThickness" uo with
      | error y => simp [e2] at h
      | ok r2 =>
        obtain ⟨hi, uo2⟩ := r2
        simp only [e2] at h
        cases e3 : checkUnit g with
        | error y => simp [e3] at h
        | ok g' =>
          simp only [e3] at h
          split_ifs at h
          simp only [Except.ok.injEq] at h
          rw [← h]
          simp only
          rw [checkUnit_uuid e3]
          exact loadUnitRaw_uuid e

/-- C151 does not hold for seven of the classes of interpretations: horizons, earth models, geobody boundaries, geobodies, wellbores,
geologic units and stratigraphic units.  Whatever the model holds, creating one which is not a part yet adds a part with its own uuid:
the test for equivalence wants both or neither of the two objects to be parts, but those looked at always are and the new one is not. -/
theorem C151_never_reused_violated {s s' : Store} (lu : String → Bool) :
    (∀ x x0 x' : Horizon, horizonCls.prep s x = .ok x0 → rootFor s x0.uuid = none → create horizonCls s x true = .ok (s', x') →
      ∃ n, s' = s ++ [⟨x0.uuid, "HorizonInterpretation", n⟩]) ∧
    (∀ x x0 x' : Interp, earthModelCls.prep s x = .ok x0 → rootFor s x0.uuid = none → create earthModelCls s x true = .ok (s', x') →
      ∃ n, s' = s ++ [⟨x0.uuid, "EarthModelInterpretation", n⟩]) ∧
    (∀ x x0 x' : Horizon, geobodyBoundaryCls.prep s x = .ok x0 → rootFor s x0.uuid = none →
      create geobodyBoundaryCls s x true = .ok (s', x') → ∃ n, s' = s ++ [⟨x0.uuid, "GeobodyBoundaryInterpretation", n⟩]) ∧
    (∀ x x0 x' : Geobody, geobodyCls.prep s x = .ok x0 → rootFor s x0.uuid = none → create geobodyCls s x true = .ok (s', x') →
      ∃ n, s' = s ++ [⟨x0.uuid, "GeobodyInterpretation", n⟩]) ∧
    (∀ x x0 x' : Wellbore, wellboreCls.prep s x = .ok x0 → rootFor s x0.uuid = none → create wellboreCls s x true = .ok (s', x') →
      ∃ n, s' = s ++ [⟨x0.uuid, "WellboreInterpretation", n⟩]) ∧
    (∀ x x' : GeoUnit, rootFor s x.uuid = none → create unitCls s x true = .ok (s', x') →
      ∃ n, s' = s ++ [⟨x.uuid, "GeologicUnitInterpretation", n⟩]) ∧
    (∀ x x' : StratUnit, rootFor s x.uuid = none → create (stratCls lu) s x true = .ok (s', x') →
      ∃ n, s' = s ++ [⟨x.uuid, "StratigraphicUnitInterpretation", n⟩]) := by
  refine ⟨?_, ?_, ?_, ?_, ?_, ?_, ?_⟩
  · intro x x0 x' hp hr h
    obtain ⟨s1, n, hw, hs⟩ := never_reused horizonCls hp hr (by
      intro u y hu hy
      have e := loadHorizon_uuid hy
      simp [horizonCls, eqvHorizon, e, ne_of_roots hr hu, sameRoots_false hr hu]) h
    simp only [horizonCls, writeHorizon] at hw hs
    split_ifs at hw
    cases e : featureRoot .attribute s x0.feature with
    | error z => simp [e] at hw
    | ok w =>
      simp only [e, Except.ok.injEq, Prod.mk.injEq] at hw
      obtain ⟨rfl, rfl, rfl⟩ := hw
      exact ⟨_, hs⟩
  · intro x x0 x' hp hr h
    obtain ⟨s1, n, hw, hs⟩ := never_reused earthModelCls hp hr (by
      intro u y hu hy
      have e : y.uuid = u := by
        simp only [earthModelCls] at hy
        cases e : loadInterp .organization s u with
        | error z => simp [e, Except.map] at hy
        | ok r =>
          simp only [e, Except.map, Except.ok.injEq] at hy
          rw [← hy]
          exact loadInterp_uuid (n := r.2) e
      simp [earthModelCls, eqvEarthModel, e, ne_of_roots hr hu, sameRoots_false hr hu]) h
    simp only [earthModelCls, writeEarthModel] at hw hs
    cases e : featureRoot .assertion s x0.feature with
    | error z => simp [e] at hw
    | ok w =>
      simp only [e] at hw
      split_ifs at hw
      simp only [Except.ok.injEq, Prod.mk.injEq] at hw
      obtain ⟨rfl, rfl, rfl⟩ := hw
      exact ⟨_, hs⟩
  · intro x x0 x' hp hr h
    obtain ⟨s1, n, hw, hs⟩ := never_reused geobodyBoundaryCls hp hr (by
      intro u y hu hy
      have e := loadGeobodyBoundary_uuid hy
      simp [geobodyBoundaryCls, eqvGeobodyBoundary, e, ne_of_roots hr hu, sameRoots_false hr hu]) h
    simp only [geobodyBoundaryCls, writeGeobodyBoundary] at hw hs
    split_ifs at hw
    cases e : featureRoot .attribute s x0.feature with
    | error z => simp [e] at hw
    | ok w =>
      simp only [e, Except.ok.injEq, Prod.mk.injEq] at hw
      obtain ⟨rfl, rfl, rfl⟩ := hw
      exact ⟨_, hs⟩
  · intro x x0 x' hp hr h
    obtain ⟨s1, n, hw, hs⟩ := never_reused geobodyCls hp hr (by
      intro u y hu hy
      have e := loadGeobody_uuid hy
      simp [geobodyCls, eqvGeobody, e, ne_of_roots hr hu, sameRoots_false hr hu]) h
    simp only [geobodyCls, writeGeobody] at hw hs
    split_ifs at hw
    cases e : featureRoot .attribute s x0.feature with
    | error z => simp [e] at hw
    | ok w =>
      simp only [e, Except.ok.injEq, Prod.mk.injEq] at hw
      obtain ⟨rfl, rfl, rfl⟩ := hw
      exact ⟨_, hs⟩
  · intro x x0 x' hp hr h
    obtain ⟨s1, n, hw, hs⟩ := never_reused wellboreCls hp hr (by
      intro u y hu hy
      have e := loadWellbore_uuid hy
      obtain ⟨m, hm⟩ := Option.isSome_iff_exists.1 hu
      have hd : sameRootsDomain s x0 y = false := by
        unfold sameRootsDomain
        rw [hr, e, hm]
      simp [wellboreCls, eqvWellbore, e, ne_of_roots hr hu, hd]) h
    simp only [wellboreCls, writeWellbore] at hw hs
    split_ifs at hw
    cases e : featureRoot .attribute s x0.feature with
    | error z => simp [e] at hw
    | ok w =>
      simp only [e, Except.ok.injEq, Prod.mk.injEq] at hw
      obtain ⟨rfl, rfl, rfl⟩ := hw
      exact ⟨_, hs⟩
  · intro x x' hr h
    obtain ⟨s1, n, hw, hs⟩ := never_reused unitCls (x0 := x) rfl hr (by
      intro u y hu hy
      have e := loadUnit_uuid hy
      simp [unitCls, eqvUnit, e, ne_of_roots hr hu, sameRoots_false hr hu]) h
    simp only [unitCls, writeUnit] at hw hs
    cases e : unitKids s x with
    | error z => simp [e, Except.map] at hw
    | ok w =>
      simp only [e, Except.map, Except.ok.injEq, Prod.mk.injEq] at hw
      obtain ⟨rfl, rfl, rfl⟩ := hw
      exact ⟨_, hs⟩
  · intro x x' hr h
    obtain ⟨s1, n, hw, hs⟩ := never_reused (stratCls lu) (x0 := x) rfl hr (by
      intro u y hu hy
      have e := loadStrat_uuid hy
      simp [stratCls, eqvStrat, eqvUnit, e, ne_of_roots hr hu, sameRoots_false hr hu]) h
    simp only [stratCls, writeStrat] at hw hs
    cases e : unitKids s x.toGeoUnit with
    | error z => simp [e] at hw
    | ok w =>
      simp only [e] at hw
      split_ifs at hw
      simp only [Except.ok.injEq, Prod.mk.injEq] at hw
      obtain ⟨rfl, rfl, rfl⟩ := hw
      exact ⟨_, hs⟩

/-! ### Concrete cases -/

/-- a genetic boundary feature -/
def exGenetic (u : Nat) : Feat :=
  ⟨.genetic, u, some "top sand", [(some "source", some "seismic")], some "horizon", some (some "1950-01-01T00:00:00", some 5), none, none⟩

theorem exGenetic_good (u : Nat) : GoodFeature (exGenetic u) where
  title := ⟨"top sand", rfl, by decide +kernel, by decide +kernel⟩
  md := by
    refine ⟨?_, by simp [exGenetic]⟩
    intro kv h
    simp only [exGenetic, List.mem_singleton] at h
    subst h
    exact ⟨⟨_, rfl, by decide +kernel, by decide +kernel⟩, _, rfl, by decide +kernel, by decide +kernel⟩
  kind := by simp [exGenetic]
  age := by simp [exGenetic]
  date := by
    intro d y h
    simp only [exGenetic, Option.some.injEq, Prod.mk.injEq] at h
    obtain ⟨rfl, _⟩ := h
    exact ⟨_, rfl, by decide +kernel, by decide +kernel⟩
  units := by simp [exGenetic]

/-- a feature which needs nothing else -/
def exFeature (u : Nat) : Feat := ⟨.boundary, u, some "F", [], none, none, none, none⟩

/-- a boundary feature interpretation of it -/
def exInterp (u : Nat) : Interp := ⟨u, some "I", [], some "depth", some (exFeature 1), (none, none)⟩

/-- the part of a feature -/
def exFeaturePart : Part := ⟨1, "BoundaryFeature", .mk "BoundaryFeature" none none (baseKids (some "F") [])⟩

/-- the part of the interpretation -/
def exInterpPart (u : Nat) : Part :=
  ⟨u, "BoundaryFeatureInterpretation", .mk "BoundaryFeatureInterpretation" none none
    (baseKids (some "I") [] ++ optLeaf "Domain" (some "depth") ++ hodKids (none, none) ++ [refNode "InterpretedFeature" 1])⟩

/-- Boundary feature interpretations are reused. -/
example : create boundaryInterpCls [exFeaturePart, exInterpPart 2] (exInterp 3) true =
    .ok ([exFeaturePart, exInterpPart 2], exInterp 2) := by rfl

example : create boundaryInterpCls [exFeaturePart] (exInterp 2) true = .ok ([exFeaturePart, exInterpPart 2], exInterp 2) := by rfl

/-- A part of the class which names no feature, and so does not load. -/
def exBroken (u : Nat) : Part := ⟨u, "BoundaryFeatureInterpretation", .mk "BoundaryFeatureInterpretation" none none []⟩

/-- C151 is violated if a part of the class does not load: those after it are not looked at, and a copy is added. -/
theorem C151_unloadable_violated :
    ∃ (s : Store) (x x' : Interp) (s' : Store), (∃ p ∈ s, ∃ y, p.typ = "BoundaryFeatureInterpretation" ∧
        boundaryInterpCls.load s p.uuid = .ok y ∧ boundaryInterpCls.eqv s x y = .ok true) ∧
      create boundaryInterpCls s x true = .ok (s', x') ∧ s'.length = s.length + 1 :=
  ⟨[exFeaturePart, exBroken 4, exInterpPart 2], exInterp 3, exInterp 3, [exFeaturePart, exBroken 4, exInterpPart 2, exInterpPart 3],
    ⟨exInterpPart 2, by simp, exInterp 2, rfl, rfl, rfl⟩, rfl, rfl⟩

/-- C151 is violated for generic interpretations: a second one like the first cannot be created at all, as the test for equivalence
fails on an attribute which does not exist. -/
theorem C151_generic_violated :
    ∃ (s : Store) (x y : Generic), (∃ p ∈ s, genericCls.load s p.uuid = .ok y ∧ { x with uuid := y.uuid } = y) ∧
      create genericCls s x true = .error .attribute ∧ ∃ s1, create genericCls s x false = .ok (s1, x) :=
  ⟨[exFeaturePart, ⟨2, "GenericFeatureInterpretation", .mk "GenericFeatureInterpretation" none none
      (baseKids (some "I") [] ++ optLeaf "Domain" (some "depth") ++ optRef "InterpretedFeature" (some 1) ++ hodKids (none, none))⟩],
    ⟨3, some "I", [], some 1, some "depth", (none, none)⟩, ⟨2, some "I", [], some 1, some "depth", (none, none)⟩,
    ⟨_, List.mem_cons_of_mem _ (List.mem_singleton.2 rfl), rfl, rfl⟩, rfl, _, rfl⟩

/-- a second feature like one created, after another part was added -/
example : ∃ n, create (featCls .genetic) [exFeaturePart] (exGenetic 7) false = .ok (exFeaturePart :: [⟨7, "GeneticBoundaryFeature", n⟩], exGenetic 7) ∧
    create (featCls .genetic) ([exFeaturePart, ⟨7, "GeneticBoundaryFeature", n⟩] ++ [exInterpPart 2]) (exGenetic 9) true =
      .ok ([exFeaturePart, ⟨7, "GeneticBoundaryFeature", n⟩] ++ [exInterpPart 2], exGenetic 7) :=
  ⟨_, rfl, rfl⟩

/-- a horizon interpretation: a second one like the first adds a part -/
example : let h : Horizon := ⟨⟨8, some "H", [], some "depth", some (exGenetic 7), (none, none)⟩, some ["conformable"], none⟩
    ∃ n m, create horizonCls [⟨7, "GeneticBoundaryFeature", n⟩] h true =
        .ok ([⟨7, "GeneticBoundaryFeature", n⟩, ⟨8, "HorizonInterpretation", m⟩], h) ∧
      create horizonCls [⟨7, "GeneticBoundaryFeature", n⟩, ⟨8, "HorizonInterpretation", m⟩] { h with uuid := 9 } true =
        .ok ([⟨7, "GeneticBoundaryFeature", n⟩, ⟨8, "HorizonInterpretation", m⟩, ⟨9, "HorizonInterpretation", m⟩], { h with uuid := 9 }) :=
  ⟨.mk "GeneticBoundaryFeature" none none [], _, rfl, rfl⟩

end Verif.Organize
