import Verif.Organize.PropsReuse

/-!
# C153: features and interpretations come back from the model as they were stored
-/

namespace Verif.Organize

open Verif.Py

/-- Looking for children with a tag in what the classes write. -/
macro "kids" : tactic => `(tactic| simp [ft_append, ft_base, ft_base_citation, ft_optLeaf, ft_hod_ne, ft_relations_ne, ft_truthy, ft_bool,
  ft_optNum, ft_numUom, ft_optRef, ft_throws_ne, ft_dip, ft_cons, ft_nil, lt_append, lt_base, lt_optLeaf, lt_hod_ne, lt_relations, lt_truthy,
  lt_bool, lt_optNum, lt_numUom, lt_optRef, lt_throws, lt_dip, lt_cons, lt_nil, refNode, leaf, Node.tag])

/-- C153: a feature of any class which is stored is loaded again with all its attributes, whatever is added to the model later. -/
theorem C153_feature {f f1 : Feat} {s s1 : Store} (more : Store) (hf : GoodFeature f) (hnew : rootFor s f.uuid = none)
    (h : create (featCls f.cls) s f false = .ok (s1, f1)) : loadFeat f.cls (s1 ++ more) f.uuid = .ok f := by
  unfold create at h
  simp only [featCls, Bool.false_eq_true, if_false] at h
  cases e : featNode f with
  | error x => rw [e] at h; simp [Except.map] at h
  | ok n =>
    rw [e] at h
    simp only [Except.map, Except.ok.injEq, Prod.mk.injEq] at h
    obtain ⟨rfl, rfl⟩ := h
    apply feat_roundtrip hf e
    rw [List.append_assoc]
    exact rootFor_fresh hnew _ _ _

example : GoodFeature (exGenetic 7) ∧ ∃ s1, create (featCls .genetic) [exFeaturePart] (exGenetic 7) false = .ok (s1, exGenetic 7) :=
  ⟨exGenetic_good 7, _, rfl⟩

/-! ### What interpretations have in common -/

theorem domain_clean {d : Option String} (h : domainOk d = true) : ∀ y, d = some y → Clean y := by
  rintro y rfl
  simp only [domainOk, Option.any_some, decide_eq_true_eq, validDomains, List.mem_cons, List.not_mem_nil, or_false] at h
  rcases h with rfl | rfl | rfl <;> exact ⟨by decide +kernel, by decide +kernel⟩

theorem loadFeature_ref {c : FC} {s : Store} {u : Nat} {f : Feat} {t a b k} (hk : ft k "InterpretedFeature" = some (refNode "InterpretedFeature" u))
    (hf : loadFeat c s u = .ok f) : loadFeature c s (.mk t a b k) = .ok (some f) := by
  have hr := (loadFeat_facts hf).2.2.2
  have e : refUuid (.mk t a b k) "InterpretedFeature" = some u := by
    simp [refUuid, findTag_mk, hk, refNode, ft_cons, leaf, Node.tag, nodeUuid, Node.text]
  unfold loadFeature
  rw [findTag_mk, hk, e]
  simp [hr, hf, Except.map]

theorem loadInterp_round {c : FC} {s : Store} {i : Interp} {u : Nat} {f : Feat} {typ t a b k} (more : Store)
    (hnew : rootFor s i.uuid = none) (ht : GoodTitle i.title) (hm : GoodMeta i.md) (hd : domainOk i.domain = true)
    (hf : loadFeat c s u = .ok f)
    (k1 : ft k "Citation" = some (citation i.title)) (k2 : lt' k "ExtraMetadata" = i.md.map metaNode)
    (k3 : ft k "Domain" = i.domain.map fun x => leaf "Domain" (.str x))
    (k4 : ft k "InterpretedFeature" = some (refNode "InterpretedFeature" u))
    (k5 : ft k "HasOccuredDuring" = ft (hodKids i.hod) "HasOccuredDuring") :
    loadInterp c ((s ++ [⟨i.uuid, typ, .mk t a b k⟩]) ++ more) i.uuid =
      .ok (⟨i.uuid, i.title, i.md, i.domain, some f, reloaded i.hod⟩, .mk t a b k) := by
  unfold loadInterp
  rw [List.append_assoc, List.singleton_append, rootFor_fresh hnew]
  simp only
  rw [loadFeature_ref k4 (loadFeat_append hf _)]
  simp only
  rw [citation_title ht _ _ _ _ k1, load_meta hm _ _ _ _ k2, load_hod _ _ _ _ _ k5, findText, findTag_mk, k3,
    nodeText_some (domain_clean hd)]

theorem create_false {α : Type} {c : Cls α} {s s' : Store} {x x' : α} (h : create c s x false = .ok (s', x')) :
    ∃ x0 s1 n, c.prep s x = .ok x0 ∧ c.write s x0 = .ok (s1, n, x') ∧ s' = s1 ++ [⟨c.uuid x', c.typ, n⟩] := by
  unfold create at h
  cases e : c.prep s x with
  | error y => rw [e] at h; simp at h
  | ok x0 =>
    rw [e] at h
    simp only [Bool.false_eq_true, if_false] at h
    cases e' : c.write s x0 with
    | error y => rw [e'] at h; simp at h
    | ok r =>
      obtain ⟨s1, n, x1⟩ := r
      rw [e'] at h
      simp only [Except.ok.injEq, Prod.mk.injEq] at h
      obtain ⟨h1, rfl⟩ := h
      exact ⟨x0, s1, n, rfl, e', h1.symm⟩

theorem withTitle_eq {i j : Interp} {f : Feat} (hf : i.feature = some f) (h : withTitle i = .ok j) :
    j = { i with title := if falsy i.title then f.title else i.title } := by
  obtain ⟨xu, xt, xm, xd, xf, xh⟩ := i
  simp only at hf
  subst hf
  unfold withTitle at h
  split_ifs at h with hz <;> simp only [Except.ok.injEq] at h <;> subst h <;> simp only at hz <;> simp [hz]

theorem featureRoot_eq {e : PyErr} {s : Store} {f : Feat} {u : Nat} (h : featureRoot e s (some f) = .ok u) : u = f.uuid := by
  unfold featureRoot at h
  simp only at h
  split_ifs at h
  simpa [eq_comm] using h

/-! ### Horizons, geobody boundaries and earth models -/

theorem load_relations {r : Option (List String)} {t a b k} (hk : lt' k "BoundaryRelation" = relationKids r) :
    loadRelations (.mk t a b k) = nonEmpty r := by
  unfold loadRelations
  rw [listOfTag_mk, hk]
  rcases r with _ | _ | ⟨x, l⟩
  · simp [relationKids, nonEmpty]
  · simp [relationKids, nonEmpty]
  · simp only [relationKids, Option.getD_some, List.map_cons, List.length_cons, List.length_map, Nat.add_eq_zero_iff, one_ne_zero,
      and_false, if_false, nonEmpty, List.map_map, Option.some.injEq, List.cons.injEq]
    refine ⟨rfl, ?_⟩
    conv_rhs => rw [← List.map_id l]
    rfl

theorem sss_clean {x : Option String} (h : ¬ (x.any fun x => decide (x ∉ validSss)) = true) : ∀ y, x = some y → Clean y := by
  rintro y rfl
  simp only [Option.any_some, decide_eq_true_eq, not_not, validSss, List.mem_cons, List.not_mem_nil, or_false] at h
  rcases h with rfl | rfl | rfl | rfl <;> exact ⟨by decide +kernel, by decide +kernel⟩

/-- C153: a horizon interpretation with its feature stored is loaded again as it was when stored (with the title of the feature if it
had none), with its boundary relations in order; the pair of units comes back as texts, and only if both are there. -/
theorem C153_horizon {x x' : Horizon} {s s' : Store} {f : Feat} (more : Store) (hnew : rootFor s x.uuid = none)
    (hf : x.feature = some f) (hl : loadFeat .genetic s f.uuid = .ok f) (ht : GoodTitle (if falsy x.title then f.title else x.title))
    (hm : GoodMeta x.md) (h : create horizonCls s x false = .ok (s', x')) :
    loadHorizon (s' ++ more) x.uuid = .ok { x with title := if falsy x.title then f.title else x.title, hod := reloaded x.hod,
                                                    relations := nonEmpty x.relations } := by
  obtain ⟨x0, s1, n, hp, hw, rfl⟩ := create_false h
  simp only [horizonCls] at hp hw ⊢
  obtain ⟨⟨xu, xt, xm, xd, xf, xh⟩, xr, xs⟩ := x
  simp only at hf ht hm hnew hl ⊢
  subst hf
  cases e : withTitle ⟨xu, xt, xm, xd, some f, xh⟩ with
  | error y => simp [e, Except.map] at hp
  | ok i =>
    simp only [e, Except.map, Except.ok.injEq] at hp
    have hi := withTitle_eq rfl e
    simp only at hi
    subst hi hp
    generalize (if falsy xt then f.title else xt) = tt at *
    unfold writeHorizon at hw
    split_ifs at hw with w1 w2 w3
    cases e' : featureRoot .attribute s (some f) with
    | error z => simp [e'] at hw
    | ok u =>
      simp only [e', Except.ok.injEq, Prod.mk.injEq] at hw
      obtain ⟨rfl, rfl, rfl⟩ := hw
      obtain rfl := featureRoot_eq e'
      simp only [Bool.not_eq_true', Bool.not_eq_false] at w1
      unfold loadHorizon
      rw [loadInterp_round (i := ⟨xu, tt, xm, xd, some f, xh⟩) more hnew ht hm w1 hl (by kids) (by kids) (by kids) (by kids) (by kids)]
      simp only
      rw [load_relations (r := xr) (by kids), findText, findTag_mk]
      have : ∀ y, xs = some y → Clean y := sss_clean w3
      have hsss : ft (baseKids tt xm ++ optLeaf "Domain" xd ++ hodKids xh ++ relationKids xr ++
          optLeaf "SequenceStratigraphySurface" xs ++ [refNode "InterpretedFeature" f.uuid]) "SequenceStratigraphySurface" =
          xs.map fun x => leaf "SequenceStratigraphySurface" (.str x) := by
        kids
      rw [hsss, nodeText_some this]

/-- C153 for geobody boundary interpretations. -/
theorem C153_geobody_boundary {x x' : Horizon} {s s' : Store} {f : Feat} (more : Store) (hnew : rootFor s x.uuid = none)
    (hf : x.feature = some f) (hl : loadFeat .genetic s f.uuid = .ok f) (ht : GoodTitle (if falsy x.title then f.title else x.title))
    (hm : GoodMeta x.md) (hsss : x.sss = none) (h : create geobodyBoundaryCls s x false = .ok (s', x')) :
    loadGeobodyBoundary (s' ++ more) x.uuid = .ok { x with title := if falsy x.title then f.title else x.title, hod := reloaded x.hod,
                                                            relations := nonEmpty x.relations } := by
  obtain ⟨x0, s1, n, hp, hw, rfl⟩ := create_false h
  simp only [geobodyBoundaryCls] at hp hw ⊢
  obtain ⟨⟨xu, xt, xm, xd, xf, xh⟩, xr, xs⟩ := x
  simp only at hf ht hm hnew hl hsss ⊢
  subst hf hsss
  cases e : withTitle ⟨xu, xt, xm, xd, some f, xh⟩ with
  | error y => simp [e, Except.map] at hp
  | ok i =>
    simp only [e, Except.map, Except.ok.injEq] at hp
    have hi := withTitle_eq rfl e
    simp only at hi
    subst hi hp
    generalize (if falsy xt then f.title else xt) = tt at *
    unfold writeGeobodyBoundary at hw
    rw [if_neg (by simp)] at hw
    split_ifs at hw with w2 w3
    cases e' : featureRoot .attribute s (some f) with
    | error z => simp [e'] at hw
    | ok u =>
      simp only [e', Except.ok.injEq, Prod.mk.injEq] at hw
      obtain ⟨rfl, rfl, rfl⟩ := hw
      obtain rfl := featureRoot_eq e'
      simp only [Bool.not_eq_true', Bool.not_eq_false] at w2
      unfold loadGeobodyBoundary
      rw [loadInterp_round (i := ⟨xu, tt, xm, xd, some f, xh⟩) more hnew ht hm w2 hl (by kids) (by kids) (by kids) (by kids) (by kids)]
      simp only
      rw [load_relations (r := xr) (by kids)]

/-- C153 for earth model interpretations. -/
theorem C153_earth_model {x x' : Interp} {s s' : Store} {f : Feat} (more : Store) (hnew : rootFor s x.uuid = none)
    (hf : x.feature = some f) (hl : loadFeat .organization s f.uuid = .ok f)
    (ht : GoodTitle (if falsy x.title then f.title else x.title)) (hm : GoodMeta x.md)
    (h : create earthModelCls s x false = .ok (s', x')) :
    earthModelCls.load (s' ++ more) x.uuid = .ok { x with title := if falsy x.title then f.title else x.title, hod := reloaded x.hod } := by
  obtain ⟨x0, s1, n, hp, hw, rfl⟩ := create_false h
  simp only [earthModelCls] at hp hw ⊢
  obtain ⟨xu, xt, xm, xd, xf, xh⟩ := x
  simp only at hf ht hm hnew hl ⊢
  subst hf
  have hi := withTitle_eq rfl hp
  simp only at hi
  subst hi
  generalize (if falsy xt then f.title else xt) = tt at *
  unfold writeEarthModel at hw
  cases e' : featureRoot .assertion s (some f) with
  | error z => simp [e'] at hw
  | ok u =>
    simp only [e'] at hw
    split_ifs at hw with w1
    simp only [Except.ok.injEq, Prod.mk.injEq] at hw
    obtain ⟨rfl, rfl, rfl⟩ := hw
    obtain rfl := featureRoot_eq e'
    rw [loadInterp_round (i := ⟨xu, tt, xm, xd, some f, xh⟩) more hnew ht hm w1 hl (by kids) (by kids) (by kids) (by kids) (by kids)]
    rfl

/-- C153 for boundary feature interpretations whose feature is stored. -/
theorem C153_boundary_interpretation {x x' : Interp} {s s' : Store} {f : Feat} (more : Store) (hnew : rootFor s x.uuid = none)
    (hf : x.feature = some f) (hl : loadFeat .boundary s f.uuid = .ok f)
    (ht : GoodTitle (if falsy x.title then f.title else x.title)) (hm : GoodMeta x.md)
    (h : create boundaryInterpCls s x false = .ok (s', x')) :
    boundaryInterpCls.load (s' ++ more) x.uuid =
      .ok { x with title := if falsy x.title then f.title else x.title, hod := reloaded x.hod } := by
  obtain ⟨x0, s1, n, hp, hw, rfl⟩ := create_false h
  simp only [boundaryInterpCls] at hp hw ⊢
  obtain ⟨xu, xt, xm, xd, xf, xh⟩ := x
  simp only at hf ht hm hnew hl ⊢
  subst hf
  have hi := withTitle_eq rfl hp
  simp only at hi
  subst hi
  generalize (if falsy xt then f.title else xt) = tt at *
  unfold writeBoundaryInterp at hw
  simp only [(loadFeat_facts hl).2.2.2, if_true] at hw
  split_ifs at hw with w1
  simp only [Except.ok.injEq, Prod.mk.injEq] at hw
  obtain ⟨rfl, rfl, rfl⟩ := hw
  rw [loadInterp_round (i := ⟨xu, tt, xm, xd, some f, xh⟩) more hnew ht hm w1 hl (by kids) (by kids) (by kids) (by kids) (by kids)]
  rfl

/-! ### Geobodies -/

theorem listed_clean {l : List String} (hl : ∀ x ∈ l, Clean x) {t : Option String} (h : ¬ (!okIfAny l t) = true) (hn : t ≠ some "") :
    ∀ y, t = some y → Clean y := by
  rintro y rfl
  unfold okIfAny falsy at h
  simp only [Option.any_some, Bool.not_eq_true', Bool.not_eq_false, Bool.or_eq_true, beq_iff_eq, reduceCtorEq, false_or,
    Option.some.injEq, decide_eq_true_eq] at h
  rcases h with rfl | h
  · exact absurd rfl hn
  · exact hl y h

theorem compositions_clean : ∀ x ∈ geobodyCompositions, Clean x := by
  intro x h
  simp only [geobodyCompositions, List.mem_cons, List.not_mem_nil, or_false] at h
  rcases h with rfl | rfl | rfl | rfl | rfl | rfl | rfl | rfl | rfl | rfl | rfl | rfl | rfl <;>
    exact ⟨by decide +kernel, by decide +kernel⟩

theorem implacements_clean : ∀ x ∈ validImplacements, Clean x := by
  intro x h
  simp only [validImplacements, List.mem_cons, List.not_mem_nil, or_false] at h
  rcases h with rfl | rfl <;> exact ⟨by decide +kernel, by decide +kernel⟩

theorem shapes_clean : ∀ x ∈ validShapes, Clean x := by
  intro x h
  simp only [validShapes, List.mem_cons, List.not_mem_nil, or_false] at h
  rcases h with rfl | rfl | rfl | rfl | rfl | rfl | rfl | rfl | rfl | rfl | rfl | rfl | rfl | rfl <;>
    exact ⟨by decide +kernel, by decide +kernel⟩

theorem depositions_clean : ∀ x ∈ validDepositions, Clean x := by
  intro x h
  simp only [validDepositions, List.mem_cons, List.not_mem_nil, or_false] at h
  rcases h with rfl | rfl | rfl | rfl <;> exact ⟨by decide +kernel, by decide +kernel⟩

theorem falsy_some {t : Option String} (hn : t ≠ some "") (u : String) :
    (if falsy t = true then none else t.map fun x => leaf u (.str x)) = t.map fun x => leaf u (.str x) := by
  cases t with
  | none => simp
  | some x =>
    have : x ≠ "" := fun h => hn (by rw [h])
    simp [falsy, this]

/-- C153 for geobody interpretations, as it holds: everything but the domain, which is always "depth" afterwards. -/
theorem C153_geobody_partial {x x' : Geobody} {s s' : Store} {f : Feat} (more : Store) (hnew : rootFor s x.uuid = none)
    (hf : x.feature = some f) (hl : loadFeat .geobody s f.uuid = .ok f) (ht : GoodTitle (if falsy x.title then f.title else x.title))
    (hm : GoodMeta x.md) (hc : x.composition ≠ some "") (hi : x.implacement ≠ some "") (hsh : x.shape ≠ some "")
    (h : create geobodyCls s x false = .ok (s', x')) :
    loadGeobody (s' ++ more) x.uuid = .ok { x with title := if falsy x.title then f.title else x.title, hod := reloaded x.hod,
                                                    domain := some "depth" } := by
  obtain ⟨x0, s1, n, hp, hw, rfl⟩ := create_false h
  simp only [geobodyCls] at hp hw ⊢
  obtain ⟨⟨xu, xt, xm, xd, xf, xh⟩, xc, xi, xs⟩ := x
  simp only at hf ht hm hnew hl hc hi hsh ⊢
  subst hf
  cases e : withTitle ⟨xu, xt, xm, xd, some f, xh⟩ with
  | error y => simp [e, Except.map] at hp
  | ok i =>
    simp only [e, Except.map, Except.ok.injEq] at hp
    have hi' := withTitle_eq rfl e
    simp only at hi'
    subst hi' hp
    generalize (if falsy xt then f.title else xt) = tt at *
    unfold writeGeobody at hw
    rw [if_neg (by simp)] at hw
    split_ifs at hw with w2 w3 w4 w5
    cases e' : featureRoot .attribute s (some f) with
    | error z => simp [e'] at hw
    | ok u =>
      simp only [e', Except.ok.injEq, Prod.mk.injEq] at hw
      obtain ⟨rfl, rfl, rfl⟩ := hw
      obtain rfl := featureRoot_eq e'
      simp only [Bool.not_eq_true', Bool.not_eq_false] at w2
      unfold loadGeobody
      rw [loadInterp_round (i := ⟨xu, tt, xm, xd, some f, xh⟩) more hnew ht hm w2 hl (by kids) (by kids) (by kids) (by kids) (by kids)]
      simp only
      have k1 : ft (baseKids tt xm ++ optLeaf "Domain" xd ++ hodKids xh ++
          truthyLeaf "GeologicUnitComposition" xc ++ truthyLeaf "GeologicUnitMaterialImplacement" xi ++
          truthyLeaf "Geobody3dShape" xs ++ [refNode "InterpretedFeature" f.uuid]) "GeologicUnitComposition" =
          xc.map fun x => leaf "GeologicUnitComposition" (.str x) := by
        rw [← falsy_some hc]
        kids
      have k2 : ft (baseKids tt xm ++ optLeaf "Domain" xd ++ hodKids xh ++
          truthyLeaf "GeologicUnitComposition" xc ++ truthyLeaf "GeologicUnitMaterialImplacement" xi ++
          truthyLeaf "Geobody3dShape" xs ++ [refNode "InterpretedFeature" f.uuid]) "GeologicUnitMaterialImplacement" =
          xi.map fun x => leaf "GeologicUnitMaterialImplacement" (.str x) := by
        rw [← falsy_some hi]
        kids
      have k3 : ft (baseKids tt xm ++ optLeaf "Domain" xd ++ hodKids xh ++
          truthyLeaf "GeologicUnitComposition" xc ++ truthyLeaf "GeologicUnitMaterialImplacement" xi ++
          truthyLeaf "Geobody3dShape" xs ++ [refNode "InterpretedFeature" f.uuid]) "Geobody3dShape" =
          xs.map fun x => leaf "Geobody3dShape" (.str x) := by
        rw [← falsy_some hsh]
        kids
      rw [findText, findTag_mk, k1, findText, findTag_mk, k2, findText, findTag_mk, k3,
        nodeText_some (listed_clean compositions_clean w3 hc), nodeText_some (listed_clean implacements_clean w4 hi),
        nodeText_some (listed_clean shapes_clean w5 hsh)]

/-- C153 is violated for geobody interpretations: the domain is written but not read. -/
theorem C153_geobody_violated : ∃ (s s' : Store) (x y : Geobody), create geobodyCls s x false = .ok (s', x) ∧
    loadGeobody s' x.uuid = .ok y ∧ x.domain = some "time" ∧ y.domain = some "depth" ∧ y = { x with domain := some "depth" } := by
  let f : Feat := ⟨.geobody, 1, some "F", [], none, none, none, none⟩
  let x : Geobody := ⟨⟨2, some "G", [], some "time", some f, (none, none)⟩, none, none, none⟩
  let s : Store := [⟨1, "GeobodyFeature", .mk "GeobodyFeature" none none (baseKids (some "F") [])⟩]
  have hc : ∃ s', create geobodyCls s x false = .ok (s', x) := by
    have hw : ∃ n, writeGeobody s x = .ok (s, n, x) := by
      unfold writeGeobody
      rw [if_neg (by simp [x]), if_neg (by decide +kernel), if_neg (by decide +kernel), if_neg (by decide +kernel),
        if_neg (by decide +kernel)]
      exact ⟨_, rfl⟩
    obtain ⟨n, hn⟩ := hw
    have hp : geobodyCls.prep s x = .ok x := rfl
    unfold create
    rw [hp]
    simp only [Bool.false_eq_true, if_false]
    have hw : geobodyCls.write s x = .ok (s, n, x) := hn
    rw [hw]
    exact ⟨_, rfl⟩
  obtain ⟨s', hs'⟩ := hc
  have hl : loadFeat .geobody s f.uuid = .ok f := rfl
  have := C153_geobody_partial (x := x) (f := f) [] rfl rfl hl ⟨"G", rfl, by decide +kernel, by decide +kernel⟩
    ⟨by simp [x], by simp [x]⟩ (by simp [x]) (by simp [x]) (by simp [x]) hs'
  rw [List.append_nil] at this
  exact ⟨s, s', x, { x with domain := some "depth" }, hs', this, rfl, rfl, rfl⟩

/-! ### Generic interpretations and wellbores -/

/-- C153 for generic interpretations. -/
theorem C153_generic {x x' : Generic} {s s' : Store} {u : Nat} {n : Node} (more : Store) (hnew : rootFor s x.uuid = none)
    (hf : x.featureUuid = some u) (hl : rootFor s u = some n)
    (ht : GoodTitle (if falsy x.title then citationTitle n else x.title)) (hm : GoodMeta x.md)
    (h : create genericCls s x false = .ok (s', x')) :
    loadGeneric (s' ++ more) x.uuid = .ok { x with title := if falsy x.title then citationTitle n else x.title, hod := reloaded x.hod } := by
  obtain ⟨x0, s1, m, hp, hw, rfl⟩ := create_false h
  simp only [genericCls] at hp hw ⊢
  obtain ⟨xu, xt, xm, xf, xd, xh⟩ := x
  simp only at hf ht hm hnew ⊢
  subst hf
  unfold prepGeneric at hp
  simp only [hl, Except.ok.injEq] at hp
  have hx : x0 = ⟨xu, if falsy xt then citationTitle n else xt, xm, some u, xd, xh⟩ := by
    rw [← hp]
    split_ifs <;> rfl
  subst hx
  generalize (if falsy xt then citationTitle n else xt) = tt at *
  unfold writeGeneric at hw
  split_ifs at hw with w1
  simp only [Except.ok.injEq, Prod.mk.injEq] at hw
  obtain ⟨rfl, rfl, rfl⟩ := hw
  simp only [Bool.not_eq_true', Bool.not_eq_false] at w1
  unfold loadGeneric
  rw [List.append_assoc, List.singleton_append, rootFor_fresh hnew]
  simp only
  have e : refUuid (.mk "GenericFeatureInterpretation" none none
      (baseKids tt xm ++ optLeaf "Domain" xd ++ optRef "InterpretedFeature" (some u) ++ hodKids xh)) "InterpretedFeature" = some u := by
    rw [refUuid, findTag_mk]
    simp [ft_append, ft_base, ft_optLeaf, ft_hod_ne, ft_optRef, refNode, findTag_mk, ft_cons, leaf, Node.tag, nodeUuid, Node.text]
  rw [e]
  simp only
  have kd : ft (baseKids tt xm ++ optLeaf "Domain" xd ++ optRef "InterpretedFeature" (some u) ++ hodKids xh) "Domain" =
      xd.map fun x => leaf "Domain" (.str x) := by kids
  rw [citation_title ht _ _ _ _ (by kids), load_meta hm _ _ _ _ (by kids), load_hod xh _ _ _ _ (by kids), findText, findTag_mk, kd,
    nodeText_some (domain_clean w1)]

/-- C153 for wellbore interpretations: whether the well is drilled is taken to be no if not known. -/
theorem C153_wellbore {x x' : Wellbore} {s s' : Store} {f : Feat} (more : Store) (hnew : rootFor s x.uuid = none)
    (hf : x.feature = some f) (hl : loadFeat .wellbore s f.uuid = .ok f)
    (ht : GoodTitle (if falsy x.title then f.title else x.title)) (hm : GoodMeta x.md)
    (h : create wellboreCls s x false = .ok (s', x')) :
    loadWellbore (s' ++ more) x.uuid =
      .ok { x with title := if falsy x.title then f.title else x.title, drilled := some (x.drilled.getD false) } := by
  obtain ⟨x0, s1, n, hp, hw, rfl⟩ := create_false h
  simp only [wellboreCls] at hp hw ⊢
  obtain ⟨xu, xt, xm, xd, xf, xr⟩ := x
  simp only at hf ht hm hnew hl ⊢
  subst hf
  have hx : x0 = ⟨xu, if falsy xt then f.title else xt, xm, xd, some f, xr⟩ := by
    unfold prepWellbore at hp
    simp only at hp
    split_ifs at hp with hz <;> simp only [Except.ok.injEq] at hp <;> simp [← hp, hz]
  subst hx
  generalize (if falsy xt then f.title else xt) = tt at *
  unfold writeWellbore at hw
  split_ifs at hw with w1
  cases e' : featureRoot .attribute s (some f) with
  | error z => simp [e'] at hw
  | ok u =>
    simp only [e', Except.ok.injEq, Prod.mk.injEq] at hw
    obtain ⟨rfl, rfl, rfl⟩ := hw
    obtain rfl := featureRoot_eq e'
    simp only [Bool.not_eq_true', Bool.not_eq_false] at w1
    have kf : ft (baseKids tt xm ++ [leaf "IsDrilled" (.bool (xr.getD false))] ++ optLeaf "Domain" xd ++
        [refNode "InterpretedFeature" f.uuid]) "InterpretedFeature" = some (refNode "InterpretedFeature" f.uuid) := by kids
    have kd : ft (baseKids tt xm ++ [leaf "IsDrilled" (.bool (xr.getD false))] ++ optLeaf "Domain" xd ++
        [refNode "InterpretedFeature" f.uuid]) "Domain" = xd.map fun x => leaf "Domain" (.str x) := by kids
    have kr : ft (baseKids tt xm ++ [leaf "IsDrilled" (.bool (xr.getD false))] ++ optLeaf "Domain" xd ++
        [refNode "InterpretedFeature" f.uuid]) "IsDrilled" = some (leaf "IsDrilled" (.bool (xr.getD false))) := by kids
    unfold loadWellbore
    rw [List.append_assoc, List.singleton_append, rootFor_fresh hnew]
    simp only
    rw [loadFeature_ref kf (loadFeat_append hl _), citation_title ht _ _ _ _ (by kids), load_meta hm _ _ _ _ (by kids), findText,
      findTag_mk, findTag_mk, kf, kd, findBool, findTag_mk, kr, nodeText_some (domain_clean w1)]
    simp [nodeBool, leaf, Node.text]

end Verif.Organize
