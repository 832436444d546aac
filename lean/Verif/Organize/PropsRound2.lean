import Verif.Organize.PropsRound

/-!
# C153 for faults, geologic units and stratigraphic units
-/

namespace Verif.Organize

open Verif.Py

/-! ### The throws of a fault -/

/-- What is read from the node of a group. -/
def flat (g : Hod × List String) : List (String × Hod) := g.2.map fun k => (k, reloaded g.1)

theorem reloaded_key {a b : Hod} (h : hodKey a = hodKey b) : reloaded a = reloaded b := by
  obtain ⟨a1, a2⟩ := a
  obtain ⟨b1, b2⟩ := b
  simp only [hodKey, Prod.mk.injEq] at h
  cases a1 <;> cases b1 <;> simp at h <;> cases a2 <;> cases b2 <;> simp at h <;> simp [reloaded, h]

theorem loadThrow_group (g : Hod × List String) : loadThrow (groupNode g) = flat g := by
  unfold loadThrow groupNode
  have h1 : lt' (hodKids g.1 ++ g.2.map fun k => leaf "Throw" (.str k)) "Throw" = g.2.map fun k => leaf "Throw" (.str k) := by
    rw [lt_append, lt_hod_ne _ _ (by decide), lt_map _ "Throw" (fun _ => rfl)]
    simp
  rw [listOfTag_mk, h1, load_hod g.1 _ _ _ _ (by
    rw [ft_append, ft_map_ne _ "Throw" (fun _ => rfl) _ _ (by decide), Option.or_none])]
  rw [List.map_map]
  rfl

theorem addToLast_flat (k : String) (gs : List (Hod × List String)) (h : Hod) (ks : List String) :
    addToLast k (gs ++ [(h, ks)]) = gs ++ [(h, ks ++ [k])] := by
  induction gs with
  | nil => rfl
  | cons g gs ih =>
    cases gs with
    | nil => simp [addToLast]
    | cons g' gs => simpa [addToLast] using ih

/-- The groups so far hold what was put in, and the last of them has the pair remembered. -/
def GroupsOk (g : Groups) : Prop := ∀ k, g.2 = some k → ∃ gs h ks, g.1 = gs ++ [(h, ks)] ∧ hodKey h = k

theorem groupStep_ok {g : Groups} {t : String × Hod} (hg : GroupsOk g) :
    GroupsOk (groupStep g t) ∧ (groupStep g t).1.flatMap flat = g.1.flatMap flat ++ [(t.1, reloaded t.2)] := by
  unfold groupStep
  split_ifs with h
  · refine ⟨?_, by simp [flat]⟩
    intro k hk
    simp only [Option.some.injEq] at hk
    exact ⟨g.1, t.2, [t.1], rfl, hk⟩
  · simp only [ne_eq, not_not] at h
    obtain ⟨gs, a, ks, h1, h2⟩ := hg _ h.symm
    rw [h1, addToLast_flat]
    refine ⟨?_, ?_⟩
    · intro k hk
      simp only at hk
      rw [← h] at hk
      simp only [Option.some.injEq] at hk
      exact ⟨gs, a, ks ++ [t.1], rfl, h2.trans hk⟩
    · simp [flat, reloaded_key h2]

theorem groups_flat (l : List (String × Hod)) (g : Groups) (hg : GroupsOk g) :
    (l.foldl groupStep g).1.flatMap flat = g.1.flatMap flat ++ l.map fun x => (x.1, reloaded x.2) := by
  induction l generalizing g with
  | nil => simp
  | cons t l ih =>
    obtain ⟨h1, h2⟩ := groupStep_ok (t := t) hg
    rw [List.foldl_cons, ih _ h1, h2]
    simp

theorem load_throws {t : Option (List (String × Hod))} {a b c k} (hk : lt' k "ThrowInterpretation" = throwKids t) :
    loadThrows (.mk a b c k) = reloadedThrows t := by
  unfold loadThrows
  rw [listOfTag_mk, hk]
  have hf : (throwKids t).flatMap loadThrow = (t.getD []).map fun x => (x.1, reloaded x.2) := by
    unfold throwKids
    rw [List.flatMap_map]
    have : (fun g => loadThrow (groupNode g)) = flat := funext loadThrow_group
    rw [this, groups_flat _ _ (by intro k hk; simp at hk)]
    simp
  have hz : (throwKids t).length = 0 → t.getD [] = [] := by
    intro h
    rw [List.length_eq_zero_iff] at h
    rw [h] at hf
    simpa using hf.symm
  rcases t with _ | _ | ⟨x, l⟩
  · simp [throwKids, reloadedThrows, nonEmpty]
  · simp [throwKids, reloadedThrows, nonEmpty]
  · rw [if_neg (fun h => by simpa using hz h), hf]
    simp [reloadedThrows, nonEmpty]

/-- C153 for fault interpretations, as it holds: everything but the mean dip, in the place of which the mean azimuth comes back; the
throws come back in order, each with its pair of units. -/
theorem C153_fault_partial {x x' : Fault} {s s' : Store} {f : Feat} (more : Store) (hnew : rootFor s x.uuid = none)
    (hf : x.feature = some f) (hl : loadFeat .tectonic s f.uuid = .ok f) (ht : GoodTitle x.title) (hm : GoodMeta x.md)
    (h : create faultCls s x false = .ok (s', x')) :
    loadFault (s' ++ more) x.uuid =
      .ok { x with hod := reloaded x.hod, dip := x.dip.bind (fun _ => x.azimuth), throws := reloadedThrows x.throws } := by
  obtain ⟨x0, s1, n, hp, hw, rfl⟩ := create_false h
  simp only [faultCls] at hp hw ⊢
  unfold prepFault at hp
  split_ifs at hp with hn
  simp only [Except.ok.injEq] at hp
  subst hp
  obtain ⟨⟨xu, xt, xm, xd, xf, xh⟩, xn, xl, xw, xa, xi, xs⟩ := x
  simp only at hf ht hm hnew hl hn ⊢
  subst hf hn
  unfold writeFault at hw
  cases e' : featureRoot .assertion s (some f) with
  | error z => simp [e'] at hw
  | ok u =>
    simp only [e'] at hw
    split_ifs at hw with w1
    simp only [Except.ok.injEq, Prod.mk.injEq] at hw
    obtain ⟨rfl, rfl, rfl⟩ := hw
    obtain rfl := featureRoot_eq e'
    simp only [Bool.not_eq_true', Bool.not_eq_false] at w1
    unfold loadFault
    rw [loadInterp_round (i := ⟨xu, xt, xm, xd, some f, xh⟩) more hnew ht hm w1 hl (by kids) (by kids) (by kids) (by kids) (by kids)]
    simp only
    rw [if_neg (by simp), load_throws (t := xs) (by kids)]
    generalize hK : (baseKids xt xm ++ optLeaf "Domain" xd ++ [refNode "InterpretedFeature" f.uuid] ++ hodKids xh ++
      optBool "IsListric" xl ++ optNum "MaximumThrow" xw ++ optNum "MeanAzimuth" xa ++
      dipKids ⟨⟨xu, xt, xm, xd, some f, xh⟩, some (xl == none), xl, xw, xa, xi, xs⟩ ++ throwKids xs) = K
    have k1 : ft K "IsListric" = xl.map fun b => leaf "IsListric" (.bool b) := by subst hK; kids
    have k2 : ft K "MaximumThrow" = xw.map fun b => leaf "MaximumThrow" (.num b) := by subst hK; kids
    have k3 : ft K "MeanAzimuth" = xa.map fun b => leaf "MeanAzimuth" (.num b) := by subst hK; kids
    have k4 : ft K "MeanDip" = (dipKids ⟨⟨xu, xt, xm, xd, some f, xh⟩, some (xl == none), xl, xw, xa, xi, xs⟩).head? := by subst hK; kids
    have e1 : findBool (.mk "FaultInterpretation" none none K) "IsListric" = xl := by
      rw [findBool, findTag_mk, k1]
      cases xl <;> rfl
    have e2 : findNum (.mk "FaultInterpretation" none none K) "MaximumThrow" = xw := by
      rw [findNum, findTag_mk, k2]
      cases xw <;> rfl
    have e3 : findNum (.mk "FaultInterpretation" none none K) "MeanAzimuth" = xa := by
      rw [findNum, findTag_mk, k3]
      cases xa <;> rfl
    have e4 : findNum (.mk "FaultInterpretation" none none K) "MeanDip" = xi.bind fun _ => xa := by
      rw [findNum, findTag_mk, k4]
      cases xi <;> cases xa <;> rfl
    rw [e1, e2, e3, e4]

/-- C153 is violated for fault interpretations: a fault with a dip of 60 degrees and an azimuth of 10 comes back with a dip of 10. -/
theorem C153_fault_violated : ∃ (s s' : Store) (x y : Fault), create faultCls s x false = .ok (s', x) ∧
    loadFault s' x.uuid = .ok y ∧ x.dip = some 60 ∧ x.azimuth = some 10 ∧ y = { x with dip := some 10 } := by
  let f : Feat := ⟨.tectonic, 1, some "F", [], some "fault", none, none, none⟩
  let x : Fault := ⟨⟨2, some "G", [], some "time", some f, (none, none)⟩, some true, none, none, some 10, some 60, none⟩
  obtain ⟨nf, hnf⟩ : ∃ n, featNode f = .ok n := by
    simp only [featNode, f]
    rw [if_pos (by decide +kernel)]
    exact ⟨_, rfl⟩
  let s : Store := [⟨1, "TectonicBoundaryFeature", nf⟩]
  have hg : GoodFeature f := ⟨⟨"F", rfl, by decide +kernel, by decide +kernel⟩, ⟨by simp [f], by simp [f]⟩, by simp [f], by simp [f], by simp [f],
    by simp [f]⟩
  have hl : loadFeat .tectonic s f.uuid = .ok f := feat_roundtrip hg hnf rfl
  have hc : ∃ s', create faultCls s x false = .ok (s', x) := by
    have hw : ∃ n, writeFault s x = .ok (s, n, x) := by
      unfold writeFault
      have : featureRoot .assertion s x.feature = .ok 1 := rfl
      rw [this]
      simp only
      rw [if_neg (by decide +kernel)]
      exact ⟨_, rfl⟩
    obtain ⟨n, hn⟩ := hw
    have hp : faultCls.prep s x = .ok x := rfl
    unfold create
    rw [hp]
    simp only [Bool.false_eq_true, if_false]
    have hw : faultCls.write s x = .ok (s, n, x) := hn
    rw [hw]
    exact ⟨_, rfl⟩
  obtain ⟨s', hs'⟩ := hc
  have := C153_fault_partial (x := x) (f := f) [] rfl rfl hl ⟨"G", rfl, by decide +kernel, by decide +kernel⟩
    ⟨by simp [x], by simp [x]⟩ hs'
  rw [List.append_nil] at this
  exact ⟨s, s', x, { x with dip := some 10 }, hs', this, rfl, rfl, rfl⟩

/-- the grouping of throws: two of one pair, one of another, and again one of the first -/
example : reloadedThrows (some [("reverse", (some (.uuid 1), some (.uuid 2))), ("strike and slip", (some (.uuid 1), some (.text 2))),
      ("normal", (none, none)), ("reverse", (some (.uuid 1), some (.uuid 2)))]) =
    some [("reverse", (some (.text 1), some (.text 2))), ("strike and slip", (some (.text 1), some (.text 2))),
      ("normal", (none, none)), ("reverse", (some (.text 1), some (.text 2)))] := by decide

/-! ### Geologic and stratigraphic units -/

theorem unit_clean {c : Option String} (h : ¬ (c.any fun x => decide (x ∉ unitCompositions)) = true) :
    ((c.map compositionText).map fun x => leaf "GeologicUnitComposition" (.str x)).bind nodeText = c.map strip ∧
      okIfAny unitCompositions (c.map strip) = true ∧ ((c.map strip).map strip = c.map strip) ∧ (falsy c = true → c = none) := by
  cases c with
  | none => exact ⟨rfl, rfl, rfl, fun _ => rfl⟩
  | some x =>
    simp only [Option.any_some, decide_eq_true_eq, not_not, unitCompositions, List.mem_cons, List.not_mem_nil, or_false] at h
    rcases h with rfl | rfl | rfl | rfl | rfl | rfl | rfl | rfl | rfl | rfl | rfl | rfl | rfl | rfl <;>
      exact ⟨by decide +kernel, by decide +kernel, by decide +kernel, by decide +kernel⟩

theorem implacement_ok {c : Option String} (h : ¬ (c.any fun x => decide (x ∉ validImplacements)) = true) :
    (∀ y, c = some y → Clean y) ∧ okIfAny validImplacements c = true := by
  cases c with
  | none => exact ⟨by simp, rfl⟩
  | some x =>
    simp only [Option.any_some, decide_eq_true_eq, not_not] at h
    refine ⟨?_, by simp [okIfAny, h]⟩
    rintro y hy
    simp only [Option.some.injEq] at hy
    exact hy ▸ implacements_clean x h

theorem unitFeature_ref {c : FC} {s : Store} {u : Nat} {f : Feat} {t a b k} (hk : ft k "InterpretedFeature" = some (refNode "InterpretedFeature" u))
    (hf : loadFeat c s u = .ok f) : loadUnitFeature c s (.mk t a b k) = .ok (some f) := by
  have e : refUuid (.mk t a b k) "InterpretedFeature" = some u := by
    simp [refUuid, findTag_mk, hk, refNode, ft_cons, leaf, Node.tag, nodeUuid, Node.text]
  unfold loadUnitFeature
  rw [e]
  simp [hf, Except.map]

theorem unit_round {c : FC} {x : GeoUnit} {s : Store} {f : Feat} {typ t k extra} (more : Store) (hnew : rootFor s x.uuid = none)
    (hf : x.feature = some f) (hl : loadFeat c s f.uuid = .ok f) (ht : GoodTitle x.title) (hm : GoodMeta x.md)
    (hk : unitKids s x = .ok k) (hx : ∀ tag ∈ ["Citation", "Domain", "InterpretedFeature", "HasOccuredDuring", "GeologicUnitComposition",
      "GeologicUnitMaterialImplacement"], ft extra tag = none) (hx' : lt' extra "ExtraMetadata" = []) :
    loadUnitRaw c ((s ++ [⟨x.uuid, typ, .mk t none none (k ++ extra)⟩]) ++ more) x.uuid =
        .ok ({ x with hod := reloaded x.hod, composition := x.composition.map strip }, .mk t none none (k ++ extra)) ∧
      checkUnit { x with hod := reloaded x.hod, composition := x.composition.map strip } =
        .ok { x with hod := reloaded x.hod, composition := x.composition.map strip } := by
  obtain ⟨⟨xu, xt, xm, xd, xf, xh⟩, xc, xi⟩ := x
  simp only at hf ht hm hnew hl ⊢
  subst hf
  unfold unitKids at hk
  cases e' : featureRoot .assertion s (some f) with
  | error z => simp [e'] at hk
  | ok u =>
    simp only [e'] at hk
    split_ifs at hk with w1 w2 w3
    simp only [Except.ok.injEq] at hk
    obtain rfl := featureRoot_eq e'
    simp only [Bool.not_eq_true', Bool.not_eq_false] at w1
    obtain ⟨c1, c2, c3, c4⟩ := unit_clean w2
    obtain ⟨i1, i2⟩ := implacement_ok w3
    have h1 := hx "Citation" (by simp)
    have h2 := hx "Domain" (by simp)
    have h3 := hx "InterpretedFeature" (by simp)
    have h4 := hx "HasOccuredDuring" (by simp)
    have h5 := hx "GeologicUnitComposition" (by simp)
    have h6 := hx "GeologicUnitMaterialImplacement" (by simp)
    generalize hK : k ++ extra = K
    have k1 : ft K "Citation" = some (citation xt) := by subst hK hk; rw [ft_append, h1]; kids
    have k2 : ft K "Domain" = xd.map fun x => leaf "Domain" (.str x) := by subst hK hk; rw [ft_append, h2]; kids
    have k3 : ft K "InterpretedFeature" = some (refNode "InterpretedFeature" f.uuid) := by subst hK hk; rw [ft_append, h3]; kids
    have k4 : ft K "HasOccuredDuring" = ft (hodKids xh) "HasOccuredDuring" := by subst hK hk; rw [ft_append, h4]; kids
    have k5 : ft K "GeologicUnitComposition" = (xc.map compositionText).map fun x => leaf "GeologicUnitComposition" (.str x) := by
      subst hK hk; rw [ft_append, h5]; kids
    have k6 : ft K "GeologicUnitMaterialImplacement" = xi.map fun x => leaf "GeologicUnitMaterialImplacement" (.str x) := by
      subst hK hk; rw [ft_append, h6]; kids
    have k7 : lt' K "ExtraMetadata" = xm.map metaNode := by subst hK hk; rw [lt_append, hx']; kids
    constructor
    · unfold loadUnitRaw
      rw [List.append_assoc, List.singleton_append, rootFor_fresh hnew]
      simp only
      rw [unitFeature_ref k3 (loadFeat_append hl _)]
      simp only
      rw [citation_title ht _ _ _ _ k1, load_meta hm _ _ _ _ k7, load_hod xh _ _ _ _ k4, findText, findTag_mk, k2,
        nodeText_some (domain_clean w1), findText, findTag_mk, k5, c1, findText, findTag_mk, k6, nodeText_some i1]
    · unfold checkUnit
      simp only
      rw [c2, i2]
      simp only [Bool.not_true, Bool.false_eq_true, if_false, c3, ite_self]

/-- C153 for geologic unit interpretations: a composition is stored as one of those allowed and comes back without white space at its
ends. -/
theorem C153_geologic_unit {x x' : GeoUnit} {s s' : Store} {f : Feat} (more : Store) (hnew : rootFor s x.uuid = none)
    (hf : x.feature = some f) (hl : loadFeat .geologicUnit s f.uuid = .ok f) (ht : GoodTitle x.title) (hm : GoodMeta x.md)
    (h : create unitCls s x false = .ok (s', x')) :
    loadUnit (s' ++ more) x.uuid = .ok { x with hod := reloaded x.hod, composition := x.composition.map strip } := by
  obtain ⟨x0, s1, n, hp, hw, rfl⟩ := create_false h
  simp only [unitCls, Except.ok.injEq] at hp hw ⊢
  subst hp
  unfold writeUnit at hw
  cases e : unitKids s x with
  | error z => simp [e, Except.map] at hw
  | ok k =>
    simp only [e, Except.map, Except.ok.injEq, Prod.mk.injEq] at hw
    obtain ⟨rfl, rfl, rfl⟩ := hw
    obtain ⟨r1, r2⟩ := unit_round (typ := "GeologicUnitInterpretation") (t := "GeologicUnitInterpretation") (extra := []) more hnew hf hl
      ht hm e (by simp [ft_nil]) rfl
    rw [List.append_nil] at r1
    unfold loadUnit
    rw [r1]
    exact r2

/-- C153 for stratigraphic unit interpretations; the unit of measure of the thicknesses is only stored with one of them. -/
theorem C153_stratigraphic_unit {lu : String → Bool} {x x' : StratUnit} {s s' : Store} {f : Feat} (more : Store)
    (hnew : rootFor s x.uuid = none) (hf : x.feature = some f) (hl : loadFeat .stratUnit s f.uuid = .ok f) (ht : GoodTitle x.title)
    (hm : GoodMeta x.md) (h : create (stratCls lu) s x false = .ok (s', x')) :
    loadStrat lu (s' ++ more) x.uuid = .ok { x with hod := reloaded x.hod, composition := x.composition.map strip,
                                                     uom := if x.minThick = none ∧ x.maxThick = none then none else x.uom } := by
  obtain ⟨x0, s1, n, hp, hw, rfl⟩ := create_false h
  simp only [stratCls, Except.ok.injEq] at hp hw ⊢
  subst hp
  unfold writeStrat at hw
  cases e : unitKids s x.toGeoUnit with
  | error z => simp [e] at hw
  | ok k =>
    simp only [e] at hw
    split_ifs at hw with w1
    simp only [Except.ok.injEq, Prod.mk.injEq] at hw
    obtain ⟨rfl, rfl, rfl⟩ := hw
    obtain ⟨g, xd, lo, hi, uo⟩ := x
    simp only [checkStrat, Bool.not_eq_true', Bool.not_eq_false, Bool.and_eq_true, Bool.or_eq_true, beq_iff_eq] at w1
    simp only at hnew hf ht hm e ⊢
    have hx : ∀ tag ∈ ["Citation", "Domain", "InterpretedFeature", "HasOccuredDuring", "GeologicUnitComposition",
        "GeologicUnitMaterialImplacement"], ft (optLeaf "DepositionMode" xd ++ numUom "MinThickness" uo lo ++ numUom "MaxThickness" uo hi)
        tag = none := by
      intro tag ht
      simp only [List.mem_cons, List.not_mem_nil, or_false] at ht
      rcases ht with rfl | rfl | rfl | rfl | rfl | rfl <;> kids
    obtain ⟨r1, r2⟩ := unit_round (typ := "StratigraphicUnitInterpretation") (t := "StratigraphicUnitInterpretation") more hnew hf hl
      ht hm e hx (by kids)
    rw [← List.append_assoc, ← List.append_assoc] at r1
    unfold loadStrat
    rw [r1]
    simp only
    have hkids : ∀ tag ∈ ["DepositionMode", "MinThickness", "MaxThickness"], ft k tag = none := by
      intro tag htag
      unfold unitKids at e
      cases e' : featureRoot .assertion s g.feature with
      | error z => simp [e'] at e
      | ok u =>
        simp only [e'] at e
        split_ifs at e
        simp only [Except.ok.injEq] at e
        subst e
        simp only [List.mem_cons, List.not_mem_nil, or_false] at htag
        rcases htag with rfl | rfl | rfl <;> kids
    have d1 := hkids "DepositionMode" (by simp)
    have d2 := hkids "MinThickness" (by simp)
    have d3 := hkids "MaxThickness" (by simp)
    generalize hK : k ++ optLeaf "DepositionMode" xd ++ numUom "MinThickness" uo lo ++ numUom "MaxThickness" uo hi = K
    have k1 : ft K "DepositionMode" = xd.map fun x => leaf "DepositionMode" (.str x) := by
      subst hK; simp only [ft_append, d1]; kids
    have k2 : ft K "MinThickness" = lo.map fun q => Node.mk "MinThickness" uo (some (.num q)) [] := by
      subst hK; simp only [ft_append, d2]; kids
    have k3 : ft K "MaxThickness" = hi.map fun q => Node.mk "MaxThickness" uo (some (.num q)) [] := by
      subst hK; simp only [ft_append, d3]; kids
    have hdep : findText (.mk "StratigraphicUnitInterpretation" none none K) "DepositionMode" = xd := by
      rw [findText, findTag_mk, k1]
      apply nodeText_some
      rintro y rfl
      have := w1.1
      simp only [Option.any_some, decide_eq_false_iff_not, not_not] at this
      exact depositions_clean y this
    have hlo : loadThick (.mk "StratigraphicUnitInterpretation" none none K) "MinThickness" none =
        .ok (lo, if lo = none then none else uo) := by
      unfold loadThick
      rw [findTag_mk, k2]
      cases lo with
      | none => rfl
      | some q =>
        cases uo with
        | none => simp at w1
        | some v => rfl
    have hhi : loadThick (.mk "StratigraphicUnitInterpretation" none none K) "MaxThickness" (if lo = none then none else uo) =
        .ok (hi, if lo = none ∧ hi = none then none else uo) := by
      unfold loadThick
      rw [findTag_mk, k3]
      cases hi with
      | none => cases lo <;> simp
      | some q =>
        cases uo with
        | none => simp at w1
        | some v => cases lo <;> simp [nodeNum, Node.text, Node.uom]
    rw [hlo]
    simp only
    rw [hhi]
    simp only
    rw [r2]
    simp only
    rw [hdep, if_pos]
    simp only [checkStrat, Bool.and_eq_true, Bool.or_eq_true, beq_iff_eq]
    refine ⟨by simpa using w1.1, ?_⟩
    rcases w1.2 with ⟨rfl, rfl⟩ | w
    · simp
    · by_cases hz : lo = none ∧ hi = none
      · exact Or.inl hz
      · right
        rw [if_neg hz]
        exact w

/-- a stratigraphic unit -/
def exStrat : StratUnit :=
  ⟨⟨⟨2, some "S", [], some "depth", some ⟨.stratUnit, 1, some "F", [], none, none, none, none⟩, (none, none)⟩, some "organic", none⟩,
    some "parallel to top", some 3, none, some "m"⟩

/-- the part of its feature -/
def exStratFeature : Part := ⟨1, "StratigraphicUnitFeature", .mk "StratigraphicUnitFeature" none none (baseKids (some "F") [])⟩

/-- it can be created where its feature is stored -/
example : loadFeat .stratUnit [exStratFeature] 1 = .ok ⟨.stratUnit, 1, some "F", [], none, none, none, none⟩ ∧
    ∃ s', create (stratCls fun u => u == "m") [exStratFeature] exStrat false = .ok (s', exStrat) := by
  refine ⟨rfl, ?_⟩
  have hw : ∃ n, writeStrat (fun u => u == "m") [exStratFeature] exStrat = .ok ([exStratFeature], n, exStrat) := by
    have hf : featureRoot .assertion [exStratFeature] exStrat.feature = .ok 1 := rfl
    unfold writeStrat unitKids
    rw [hf]
    simp only
    rw [if_neg (by decide +kernel), if_neg (by decide +kernel), if_neg (by decide +kernel)]
    simp only
    rw [if_neg (by decide +kernel)]
    exact ⟨_, rfl⟩
  obtain ⟨n, hn⟩ := hw
  have hp : (stratCls fun u => u == "m").prep [exStratFeature] exStrat = .ok exStrat := rfl
  have hw : (stratCls fun u => u == "m").write [exStratFeature] exStrat = .ok ([exStratFeature], n, exStrat) := hn
  unfold create
  rw [hp]
  simp only [Bool.false_eq_true, if_false]
  rw [hw]
  exact ⟨_, rfl⟩

/-! ### What is read from parts written by others -/

/-- C153: a tectonic boundary of which no kind is given is a fault. -/
theorem C153_fault_default {s : Store} {u : Nat} {n : Node} (hn : rootFor s u = some n) (hk : findText n "TectonicBoundaryKind" = none) {f : Feat}
    (h : loadFeat .tectonic s u = .ok f) : f.kind = some "fault" := by
  unfold loadFeat at h
  rw [hn] at h
  dsimp only at h
  rw [hk] at h
  injection h with h
  subst h
  rfl

example : loadFeat .tectonic [⟨1, "TectonicBoundaryFeature", .mk "TectonicBoundaryFeature" none none (baseKids (some "F") [])⟩] 1 =
    .ok ⟨.tectonic, 1, some "F", [], some "fault", none, none, none⟩ := rfl

/-- C153: a composition in memory has no spaces at its ends, and all else is as it was given. -/
theorem C153_composition_held {g g' : GeoUnit} (h : checkUnit g = .ok g') : g' = { g with composition := if falsy g.composition then g.composition else g.composition.map strip } := by
  unfold checkUnit at h
  split_ifs at h with h1 h2 h3
  · injection h with h
    subst h
    rw [if_pos h3]
  · injection h with h
    rw [if_neg h3]
    exact h.symm

example : (checkUnit ⟨⟨1, none, [], none, none, (none, none)⟩, some "intrusive mud ", none⟩).map GeoUnit.composition = .ok (some "intrusive mud") := by decide +kernel

/-- C153: what is written for a composition is one of those listed, with a space at the end if it is listed with one. -/
theorem C153_composition_written (c : String) (h : c ∈ unitCompositions) :
    compositionText (strip c) ∈ unitCompositions ∧ strip (compositionText (strip c)) = strip c ∧
      (strip c ++ " " ∈ unitCompositions → compositionText (strip c) = strip c ++ " ") := by
  simp only [unitCompositions, List.mem_cons, List.not_mem_nil, or_false] at h
  rcases h with rfl | rfl | rfl | rfl | rfl | rfl | rfl | rfl | rfl | rfl | rfl | rfl | rfl | rfl <;> decide +kernel

/-- C153: a stratigraphic unit with thicknesses in different units is refused. -/
theorem C153_thickness_units (lu : String → Bool) {s : Store} {u : Nat} {n a b : Node} {q r : ℚ} {v w : String} {g : GeoUnit} (hn : loadUnitRaw .stratUnit s u = .ok (g, n))
    (ha : findTag n "MinThickness" = some a) (hb : findTag n "MaxThickness" = some b) (hqa : nodeNum a = some q) (hqb : nodeNum b = some r)
    (hv : a.uom = some v) (hw : b.uom = some w) (hne : w ≠ v) : loadStrat lu s u = .error .assertion := by
  unfold loadStrat
  rw [hn]
  dsimp only
  have e1 : loadThick n "MinThickness" none = .ok (some q, some v) := by simp [loadThick, ha, hqa, hv]
  have e2 : loadThick n "MaxThickness" (some v) = .error .assertion := by simp [loadThick, hb, hqb, hw, hne]
  rw [e1]
  dsimp only
  rw [e2]

end Verif.Organize
