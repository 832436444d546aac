import Verif.Marker.Lemmas

/-!
# C174: frames of markers come back from the model as they were stored
-/

namespace Verif.Marker

open Verif.Py Verif.Organize

theorem joinSome_eq (s : Store) (wn : Option String) (g k : String) (i : Option Nat) :
    joinSome [wn, some g, some k, (i.bind (rootFor s)).bind rawTitle] = composed s wn g k i := by
  unfold joinSome composed
  cases wn <;> cases (i.bind (rootFor s)).bind rawTitle <;> rfl

theorem default_clean : Clean "wellbore marker framework" := ⟨by decide +kernel, by decide⟩

/-- The nodes of markers, and what is read from each. -/
theorem markers_round {s : Store} {wn : Option String} {ms : List Mark} (h : ∀ m ∈ ms, GoodMark s m) :
    ∃ ns, mapR (frameMarker s wn) ms = .ok ns ∧ (∀ n ∈ ns, n.tag = "WellboreMarker") ∧ ns.length = ms.length ∧
      ∀ s2, ∃ ms', mapR (loadMarker s2) ns = .ok ms' ∧ ms'.length = ms.length ∧ List.Forall₂ (fun m m' => Kept m m' ∧
        (Untitled m → ∀ k g, m.kind = some k → KindIn k g → Clean (composed s wn g k m.interp) →
          m'.title = some (composed s wn g k m.interp))) ms ms' := by
  induction ms with
  | nil => exact ⟨[], rfl, by simp, rfl, fun _ => ⟨[], rfl, rfl, .nil⟩⟩
  | cons m ms ih =>
    obtain ⟨ns, h1, h2, h3, h4⟩ := ih fun x hx => h x (by simp [hx])
    have hm := h m (by simp)
    obtain ⟨n, t, ht, hn, hn', htag⟩ := frameMarker_ok (wn := wn) hm
    refine ⟨n :: ns, by simp [mapR, hn, h1], by simpa [htag] using h2, by simp [h3], fun s2 => ?_⟩
    obtain ⟨ms', h5, h6, h7⟩ := h4 s2
    refine ⟨⟨m.uuid, m.kind, m.interp, findText (citation (if falsy m.title then some t else m.title)) "Title", m.md⟩ :: ms',
      by simp only [mapR, loadMarker_eq hm hn' s2, h5], by simp [h6], .cons ⟨⟨rfl, rfl, rfl, rfl, ?_⟩, ?_⟩ h7⟩
    · rintro x hx hne
      rcases hm.title with e | e | ⟨y, e, hy⟩
      · rw [e] at hx
        simp at hx
      · rw [e] at hx
        simp only [Option.some.injEq] at hx
        exact absurd hx.symm hne
      · have e1 : (if falsy m.title then some t else m.title) = some y := by simp [e, falsy_clean hy]
        dsimp only
        rw [e1, citation_text, falsy_clean hy, e]
        simp [hy.1, hy.2]
    · intro hu k g hk hg hcl
      have e1 : (if falsy m.title then some t else m.title) = some t := by
        rcases hu with e | e <;> simp [e, falsy]
      have e2 : t = composed s wn g k m.interp := by
        unfold generatedTitle at ht
        rw [hk, boundaryKind_eq hg] at ht
        simp only [Except.ok.injEq] at ht
        rw [← joinSome_eq]
        exact ht.symm
      dsimp only
      rw [e1, citation_text, e2, falsy_clean hcl]
      simp [hcl.1, hcl.2]

theorem frame_kids {k : List Node} {ns : List Node} (hns : ∀ n ∈ ns, n.tag = "WellboreMarker") (tag : String) (h : tag ≠ "WellboreMarker") :
    ft (k ++ ns) tag = ft k tag := by
  rw [ft_append]
  have : ft ns tag = none := by
    unfold ft
    rw [List.find?_eq_none]
    intro n hn
    simp [hns n hn, Ne.symm h]
  simp [this]

theorem frame_kids_lt {k : List Node} {ns : List Node} (hns : ∀ n ∈ ns, n.tag = "WellboreMarker") (tag : String) (h : tag ≠ "WellboreMarker") :
    lt' (k ++ ns) tag = lt' k tag := by
  rw [lt_append]
  have : lt' ns tag = [] := by
    unfold lt'
    rw [List.filter_eq_nil_iff]
    intro n hn
    simp [hns n hn, Ne.symm h]
  simp [this]

theorem lt_all {ns : List Node} {tag : String} (hns : ∀ n ∈ ns, n.tag = tag) : lt' ns tag = ns := by
  unfold lt'
  rw [List.filter_eq_self]
  intro n hn
  simp [hns n hn]

/-! ### The tree of a frame -/

theorem frame_traj {ns : List Node} (h2 : ∀ n ∈ ns, n.tag = "WellboreMarker") (f : Frame) (t : Nat) :
    refUuid (frameNode f t ns) "Trajectory" = some t := by
  unfold refUuid frameNode
  rw [findTag_mk, frame_kids h2 _ (by decide), ft_append, ft_base _ _ _ (by decide) (by decide)]
  simp [ft_cons, leaf_tag, mk_tag, ref_tag, ref_uuid]

theorem frame_markers {ns : List Node} (h2 : ∀ n ∈ ns, n.tag = "WellboreMarker") (f : Frame) (t : Nat) :
    listOfTag (frameNode f t ns) "WellboreMarker" = ns := by
  unfold frameNode
  rw [listOfTag_mk, lt_append, lt_append, lt_base _ _ _ (by decide), lt_all h2]
  simp [lt_cons, lt_nil, leaf_tag, mk_tag, ref_tag]

theorem frame_count {ns : List Node} (h2 : ∀ n ∈ ns, n.tag = "WellboreMarker") (f : Frame) (t : Nat) :
    findInt (frameNode f t ns) "NodeCount" = some (f.count : Int) := by
  unfold findInt frameNode
  rw [findTag_mk, frame_kids h2 _ (by decide), ft_append, ft_base _ _ _ (by decide) (by decide)]
  simp [ft_cons, leaf, Node.tag, nodeInt, Node.text]

theorem frame_title {ns : List Node} (h2 : ∀ n ∈ ns, n.tag = "WellboreMarker") (f : Frame) (t : Nat) (htitle : TitleOrNone f.title) :
    citationTitle (frameNode f t ns) = orTitle f.title "wellbore marker framework" := by
  apply citation_title (orTitle_good htitle default_clean)
  rw [frame_kids h2 _ (by decide), ft_append, ft_base_citation]
  simp

theorem frame_meta {ns : List Node} (h2 : ∀ n ∈ ns, n.tag = "WellboreMarker") (f : Frame) (t : Nat) (hmd : GoodMeta f.md) :
    loadMeta (frameNode f t ns) = f.md := by
  apply load_meta hmd
  rw [frame_kids_lt h2 _ (by decide), lt_append, lt_base _ _ _ (by decide)]
  simp [lt_cons, lt_nil, leaf_tag, mk_tag, ref_tag]

theorem citable_append {s : Store} {t : Nat} (h : Citable s t) (more : Store) : ∃ n, rootFor (s ++ more) t = some n := by
  obtain ⟨n, _, _, hn, _, _⟩ := h
  refine ⟨n, ?_⟩
  rw [rootFor_append, hn]
  rw [hn]
  rfl

theorem storeFrame_eq {s : Store} {h : Arrays} {f : Frame} {t : Nat} {ns : List Node} {wn : Option String}
    (ht : f.traj = some t) (htr : Citable s t) (h1 : mapR (frameMarker s wn) (f.markers.getD []) = .ok ns) :
    storeFrame s h wn f = .ok (s ++ [⟨f.uuid, "WellboreMarkerFrameRepresentation", frameNode f t ns⟩], (f.uuid, f.mds) :: h,
      { f with title := orTitle f.title "wellbore marker framework" }) := by
  obtain ⟨x, hx⟩ := citable_raw htr
  unfold storeFrame
  rw [ht]
  simp only
  rw [hx]
  simp only
  rw [h1]

/-- C174: a frame which is in order, with as many depths as markers, can be stored.  It is read again, whatever parts and arrays are added
to the model later, with its metadata, trajectory and depths, and with its markers in order, each with its uuid, kind, interpretation and
metadata, and with its title, or if it has none with one made up from the name of the well, the group, the kind and the interpretation.
Nothing stored before is changed. -/
theorem C174_stored {s : Store} {h : Arrays} {f : Frame} {t : Nat} {ms : List Mark} (wn : Option String) (hnew : rootFor s f.uuid = none)
    (ht : f.traj = some t) (htr : Citable s t) (hms : f.markers = some ms) (hgood : ∀ m ∈ ms, GoodMark s m)
    (hc : f.count = f.mds.length ∧ f.count = ms.length) (hmd : GoodMeta f.md) (htitle : TitleOrNone f.title) :
    ∃ s' h' f', storeFrame s h wn f = .ok (s', h', f') ∧ (∃ p, s' = s ++ [p] ∧ p.uuid = f.uuid) ∧
      (∀ v, v ≠ f.uuid → h'.lookup v = h.lookup v) ∧
      ∀ more moreH, (∀ q ∈ moreH, q.1 ≠ f.uuid) → ∃ g ms', loadFrame (s' ++ more) (moreH ++ h') f.uuid = .ok g ∧ g.uuid = f.uuid ∧
        g.title = titleOr f.title "wellbore marker framework" ∧ g.md = f.md ∧ g.traj = f.traj ∧ g.count = f.count ∧ g.mds = f.mds ∧
        g.markers = some ms' ∧ List.Forall₂ (fun m m' => Kept m m' ∧
          (Untitled m → ∀ k gr, m.kind = some k → KindIn k gr → Clean (composed s wn gr k m.interp) →
            m'.title = some (composed s wn gr k m.interp))) ms ms' := by
  obtain ⟨ns, h1, h2, h3, h4⟩ := markers_round (wn := wn) hgood
  refine ⟨_, _, _, storeFrame_eq ht htr (by rw [hms]; exact h1), ⟨_, rfl, rfl⟩, ?_, ?_⟩
  · intro v hv
    simp [List.lookup_cons, show (v == f.uuid) = false by simpa using hv]
  · intro more moreH hH
    obtain ⟨ms', h5, h6, h7⟩ := h4 (s ++ [⟨f.uuid, "WellboreMarkerFrameRepresentation", frameNode f t ns⟩] ++ more)
    refine ⟨⟨f.uuid, titleOr f.title "wellbore marker framework", f.md, some t, f.mds.length, f.mds, some ms'⟩, ms', ?_, rfl, rfl, rfl, ht.symm,
      hc.1.symm, rfl, rfl, h7⟩
    have hr : rootFor (s ++ [⟨f.uuid, "WellboreMarkerFrameRepresentation", frameNode f t ns⟩] ++ more) f.uuid = some (frameNode f t ns) := by
      rw [List.append_assoc, List.singleton_append]
      exact rootFor_fresh hnew _ _ _
    obtain ⟨nt, hnt⟩ := citable_append htr ([⟨f.uuid, "WellboreMarkerFrameRepresentation", frameNode f t ns⟩] ++ more)
    rw [← List.append_assoc] at hnt
    unfold loadFrame
    rw [hr]
    simp only
    rw [frame_traj h2]
    simp only [Option.bind_some]
    rw [hnt]
    simp only
    rw [frame_markers h2, h5]
    simp only
    rw [lookup_append hH]
    simp only [List.lookup_cons, beq_self_eq_true]
    rw [frame_count h2, frame_title h2 f t htitle, frame_meta h2 f t hmd, orTitle_eq]
    have e1 : (f.count : Int) = (f.mds.length : Int) := by rw [hc.1]
    have e2 : (f.count : Int) = (ms'.length : Int) := by rw [h6, hc.2]
    rw [if_neg (by simp [e1]), if_neg (by simp [e2])]

/-- C174: a frame is not stored if a marker has no kind, or refers to an interpretation which is not in the model. -/
theorem C174_refused {s : Store} {h : Arrays} {f : Frame} {ms : List Mark} {m : Mark} (wn : Option String) (hms : f.markers = some ms)
    (hm : m ∈ ms) (hbad : m.kind = none ∨ ∃ u, m.interp = some u ∧ rootFor s u = none) : ∃ e, storeFrame s h wn f = .error e := by
  have : ∃ e, frameMarker s wn m = .error e := by
    unfold frameMarker generatedTitle
    cases e : boundaryKind m.kind with
    | error x => exact ⟨x, rfl⟩
    | ok b =>
      simp only
      unfold markerNode
      rw [e]
      rcases hbad with hk | ⟨u, hu, hr⟩
      · rw [hk] at e
        exact absurd e (by unfold boundaryKind featureDict; simp)
      · refine ⟨.attribute, ?_⟩
        simp [interpKids, hu, hr]
  obtain ⟨e, he⟩ := this
  unfold storeFrame
  cases f.traj with
  | none => exact ⟨_, rfl⟩
  | some t =>
    simp only
    cases (rootFor s t).bind rawTitle with
    | none => exact ⟨_, rfl⟩
    | some x =>
      obtain ⟨e', h'⟩ := mapR_error hm he
      refine ⟨e', ?_⟩
      simp [hms, h']

/-- C174 (violated): storing does not look at the number of markers.  Any frame whose markers are each in order, but which has not as many
markers as depths (or none at all), is stored without complaint and can never be loaded. -/
theorem C174_count_violated {s : Store} {h : Arrays} {f : Frame} {t : Nat} (wn : Option String) (hnew : rootFor s f.uuid = none)
    (ht : f.traj = some t) (htr : Citable s t) (hgood : ∀ m ∈ f.markers.getD [], GoodMark s m)
    (hc : f.count = f.mds.length) (hne : (f.markers.getD []).length ≠ f.mds.length) :
    ∃ s' h' f', storeFrame s h wn f = .ok (s', h', f') ∧ (rootFor s' f.uuid).isSome ∧
      ∀ more, loadFrame (s' ++ more) h' f.uuid = .error .assertion := by
  obtain ⟨ns, h1, h2, h3, h4⟩ := markers_round (wn := wn) hgood
  refine ⟨_, _, _, storeFrame_eq ht htr h1, ?_, ?_⟩
  · rw [rootFor_fresh hnew]
    rfl
  · intro more
    obtain ⟨ms', h5, h6, -⟩ := h4 (s ++ [⟨f.uuid, "WellboreMarkerFrameRepresentation", frameNode f t ns⟩] ++ more)
    have hr : rootFor (s ++ [⟨f.uuid, "WellboreMarkerFrameRepresentation", frameNode f t ns⟩] ++ more) f.uuid = some (frameNode f t ns) := by
      rw [List.append_assoc, List.singleton_append]
      exact rootFor_fresh hnew _ _ _
    obtain ⟨nt, hnt⟩ := citable_append htr ([⟨f.uuid, "WellboreMarkerFrameRepresentation", frameNode f t ns⟩] ++ more)
    rw [← List.append_assoc] at hnt
    unfold loadFrame
    rw [hr]
    simp only
    rw [frame_traj h2]
    simp only [Option.bind_some]
    rw [hnt]
    simp only
    rw [frame_markers h2, h5]
    simp only [List.lookup_cons, beq_self_eq_true]
    rw [frame_count h2]
    have e1 : (f.count : Int) = (f.mds.length : Int) := by rw [hc]
    have e2 : (f.count : Int) ≠ (ms'.length : Int) := by
      rw [h6, e1]
      exact_mod_cast Ne.symm hne
    rw [if_neg (by simp [e1]), if_pos (by simpa using e2)]

/-- C174: the marker found for an interpretation is the first which refers to it, and there is none exactly if none does. -/
theorem C174_find (ms : List Mark) (u : Nat) :
    (∀ i, indexOfInterp ms (some u) = some i ↔ ∃ m, ms[i]? = some m ∧ m.interp = some u ∧
      ∀ j m', j < i → ms[j]? = some m' → m'.interp ≠ some u) ∧
    (indexOfInterp ms (some u) = none ↔ ∀ m ∈ ms, m.interp ≠ some u) := by
  have key : ∀ m : Mark, sameUuid m.interp (some u) = true ↔ m.interp = some u := by
    intro m
    unfold sameUuid
    cases m.interp <;> simp
  induction ms with
  | nil => simp [indexOfInterp]
  | cons m ms ih =>
    unfold indexOfInterp
    by_cases hm : m.interp = some u
    · rw [if_pos ((key m).2 hm)]
      constructor
      · intro i
        constructor
        · intro h
          simp only [Option.some.injEq] at h
          subst h
          exact ⟨m, by simp, hm, by simp⟩
        · rintro ⟨m', h1, h2, h3⟩
          cases i with
          | zero => rfl
          | succ i => exact absurd hm (h3 0 m (by omega) (by simp))
      · simp [hm]
    · rw [if_neg (by rwa [key])]
      constructor
      · intro i
        cases i with
        | zero => simp [hm]
        | succ i =>
          simp only [Option.map_eq_some_iff, Nat.add_right_cancel_iff, exists_eq_right, List.getElem?_cons_succ]
          rw [ih.1 i]
          constructor
          · rintro ⟨m', h1, h2, h3⟩
            refine ⟨m', h1, h2, fun j m'' hj hm'' => ?_⟩
            cases j with
            | zero =>
              simp only [List.getElem?_cons_zero, Option.some.injEq] at hm''
              subst hm''
              exact hm
            | succ j => exact h3 j m'' (by omega) (by simpa using hm'')
          · rintro ⟨m', h1, h2, h3⟩
            exact ⟨m', h1, h2, fun j m'' hj hm'' => h3 (j + 1) m'' (by omega) (by simpa using hm'')⟩
      · rw [Option.map_eq_none_iff, ih.2]
        simp [hm]

/-- C174: markers by position: from 0 on from the front, from -1 on from the back, and none for any other position. -/
theorem C174_at (ms : List Mark) : (∀ i : Nat, markerAt ms i = ms[i]?) ∧ (∀ i : Nat, markerAt ms (-1 - i) = ms.reverse[i]?) := by
  constructor
  · intro i
    simp [markerAt]
  · intro i
    unfold markerAt
    rw [if_neg (by omega)]
    by_cases h : i < ms.length
    · rw [if_neg (by omega), List.getElem?_reverse h]
      congr 1
      omega
    · rw [if_pos (by omega), List.getElem?_eq_none (by simpa using h)]

/-- A model with a trajectory and a horizon interpretation. -/
def exStore : Store :=
  [⟨1, "WellboreTrajectoryRepresentation", .mk "WellboreTrajectoryRepresentation" none none (baseKids (some "W1") [])⟩,
   ⟨2, "HorizonInterpretation", .mk "HorizonInterpretation" none none (baseKids (some "Top") [])⟩]

/-- Two markers. -/
def exMarks : List Mark := [⟨11, some "horizon", some 2, some "Top W1", []⟩, ⟨12, some "gas oil contact", none, none, []⟩]

theorem exMarks_good : ∀ m ∈ exMarks, GoodMark exStore m := by
  intro m hm
  simp only [exMarks, List.mem_cons, List.not_mem_nil, or_false] at hm
  have g0 : GoodMeta [] := ⟨by simp, by simp⟩
  rcases hm with rfl | rfl
  · refine ⟨⟨_, _, rfl, .geologic (by simp)⟩, ?_, Or.inr (Or.inr ⟨_, rfl, by decide +kernel, by decide⟩), g0⟩
    rintro u hu
    simp only [Option.some.injEq] at hu
    subst hu
    exact ⟨_, _, _, rfl, rfl, rfl⟩
  · exact ⟨⟨_, _, rfl, .contact (by simp)⟩, by simp, Or.inl rfl, g0⟩

example : rootFor exStore 7 = none ∧ Citable exStore 1 ∧ (∀ m ∈ exMarks, GoodMark exStore m) ∧ GoodMeta [] ∧ TitleOrNone none :=
  ⟨rfl, ⟨_, _, _, rfl, rfl, rfl⟩, exMarks_good, ⟨by simp, by simp⟩, Or.inl rfl⟩

example : (storeFrame exStore [] (some "W1") ⟨7, none, [], some 1, 2, [1000, 1010], some exMarks⟩).toOption.map (fun r => (loadFrame r.1 r.2.1 7).toOption) =
    some (some ⟨7, some "wellbore marker framework", [], some 1, 2, [1000, 1010],
      some [⟨11, some "horizon", some 2, some "Top W1", []⟩, ⟨12, some "gas oil contact", none, some "W1 FluidContact gas oil contact", []⟩]⟩) := by
  decide +kernel

example : (storeFrame exStore [] none ⟨7, none, [], some 1, 3, [1000, 1010, 1020], some exMarks⟩).toOption.map
    (fun r => (loadFrame r.1 r.2.1 7).toOption) = some none := by
  decide +kernel

example : indexOfInterp exMarks (some 2) = some 0 ∧ indexOfInterp exMarks (some 3) = none ∧ (markerAt exMarks (-1)).map Mark.uuid = some 12 ∧
    markerAt exMarks (-3) = none := by
  decide +kernel

end Verif.Marker
