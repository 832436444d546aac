import Verif.Marker.Table
import Verif.Marker.PropsFrame

/-!
# C175: markers from a table.  C176: markers to a table and back.
-/

namespace Verif.Marker

open Verif.Py Verif.Organize

/-- What is known of the marker of a row. -/
structure RowMark (s' : Store) (mu : Nat → Nat) (kinds titles : Nat → Option String) (col : Option (Nat → Option String)) (i : Nat) (m : Mark) :
    Prop where
  uuid : m.uuid = mu i
  kind : m.kind = some (lower ((kinds i).getD ""))
  title : m.title = titles i
  md : m.md = []
  none : (¬ ∃ typ, InterpOf (lower ((kinds i).getD "")) typ) ∨ col = none → m.interp = none
  some : ∀ typ g x, lower ((kinds i).getD "") ≠ "geobody" → InterpOf (lower ((kinds i).getD "")) typ → col = some g → g i = some x →
    ∃ v, m.interp = some v ∧ titled s' typ x = [v]

theorem interpOf_typ {k typ} (h : InterpOf k typ) : typ = "HorizonInterpretation" ∨ typ = "FaultInterpretation" ∨ typ = "GeobodyInterpretation" := by
  cases h <;> simp

theorem rows_spec {mu : Nat → Nat} {kinds titles : Nat → Option String} {col : Option (Nat → Option String)} {make : Bool} {is : List Nat}
    {s s' : Store} {ms : List Mark} (hnd : (s.map Part.uuid).Nodup) (hcell : ∀ g, col = some g → ∀ i ∈ is, g i = none ∨ GoodTitle (g i))
    (h : rowMarkers mu kinds titles col make is s = .ok (s', ms)) :
    (∃ new, s' = s ++ new) ∧ (s'.map Part.uuid).Nodup ∧
    (∀ typ x v, typ = "HorizonInterpretation" ∨ typ = "FaultInterpretation" ∨ typ = "GeobodyInterpretation" →
      titled s typ x = [v] → titled s' typ x = [v]) ∧
    List.Forall₂ (RowMark s' mu kinds titles col) is ms := by
  induction is generalizing s ms with
  | nil =>
    simp only [rowMarkers, Except.ok.injEq, Prod.mk.injEq] at h
    obtain ⟨rfl, rfl⟩ := h
    exact ⟨⟨[], by simp⟩, hnd, fun _ _ _ _ h => h, .nil⟩
  | cons i is ih =>
    unfold rowMarkers at h
    cases e1 : rowInterp s (lower ((kinds i).getD "")) col make i with
    | error x => simp [e1] at h
    | ok r =>
      obtain ⟨s1, u⟩ := r
      simp only [e1] at h
      cases e2 : newMark (mu i) (some (lower ((kinds i).getD ""))) u (titles i) [] with
      | error x => simp [e2] at h
      | ok m =>
        simp only [e2] at h
        cases e3 : rowMarkers mu kinds titles col make is s1 with
        | error x => simp [e3] at h
        | ok r =>
          obtain ⟨s2, ms'⟩ := r
          simp only [e3, Except.ok.injEq, Prod.mk.injEq] at h
          obtain ⟨rfl, rfl⟩ := h
          obtain ⟨⟨new, rfl⟩, hnd1, h3, h4, h5⟩ := row_step hnd (fun g hg => hcell g hg i (by simp)) e1
          obtain ⟨⟨new2, rfl⟩, hnd2, k3, k4⟩ := ih hnd1 (fun g hg j hj => hcell g hg j (by simp [hj])) e3
          have hm : m = ⟨mu i, some (lower ((kinds i).getD "")), u, titles i, []⟩ := by
            unfold newMark at e2
            split_ifs at e2
            simpa using e2.symm
          subst hm
          refine ⟨⟨new ++ new2, by rw [List.append_assoc]⟩, hnd2, fun typ x v ht hv => k3 typ x v ht (h3 typ x v ht hv),
            .cons ⟨rfl, rfl, rfl, rfl, fun hx => (h5 hx).1, ?_⟩ k4⟩
          intro typ g x hne hi hg hx
          obtain ⟨v, hv, hv'⟩ := h4 typ g x hne hi hg hx
          exact ⟨v, hv, k3 typ x v (interpOf_typ hi) hv'⟩

theorem fullColumn_eq {α : Type} {rows : Nat} {c : Option (Nat → Option α)} {g : Nat → Option α} (h : fullColumn rows c = .ok g) :
    c = some g ∧ ∀ i < rows, (g i).isSome := by
  unfold fullColumn at h
  cases c with
  | none => simp at h
  | some g' =>
    simp only at h
    split_ifs at h with hall
    simp only [Except.ok.injEq] at h
    subst h
    refine ⟨rfl, fun i hi => ?_⟩
    rw [List.all_eq_true] at hall
    exact hall i (by simpa using hi)

theorem from_parts {s s' : Store} {mu : Nat → Nat} {uuid traj : Nat} {d : Table} {c : Cols} {make : Bool} {title : Option String} {f : Frame}
    (h : fromDataframe s mu uuid traj d c make title = .ok (s', f)) : ∃ mcol kinds titles mds ms,
      d.nums.lookup c.md = some mcol ∧ (∀ i < d.rows, (mcol i).isSome) ∧
      d.texts.lookup c.kind = some kinds ∧ (∀ i < d.rows, (kinds i).isSome) ∧ d.texts.lookup c.title = some titles ∧
      (∀ i < d.rows, (titles i).isSome) ∧ (∀ i < d.rows, lower ((kinds i).getD "") ∈ validKinds) ∧
      rowMarkers mu kinds titles (d.texts.lookup c.interp) make (List.range d.rows) s = .ok (s', ms) ∧ (rootFor s' traj).isSome ∧
      d.nums.lookup "MD" = some mds ∧
      f = ⟨uuid, title, [], some traj, d.rows, (List.range d.rows).map fun i => (mds i).getD 0, some ms⟩ := by
  unfold fromDataframe at h
  cases e1 : fullColumn d.rows (d.nums.lookup c.md) with
  | error x => simp [e1] at h
  | ok mcol =>
    simp only [e1] at h
    cases e2 : fullColumn d.rows (d.texts.lookup c.kind) with
    | error x => simp [e2] at h
    | ok kinds =>
      simp only [e2] at h
      cases e3 : fullColumn d.rows (d.texts.lookup c.title) with
      | error x => simp [e3] at h
      | ok titles =>
        simp only [e3] at h
        split_ifs at h with hv
        cases e4 : rowMarkers mu kinds titles (d.texts.lookup c.interp) make (List.range d.rows) s with
        | error x => simp [e4] at h
        | ok r =>
          obtain ⟨s1, ms⟩ := r
          simp only [e4] at h
          split_ifs at h with hr
          cases e5 : d.nums.lookup "MD" with
          | none => simp [e5] at h
          | some mds =>
            simp only [e5, Except.ok.injEq, Prod.mk.injEq] at h
            obtain ⟨rfl, rfl⟩ := h
            refine ⟨mcol, kinds, titles, mds, ms, (fullColumn_eq e1).1, (fullColumn_eq e1).2, (fullColumn_eq e2).1, (fullColumn_eq e2).2, (fullColumn_eq e3).1, (fullColumn_eq e3).2, ?_, e4, hr,
              rfl, rfl⟩
            intro i hi
            have hv' : ((List.range d.rows).all fun i => decide (lower ((kinds i).getD "") ∈ validKinds)) = true := by simpa using hv
            rw [List.all_eq_true] at hv'
            simpa using hv' i (by simpa using hi)

theorem range_forall₂ {β : Type} {R : Nat → β → Prop} {n : Nat} {l : List β} (h : List.Forall₂ R (List.range n) l) :
    l.length = n ∧ ∀ i < n, ∃ b, l[i]? = some b ∧ R i b := by
  have hl : l.length = n := by simpa using h.length_eq.symm
  refine ⟨hl, fun i hi => ?_⟩
  have := (List.forall₂_iff_get.1 h).2 i (by simpa using hi) (by omega)
  refine ⟨l[i]'(by omega), by simp [hl, hi], ?_⟩
  simpa using this

/-- C175: if a table is taken, with the depths in the column `MD`, nothing in the model is changed, and there is one marker for each row,
in order: with the depth of the row, its kind in small letters, one of the kinds there are, and its title.  A row of a fluid kind has no
interpretation, nor has any if there is no such column.  A horizon or fault row with a title in that column has as its interpretation the
only part of the right type which has that title at the end, letter case apart. -/
theorem C175_import {s s' : Store} {mu : Nat → Nat} {uuid traj : Nat} {d : Table} {c : Cols} {make : Bool} {title : Option String} {f : Frame}
    (hnd : (s.map Part.uuid).Nodup) (hmd : c.md = "MD")
    (hcell : ∀ g, d.texts.lookup c.interp = some g → ∀ i < d.rows, g i = none ∨ GoodTitle (g i))
    (h : fromDataframe s mu uuid traj d c make title = .ok (s', f)) :
    (∃ new, s' = s ++ new) ∧ f.traj = some traj ∧ f.title = title ∧ f.uuid = uuid ∧ f.count = d.rows ∧ f.mds.length = d.rows ∧
    ∃ mds kinds titles ms, d.nums.lookup c.md = some mds ∧ d.texts.lookup c.kind = some kinds ∧ d.texts.lookup c.title = some titles ∧
      f.markers = some ms ∧ ms.length = d.rows ∧ ∀ i < d.rows, f.mds[i]? = mds i ∧
        ∃ m k t, ms[i]? = some m ∧ kinds i = some k ∧ titles i = some t ∧ m.uuid = mu i ∧ m.kind = some (lower k) ∧
          (∃ g, KindIn (lower k) g) ∧ m.title = some t ∧
          ((¬ ∃ typ, InterpOf (lower k) typ) ∨ d.texts.lookup c.interp = none → m.interp = none) ∧
          ∀ typ g x, lower k ≠ "geobody" → InterpOf (lower k) typ → d.texts.lookup c.interp = some g → g i = some x →
            ∃ v, m.interp = some v ∧ titled s' typ x = [v] := by
  obtain ⟨mcol, kinds, titles, mds, ms, h1, h1', h2, h3, h4, h5, h6, h7, h8, h9, rfl⟩ := from_parts h
  obtain ⟨hnew, -, -, hrows⟩ := rows_spec hnd (fun g hg i hi => hcell g hg i (by simpa using hi)) h7
  obtain ⟨hlen, hi⟩ := range_forall₂ hrows
  refine ⟨hnew, rfl, rfl, rfl, rfl, by simp, mds, kinds, titles, ms, by rw [hmd]; exact h9, h2, h4, rfl, hlen, fun i hir => ⟨?_, ?_⟩⟩
  · rw [hmd, h9] at h1
    simp only [Option.some.injEq] at h1
    obtain ⟨q, hq⟩ := Option.isSome_iff_exists.1 (h1' i hir)
    rw [← h1] at hq
    simp [hir, hq]
  · obtain ⟨m, hm, hr⟩ := hi i hir
    obtain ⟨k, hk⟩ := Option.isSome_iff_exists.1 (h3 i hir)
    obtain ⟨t, ht⟩ := Option.isSome_iff_exists.1 (h5 i hir)
    have hkk : (kinds i).getD "" = k := by rw [hk]; rfl
    refine ⟨m, k, t, hm, hk, ht, hr.uuid, by rw [hr.kind, hkk], ?_, by rw [hr.title, ht], ?_, ?_⟩
    · have := kind_valid (h6 i hir)
      rwa [hkk] at this
    · have := hr.none
      rwa [hkk] at this
    · have := hr.some
      rwa [hkk] at this

/-- C175: two rows of the same kind, horizon or fault, with the same title of the interpretation, letter case apart, refer to the same
interpretation: at most one is created for each title. -/
theorem C175_same {s s' : Store} {mu : Nat → Nat} {uuid traj : Nat} {d : Table} {c : Cols} {make : Bool} {title : Option String} {f : Frame}
    {g kinds : Nat → Option String} {ms : List Mark} {i j : Nat} {k k' x y : String} {a b : Mark}
    (hnd : (s.map Part.uuid).Nodup) (hcell : ∀ i < d.rows, g i = none ∨ GoodTitle (g i))
    (h : fromDataframe s mu uuid traj d c make title = .ok (s', f)) (hg : d.texts.lookup c.interp = some g)
    (hk : d.texts.lookup c.kind = some kinds) (hms : f.markers = some ms) (hi : ms[i]? = some a) (hj : ms[j]? = some b)
    (hki : kinds i = some k) (hkj : kinds j = some k') (hkk : lower k = lower k') (hkind : lower k = "horizon" ∨ lower k = "fault")
    (hx : g i = some x) (hy : g j = some y) (hxy : upper (strip x) = upper (strip y)) : ∃ v, a.interp = some v ∧ b.interp = some v := by
  obtain ⟨mcol, kinds', titles, mds, ms', h1, -, h2, h3, h4, h5, h6, h7, h8, h9, rfl⟩ := from_parts h
  rw [hk, Option.some.injEq] at h2
  subst h2
  simp only [Option.some.injEq] at hms
  subst hms
  obtain ⟨-, -, -, hrows⟩ := rows_spec hnd (fun g' hg' i hi => by
    rw [hg, Option.some.injEq] at hg'
    subst hg'
    exact hcell i (by simpa using hi)) h7
  obtain ⟨hlen, hall⟩ := range_forall₂ hrows
  have key : ∀ i a k x, ms'[i]? = some a → kinds i = some k → lower k = "horizon" ∨ lower k = "fault" → g i = some x →
      ∃ v typ, InterpOf (lower k) typ ∧ a.interp = some v ∧ titled s' typ x = [v] := by
    intro i a k x hi hki hkind hx
    have hir : i < d.rows := by
      rw [← hlen]
      exact (List.getElem?_eq_some_iff.1 hi).1
    obtain ⟨a', ha, hr⟩ := hall i hir
    rw [hi, Option.some.injEq] at ha
    subst ha
    have hkk : (kinds i).getD "" = k := by rw [hki]; rfl
    have hs := hr.some
    rw [hkk] at hs
    rcases hkind with e | e <;> rw [e] at hs ⊢
    · obtain ⟨v, hv, ht⟩ := hs _ g x (by decide) .horizon hg hx
      exact ⟨v, _, .horizon, hv, ht⟩
    · obtain ⟨v, hv, ht⟩ := hs _ g x (by decide) .fault hg hx
      exact ⟨v, _, .fault, hv, ht⟩
  obtain ⟨v, typ, t1, hv, ht⟩ := key i a k x hi hki hkind hx
  obtain ⟨w, typ', t2, hw, ht'⟩ := key j b k' y hj hkj (hkk ▸ hkind) hy
  have : typ = typ' := by
    rw [hkk] at t1
    have : ∀ {k t}, InterpOf k t → interpType k = some t := by
      intro k t h
      cases h <;> rfl
    have e := this t1
    rw [this t2] at e
    simpa using e.symm
  subst this
  rw [titled_congr hxy, ht'] at ht
  simp only [List.cons.injEq, and_true] at ht
  exact ⟨w, by rw [hv, ht], hw⟩

/-- C175 (violated): the name given for the column of depths is not used for reading them.  A table without a column `MD` is never taken, and
of a table with one the depths are read from there, whatever name is given. -/
theorem C175_depths_violated :
    (∀ s mu uuid traj d c make title, d.nums.lookup "MD" = none → ∃ e, fromDataframe s mu uuid traj d c make title = .error e) ∧
    ∃ d : Table, ∃ g, d.nums.lookup "Depth" = some g ∧ g 0 = some 1200 ∧ ∃ s', ∃ f : Frame,
      fromDataframe exStore (fun i => i) 7 1 d { md := "Depth" } true none = .ok (s', f) ∧ f.mds = [1000] := by
  constructor
  · intro s mu uuid traj d c make title h
    cases e : fromDataframe s mu uuid traj d c make title with
    | error x => exact ⟨x, rfl⟩
    | ok r =>
      obtain ⟨s', f⟩ := r
      obtain ⟨_, _, _, _, _, _, _, _, _, _, _, _, _, _, h9, _⟩ := from_parts e
      rw [h] at h9
      simp at h9
  · refine ⟨⟨1, [("MD", fun _ => some 1000), ("Depth", fun _ => some 1200)], [("Boundary_Feature_Type", fun _ => some "seal"),
      ("Marker_Citation_Title", fun _ => some "m")]⟩, fun _ => some 1200, rfl, rfl, exStore, ?_⟩
    refine ⟨⟨7, none, [], some 1, 1, [1000], some [⟨0, some "seal", none, some "m", []⟩]⟩, ?_, rfl⟩
    rfl

theorem geobody_create_fails {s : Store} {t : Option String}
    (hno : ∀ p ∈ s, p.typ = "GeneticBoundaryFeature" → ∀ y, loadFeat .genetic s p.uuid = .ok y → y.kind ≠ some "geobody") :
    ∃ e, createInterp s "geobody" t = .error e := by
  unfold createInterp
  rw [if_neg (by decide)]
  cases e : create (featCls .genetic) s ⟨.genetic, fresh s, t, [], some "geobody", none, none, none⟩ true with
  | error x => exact ⟨x, rfl⟩
  | ok r =>
    obtain ⟨s1, f⟩ := r
    exfalso
    rcases create_spec (featCls .genetic) (s := s) (x0 := ⟨.genetic, fresh s, t, [], some "geobody", none, none, none⟩) rfl e with ⟨_, r⟩ | ⟨_, _, s1, n, hw, _⟩
    · rcases r with ⟨_, hr⟩ | ⟨p, hp, hpt, ⟨y, hy, he⟩, _⟩
      · have hr' : (rootFor s (fresh s)).isSome := hr
        rw [fresh_none] at hr'
        simp at hr'
      · have hk := hno p hp hpt y hy
        have hne : fresh s ≠ y.uuid := by
          rw [(loadFeat_facts (c := .genetic) (s := s) (u := p.uuid) (g := y) hy).2.1]
          exact ne_of_roots (fresh_none s) (rootFor_mem hp)
        have he' : eqvFeat true ⟨.genetic, fresh s, t, [], some "geobody", none, none, none⟩ y = true := by
          simpa [featCls] using he
        unfold eqvFeat at he'
        dsimp only at he'
        rw [if_neg hne] at he'
        split_ifs at he'
        simp only [Bool.and_eq_true, beq_iff_eq] at he'
        exact hk he'.1.2.symm
    · have hw' : (featNode ⟨.genetic, fresh s, t, [], some "geobody", none, none, none⟩).map (fun n => (s, n, (⟨.genetic, fresh s, t, [], some "geobody", none, none, none⟩ : Feat))) = .ok (s1, n, f) := hw
      have : featNode ⟨.genetic, fresh s, t, [], some "geobody", none, none, none⟩ = .error .assertion := rfl
      rw [this] at hw'
      simp [Except.map] at hw'

/-- C175 (violated): objects are not created for geobodies where needed.  A table which begins with a geobody whose interpretation is not in
the model is refused, even if missing objects are to be created. -/
theorem C175_geobody_violated {s : Store} {mu : Nat → Nat} {uuid traj : Nat} {d : Table} {c : Cols} {make : Bool} {title : Option String}
    {kinds g : Nat → Option String} {k x : String} (hrows : 0 < d.rows) (hk : d.texts.lookup c.kind = some kinds) (hk0 : kinds 0 = some k)
    (hkind : lower k = "geobody") (hg : d.texts.lookup c.interp = some g) (hx : g 0 = some x) (hne : x ≠ "")
    (hmissing : titled s "GeobodyInterpretation" x = [])
    (hno : ∀ p ∈ s, p.typ = "GeneticBoundaryFeature" → ∀ y, loadFeat .genetic s p.uuid = .ok y → y.kind ≠ some "geobody") :
    ∃ e, fromDataframe s mu uuid traj d c make title = .error e := by
  cases e : fromDataframe s mu uuid traj d c make title with
  | error x => exact ⟨x, rfl⟩
  | ok r =>
    obtain ⟨s', f⟩ := r
    exfalso
    obtain ⟨mcol, kinds', titles, mds, ms, h1, -, h2, h3, h4, h5, h6, h7, h8, h9, rfl⟩ := from_parts e
    rw [hk, Option.some.injEq] at h2
    subst h2
    obtain ⟨n, hn⟩ : ∃ n, d.rows = n + 1 := ⟨d.rows - 1, by omega⟩
    rw [hn, List.range_succ_eq_map] at h7
    unfold rowMarkers at h7
    have hrow : ∃ e, rowInterp s (lower ((kinds 0).getD "")) (d.texts.lookup c.interp) make 0 = .error e := by
      have : (kinds 0).getD "" = k := by rw [hk0]; rfl
      rw [this, hkind, hg]
      unfold rowInterp
      have hcand : uuidFor s "GeobodyInterpretation" (g 0) = .ok none := by
        rw [titled_eq hne, List.map_eq_nil_iff] at hmissing
        unfold uuidFor
        rw [hx, hmissing]
      have hit : interpType "geobody" = some "GeobodyInterpretation" := rfl
      simp only [hit, hcand]
      obtain ⟨e, he⟩ := geobody_create_fails (t := g 0) hno
      split_ifs
      · exact ⟨e, by simp [he]⟩
      · exact ⟨_, rfl⟩
    obtain ⟨e', he'⟩ := hrow
    rw [he'] at h7
    simp at h7

/-- C175: if missing objects are not to be created, no part is added: either each horizon, fault and geobody row finds its interpretation
or the table is refused. -/
theorem C175_not_created {s s' : Store} {mu : Nat → Nat} {uuid traj : Nat} {d : Table} {c : Cols} {title : Option String} {f : Frame}
    (h : fromDataframe s mu uuid traj d c false title = .ok (s', f)) : s' = s := by
  obtain ⟨mcol, kinds, titles, mds, ms, -, -, -, -, -, -, -, h7, -, -, -⟩ := from_parts h
  clear h
  generalize List.range d.rows = is at h7
  induction is generalizing s ms with
  | nil =>
    simp only [rowMarkers, Except.ok.injEq, Prod.mk.injEq] at h7
    exact h7.1.symm
  | cons i is ih =>
    unfold rowMarkers at h7
    cases e1 : rowInterp s (lower ((kinds i).getD "")) (d.texts.lookup c.interp) false i with
    | error x => simp [e1] at h7
    | ok r =>
      obtain ⟨s1, u⟩ := r
      simp only [e1] at h7
      have : s1 = s := by
        unfold rowInterp at e1
        cases ek : interpType (lower ((kinds i).getD "")) with
        | none =>
          simp only [ek, Except.ok.injEq, Prod.mk.injEq] at e1
          exact e1.1.symm
        | some typ =>
          cases ec : d.texts.lookup c.interp with
          | none =>
            simp only [ek, ec, Except.ok.injEq, Prod.mk.injEq] at e1
            exact e1.1.symm
          | some g =>
            simp only [ek, ec] at e1
            cases eu : uuidFor s typ (g i) with
            | error x => simp [eu] at e1
            | ok o =>
              cases o with
              | none => simp [eu] at e1
              | some v =>
                simp only [eu, Except.ok.injEq, Prod.mk.injEq] at e1
                exact e1.1.symm
      subst this
      cases e2 : newMark (mu i) (some (lower ((kinds i).getD ""))) u (titles i) [] with
      | error x => simp [e2] at h7
      | ok m =>
        simp only [e2] at h7
        cases e3 : rowMarkers mu kinds titles (d.texts.lookup c.interp) false is s1 with
        | error x => simp [e3] at h7
        | ok r =>
          obtain ⟨s2, ms'⟩ := r
          simp only [e3, Except.ok.injEq, Prod.mk.injEq] at h7
          obtain ⟨rfl, rfl⟩ := h7
          exact ih _ e3

/-! ### To a table and back -/

theorem lower_kind {k g : String} (h : KindIn k g) : lower k = k := by
  cases h with
  | geologic h => rcases h with rfl | rfl | rfl <;> decide +kernel
  | marker h => rcases h with rfl | rfl | rfl | rfl | rfl | rfl <;> decide +kernel
  | contact h => rcases h with rfl | rfl | rfl | rfl | rfl <;> decide +kernel

/-- C176 (partial; see the violations for what is missing): a frame of titled markers written to a table and made again from that table has
the same depths and markers of the same kinds and titles in the same order, and a horizon or fault marker has the same interpretation if
no other part of that type has its title, letter case apart. -/
theorem C176_round_trip_partial {s s' : Store} {mu : Nat → Nat} {uuid traj : Nat} {d : Table} {make : Bool} {title : Option String}
    {f f' : Frame} {ms : List Mark} (hnd : (s.map Part.uuid).Nodup) (hms : f.markers = some ms) (hgood : ∀ m ∈ ms, GoodMark s m)
    (htitles : ∀ m ∈ ms, ∀ u, m.interp = some u → ∃ n x, rootFor s u = some n ∧ rawTitle n = some x ∧ Clean x)
    (hd : dataframe s f = .ok d) (h : fromDataframe s mu uuid traj d {} make title = .ok (s', f')) :
    f'.mds = f.mds ∧ f'.count = f.count ∧ ∃ ms', f'.markers = some ms' ∧ ms'.length = ms.length ∧
      ∀ (i : Nat) (m m' : Mark), ms[i]? = some m → ms'[i]? = some m' → m'.kind = m.kind ∧ m'.title = m.title ∧
        ∀ u n x, (m.kind = some "horizon" ∧ titled s "HorizonInterpretation" x = [u] ∨ m.kind = some "fault" ∧ titled s "FaultInterpretation" x = [u]) →
          m.interp = some u → rootFor s u = some n → rawTitle n = some x → m'.interp = m.interp := by
  unfold dataframe at hd
  rw [hms] at hd
  simp only at hd
  split_ifs at hd with hc
  simp only [Except.ok.injEq] at hd
  subst hd
  obtain ⟨mcol, kinds, titles, mds, ms', h1, h1', h2, h3, h4, h5, h6, h7, h8, h9, rfl⟩ := from_parts h
  have l1 : List.lookup "MD" [("MD", fun (i : Nat) => f.mds[i]?)] = some (fun (i : Nat) => f.mds[i]?) := rfl
  simp only at h9 h2 h4 h7 h3 h5 h6
  rw [l1, Option.some.injEq] at h9
  subst h9
  have e2 : kinds = fun (i : Nat) => (ms[i]?).bind Mark.kind := by
    simpa [List.lookup_cons] using h2.symm
  have e4 : titles = fun (i : Nat) => (ms[i]?).bind Mark.title := by
    have : List.lookup "Marker_Citation_Title" [("Boundary_Feature_Type", fun (i : Nat) => (ms[i]?).bind Mark.kind), ("Marker_Citation_Title", fun (i : Nat) => (ms[i]?).bind Mark.title),
         ("Interp_Citation_Title", fun (i : Nat) => (ms[i]?).bind (interpTitle s))] = some (fun (i : Nat) => (ms[i]?).bind Mark.title) := rfl
    rw [this, Option.some.injEq] at h4
    exact h4.symm
  have e5 : List.lookup "Interp_Citation_Title" [("Boundary_Feature_Type", fun (i : Nat) => (ms[i]?).bind Mark.kind), ("Marker_Citation_Title", fun (i : Nat) => (ms[i]?).bind Mark.title),
         ("Interp_Citation_Title", fun (i : Nat) => (ms[i]?).bind (interpTitle s))] = some (fun (i : Nat) => (ms[i]?).bind (interpTitle s)) := rfl
  rw [e5] at h7
  obtain ⟨hnew, -, hkeep, hrows⟩ := rows_spec hnd (fun g hg i hi => by
    simp only [Option.some.injEq] at hg
    subst hg
    show (ms[i]?).bind (interpTitle s) = none ∨ GoodTitle ((ms[i]?).bind (interpTitle s))
    cases em : ms[i]? with
    | none => exact Or.inl rfl
    | some m =>
      have hm : m ∈ ms := List.mem_of_getElem? em
      cases ei : m.interp with
      | none => exact Or.inl (by simp [interpTitle, ei])
      | some u =>
        obtain ⟨n, x, hn, hx, hcl⟩ := htitles m hm u ei
        exact Or.inr ⟨x, by simp [interpTitle, ei, hn, hx], hcl⟩) h7
  obtain ⟨hlen, hall⟩ := range_forall₂ hrows
  refine ⟨?_, rfl, ms', rfl, by rw [hlen]; exact hc.2, ?_⟩
  · apply List.ext_getElem?
    intro i
    by_cases hi : i < f.count
    · have : f.mds[i]? = some (f.mds[i]'(by omega)) := by simp [hc.1 ▸ hi]
      simp [hi, this]
    · rw [List.getElem?_eq_none (by simpa using hi), List.getElem?_eq_none (by omega)]
  · intro i m m' hm hm'
    have hir : i < f.count := by
      rw [hc.2]
      exact (List.getElem?_eq_some_iff.1 hm).1
    obtain ⟨m'', hm'', hr⟩ := hall i hir
    rw [hm', Option.some.injEq] at hm''
    subst hm''
    have hmem : m ∈ ms := List.mem_of_getElem? hm
    obtain ⟨k, gr, hk, hg⟩ := (hgood m hmem).kind
    have hki : (kinds i).getD "" = k := by simp [e2, hm, hk]
    have hkind := hr.kind
    rw [hki, lower_kind hg] at hkind
    refine ⟨by rw [hkind, hk], by rw [hr.title, e4]; simp [hm], ?_⟩
    intro u n x hcase hu hn hx
    have hs := hr.some
    rw [hki, lower_kind hg] at hs
    have hcol : (ms[i]?).bind (interpTitle s) = some x := by
      simp [hm, interpTitle, hu, hn, hx]
    rcases hcase with ⟨hk', ht⟩ | ⟨hk', ht⟩
    · rw [hk, Option.some.injEq] at hk'
      subst hk'
      obtain ⟨v, hv, hvt⟩ := hs _ _ x (by decide) .horizon rfl hcol
      rw [hkeep _ x u (Or.inl rfl) ht] at hvt
      simp only [List.cons.injEq, and_true] at hvt
      rw [hv, hu, hvt]
    · rw [hk, Option.some.injEq] at hk'
      subst hk'
      obtain ⟨v, hv, hvt⟩ := hs _ _ x (by decide) .fault rfl hcol
      rw [hkeep _ x u (Or.inr (Or.inl rfl)) ht] at hvt
      simp only [List.cons.injEq, and_true] at hvt
      rw [hv, hu, hvt]

/-- C176 (violated): markers without an interpretation are given one.  If the model has exactly one horizon interpretation, a frame with a
horizon marker which has none comes back from its table referring to that one. -/
theorem C176_blank_violated {s : Store} {v t : Nat} {q : ℚ} {title : String} (h1 : uuidsOf s "HorizonInterpretation" = [v])
    (ht : (rootFor s t).isSome) (uuid new : Nat) (make : Bool) :
    ∃ d f', dataframe s ⟨uuid, none, [], some t, 1, [q], some [⟨1, some "horizon", none, some title, []⟩]⟩ = .ok d ∧
      fromDataframe s (fun i => i) new t d {} make none = .ok (s, f') ∧ f'.markers = some [⟨0, some "horizon", some v, some title, []⟩] := by
  have hlow : lower "horizon" = "horizon" := by decide +kernel
  have hcand : candidates s "HorizonInterpretation" none = s.filter fun p => p.typ == "HorizonInterpretation" := by
    unfold candidates
    congr 1
    funext p
    simp [falsy]
  have hu : uuidFor s "HorizonInterpretation" none = .ok (some v) := by
    unfold uuidFor
    rw [hcand]
    unfold uuidsOf at h1
    cases e : s.filter fun p => p.typ == "HorizonInterpretation" with
    | nil => simp [e] at h1
    | cons p ps =>
      cases ps with
      | nil =>
        rw [e] at h1
        simp only [List.map_cons, List.map_nil, List.cons.injEq, and_true] at h1
        simp [h1]
      | cons a b => simp [e] at h1
  refine ⟨_, ⟨new, none, [], some t, 1, [q], some [⟨0, some "horizon", some v, some title, []⟩]⟩, rfl, ?_, rfl⟩
  have hit : interpType "horizon" = some "HorizonInterpretation" := rfl
  simp [fromDataframe, fullColumn, List.lookup_cons, List.range_succ, rowMarkers, hlow, rowInterp, hit, interpTitle, hu, newMark, validKinds, ht]

/-- C176 (violated): the interpretation of a marker of any fluid kind is lost. -/
theorem C176_fluid_violated {s : Store} {u t : Nat} {q : ℚ} {title k g : String} (hk : KindIn k g) (hg : g ≠ "GeologicBoundaryKind")
    (ht : (rootFor s t).isSome) (uuid new : Nat) (make : Bool) :
    ∃ d f', dataframe s ⟨uuid, none, [], some t, 1, [q], some [⟨1, some k, some u, some title, []⟩]⟩ = .ok d ∧
      fromDataframe s (fun i => i) new t d {} make none = .ok (s, f') ∧ f'.markers = some [⟨0, some k, none, some title, []⟩] := by
  have hlow := lower_kind hk
  have hv : k ∈ validKinds := by
    cases hk with
    | geologic h => exact absurd rfl hg
    | marker h => rcases h with rfl | rfl | rfl | rfl | rfl | rfl <;> decide
    | contact h => rcases h with rfl | rfl | rfl | rfl | rfl <;> decide
  have hit : interpType k = none := by
    cases hk with
    | geologic h => exact absurd rfl hg
    | marker h => rcases h with rfl | rfl | rfl | rfl | rfl | rfl <;> rfl
    | contact h => rcases h with rfl | rfl | rfl | rfl | rfl <;> rfl
  refine ⟨_, ⟨new, none, [], some t, 1, [q], some [⟨0, some k, none, some title, []⟩]⟩, rfl, ?_, rfl⟩
  simp [fromDataframe, fullColumn, List.lookup_cons, List.range_succ, rowMarkers, hlow, rowInterp, hit, newMark, hv, ht]

/-- A table with two rows of one fault, a horizon which is in the model, and a contact. -/
def exTable : Table :=
  ⟨4, [("MD", fun i => some (1000 + i))],
    [("Boundary_Feature_Type", fun i => ["Fault", "horizon", "fault", "Gas Oil Contact"][i]?),
     ("Marker_Citation_Title", fun i => ["a", "b", "c", "d"][i]?),
     ("Interp_Citation_Title", fun i => ([some "F1", some "top", some "f1", none][i]?).join)]⟩

example : (fromDataframe exStore (fun i => 20 + i) 7 1 exTable {} true none).toOption.map (fun r => (r.1.map Part.typ, r.2)) =
    some (["WellboreTrajectoryRepresentation", "HorizonInterpretation", "TectonicBoundaryFeature", "FaultInterpretation"],
      ⟨7, none, [], some 1, 4, [1000, 1001, 1002, 1003], some [⟨20, some "fault", some 4, some "a", []⟩, ⟨21, some "horizon", some 2, some "b", []⟩,
        ⟨22, some "fault", some 4, some "c", []⟩, ⟨23, some "gas oil contact", none, some "d", []⟩]⟩) := by
  decide +kernel

example : (exStore.map Part.uuid).Nodup ∧ ∀ g, exTable.texts.lookup "Interp_Citation_Title" = some g → ∀ i < exTable.rows, g i = none ∨ GoodTitle (g i) := by
  refine ⟨by decide, ?_⟩
  intro g hg i hi
  have : g = fun i => ([some "F1", some "top", some "f1", none][i]?).join := by
    simpa [exTable, List.lookup_cons] using hg.symm
  subst this
  have hi' : i < 4 := hi
  have hc : i = 0 ∨ i = 1 ∨ i = 2 ∨ i = 3 := by omega
  rcases hc with rfl | rfl | rfl | rfl
  · exact Or.inr ⟨_, rfl, by decide +kernel, by decide⟩
  · exact Or.inr ⟨_, rfl, by decide +kernel, by decide⟩
  · exact Or.inr ⟨_, rfl, by decide +kernel, by decide⟩
  · exact Or.inl rfl

/-- A table with a geobody. -/
def exGeobody : Table :=
  ⟨1, [("MD", fun _ => some 1000)], [("Boundary_Feature_Type", fun _ => some "geobody"), ("Marker_Citation_Title", fun _ => some "a"),
    ("Interp_Citation_Title", fun _ => some "G1")]⟩

example : (fromDataframe exStore (fun i => 20 + i) 7 1 exGeobody {} true none).toOption = none ∧ titled exStore "GeobodyInterpretation" "G1" = [] ∧
    uuidsOf exStore "HorizonInterpretation" = [2] := by
  decide +kernel

example : (dataframe exStore ⟨7, none, [], some 1, 2, [1000, 1010], some [⟨11, some "horizon", some 2, some "Top W1", []⟩, ⟨12, some "seal", none, some "x", []⟩]⟩).toOption.bind
    (fun d => (fromDataframe exStore (fun i => 20 + i) 8 1 d {} true none).toOption.map Prod.snd) =
    some ⟨8, none, [], some 1, 2, [1000, 1010], some [⟨20, some "horizon", some 2, some "Top W1", []⟩, ⟨21, some "seal", none, some "x", []⟩]⟩ := by
  decide +kernel

/-- C174: a new marker may have no kind, or one of those listed; it is as it was given. -/
theorem C174_new (uuid : Nat) (kind : Option String) (interp : Option Nat) (title : Option String) (md : Meta) :
    newMark uuid kind interp title md = if ∀ k, kind = some k → k ∈ ["fault", "geobody", "horizon", "gas down to", "oil down to", "water down to", "gas up to", "oil up to",
      "water up to", "free water contact", "gas oil contact", "gas water contact", "water oil contact", "seal"] then .ok ⟨uuid, kind, interp, title, md⟩ else .error .assertion := by
  unfold newMark validKinds
  cases kind with
  | none => simp
  | some k => simp

/-- C174: a marker stored without a kind takes it from the type of its interpretation, if this is a horizon, a fault or the boundary of a
geobody, and cannot be loaded otherwise. -/
theorem C174_kind (s : Store) (u i : Nat) (t : String) (title : String) (hs : strip title = title) (ht : title ≠ "") (hi : typeOf s i = some t) :
    loadMarker s (.mk "WellboreMarker" none none [leaf "@uuid" (.uuid u), citation (some title), refNode "Interpretation" i]) =
      if t = "HorizonInterpretation" then .ok ⟨u, some "horizon", some i, some title, []⟩
      else if t = "FaultInterpretation" then .ok ⟨u, some "fault", some i, some title, []⟩
      else if t = "GeobodyBoundaryInterpretation" then .ok ⟨u, some "geobody", some i, some title, []⟩
      else .error .assertion := by
  have hc : ∀ t, (citation t).tag = "Citation" := fun _ => rfl
  have hx : findText (citation (some title)) "Title" = some title := by
    rw [citation_text]
    simp [falsy, ht, hs]
  have h1 : kindFromTags (.mk "WellboreMarker" none none [leaf "@uuid" (.uuid u), citation (some title), refNode "Interpretation" i]) = none := by
    unfold kindFromTags findText
    simp [findTag_mk, ft_cons, ft_nil, hc, leaf_tag, ref_tag]
  have h2 : refUuid (.mk "WellboreMarker" none none [leaf "@uuid" (.uuid u), citation (some title), refNode "Interpretation" i]) "Interpretation" = some i := by
    unfold refUuid
    simp [findTag_mk, ft_cons, hc, leaf_tag, ref_tag, ref_uuid]
  have h3 : loadMeta (.mk "WellboreMarker" none none [leaf "@uuid" (.uuid u), citation (some title), refNode "Interpretation" i]) = [] := by
    unfold loadMeta listOfTag
    simp [Node.kids, hc, leaf_tag, ref_tag]
  have h4 : findTag (.mk "WellboreMarker" none none [leaf "@uuid" (.uuid u), citation (some title), refNode "Interpretation" i]) "Citation" =
      some (citation (some title)) := by
    simp [findTag_mk, ft_cons, hc, leaf_tag]
  have h5 : (findTag (.mk "WellboreMarker" none none [leaf "@uuid" (.uuid u), citation (some title), refNode "Interpretation" i]) "@uuid").bind nodeUuid =
      some u := by
    rfl
  unfold loadMarker
  rw [h4]
  simp only
  rw [h1, h2, h3, h5, hx]
  unfold kindFromInterp
  simp only [Option.bind_some, hi, Option.none_or]
  by_cases e1 : t = "HorizonInterpretation"
  · subst e1; simp
  by_cases e2 : t = "FaultInterpretation"
  · subst e2; simp
  by_cases e3 : t = "GeobodyBoundaryInterpretation"
  · subst e3; simp
  simp [e1, e2, e3]

example : typeOf [⟨3, "FaultInterpretation", .mk "FaultInterpretation" none none []⟩] 3 = some "FaultInterpretation" ∧ strip "F1" = "F1" := by
  decide +kernel

/-- C174: no marker is found for a missing interpretation, although markers may have none. -/
theorem C174_find_missing (ms : List Mark) : indexOfInterp ms none = none := by
  induction ms with
  | nil => rfl
  | cons m ms ih =>
    unfold indexOfInterp
    have : sameUuid m.interp none = false := by
      unfold sameUuid
      cases m.interp <;> simp
    rw [if_neg (by simp [this]), ih]
    rfl

end Verif.Marker
