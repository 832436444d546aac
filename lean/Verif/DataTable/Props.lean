import Verif.DataTable.Lemmas

/-! # C194–C196: data frames and time tables kept in a model -/

namespace Verif.DataTable
open Verif.Py

variable {α : Type}

/-- What there is after a frame was written under a uuid. -/
structure Written (s : Store α) (u : Nat) (g : Given α) : Prop where
  found : ∃ m cl, s.mesh? u = some m ∧ m.title = g.title ∧ m.nRows = g.frame.rows.length ∧ m.nCols = g.frame.cols.length ∧
    m.z = (if g.realization.isNone then some g.frame.rows else none) ∧ m.props = (if g.realization.isNone then [] else [(g.realization, g.frame.rows)]) ∧
    relatedLookups s m "dataframe columns" = [cl] ∧ cl.names = g.frame.cols ∧
    (match g.uoms with
      | none => relatedLookups s m "dataframe units" = []
      | some us => ∃ ul, relatedLookups s m "dataframe units" = [ul] ∧ ul.names = us) ∧
    relatedSeries s m = g.series.toList

theorem Written.grows {s s' : Store α} (hs : Sound s) (h : Grows s s') {u : Nat} {g : Given α} (hw : Written s u g) : Written s' u g := by
  obtain ⟨m, cl, h1, h2, h3, h4, h5, h6, h7, h8, h9, h10⟩ := hw.found
  refine ⟨m, cl, mesh_grows h h1, h2, h3, h4, h5, h6, ?_, h8, ?_, ?_⟩
  · rw [lookups_grow hs h (mesh_mem h1).1]
    exact h7
  · rw [lookups_grow hs h (mesh_mem h1).1]
    exact h9
  · rw [series_grow h]
    exact h10

theorem written_load {s : Store α} {u : Nat} {g : Given α} (hw : Written s u g) {r : Option Int} (hr : r = none ∨ r = g.realization) :
    ∃ o, load s u none r = .ok o ∧ o.frame = g.frame ∧ o.uoms = g.uoms ∧ o.title = g.title ∧ o.mesh = some u ∧ o.realization = r := by
  obtain ⟨m, cl, h1, h2, h3, h4, h5, h6, h7, h8, h9, h10⟩ := hw.found
  have hv : valuesOf m r = .ok g.frame.rows := by
    unfold valuesOf
    rw [h6, h5]
    cases e : g.realization with
    | none =>
      have : r = none := by
        rcases hr with h | h
        · exact h
        · rw [h, e]
      simp [this]
    | some i =>
      simp only [Option.isNone_some, Bool.false_eq_true, if_false]
      rw [if_neg]
      rintro ⟨k1, k2⟩
      rcases hr with h | h
      · rw [h] at k1
        cases k1
      · rw [h, e] at k2
        exact k2 rfl
  have hl : cl.names.length = m.nCols := by rw [h8, h4]
  unfold load
  rw [h1]
  simp only [h7, only]
  rw [if_neg (by simp [hl])]
  cases e : g.uoms with
  | none =>
    rw [e] at h9
    simp only at h9
    simp only [h9, hv]
    exact ⟨_, rfl, by rw [h8], rfl, h2, by rw [(mesh_mem h1).2], rfl⟩
  | some us =>
    rw [e] at h9
    obtain ⟨ul, k1, k2⟩ := h9
    simp only [k1, hv]
    exact ⟨_, rfl, by rw [h8], by simp [k2], h2, by rw [(mesh_mem h1).2], rfl⟩

theorem fresh_ok {s : Store α} {g : Given α} (hg : g.Fits s) : fresh s g.frame g.uoms g.realization g.title none none =
    .ok ⟨g.frame, g.frame.rows.length, g.frame.cols.length, g.uoms, g.realization, g.title, none, none, none, none, none, none⟩ := by
  unfold fresh
  have hu : (g.uoms.any fun u => u.length ≠ g.frame.cols.length) = false := by
    cases e : g.uoms with
    | none => rfl
    | some u => simp [hg.uoms u e]
  simp only [Option.bind_none, Option.isSome_none, Bool.false_eq_true, false_and, if_false, Option.any_none, hu]
  cases g.uoms <;> simp

/-- All that happens when one is written. -/
theorem write_one {s : Store α} (hs : Sound s) {g : Given α} (hg : g.Fits s) :
    ∃ s' u, writeOne s g = .ok (s', some u) ∧ Sound s' ∧ Grows s s' ∧ Written s' u g ∧
      ∃ m, s'.meshes = s.meshes ++ [m] ∧ m.uuid = u ∧ m.title = g.title ∧ relatedSeries s' m = g.series.toList := by
  have hr0 : g.frame.rows.length ≠ 0 := by simpa using hg.rows
  have hc0 : g.frame.cols.length ≠ 0 := by simpa using hg.cols
  -- the object
  let o : Obj α := ⟨g.frame, g.frame.rows.length, g.frame.cols.length, g.uoms, g.realization, g.title, none, none, none, none, none, g.series.map Prod.fst⟩
  have hmade : (match g.series with
      | none => new s none (some g.frame) g.uoms g.realization g.title none none
      | some t => freshTimed s g.frame g.uoms g.realization g.title none none t) = .ok o := by
    cases e : g.series with
    | none =>
      simp only [new]
      rw [fresh_ok hg]
      simp [o, e]
    | some t =>
      simp only [freshTimed]
      rw [fresh_ok hg]
      simp [o, e, (hg.series t e).2]
  -- the mesh
  let m0 : Mesh α := ⟨s.next, g.title, g.frame.rows.length, g.frame.cols.length, if g.realization.isNone then some g.frame.rows else none,
    if g.realization.isNone then [] else [(g.realization, g.frame.rows)], []⟩
  let s1 : Store α := ⟨s.next + 1, s.lookups, s.meshes ++ [m0], s.series⟩
  let o1 : Obj α := { o with mesh := some s.next }
  have hset : setMesh s o = .ok (s1, o1) := by
    unfold setMesh
    rw [if_neg (by simp [o])]
    simp only [o]
    rw [if_neg (by simp [hr0, hc0])]
  have ids0 : Ids s := ⟨hs.once, hs.lookups, hs.series, hs.apart⟩
  have ids1 : Ids s1 := ids0.raise (n := s.next + 1) (Nat.le_succ _) (s.meshes ++ [m0])
  have hM : ∀ x ∈ s.meshes, x.uuid ≠ s.next := fun x hx => Nat.ne_of_lt (hs.meshes x hx)
  -- columns
  obtain ⟨cl, L1, n1, e1, a1, a2, a3, a4, a5, ids2⟩ := writeColumns_spec ids1 (M := s.meshes) (m := m0) rfl hM (o := o1) rfl rfl
  let m1 : Mesh α := { m0 with related := m0.related ++ [cl.uuid] }
  let s2 : Store α := ⟨n1, s1.lookups ++ L1, s.meshes ++ [m1], s1.series⟩
  have hs2 : writeColumns s1 o1 = (s2, { o1 with colLookup := some cl, colUuid := some s1.next }) := e1
  -- units
  have hunits : ∃ L2 n2 us o3, writeUnits s2 { o1 with colLookup := some cl, colUuid := some s1.next } =
      (⟨n2, s2.lookups ++ L2, s.meshes ++ [{ m1 with related := m1.related ++ us.map Lookup.uuid }], s2.series⟩, o3) ∧ o3.mesh = some s.next ∧ o3.series = o.series ∧
      n1 ≤ n2 ∧ (∀ x ∈ L2, n1 ≤ x.uuid) ∧ Ids (⟨n2, s2.lookups ++ L2, s.meshes ++ [{ m1 with related := m1.related ++ us.map Lookup.uuid }], s2.series⟩ : Store α) ∧
      (match g.uoms with
        | none => us = []
        | some u => ∃ l, us = [l] ∧ l ∈ s2.lookups ++ L2 ∧ l.title = "dataframe units" ∧ l.names = u) := by
    cases e : g.uoms with
    | none =>
      refine ⟨[], n1, [], { o1 with colLookup := some cl, colUuid := some s1.next }, ?_, rfl, rfl, Nat.le_refl _, by simp, ?_, rfl⟩
      · rw [writeUnits_none rfl (by exact e)]
        simp [s2]
      · simp only [List.append_nil, List.map_nil]
        exact ids2
    | some u =>
      have hne : u ≠ [] := by
        rintro rfl
        have := hg.uoms [] e
        simp at this
        exact hc0 (by simpa using this.symm)
      obtain ⟨l, L2, n2, o3, e2, b1, b2, b3, b4, b5, b6, b7, ids3⟩ := writeUnits_spec (s := s2) ids2 (M := s.meshes) (m := m1) rfl hM
        (o := { o1 with colLookup := some cl, colUuid := some s1.next }) rfl rfl (by exact e) hne
      exact ⟨L2, n2, [l], o3, e2, b1, b2, Nat.le_of_lt b7, b6, ids3, l, rfl, b3, b4, b5⟩
  obtain ⟨L2, n2, us, o3, e2, c1, c2, c3, c4, ids3, hus⟩ := hunits
  let m2 : Mesh α := { m1 with related := m1.related ++ us.map Lookup.uuid }
  let s3 : Store α := ⟨n2, s2.lookups ++ L2, s.meshes ++ [m2], s2.series⟩
  have hwrite : write s o = .ok (s3, o3) := by
    unfold write
    rw [hset]
    simp only [hs2, e2]
    rfl
  -- series
  let m3 : Mesh α := { m2 with related := m2.related ++ (g.series.map Prod.fst).toList }
  let s4 : Store α := ⟨n2, s2.lookups ++ L2, s.meshes ++ [m3], s.series⟩
  have htimed : writeTimed s o = .ok (s4, o3) := by
    unfold writeTimed
    rw [hwrite]
    simp only [c2, o]
    cases e : g.series with
    | none => simp [s4, m3, e, s3, s2, s1]
    | some t =>
      have hm2 : m2.uuid = s.next := rfl
      simp only [Option.map_some, c1]
      have := relate_last (s := s3) (M := s.meshes) (m := m2) rfl hM t.1
      rw [hm2] at this
      rw [this]
      simp [s4, m3, e, s3, s2, s1]
      rfl
  have hlook : s4.lookups = s.lookups ++ (L1 ++ L2) := by
    simp [s4, s2, s1]
  have hnext : s1.next = s.next + 1 := rfl
  have hrel : m3.related = cl.uuid :: (us.map Lookup.uuid ++ (g.series.map Prod.fst).toList) := by
    simp [m3, m2, m1, m0]
  have hcl : cl ∈ s4.lookups := by
    simp only [s4, s2]
    exact List.mem_append_left _ a1
  have husmem : ∀ l ∈ us, l ∈ s4.lookups ∧ l.title = "dataframe units" := by
    intro l hl
    cases e : g.uoms with
    | none =>
      rw [e] at hus
      simp only at hus
      rw [hus] at hl
      simp at hl
    | some u =>
      rw [e] at hus
      obtain ⟨l', k1, k2, k3, k4⟩ := hus
      rw [k1] at hl
      simp only [List.mem_singleton] at hl
      subst hl
      exact ⟨k2, k3⟩
  have hser : ∀ x ∈ (g.series.map Prod.fst).toList, ∃ t ∈ s.series, t.1 = x ∧ g.series = some t := by
    intro x hx
    cases e : g.series with
    | none => rw [e] at hx; simp at hx
    | some t =>
      rw [e] at hx
      simp at hx
      exact ⟨t, (hg.series t e).1, hx.symm, rfl⟩
  have hnl : ∀ l ∈ s4.lookups, l.uuid ∉ (g.series.map Prod.fst).toList := by
    intro l hl hx
    obtain ⟨t, ht, e, _⟩ := hser _ hx
    exact ids3.apart l hl t ht e.symm
  have hgrow : Grows s s4 := by
    refine ⟨⟨[m3], rfl, ?_⟩, ⟨L1 ++ L2, hlook, ?_⟩, rfl, ?_⟩
    · intro m hm
      simp only [List.mem_singleton] at hm
      subst hm
      exact Nat.le_refl _
    · intro x hx
      rcases List.mem_append.1 hx with h | h
      · have := a4 x h
        omega
      · have := c4 x h
        omega
    · show s.next ≤ n2
      omega
  have hmesh : s4.mesh? s.next = some m3 := by
    unfold Store.mesh?
    show List.find? _ (s.meshes ++ [m3]) = _
    rw [List.find?_append]
    have h0 : s.meshes.find? (fun m => decide (m.uuid = s.next)) = none := by
      rw [List.find?_eq_none]
      intro x hx
      simpa using hM x hx
    rw [h0]
    have : m3.uuid = s.next := rfl
    simp [this]
  have hcols : relatedLookups s4 m3 "dataframe columns" = [cl] := by
    unfold relatedLookups
    apply filter_one ids3.once hcl
    · simp [hrel, a2]
    · intro x hx hp
      simp only [decide_eq_true_eq] at hp
      rw [hrel] at hp
      rcases List.mem_cons.1 hp.1 with h | h
      · exact h
      · rcases List.mem_append.1 h with h | h
        · rw [List.mem_map] at h
          obtain ⟨l, hl, he⟩ := h
          obtain ⟨k1, k2⟩ := husmem l hl
          have : l = x := List.inj_on_of_nodup_map ids3.once k1 hx he
          rw [this, hp.2] at k2
          exact absurd k2 (by decide)
        · exact absurd h (hnl x hx)
  have hseries : relatedSeries s4 m3 = g.series.toList := by
    unfold relatedSeries
    show s.series.filter _ = _
    cases e : g.series with
    | none =>
      simp only [Option.toList_none]
      rw [List.filter_eq_nil_iff]
      intro t ht hp
      simp only [decide_eq_true_eq, hrel, e, Option.map_none, Option.toList_none, List.append_nil] at hp
      rcases List.mem_cons.1 hp with h | h
      · exact ids3.apart cl hcl t ht h.symm
      · rw [List.mem_map] at h
        obtain ⟨l, hl, he⟩ := h
        exact ids3.apart l (husmem l hl).1 t ht he
    | some t =>
      simp only [Option.toList_some]
      apply filter_one_series hs.seriesOnce (hg.series t e).1
      · simp [hrel, e]
      · intro x hx hp
        simp only [decide_eq_true_eq, hrel, e, Option.map_some, Option.toList_some] at hp
        rcases List.mem_cons.1 hp with h | h
        · exact absurd h.symm (ids3.apart cl hcl x hx)
        · rcases List.mem_append.1 h with h | h
          · rw [List.mem_map] at h
            obtain ⟨l, hl, he⟩ := h
            exact absurd he (ids3.apart l (husmem l hl).1 x hx)
          · simpa using h
  refine ⟨s4, s.next, ?_, ?_, hgrow, ?_, m3, rfl, rfl, rfl, hseries⟩
  · have e : writeOne s g = (match (match g.series with
        | none => new s none (some g.frame) g.uoms g.realization g.title none none
        | some t => freshTimed s g.frame g.uoms g.realization g.title none none t) with
      | .error e => .error e
      | .ok o => (writeTimed s o).map fun p => (p.1, p.2.mesh)) := by
      unfold writeOne
      cases g.series <;> rfl
    rw [e, hmade]
    simp only [htimed, Except.map, c1]
  · refine ⟨ids3.once, ids3.lookups, ids3.series, hs.seriesOnce, ids3.apart, ?_, ?_⟩
    · intro m hm
      show m.uuid < n2
      rcases List.mem_append.1 (show m ∈ s.meshes ++ [m3] from hm) with h | h
      · have := hs.meshes m h
        omega
      · simp only [List.mem_singleton] at h
        subst h
        show s.next < n2
        omega
    · intro m hm u hu
      show u < n2
      rcases List.mem_append.1 (show m ∈ s.meshes ++ [m3] from hm) with h | h
      · have := hs.related m h u hu
        omega
      · simp only [List.mem_singleton] at h
        subst h
        rw [hrel] at hu
        rcases List.mem_cons.1 hu with h | h
        · rw [h]
          exact ids3.lookups cl hcl
        · rcases List.mem_append.1 h with h | h
          · rw [List.mem_map] at h
            obtain ⟨l, hl, rfl⟩ := h
            exact ids3.lookups l (husmem l hl).1
          · obtain ⟨t, ht, e, _⟩ := hser _ h
            rw [← e]
            exact ids3.series t ht
  · refine ⟨m3, cl, hmesh, rfl, rfl, rfl, rfl, rfl, hcols, a3, ?_, hseries⟩
    cases e : g.uoms with
    | none =>
      rw [e] at hus
      simp only at hus ⊢
      unfold relatedLookups
      rw [List.filter_eq_nil_iff]
      intro x hx hp
      simp only [decide_eq_true_eq] at hp
      rw [hrel, hus] at hp
      rcases List.mem_cons.1 hp.1 with h | h
      · have : x = cl := List.inj_on_of_nodup_map ids3.once hx hcl h
        rw [this, a2] at hp
        exact absurd hp.2 (by decide)
      · exact hnl x hx (by simpa using h)
    | some u =>
      rw [e] at hus
      obtain ⟨l, k1, k2, k3, k4⟩ := hus
      refine ⟨l, ?_, k4⟩
      unfold relatedLookups
      apply filter_one ids3.once k2
      · simp [hrel, k1, k3]
      · intro x hx hp
        simp only [decide_eq_true_eq] at hp
        rw [hrel, k1] at hp
        rcases List.mem_cons.1 hp.1 with h | h
        · have : x = cl := List.inj_on_of_nodup_map ids3.once hx hcl h
          rw [this, a2] at hp
          exact absurd hp.2 (by decide)
        · rcases List.mem_append.1 h with h | h
          · simpa using h
          · exact absurd h (hnl x hx)

theorem writeMany_step {s s' : Store α} {g : Given α} {u : Option Nat} {gs : List (Given α)} {s'' : Store α} {us : List (Option Nat)} (h1 : writeOne s g = .ok (s', u))
    (h2 : writeMany s' gs = .ok (s'', us)) : writeMany s (g :: gs) = .ok (s'', u :: us) := by
  simp only [writeMany, h1, h2, Except.map]

/-- All that happens when several are written. -/
theorem write_many (gs : List (Given α)) : ∀ {s : Store α}, Sound s → (∀ g ∈ gs, g.Fits s) →
    ∃ s' us, writeMany s gs = .ok (s', us) ∧ Sound s' ∧ Grows s s' ∧ List.Forall₂ (fun u g => ∃ n, u = some n ∧ Written s' n g) us gs ∧
      ∃ M, s'.meshes = s.meshes ++ M ∧ List.Forall₂ (fun m g => m.title = g.title ∧ relatedSeries s' m = g.series.toList ∧ Written s' m.uuid g) M gs ∧ us = M.map fun m => some m.uuid := by
  induction gs with
  | nil =>
    intro s hs _
    exact ⟨s, [], rfl, hs, Grows.refl s, .nil, [], by simp, .nil, rfl⟩
  | cons g gs ih =>
    intro s hs hf
    obtain ⟨s1, u, e1, hs1, hg1, hw, m, hm, hmu, hmt, hms⟩ := write_one hs (hf g (by simp))
    obtain ⟨s2, us, e2, hs2, hg2, hall, M, hM, hMall, hus⟩ := ih hs1 fun x hx => by
      have := hf x (List.mem_cons_of_mem _ hx)
      exact ⟨this.cols, this.rows, this.uoms, fun t ht => by
        rw [hg1.series]
        exact this.series t ht⟩
    refine ⟨s2, some u :: us, writeMany_step e1 e2, hs2, hg1.trans hg2, .cons ⟨u, rfl, hw.grows hs1 hg2⟩ hall, m :: M, ?_, .cons ⟨hmt, ?_, by rw [hmu]; exact hw.grows hs1 hg2⟩ hMall, ?_⟩
    · rw [hM, hm]
      simp
    · rw [series_grow hg2]
      exact hms
    · rw [hus, ← hmu]
      rfl

/-- C194: after any number of frames were written each one can be loaded by its uuid, with the same columns, values, units and title; a frame written for a realization
can be loaded with its number or without. -/
theorem C194_history_partial {s : Store α} (hs : Sound s) {gs : List (Given α)} (hf : ∀ g ∈ gs, g.Fits s) : ∃ s' us, writeMany s gs = .ok (s', us) ∧
    List.Forall₂ (fun u g => ∃ n, u = some n ∧ ∀ r, r = none ∨ r = g.realization → ∃ o, new s' (some n) none none r "" none none = .ok o ∧ o.frame = g.frame ∧
      o.uoms = g.uoms ∧ o.title = g.title) us gs := by
  obtain ⟨s', us, e, _, _, h, _⟩ := write_many gs hs hf
  refine ⟨s', us, e, h.imp fun u g ⟨n, hu, hw⟩ => ⟨n, hu, fun r hr => ?_⟩⟩
  obtain ⟨o, k1, k2, k3, k4, _⟩ := written_load hw hr
  exact ⟨o, k1, k2, k3, k4⟩

/-- C194: with another number for the realization there is an error. -/
theorem C194_other_realization {s : Store α} (hs : Sound s) {gs : List (Given α)} (hf : ∀ g ∈ gs, g.Fits s) : ∃ s' us, writeMany s gs = .ok (s', us) ∧
    List.Forall₂ (fun u g => ∃ n, u = some n ∧ ∀ r, r ≠ none → r ≠ g.realization → new s' (some n) none none r "" none none = .error .assertion) us gs := by
  obtain ⟨s', us, e, _, _, h, _⟩ := write_many gs hs hf
  refine ⟨s', us, e, h.imp fun u g ⟨n, hu, hw⟩ => ⟨n, hu, fun r hr1 hr2 => ?_⟩⟩
  obtain ⟨m, cl, h1, h2, h3, h4, h5, h6, h7, h8, h9, h10⟩ := hw.found
  have hv : valuesOf m r = .error .assertion := by
    unfold valuesOf
    rw [h6]
    have hr3 : r.isSome = true := by
      cases r with
      | none => exact absurd rfl hr1
      | some _ => rfl
    cases e : g.realization with
    | none => simp [hr3]
    | some i =>
      rw [e] at hr2
      simp only [Option.isNone_some, Bool.false_eq_true, if_false]
      rw [if_pos ⟨hr3, fun h => hr2 h.symm⟩]
  show load s' n none r = _
  unfold load
  rw [h1]
  simp only [h7, only]
  rw [if_neg (by simp [h8, h4])]
  cases e : g.uoms with
  | none =>
    rw [e] at h9
    simp only at h9
    simp only [h9, hv]
  | some us =>
    rw [e] at h9
    obtain ⟨ul, k1, k2⟩ := h9
    simp only [k1, hv]

/-- C194: what could be loaded before can be loaded afterwards, with the same result. -/
theorem C194_kept {s : Store α} (hs : Sound s) {gs : List (Given α)} (hf : ∀ g ∈ gs, g.Fits s) : ∃ s' us, writeMany s gs = .ok (s', us) ∧
    ∀ u r o, new s (some u) none none r "" none none = .ok o → new s' (some u) none none r "" none none = .ok o := by
  obtain ⟨s', us, e, _, hg, _⟩ := write_many gs hs hf
  exact ⟨s', us, e, fun u r o h => load_grows hs hg (df := none) h⟩

/-- C194 (violated): with a table of column names which has another title the frame is written, but cannot be loaded. -/
theorem C194_lookup_title_violated {s : Store α} (hs : Sound s) {l : Lookup} (hl : l ∈ s.lookups) (ht : l.title ≠ "dataframe columns") {g : Given α} (hg : g.Fits s)
    (hn : l.names = g.frame.cols) (_hu : g.uoms = none) : ∃ o s' o' u, new s none (some g.frame) none g.realization g.title (some l.uuid) none = .ok o ∧
      write s o = .ok (s', o') ∧ o'.mesh = some u ∧ ∀ r, new s' (some u) none none r "" none none = .error .assertion := by
  have hr0 : g.frame.rows.length ≠ 0 := by simpa using hg.rows
  have hc0 : g.frame.cols.length ≠ 0 := by simpa using hg.cols
  have hlook : s.lookup? l.uuid = some l := by
    unfold Store.lookup?
    cases e : s.lookups.find? (fun x => x.uuid = l.uuid) with
    | none =>
      rw [List.find?_eq_none] at e
      have := e l hl
      simp at this
    | some x =>
      have h1 := List.mem_of_find?_eq_some e
      have h2 := List.find?_some e
      simp only [decide_eq_true_eq] at h2
      rw [List.inj_on_of_nodup_map hs.once h1 hl h2]
  let o : Obj α := ⟨g.frame, g.frame.rows.length, g.frame.cols.length, none, g.realization, g.title, none, some l.uuid, some l, none, none, none⟩
  have hmade : new s none (some g.frame) none g.realization g.title (some l.uuid) none = .ok o := by
    simp [new, fresh, hlook, hn, o]
  let m0 : Mesh α := ⟨s.next, g.title, g.frame.rows.length, g.frame.cols.length, if g.realization.isNone then some g.frame.rows else none,
    if g.realization.isNone then [] else [(g.realization, g.frame.rows)], []⟩
  let s1 : Store α := ⟨s.next + 1, s.lookups, s.meshes ++ [m0], s.series⟩
  let o1 : Obj α := { o with mesh := some s.next }
  have hset : setMesh s o = .ok (s1, o1) := by
    unfold setMesh
    rw [if_neg (by simp [o])]
    simp only [o]
    rw [if_neg (by simp [hr0, hc0])]
  have hM : ∀ x ∈ s.meshes, x.uuid ≠ s.next := fun x hx => Nat.ne_of_lt (hs.meshes x hx)
  let m1 : Mesh α := { m0 with related := [l.uuid] }
  let s2 : Store α := { s1 with meshes := s.meshes ++ [m1] }
  have hcols : writeColumns s1 o1 = (s2, o1) := by
    have := relate_last (s := s1) (M := s.meshes) (m := m0) rfl hM l.uuid
    show (relate s1 (some s.next) l.uuid, o1) = _
    rw [show (some s.next : Option Nat) = some m0.uuid from rfl, this]
    rfl
  have hwrite : write s o = .ok (s2, o1) := by
    unfold write
    rw [hset]
    simp only [hcols]
    rw [writeUnits_none rfl rfl]
  refine ⟨o, s2, o1, s.next, hmade, hwrite, rfl, fun r => ?_⟩
  have hmesh : s2.mesh? s.next = some m1 := by
    unfold Store.mesh?
    show List.find? _ (s.meshes ++ [m1]) = _
    rw [List.find?_append]
    have h0 : s.meshes.find? (fun m => decide (m.uuid = s.next)) = none := by
      rw [List.find?_eq_none]
      intro x hx
      simpa using hM x hx
    rw [h0]
    have : m1.uuid = s.next := rfl
    simp [this]
  have hrel : relatedLookups s2 m1 "dataframe columns" = [] := by
    unfold relatedLookups
    rw [List.filter_eq_nil_iff]
    intro x hx hp
    simp only [decide_eq_true_eq] at hp
    have h1 : x.uuid = l.uuid := by simpa [m1] using hp.1
    have : x = l := List.inj_on_of_nodup_map hs.once hx hl h1
    rw [this] at hp
    exact ht hp.2
  show load s2 s.next none r = _
  unfold load
  rw [hmesh]
  simp only [hrel, only]

/-- C195 (violated): a new realization for a frame with another number of columns than rows is refused. -/
theorem C195_not_square_violated {s : Store α} {u : Nat} {m : Mesh α} (hm : s.mesh? u = some m) (hne : m.nRows ≠ m.nCols) {f : Frame α} (hr : f.rows.length = m.nRows)
    (hc : f.cols.length = m.nCols) (r : Option Int) : ∃ e, new s (some u) (some f) none r "" none none = .error e := by
  have key : ∀ r, ∃ e, load s u (some f) r = .error e := by
    intro r
    unfold load
    rw [hm]
    simp only
    cases e1 : only (relatedLookups s m "dataframe columns") with
    | error e => exact ⟨e, rfl⟩
    | ok cl =>
      cases cl with
      | none => exact ⟨_, rfl⟩
      | some cl =>
        simp only
        by_cases h1 : cl.names.length ≠ m.nCols
        · exact ⟨_, by rw [if_pos h1]⟩
        · rw [if_neg h1]
          cases e2 : only (relatedLookups s m "dataframe units") with
          | error e => exact ⟨e, rfl⟩
          | ok ul =>
            simp only
            by_cases h2 : (m.props.any fun p => decide (p.1 = r)) = true
            · exact ⟨_, by rw [if_pos h2]⟩
            · rw [if_neg h2, if_neg (by simp [hr]), if_pos (by rw [hc]; exact hne.symm)]
              exact ⟨_, rfl⟩
  simp only [new]
  cases r with
  | none => exact ⟨_, rfl⟩
  | some r => exact key (some r)

theorem relate_mesh {s : Store α} {w : Option Nat} {v u : Nat} {m : Mesh α} (h : s.mesh? u = some m) : ∃ m', (relate s w v).mesh? u = some m' ∧ m'.props = m.props ∧ m'.z = m.z := by
  unfold relate Store.mesh? at *
  simp only
  revert h
  generalize s.meshes = M
  induction M with
  | nil => intro h; simp at h
  | cons a M ih =>
    intro h
    rw [List.map_cons, List.find?_cons]
    have hu : (if some a.uuid = w then { a with related := a.related ++ [v] } else a).uuid = a.uuid := by
      split_ifs <;> rfl
    rw [hu]
    rw [List.find?_cons] at h
    by_cases ha : a.uuid = u
    · simp only [ha, decide_true] at h ⊢
      simp only [Option.some.injEq] at h
      subst h
      refine ⟨_, rfl, ?_, ?_⟩ <;> split_ifs <;> rfl
    · simp only [ha, decide_false] at h ⊢
      exact ih h

/-- C195 (violated): a new realization which is accepted is not written: it cannot be loaded afterwards. -/
theorem C195_new_realization_violated {s s' : Store α} {u : Nat} {f : Frame α} {r : Int} {uoms : Option (List String)} {title : String} {c d : Option Nat} {o o' : Obj α}
    (hn : new s (some u) (some f) uoms (some r) title c d = .ok o) (hw : write s o = .ok (s', o')) : ∃ e, new s' (some u) none none (some r) "" none none = .error e := by
  have hl : load s u (some f) (some r) = .ok o := hn
  unfold load at hl
  cases hm : s.mesh? u with
  | none => rw [hm] at hl; cases hl
  | some m =>
    rw [hm] at hl
    simp only at hl
    cases e1 : only (relatedLookups s m "dataframe columns") with
    | error e => rw [e1] at hl; cases hl
    | ok cl =>
      rw [e1] at hl
      cases cl with
      | none => cases hl
      | some cl =>
        simp only at hl
        by_cases h1 : cl.names.length ≠ m.nCols
        · rw [if_pos h1] at hl; cases hl
        · rw [if_neg h1] at hl
          cases e2 : only (relatedLookups s m "dataframe units") with
          | error e => rw [e2] at hl; cases hl
          | ok ul =>
            rw [e2] at hl
            simp only at hl
            by_cases h2 : (m.props.any fun p => decide (p.1 = some r)) = true
            · rw [if_pos h2] at hl; cases hl
            · rw [if_neg h2] at hl
              by_cases h3 : f.rows.length ≠ m.nRows
              · rw [if_pos h3] at hl; cases hl
              · rw [if_neg h3] at hl
                by_cases h4 : f.cols.length ≠ m.nRows
                · rw [if_pos h4] at hl; cases hl
                · rw [if_neg h4] at hl
                  simp only [Except.ok.injEq] at hl
                  have hset : ∀ x, setMesh s o = .ok x → x = (s, o) := by
                    intro x hx
                    unfold setMesh at hx
                    by_cases h5 : o.nRows ≠ o.frame.rows.length ∨ o.nCols ≠ o.frame.cols.length
                    · rw [if_pos h5] at hx; cases hx
                    · rw [if_neg h5, show o.mesh = some m.uuid from by rw [← hl]] at hx
                      simp only [Except.ok.injEq] at hx
                      exact hx.symm
                  have hmesh : ∃ m', s'.mesh? u = some m' ∧ m'.props = m.props := by
                    unfold write at hw
                    cases e3 : setMesh s o with
                    | error e => rw [e3] at hw; cases hw
                    | ok x =>
                      have := hset x e3
                      subst this
                      rw [e3] at hw
                      have hc1 : writeColumns s o = (relate s o.mesh cl.uuid, o) := by
                        unfold writeColumns
                        rw [show o.colLookup = some cl from by rw [← hl]]
                      simp only [hc1, Except.ok.injEq] at hw
                      obtain ⟨m1, k1, k2, _⟩ := relate_mesh (w := o.mesh) (v := cl.uuid) hm
                      cases ul with
                      | none =>
                        rw [writeUnits_none (by rw [← hl]) (by rw [← hl]; rfl)] at hw
                        simp only [Prod.mk.injEq] at hw
                        rw [← hw.1]
                        exact ⟨m1, k1, k2⟩
                      | some ul =>
                        have hc2 : writeUnits (relate s o.mesh cl.uuid) o = (relate (relate s o.mesh cl.uuid) o.mesh ul.uuid, o) := by
                          unfold writeUnits
                          rw [show o.uomLookup = some ul from by rw [← hl]]
                        rw [hc2] at hw
                        simp only [Prod.mk.injEq] at hw
                        rw [← hw.1]
                        obtain ⟨m2, k3, k4, _⟩ := relate_mesh (w := o.mesh) (v := ul.uuid) k1
                        exact ⟨m2, k3, by rw [k4, k2]⟩
                  obtain ⟨m', k1, k2⟩ := hmesh
                  have hv : ∃ e, valuesOf m' (some r) = .error e := by
                    unfold valuesOf
                    rw [k2]
                    match hp : m.props with
                    | [] => exact ⟨_, rfl⟩
                    | [(q, a)] =>
                      rw [hp] at h2
                      simp at h2
                      exact ⟨.assertion, by simp [h2]⟩
                    | p :: p' :: ps =>
                      rw [hp] at h2
                      have : (p :: p' :: ps).filter (fun p => decide (p.1 = some r)) = [] := by
                        rw [List.filter_eq_nil_iff]
                        intro x hx hxr
                        exact h2 (List.any_eq_true.2 ⟨x, hx, hxr⟩)
                      exact ⟨.assertion, by simp only [this]⟩
                  obtain ⟨e, hv⟩ := hv
                  show ∃ e, load s' u none (some r) = .error e
                  unfold load
                  rw [k1]
                  simp only
                  cases only (relatedLookups s' m' "dataframe columns") with
                  | error e => exact ⟨e, rfl⟩
                  | ok cl' =>
                    cases cl' with
                    | none => exact ⟨_, rfl⟩
                    | some cl' =>
                      simp only
                      by_cases h6 : cl'.names.length ≠ m'.nCols
                      · exact ⟨_, by rw [if_pos h6]⟩
                      · rw [if_neg h6]
                        cases only (relatedLookups s' m' "dataframe units") with
                        | error e => exact ⟨e, rfl⟩
                        | ok ul' =>
                          simp only [hv]
                          exact ⟨e, rfl⟩

/-- C195 (violated): the unit of a column cannot be found, whatever units there are. -/
theorem C195_column_unit_violated (o : Obj α) (i : Nat) : columnUom o i = .error .attribute := by
  unfold columnUom
  rw [if_pos (by decide)]

/-- C195 (violated): if names of columns have been written before, the uuid which a newly written frame gives for its names is not in the model, so that no other frame can be
made with it. -/
theorem C195_lookup_uuid_violated {s : Store α} (hs : Sound s) {g : Given α} (hg : g.Fits s) {l : Lookup} (hl : l ∈ s.lookups) (ht : l.title = "dataframe columns")
    (hn : l.names = g.frame.cols) {o o' : Obj α} {s' : Store α} (hm : new s none (some g.frame) none g.realization g.title none none = .ok o) (hw : write s o = .ok (s', o')) :
    ∃ u, o'.colUuid = some u ∧ ∀ f uoms r title c, new s' none (some f) uoms r title (some u) c = .error .assertion := by
  have hg' : (⟨g.frame, none, g.realization, g.title, none⟩ : Given α).Fits s := ⟨hg.cols, hg.rows, by simp, by simp⟩
  have hr0 : g.frame.rows.length ≠ 0 := by simpa using hg.rows
  have hc0 : g.frame.cols.length ≠ 0 := by simpa using hg.cols
  have ho := fresh_ok hg'
  have hm' : fresh s g.frame none g.realization g.title none none = .ok o := hm
  simp only at ho
  rw [hm'] at ho
  simp only [Except.ok.injEq] at ho
  let m0 : Mesh α := ⟨s.next, g.title, g.frame.rows.length, g.frame.cols.length, if g.realization.isNone then some g.frame.rows else none,
    if g.realization.isNone then [] else [(g.realization, g.frame.rows)], []⟩
  let s1 : Store α := ⟨s.next + 1, s.lookups, s.meshes ++ [m0], s.series⟩
  let o1 : Obj α := { o with mesh := some s.next }
  have hset : setMesh s o = .ok (s1, o1) := by
    unfold setMesh
    rw [if_neg (by simp [ho])]
    simp only [ho]
    rw [if_neg (by simp [hr0, hc0])]
    simp [s1, o1, m0, ho]
  have hfind : ∃ x, s.lookups.find? (fun l => l.title = "dataframe columns" ∧ l.names = g.frame.cols) = some x := by
    cases e : s.lookups.find? (fun l => l.title = "dataframe columns" ∧ l.names = g.frame.cols) with
    | some x => exact ⟨x, rfl⟩
    | none =>
      rw [List.find?_eq_none] at e
      have := e l hl
      simp [ht, hn] at this
  obtain ⟨x, hx⟩ := hfind
  have hcreate : createLookup s1 "dataframe columns" g.frame.cols = (s1, x) := by
    unfold createLookup
    show (match s.lookups.find? (fun l => l.title = "dataframe columns" ∧ l.names = g.frame.cols) with
      | some l => (s1, l)
      | none => _) = _
    rw [hx]
  have hcols : writeColumns s1 o1 = (relate { s1 with next := max s1.next (s1.next + 1) } (some s.next) x.uuid, { o1 with colLookup := some x, colUuid := some s1.next }) := by
    unfold writeColumns
    rw [show o1.colLookup = none from by simp [o1, ho]]
    simp only [show o1.frame = g.frame from by simp [o1, ho], hcreate]
    rfl
  unfold write at hw
  rw [hset] at hw
  simp only [hcols] at hw
  rw [writeUnits_none (by simp [o1, ho]) (by simp [o1, ho])] at hw
  simp only [Except.ok.injEq, Prod.mk.injEq] at hw
  obtain ⟨w1, w2⟩ := hw
  refine ⟨s1.next, by rw [← w2], ?_⟩
  intro f uoms r title c
  have hno : s'.lookup? s1.next = none := by
    unfold Store.lookup?
    rw [← w1]
    show s.lookups.find? _ = none
    rw [List.find?_eq_none]
    intro y hy
    have := hs.lookups y hy
    simp only [decide_eq_true_eq]
    show y.uuid ≠ s.next + 1
    omega
  simp only [new, fresh, Option.bind_some, hno, Option.isSome_some, Option.isNone_none, and_self, if_true]

/-- C196: after any number of frames and time tables were written, each time table is loaded with its time series, and what was written as a plain frame is refused. -/
theorem C196_time_tables {s : Store α} (hs : Sound s) {gs : List (Given α)} (hf : ∀ g ∈ gs, g.Fits s) : ∃ s' us, writeMany s gs = .ok (s', us) ∧
    List.Forall₂ (fun u g => ∃ n, u = some n ∧ (∀ t, g.series = some t → ∃ o, loadTimed s' n g.realization = .ok o ∧ o.frame = g.frame ∧ o.series = some t.1) ∧
      (g.series = none → loadTimed s' n g.realization = .error .assertion)) us gs := by
  obtain ⟨s', us, e, _, _, h, _⟩ := write_many gs hs hf
  refine ⟨s', us, e, h.imp fun u g ⟨n, hu, hw⟩ => ⟨n, hu, ?_, ?_⟩⟩
  · intro t ht
    obtain ⟨o, k1, k2, _⟩ := written_load hw (Or.inr rfl)
    obtain ⟨m, cl, h1, _, _, _, _, _, _, _, _, h10⟩ := hw.found
    rw [ht] at h10
    refine ⟨{ o with series := some t.1 }, ?_, k2, rfl⟩
    unfold loadTimed
    rw [k1, h1]
    simp only [h10, Option.toList_some, only]
  · intro ht
    obtain ⟨o, k1, k2, _⟩ := written_load hw (Or.inr rfl)
    obtain ⟨m, cl, h1, _, _, _, _, _, _, _, _, h10⟩ := hw.found
    rw [ht] at h10
    unfold loadTimed
    rw [k1, h1]
    simp only [h10, Option.toList_none, only]

theorem forall₂_filter_map {β : Type} {M : List (Mesh α)} {gs : List β} {R : Mesh α → β → Prop} (h : List.Forall₂ R M gs) {P : Mesh α → Bool} {Q : β → Bool}
    (hPQ : ∀ m g, R m g → P m = Q g) : (M.filter P).map Mesh.uuid = ((M.zip gs).filter fun x => Q x.2).map fun x => x.1.uuid := by
  induction h with
  | nil => rfl
  | cons h _ ih =>
    rename_i m g M gs _
    rw [List.zip_cons_cons, List.filter_cons, List.filter_cons, hPQ m g h]
    cases Q g
    · simpa using ih
    · simpa using ih

theorem series_one {s : Store α} {M : List (Mesh α)} {gs : List (Given α)} (h : List.Forall₂ (fun m g => m.title = g.title ∧ relatedSeries s m = g.series.toList ∧ Written s m.uuid g) M gs) :
    ∀ m ∈ M, (relatedSeries s m).length ≤ 1 := by
  induction h with
  | nil => simp
  | @cons m g M gs h _ ih =>
    intro x hx
    rcases List.mem_cons.1 hx with rfl | hx
    · rw [h.2.1]
      cases g.series <;> simp
    · exact ih x hx

theorem zip_filter {β : Type} (M : List (Mesh α)) : ∀ (gs : List β) (P : β → Bool), (((M.map fun m => some m.uuid).zip gs).filter fun x => P x.2).map Prod.fst =
    (((M.zip gs).filter fun x => P x.2).map fun x => x.1.uuid).map some := by
  induction M with
  | nil => simp
  | cons m M ih =>
    intro gs P
    cases gs with
    | nil => simp
    | cons g gs =>
      have := ih gs P
      simp only [List.map_cons, List.zip_cons_cons, List.filter_cons]
      cases P g
      · simpa using this
      · simpa using this

/-- C196: frames are listed in the order in which they were written: all of them, those with a title, only time tables or only others. -/
theorem C196_listed {n : Nat} {ser : List (Nat × Nat)} (hs : Sound (⟨n, [], [], ser⟩ : Store α)) {gs : List (Given α)} (hf : ∀ g ∈ gs, g.Fits ⟨n, [], [], ser⟩) :
    ∃ s' us, writeMany (⟨n, [], [], ser⟩ : Store α) gs = .ok (s', us) ∧ us.length = gs.length ∧
      ∀ timed title, ∃ l, framesIn s' timed title = .ok l ∧ l.map some = ((us.zip gs).filter fun x =>
        decide ((∀ b, timed = some b → x.2.series.isSome = b) ∧ ∀ t, title = some t → x.2.title = t)).map Prod.fst := by
  obtain ⟨s', us, e, _, _, _, M, hM, hall, hus⟩ := write_many gs hs hf
  simp only [List.nil_append] at hM
  have hlen : M.length = gs.length := hall.length_eq
  refine ⟨s', us, e, by rw [hus, List.length_map, hlen], ?_⟩
  intro timed title
  have hone := series_one hall
  have hzip : ∀ P : Given α → Bool, ((us.zip gs).filter fun x => P x.2).map Prod.fst = (((M.zip gs).filter fun x => P x.2).map fun x => x.1.uuid).map some := by
    intro P
    rw [hus]
    exact zip_filter M gs P
  unfold framesIn
  rw [hM]
  cases timed with
  | none =>
    refine ⟨_, rfl, ?_⟩
    rw [hzip fun g => decide ((∀ b, (none : Option Bool) = some b → g.series.isSome = b) ∧ ∀ t, title = some t → g.title = t)]
    congr 1
    apply forall₂_filter_map hall (Q := fun g => decide ((∀ b, (none : Option Bool) = some b → g.series.isSome = b) ∧ ∀ t, title = some t → g.title = t))
    intro m g h
    rw [h.1]
    cases title <;> simp
  | some b =>
    simp only
    have hno : ((M.filter fun m => title.all fun t => m.title = t).any fun m => decide (2 ≤ (relatedSeries s' m).length)) = false := by
      rw [List.any_eq_false]
      intro m hm
      have := hone m (List.mem_of_mem_filter hm)
      simp only [decide_eq_true_eq]
      omega
    rw [if_neg (by rw [hno]; simp)]
    refine ⟨_, rfl, ?_⟩
    rw [hzip fun g => decide ((∀ b', (some b : Option Bool) = some b' → g.series.isSome = b') ∧ ∀ t, title = some t → g.title = t)]
    congr 1
    rw [List.filter_filter]
    apply forall₂_filter_map hall (Q := fun g => decide ((∀ b', (some b : Option Bool) = some b' → g.series.isSome = b') ∧ ∀ t, title = some t → g.title = t))
    intro m g h
    rw [h.1, h.2.1]
    cases title <;> cases g.series <;> cases b <;> simp

theorem forall₂_split {β γ : Type} {R : β → γ → Prop} {a b : List γ} {g : γ} : ∀ {M : List β}, List.Forall₂ R M (a ++ g :: b) →
    ∃ A m B, M = A ++ m :: B ∧ List.Forall₂ R A a ∧ R m g ∧ List.Forall₂ R B b := by
  induction a with
  | nil =>
    intro M h
    cases h with
    | cons h1 h2 => exact ⟨[], _, _, rfl, .nil, h1, h2⟩
  | cons x a ih =>
    intro M h
    cases h with
    | cons h1 h2 =>
      obtain ⟨A, m, B, e, k1, k2, k3⟩ := ih h2
      exact ⟨_ :: A, m, B, by rw [e]; rfl, .cons h1 k1, k2, k3⟩

theorem forall₂_filter_nil {β γ : Type} {R : β → γ → Prop} {P : β → Bool} {M : List β} {gs : List γ} (h : List.Forall₂ R M gs) (hP : ∀ m, ∀ g ∈ gs, R m g → P m = false) :
    M.filter P = [] := by
  induction h with
  | nil => rfl
  | @cons m g M gs h _ ih =>
    rw [List.filter_cons, hP m g (by simp) h]
    exact ih fun m g hg => hP m g (List.mem_cons_of_mem _ hg)

/-- C196: the one frame with a title is found by it, and if there is none with the title there is no result. -/
theorem C196_by_title {n : Nat} {ser : List (Nat × Nat)} (hs : Sound (⟨n, [], [], ser⟩ : Store α)) {gs : List (Given α)} (hf : ∀ g ∈ gs, g.Fits ⟨n, [], [], ser⟩) :
    ∃ s' us, writeMany (⟨n, [], [], ser⟩ : Store α) gs = .ok (s', us) ∧
      (∀ a g b, gs = a ++ g :: b → (∀ x ∈ a ++ b, x.title ≠ g.title) → ∃ o, frameForTitle s' g.title g.realization = .ok (some o) ∧ o.frame = g.frame ∧ o.uoms = g.uoms) ∧
      ∀ title r, (∀ x ∈ gs, x.title ≠ title) → frameForTitle s' title r = .ok none := by
  obtain ⟨s', us, e, _, _, _, M, hM, hall, hus⟩ := write_many gs hs hf
  simp only [List.nil_append] at hM
  refine ⟨s', us, e, ?_, ?_⟩
  · rintro a g b rfl hne
    obtain ⟨A, m, B, rfl, k1, k2, k3⟩ := forall₂_split hall
    have hA := forall₂_filter_nil (P := fun m : Mesh α => (some g.title).all fun t => decide (m.title = t)) k1 (by
      intro x y hy hxy
      have := hne y (List.mem_append_left _ hy)
      simp [hxy.1, this])
    have hB := forall₂_filter_nil (P := fun m : Mesh α => (some g.title).all fun t => decide (m.title = t)) k3 (by
      intro x y hy hxy
      have := hne y (List.mem_append_right _ hy)
      simp [hxy.1, this])
    have hl : framesIn s' none (some g.title) = .ok [m.uuid] := by
      unfold framesIn
      simp only [hM, List.filter_append, List.filter_cons, hA, hB]
      simp [k2.1]
    obtain ⟨o, h1, h2, h3, _⟩ := written_load k2.2.2 (Or.inr rfl)
    refine ⟨o, ?_, h2, h3⟩
    unfold frameForTitle
    rw [hl]
    simp only [h1, Except.map]
  · intro title r hne
    have hl : framesIn s' none (some title) = .ok [] := by
      unfold framesIn
      simp only [hM]
      rw [forall₂_filter_nil (P := fun m : Mesh α => (some title).all fun t => decide (m.title = t)) hall (by
        intro x y hy hxy
        simp [hxy.1, hne y hy])]
      rfl
    unfold frameForTitle
    rw [hl]

/-- Two frames with the same columns, the second of them a time table. -/
def exGiven : List (Given Nat) := [⟨⟨["a", "b"], [[1, 2], [3, 4], [5, 6]]⟩, some ["m", "s"], none, "one", none⟩, ⟨⟨["a", "b"], [[7, 8], [9, 0]]⟩, none, some 3, "two", some (4, 2)⟩]

example : Sound (⟨5, [], [], [(4, 2)]⟩ : Store Nat) ∧ (∀ g ∈ exGiven, g.Fits ⟨5, [], [], [(4, 2)]⟩) ∧
    (match writeMany (⟨5, [], [], [(4, 2)]⟩ : Store Nat) exGiven with
      | .ok (s, us) => decide (us = [some 5, some 8] ∧ framesIn s (some true) none = .ok [8] ∧ framesIn s none (some "one") = .ok [5])
      | .error _ => false) = true := by
  refine ⟨⟨by decide, by simp, by simp, by decide, by simp, by simp, by simp⟩, ?_, by decide +kernel⟩
  intro g hg
  simp only [exGiven, List.mem_cons, List.not_mem_nil, or_false] at hg
  rcases hg with rfl | rfl
  · exact ⟨by simp, by simp, by simp, by simp⟩
  · exact ⟨by simp, by simp, by simp, by simp⟩

/-- A model with a square frame, one which is not, and a table of names with another title. -/
def exStore : Store Nat := ⟨20, [⟨1, "dataframe columns", ["a", "b"]⟩, ⟨2, "names", ["a", "b"]⟩],
  [⟨3, "square", 2, 2, some [[1, 2], [3, 4]], [], [1]⟩, ⟨4, "long", 3, 2, some [[1, 2], [3, 4], [5, 6]], [], [1]⟩], []⟩

/-- The hypotheses of the violations are met: a new realization of the square frame is accepted and written, that of the other is refused, and tables of names can be given. -/
example : Sound exStore ∧ (⟨⟨["a", "b"], [[7, 8]]⟩, none, none, "new", none⟩ : Given Nat).Fits exStore ∧ (exStore.mesh? 4).map (fun m => (m.nRows, m.nCols)) = some (3, 2) ∧
    (match new exStore (some 3) (some ⟨["a", "b"], [[5, 6], [7, 8]]⟩) none (some 1) "" none none with
      | .ok o => (match write exStore o with | .ok _ => true | .error _ => false)
      | .error _ => false) = true ∧
    (match new exStore none (some ⟨["a", "b"], [[7, 8]]⟩) none none "new" none none with
      | .ok o => (match write exStore o with | .ok _ => true | .error _ => false)
      | .error _ => false) = true := by
  refine ⟨⟨by decide, by decide, by decide, by decide, by decide, by decide, by decide⟩, ⟨by simp, by simp, by simp, by simp⟩, by decide +kernel, by decide +kernel, by decide +kernel⟩

/-- C194: where several tables of column names, or several of units, are related to the mesh of a data frame, no choice is made among them: the data
frame is refused. -/
theorem C194_several_tables {α : Type} (s : Store α) (u : Nat) (m : Mesh α) (hm : s.mesh? u = some m) (t : String)
    (ht : t = "dataframe columns" ∨ t = "dataframe units") (a b : Lookup) (pre mid post : List Lookup) (hs : s.lookups = pre ++ a :: mid ++ b :: post)
    (ha : a.uuid ∈ m.related ∧ a.title = t) (hb : b.uuid ∈ m.related ∧ b.title = t) (df : Option (Frame α)) (uoms : Option (List String))
    (realization : Option Int) (title : String) (cu uu : Option Nat) :
    ∃ e, new s (some u) df uoms realization title cu uu = .error e := by
  have h1 : only (relatedLookups s m t) = .error .value := by
    have : ∃ x y l, relatedLookups s m t = x :: y :: l := by
      have hl : 2 ≤ (relatedLookups s m t).length := by
        unfold relatedLookups
        rw [hs]
        simp only [List.filter_append, List.filter_cons, ha, hb, and_self, decide_true, if_true, List.length_append, List.length_cons]
        omega
      match h : relatedLookups s m t with
      | [] => rw [h] at hl; simp at hl
      | [_] => rw [h] at hl; simp at hl
      | x :: y :: l => exact ⟨x, y, l, rfl⟩
    obtain ⟨x, y, l, e⟩ := this
    rw [e]; rfl
  have h2 : ∀ df, ∃ e, load s u df realization = .error e := by
    intro df
    unfold load
    simp only [hm]
    rcases ht with rfl | rfl
    · rw [h1]; exact ⟨_, rfl⟩
    · rw [h1]
      split
      · exact ⟨_, rfl⟩
      · exact ⟨_, rfl⟩
      · split
        · exact ⟨_, rfl⟩
        · exact ⟨_, rfl⟩
  cases df with
  | none => exact h2 none
  | some f =>
    simp only [new]
    split
    · exact ⟨_, rfl⟩
    · exact h2 _

/-- A second table of column names for a mesh -/
example : let s : Store Nat := { exStore with lookups := [⟨1, "dataframe columns", ["a", "b"]⟩] ++ ⟨2, "names", ["a", "b"]⟩ :: ⟨9, "dataframe columns", ["a", "c"]⟩ :: [],
                                              meshes := exStore.meshes.map fun m => { m with related := m.related ++ [9] } }
    ((s.mesh? 3).map fun m => decide (1 ∈ m.related ∧ 9 ∈ m.related)) = some true ∧
    (match new s (some 3) none none none "" none none with | .ok _ => false | .error _ => true) = true := by decide +kernel

end Verif.DataTable
