import Verif.Ensemble.Spec
import Mathlib.Data.List.Nodup

namespace Verif.Ensemble

/-! ## Properties -/

theorem addProps_sub (f : Property → Property) : ∀ (ps acc : List Property), ∀ q ∈ acc, q ∈ addProps f acc ps
  | [], acc, q, h => h
  | p :: ps, acc, q, h => by
    unfold addProps; split
    · exact addProps_sub f ps acc q h
    · exact addProps_sub f ps _ q (by simp [h])

theorem addProps_mem (f : Property → Property) : ∀ (ps acc : List Property), ∀ q ∈ addProps f acc ps, q ∈ acc ∨ ∃ p ∈ ps, q = f p
  | [], acc, q, h => Or.inl h
  | p :: ps, acc, q, h => by
    unfold addProps at h; split at h
    · rcases addProps_mem f ps acc q h with h | ⟨p', h1, h2⟩
      · exact Or.inl h
      · exact Or.inr ⟨p', by simp [h1], h2⟩
    · rcases addProps_mem f ps _ q h with h | ⟨p', h1, h2⟩
      · rcases List.mem_append.mp h with h | h
        · exact Or.inl h
        · exact Or.inr ⟨p, by simp, by simpa using h⟩
      · exact Or.inr ⟨p', by simp [h1], h2⟩

/-- A property whose uuid is not there yet, and is that of no other one, is added. -/
theorem addProps_new (f : Property → Property) (hf : ∀ p, (f p).uuid = p.uuid) : ∀ (ps acc : List Property) (p : Property), p ∈ ps →
    (∀ q ∈ acc, q.uuid ≠ p.uuid) → (∀ q ∈ ps, q.uuid = p.uuid → q = p) → f p ∈ addProps f acc ps
  | [], acc, p, h, _, _ => by simp at h
  | a :: ps, acc, p, h, hn, hu => by
    by_cases ha : a = p
    · subst ha
      unfold addProps
      rw [if_neg (by simpa using hn)]
      exact addProps_sub f ps _ _ (by simp)
    · have hp : p ∈ ps := by
        rcases List.mem_cons.mp h with h | h
        · exact absurd h.symm ha
        · exact h
      have hau : a.uuid ≠ p.uuid := fun e => ha (hu a (by simp) e)
      unfold addProps; split
      · exact addProps_new f hf ps acc p hp hn (fun q hq => hu q (by simp [hq]))
      · apply addProps_new f hf ps _ p hp _ (fun q hq => hu q (by simp [hq]))
        intro q hq
        rcases List.mem_append.mp hq with hq | hq
        · exact hn q hq
        · have : q = f a := by simpa using hq
          subst this; rw [hf]; exact hau

/-- Where a uuid is there, nothing with it is added. -/
theorem addProps_old (f : Property → Property) (hf : ∀ p, (f p).uuid = p.uuid) (u : Nat) : ∀ (ps acc : List Property),
    (∃ q ∈ acc, q.uuid = u) → ∀ q ∈ addProps f acc ps, q.uuid = u → q ∈ acc
  | [], acc, _, q, h, _ => h
  | a :: ps, acc, hx, q, h, hq => by
    unfold addProps at h; split at h
    · exact addProps_old f hf u ps acc hx q h hq
    · rename_i hany
      have := addProps_old f hf u ps (acc ++ [f a]) (by obtain ⟨x, h1, h2⟩ := hx; exact ⟨x, by simp [h1], h2⟩) q h hq
      rcases List.mem_append.mp this with h | h
      · exact h
      · exfalso
        have hqa : q = f a := by simpa using h
        obtain ⟨x, h1, h2⟩ := hx
        apply hany
        rw [List.any_eq_true]
        refine ⟨x, h1, ?_⟩
        rw [hqa, hf] at hq
        simp [h2, hq]

theorem mem_related {c : Case} {p : Property} : p ∈ related c ↔ p ∈ c.props ∧ ∃ g ∈ c.grids, g.uuid = p.grid := by
  unfold related
  simp only [List.mem_flatMap, List.mem_filter, decide_eq_true_eq]
  constructor
  · rintro ⟨g, hg, hp, e⟩; exact ⟨hp, g, hg, e.symm⟩
  · rintro ⟨hp, g, hg, e⟩; exact ⟨g, hg, hp, e.symm⟩

/-! ## Maps -/

theorem force_ok {m m' : List (Nat × Nat)} {u h : Nat} (hm : force m u h = .ok m') :
    (u = h ∧ m' = m) ∨ (u ≠ h ∧ m' = m ++ [(u, h)]) := by
  unfold force at hm
  split at hm
  · rename_i e; injection hm with hm; exact Or.inl ⟨e, hm.symm⟩
  · rename_i e
    split at hm
    · cases hm
    · injection hm with hm; exact Or.inr ⟨e, hm.symm⟩

theorem mapSeries_ok (host : List Series) : ∀ (ts : List Series) (m m' : List (Nat × Nat)), mapSeries host ts m = .ok m' →
    (∀ e ∈ m, e ∈ m') ∧ (∀ e ∈ m', e ∈ m ∨ ∃ t ∈ ts, ∃ h ∈ host, e = (t.uuid, h.uuid) ∧ h.title = t.title) ∧
    (∀ t ∈ ts, (∃ h ∈ host, h.uuid = t.uuid ∧ h.title = t.title) ∨ ∃ e ∈ m', e.1 = t.uuid)
  | [], m, m', hm => by
    unfold mapSeries at hm; injection hm with hm; subst hm
    exact ⟨fun _ h => h, fun _ h => Or.inl h, by simp⟩
  | t :: ts, m, m', hm => by
    unfold mapSeries at hm
    split at hm
    · cases hm
    · rename_i h hfind
      have hh := List.mem_of_find?_eq_some hfind
      have ht : h.title = t.title := by simpa using List.find?_some hfind
      split at hm
      · cases hm
      · rename_i m1 h1
        obtain ⟨A, B, C⟩ := mapSeries_ok host ts m1 m' hm
        rcases force_ok h1 with ⟨e, rfl⟩ | ⟨e, rfl⟩
        · refine ⟨A, ?_, ?_⟩
          · intro x hx
            rcases B x hx with hx | ⟨t', h1, h2⟩
            · exact Or.inl hx
            · exact Or.inr ⟨t', by simp [h1], h2⟩
          · intro t' ht'
            rcases List.mem_cons.mp ht' with rfl | ht'
            · exact Or.inl ⟨h, hh, e.symm, ht⟩
            · exact C t' ht'
        · refine ⟨fun x hx => A x (by simp [hx]), ?_, ?_⟩
          · intro x hx
            rcases B x hx with hx | ⟨t', h1, h2⟩
            · rcases List.mem_append.mp hx with hx | hx
              · exact Or.inl hx
              · exact Or.inr ⟨t, by simp, h, hh, by simpa using hx, ht⟩
            · exact Or.inr ⟨t', by simp [h1], h2⟩
          · intro t' ht'
            rcases List.mem_cons.mp ht' with rfl | ht'
            · exact Or.inr ⟨_, A (t'.uuid, h.uuid) (by simp), rfl⟩
            · exact C t' ht'

theorem matchGrid_ok {host : List Grid} {g h : Grid} (hm : matchGrid host g = .ok h) : h ∈ host ∧ h.extent = g.extent := by
  unfold matchGrid at hm
  split at hm
  · cases hm
  · rename_i x hf
    split at hm
    · injection hm with hm; subst hm
      exact ⟨List.mem_of_find?_eq_some hf, by simpa using List.find?_some hf⟩
    · cases hm

theorem mapGrids_ok (host : List Grid) : ∀ (gs : List Grid) (m m' : List (Nat × Nat)), mapGrids host gs m = .ok m' →
    (∀ e ∈ m, e ∈ m') ∧ (∀ e ∈ m', e ∈ m ∨ ∃ g ∈ gs, ∃ h ∈ host, e = (g.uuid, h.uuid) ∧ h.extent = g.extent) ∧
    (∀ g ∈ gs, (∃ h ∈ host, h.uuid = g.uuid ∧ h.extent = g.extent) ∨ ∃ e ∈ m', e.1 = g.uuid)
  | [], m, m', hm => by
    unfold mapGrids at hm; injection hm with hm; subst hm
    exact ⟨fun _ h => h, fun _ h => Or.inl h, by simp⟩
  | t :: ts, m, m', hm => by
    unfold mapGrids at hm
    split at hm
    · cases hm
    · rename_i h hfind
      obtain ⟨hh, ht⟩ := matchGrid_ok hfind
      split at hm
      · cases hm
      · rename_i m1 h1
        obtain ⟨A, B, C⟩ := mapGrids_ok host ts m1 m' hm
        rcases force_ok h1 with ⟨e, rfl⟩ | ⟨e, rfl⟩
        · refine ⟨A, ?_, ?_⟩
          · intro x hx
            rcases B x hx with hx | ⟨t', h1, h2⟩
            · exact Or.inl hx
            · exact Or.inr ⟨t', by simp [h1], h2⟩
          · intro t' ht'
            rcases List.mem_cons.mp ht' with rfl | ht'
            · exact Or.inl ⟨h, hh, e.symm, ht⟩
            · exact C t' ht'
        · refine ⟨fun x hx => A x (by simp [hx]), ?_, ?_⟩
          · intro x hx
            rcases B x hx with hx | ⟨t', h1, h2⟩
            · rcases List.mem_append.mp hx with hx | hx
              · exact Or.inl hx
              · exact Or.inr ⟨t, by simp, h, hh, by simpa using hx, ht⟩
            · exact Or.inr ⟨t', by simp [h1], h2⟩
          · intro t' ht'
            rcases List.mem_cons.mp ht' with rfl | ht'
            · exact Or.inr ⟨_, A (t'.uuid, h.uuid) (by simp), rfl⟩
            · exact C t' ht'

theorem find_entry {m : List (Nat × Nat)} {u : Nat} (h : ∃ e ∈ m, e.1 = u) :
    ∃ e ∈ m, e.1 = u ∧ m.find? (fun e => e.1 = u) = some e := by
  cases hf : m.find? (fun e => decide (e.1 = u)) with
  | none =>
    obtain ⟨e, h1, h2⟩ := h
    have := List.find?_eq_none.mp hf e h1
    simp [h2] at this
  | some e => exact ⟨e, List.mem_of_find?_eq_some hf, by simpa using List.find?_some hf, rfl⟩

theorem inj_of_nodup {α : Type} (f : α → Nat) : ∀ {l : List α}, (l.map f).Nodup → ∀ a ∈ l, ∀ b ∈ l, f a = f b → a = b
  | _, h, a, ha, b, hb, e => List.inj_on_of_nodup_map h ha hb e

/-- Where a reference to a grid and one to a time series of a later case go, with shared grids -/
theorem resolve_grid {host c : Case} {s : Composite} {m m' : List (Nat × Nat)} (hc : Consistent host c)
    (hg : s.grids = host.grids) (hs : s.series = host.series)
    (h1 : mapSeries host.series c.series [] = .ok m) (h2 : mapGrids host.grids c.grids m = .ok m') (g : Grid) (hgc : g ∈ c.grids) :
    ∃ h ∈ s.grids, h.uuid = resolve (present s) m' g.uuid ∧ h.extent = g.extent := by
  obtain ⟨n1, _, n3, n4, _, n6, _⟩ := hc
  obtain ⟨_, B1, _⟩ := mapSeries_ok _ _ _ _ h1
  obtain ⟨_, B2, C2⟩ := mapGrids_ok _ _ _ _ h2
  unfold resolve
  split
  · rename_i hp
    unfold present at hp
    rw [hg, hs] at hp
    rcases List.mem_append.mp hp with hp | hp
    · obtain ⟨h, hh, e⟩ := List.mem_map.mp hp
      exact ⟨h, hg ▸ hh, e, (n4 g hgc h hh e.symm).symm⟩
    · obtain ⟨t, ht, e⟩ := List.mem_map.mp hp
      exact absurd e.symm (n6 g hgc t ht)
  · rename_i hp
    rcases C2 g hgc with ⟨h, hh, e, _⟩ | he
    · exfalso; apply hp
      unfold present
      rw [hg]
      exact List.mem_append_left _ (List.mem_map.mpr ⟨h, hh, e⟩)
    · obtain ⟨e, hem, he1, hef⟩ := find_entry he
      rw [hef]
      rcases B2 e hem with hem | ⟨g', hg', h, hh, rfl, hx⟩
      · exfalso
        rcases B1 e hem with h | ⟨t, ht, h, _, rfl, _⟩
        · simp at h
        · exact n3 g hgc t ht he1.symm
      · have : g' = g := inj_of_nodup (·.uuid) n1 g' hg' g hgc he1
        subst this
        exact ⟨h, hg ▸ hh, rfl, hx⟩

theorem resolve_series {host c : Case} {s : Composite} {m m' : List (Nat × Nat)} (hc : Consistent host c)
    (hg : s.grids = host.grids) (hs : s.series = host.series)
    (h1 : mapSeries host.series c.series [] = .ok m) (h2 : mapGrids host.grids c.grids m = .ok m') (t : Series) (htc : t ∈ c.series) :
    ∃ h ∈ s.series, h.uuid = resolve (present s) m' t.uuid ∧ h.title = t.title := by
  obtain ⟨_, n2, n3, _, n5, _, n7⟩ := hc
  obtain ⟨_, B1, C1⟩ := mapSeries_ok _ _ _ _ h1
  obtain ⟨A2, B2, _⟩ := mapGrids_ok _ _ _ _ h2
  unfold resolve
  split
  · rename_i hp
    unfold present at hp
    rw [hg, hs] at hp
    rcases List.mem_append.mp hp with hp | hp
    · obtain ⟨h, hh, e⟩ := List.mem_map.mp hp
      exact absurd e.symm (n7 t htc h hh)
    · obtain ⟨h, hh, e⟩ := List.mem_map.mp hp
      exact ⟨h, hs ▸ hh, e, (n5 t htc h hh e.symm).symm⟩
  · rename_i hp
    rcases C1 t htc with ⟨h, hh, e, _⟩ | ⟨e0, he0, he0'⟩
    · exfalso; apply hp
      unfold present
      rw [hs]
      exact List.mem_append_right _ (List.mem_map.mpr ⟨h, hh, e⟩)
    · obtain ⟨e, hem, he1, hef⟩ := find_entry ⟨e0, A2 e0 he0, he0'⟩
      rw [hef]
      rcases B2 e hem with hem | ⟨g', hg', h, hh, rfl, hx⟩
      · rcases B1 e hem with h | ⟨t', ht', h, hh, rfl, hx⟩
        · simp at h
        · have : t' = t := inj_of_nodup (·.uuid) n2 t' ht' t htc he1
          subst this
          exact ⟨h, hs ▸ hh, rfl, hx⟩
      · exact absurd he1 (n3 g' hg' t htc)

/-! ## Cases -/

/-- Properties which a later case gives to the composite model -/
def chosen (mode : Mode) (c : Case) : List Property := if mode = .shared then related c else c.props

theorem later_props {mode : Mode} {host : Case} {r : Nat} {s s' : Composite} {c : Case} (h : later mode host r s c = .ok s') :
    (∃ pr m, s'.props = addProps (copied pr m r) s.props (chosen mode c)) ∧ s'.lookup = s.lookup ++ [(r, c.path)] := by
  unfold later at h
  cases mode with
  | shared =>
    simp only at h
    split at h
    · cases h
    · split at h
      · cases h
      · rename_i m' _
        injection h with h; subst h
        exact ⟨⟨_, m', rfl⟩, rfl⟩
  | separate =>
    simp only at h
    split at h
    · cases h
    · rename_i m _
      split at h
      · injection h with h; subst h
        exact ⟨⟨_, m, rfl⟩, rfl⟩
      · cases h
  | apart b =>
    simp only at h
    split at h
    · cases h
    · injection h with h; subst h
      exact ⟨⟨[], [], rfl⟩, rfl⟩

theorem mem_chosen {mode : Mode} {c : Case} {p : Property} : p ∈ chosen mode c ↔ p ∈ c.props ∧ (mode = .shared → ∃ g ∈ c.grids, g.uuid = p.grid) := by
  unfold chosen
  split
  · rename_i h; rw [mem_related]; simp [h]
  · rename_i h; simp [h]

theorem copied_uuid (pr : List Nat) (m : List (Nat × Nat)) (r : Nat) (p : Property) : (copied pr m r p).uuid = p.uuid := rfl

theorem resolve_nil (u : Nat) : resolve [] [] u = u := by simp [resolve]

theorem copied_nil (r : Nat) (p : Property) : copied [] [] r p = { p with realization := some r } := by
  unfold copied
  have : p.series.map (resolve [] []) = p.series := by
    cases p.series <;> simp [resolve_nil]
  rw [this, resolve_nil]

theorem loop_cons {mode : Mode} {host : Case} {r : Nat} {s s' : Composite} {c : Case} {cs : List Case}
    (h : loop mode host r s (c :: cs) = .ok s') : ∃ s1, later mode host r s c = .ok s1 ∧ loop mode host (r + 1) s1 cs = .ok s' := by
  unfold loop at h
  split at h
  · cases h
  · rename_i s1 h1; exact ⟨s1, h1, h⟩

theorem loop_sub (mode : Mode) (host : Case) : ∀ (cs : List Case) (r : Nat) (s s' : Composite), loop mode host r s cs = .ok s' →
    ∀ q ∈ s.props, q ∈ s'.props
  | [], r, s, s', h, q, hq => by unfold loop at h; injection h with h; exact h ▸ hq
  | c :: cs, r, s, s', h, q, hq => by
    obtain ⟨s1, h1, h2⟩ := loop_cons h
    obtain ⟨⟨pr, m, e⟩, _⟩ := later_props h1
    exact loop_sub mode host cs _ _ _ h2 q (e ▸ addProps_sub _ _ _ q hq)

theorem loop_mem (mode : Mode) (host : Case) : ∀ (cs : List Case) (r : Nat) (s s' : Composite), loop mode host r s cs = .ok s' →
    ∀ q ∈ s'.props, q ∈ s.props ∨ ∃ k c p pr m, cs[k]? = some c ∧ p ∈ chosen mode c ∧ q = copied pr m (r + k) p
  | [], r, s, s', h, q, hq => by unfold loop at h; injection h with h; exact Or.inl (h ▸ hq)
  | c :: cs, r, s, s', h, q, hq => by
    obtain ⟨s1, h1, h2⟩ := loop_cons h
    obtain ⟨⟨pr, m, e⟩, _⟩ := later_props h1
    rcases loop_mem mode host cs _ _ _ h2 q hq with hq | ⟨k, c', p, pr', m', hk, hp, hq⟩
    · rw [e] at hq
      rcases addProps_mem _ _ _ q hq with hq | ⟨p, hp, hq⟩
      · exact Or.inl hq
      · exact Or.inr ⟨0, c, p, pr, m, by simp, hp, hq⟩
    · exact Or.inr ⟨k + 1, c', p, pr', m', by simpa using hk, hp, by rw [hq]; congr 1; omega⟩

theorem loop_new (mode : Mode) (host : Case) : ∀ (cs : List Case) (r : Nat) (s s' : Composite), loop mode host r s cs = .ok s' →
    ∀ (k : Nat) (c : Case) (p : Property), cs[k]? = some c → p ∈ chosen mode c → (∀ q ∈ s.props, q.uuid ≠ p.uuid) →
    (∀ (k' : Nat) (c' : Case), cs[k']? = some c' → ∀ p' ∈ chosen mode c', p'.uuid = p.uuid → k' = k ∧ p' = p) →
    ∃ pr m, copied pr m (r + k) p ∈ s'.props
  | [], r, s, s', h, k, c, p, hk, _, _, _ => by simp at hk
  | a :: cs, r, s, s', h, k, c, p, hk, hp, hn, hu => by
    obtain ⟨s1, h1, h2⟩ := loop_cons h
    obtain ⟨⟨pr, m, e⟩, _⟩ := later_props h1
    cases k with
    | zero =>
      have : a = c := by simpa using hk
      subst this
      refine ⟨pr, m, loop_sub mode host cs _ _ _ h2 _ ?_⟩
      rw [e]
      exact addProps_new _ (copied_uuid _ _ _) _ _ p hp hn (fun q hq hqu => (hu 0 a (by simp) q hq hqu).2)
    | succ k =>
      have g1 : ∀ q ∈ s1.props, q.uuid ≠ p.uuid := by
        intro q hq
        rw [e] at hq
        rcases addProps_mem _ _ _ q hq with hq | ⟨p', hp', rfl⟩
        · exact hn q hq
        · intro hx
          have := (hu 0 a (by simp) p' hp' hx).1
          omega
      have g2 : ∀ (k' : Nat) (c' : Case), cs[k']? = some c' → ∀ p' ∈ chosen mode c', p'.uuid = p.uuid → k' = k ∧ p' = p := by
        intro k' c' hk' p' hp' hx
        have := hu (k' + 1) c' (by simpa using hk') p' hp' hx
        exact ⟨by omega, this.2⟩
      obtain ⟨pr', m', hh⟩ := loop_new mode host cs _ _ _ h2 k c p (by simpa using hk) hp g1 g2
      exact ⟨pr', m', by rw [show r + (k + 1) = r + 1 + k by omega]; exact hh⟩

theorem loop_old (mode : Mode) (host : Case) (u : Nat) : ∀ (cs : List Case) (r : Nat) (s s' : Composite), loop mode host r s cs = .ok s' →
    (∃ q ∈ s.props, q.uuid = u) → ∀ q ∈ s'.props, q.uuid = u → q ∈ s.props
  | [], r, s, s', h, _, q, hq, _ => by unfold loop at h; injection h with h; exact h ▸ hq
  | c :: cs, r, s, s', h, hx, q, hq, hqu => by
    obtain ⟨s1, h1, h2⟩ := loop_cons h
    obtain ⟨⟨pr, m, e⟩, _⟩ := later_props h1
    have := loop_old mode host u cs _ _ _ h2 (by
      obtain ⟨x, hx1, hx2⟩ := hx
      exact ⟨x, by rw [e]; exact addProps_sub _ _ _ x hx1, hx2⟩) q hq hqu
    rw [e] at this
    exact addProps_old _ (copied_uuid _ _ _) u _ _ hx q this hqu

theorem loop_lookup (mode : Mode) (host : Case) : ∀ (cs : List Case) (r : Nat) (s s' : Composite), loop mode host r s cs = .ok s' →
    s'.lookup = s.lookup ++ cs.mapIdx (fun k c => (r + k, c.path))
  | [], r, s, s', h => by unfold loop at h; injection h with h; simp [h]
  | c :: cs, r, s, s', h => by
    obtain ⟨s1, h1, h2⟩ := loop_cons h
    obtain ⟨_, e⟩ := later_props h1
    rw [loop_lookup mode host cs _ _ _ h2, e, List.mapIdx_cons, List.append_assoc]
    congr 1
    simp only [List.singleton_append, Nat.add_zero, List.cons.injEq, true_and]
    apply List.ext_getElem?
    intro i
    simp only [List.getElem?_mapIdx]
    congr 1
    funext x
    congr 1
    omega

theorem loop_error (mode : Mode) (host : Case) (c : Case) (hbad : ∀ r s, ∃ e, later mode host r s c = .error e) :
    ∀ (cs : List Case) (r : Nat) (s : Composite), c ∈ cs → ∃ e, loop mode host r s cs = .error e
  | [], r, s, h => by simp at h
  | a :: cs, r, s, h => by
    unfold loop
    split
    · rename_i e _; exact ⟨e, rfl⟩
    · rename_i s1 h1
      rcases List.mem_cons.mp h with rfl | h
      · obtain ⟨e, he⟩ := hbad r s
        rw [he] at h1; cases h1
      · exact loop_error mode host c hbad cs _ _ h

theorem shared_later {host : Case} {r : Nat} {s s' : Composite} {c : Case} (h : later .shared host r s c = .ok s') :
    ∃ m m', mapSeries host.series c.series [] = .ok m ∧ mapGrids host.grids c.grids m = .ok m' ∧ s'.grids = s.grids ∧ s'.series = s.series ∧
      s'.props = addProps (copied (present s) m' r) s.props (related c) := by
  unfold later at h
  simp only at h
  split at h
  · cases h
  · rename_i m h1
    split at h
    · cases h
    · rename_i m' h2
      injection h with h; subst h
      exact ⟨m, m', h1, h2, rfl, rfl, rfl⟩

theorem loop_shared (host : Case) : ∀ (cs : List Case) (r : Nat) (s s' : Composite), loop .shared host r s cs = .ok s' →
    s'.grids = s.grids ∧ s'.series = s.series
  | [], r, s, s', h => by unfold loop at h; injection h with h; simp [h]
  | c :: cs, r, s, s', h => by
    obtain ⟨s1, h1, h2⟩ := loop_cons h
    obtain ⟨m, m', _, _, e1, e2, _⟩ := shared_later h1
    obtain ⟨f1, f2⟩ := loop_shared host cs _ _ _ h2
    exact ⟨f1.trans e1, f2.trans e2⟩

theorem loop_placed (host : Case) : ∀ (cs : List Case) (r : Nat) (s s' : Composite), loop .shared host r s cs = .ok s' →
    s.grids = host.grids → s.series = host.series → (∀ c ∈ cs, Consistent host c) →
    ∀ q ∈ s'.props, q ∈ s.props ∨ ∃ k c p pr m, cs[k]? = some c ∧ p ∈ related c ∧ q = copied pr m (r + k) p ∧ Placed s' c p q
  | [], r, s, s', h, _, _, _, q, hq => by unfold loop at h; injection h with h; exact Or.inl (h ▸ hq)
  | c :: cs, r, s, s', h, hg, hs, hc, q, hq => by
    obtain ⟨s1, h1, h2⟩ := loop_cons h
    obtain ⟨m, m', a1, a2, e1, e2, e⟩ := shared_later h1
    obtain ⟨f1, f2⟩ := loop_shared host cs _ _ _ h2
    rcases loop_placed host cs _ _ _ h2 (e1.trans hg) (e2.trans hs) (fun c' h' => hc c' (by simp [h'])) q hq with
      hq | ⟨k, c', p, pr', m', hk, hp, hq, hpl⟩
    · rw [e] at hq
      rcases addProps_mem _ _ _ q hq with hq | ⟨p, hp, rfl⟩
      · exact Or.inl hq
      · refine Or.inr ⟨0, c, p, present s, m', by simp, hp, rfl, ?_, ?_⟩
        · intro g hgc hgp
          obtain ⟨h, hh, x1, x2⟩ := resolve_grid (hc c (by simp)) hg hs a1 a2 g hgc
          exact ⟨h, by rw [f1, e1]; exact hh, by rw [x1, hgp]; rfl, x2⟩
        · intro t htc htp
          obtain ⟨h, hh, x1, x2⟩ := resolve_series (hc c (by simp)) hg hs a1 a2 t htc
          exact ⟨h, by rw [f2, e2]; exact hh, by rw [x1]; simp [copied, htp], x2⟩
    · exact Or.inr ⟨k + 1, c', p, pr', m', by simpa using hk, hp, by rw [hq]; congr 1; omega, hpl⟩

theorem distinct_iff : ∀ (gs : List Grid), distinct gs = true ↔ (gs.map (·.extent)).Nodup
  | [] => by simp [distinct]
  | g :: gs => by
    unfold distinct
    rw [List.map_cons, List.nodup_cons, Bool.and_eq_true, distinct_iff gs]
    simp

theorem mapGrids_error {host : List Grid} {g : Grid} (hb : ∀ h, matchGrid host g ≠ .ok h) : ∀ (gs : List Grid) (m : List (Nat × Nat)), g ∈ gs →
    ∃ e, mapGrids host gs m = .error e
  | [], m, h => by simp at h
  | a :: gs, m, h => by
    unfold mapGrids
    split
    · rename_i e _; exact ⟨e, rfl⟩
    · rename_i x hx
      split
      · rename_i e _; exact ⟨e, rfl⟩
      · rcases List.mem_cons.mp h with rfl | h
        · exact absurd hx (hb x)
        · exact mapGrids_error hb gs _ h

theorem later_grid_error {host c : Case} {g : Grid} (hb : ∀ h, matchGrid host.grids g ≠ .ok h) (hg : g ∈ c.grids) (r : Nat) (s : Composite) :
    ∃ e, later .shared host r s c = .error e := by
  unfold later
  simp only
  split
  · rename_i e _; exact ⟨e, rfl⟩
  · rename_i m _
    obtain ⟨e, he⟩ := mapGrids_error hb c.grids m hg
    rw [he]; exact ⟨e, rfl⟩

theorem mapSeries_error {host : List Series} {t : Series} (hb : ∀ h ∈ host, h.title ≠ t.title) : ∀ (ts : List Series) (m : List (Nat × Nat)), t ∈ ts →
    ∃ e, mapSeries host ts m = .error e
  | [], m, h => by simp at h
  | a :: ts, m, h => by
    unfold mapSeries
    split
    · exact ⟨_, rfl⟩
    · rename_i x hx
      split
      · rename_i e _; exact ⟨e, rfl⟩
      · rcases List.mem_cons.mp h with rfl | h
        · exact absurd (by simpa using List.find?_some hx) (hb x (List.mem_of_find?_eq_some hx))
        · exact mapSeries_error hb ts _ h

theorem mapSeries_fits {hosts : List Nat} {host : List Series} (hh : ∀ h ∈ host, h.uuid ∈ hosts) : ∀ (ts : List Series) (m : List (Nat × Nat)),
    (∀ e ∈ m, e.2 ∈ hosts) → (∀ t ∈ ts, ∃ h ∈ host, h.title = t.title) → (∀ t ∈ ts, t.uuid ∉ hosts) →
    ∃ m', mapSeries host ts m = .ok m' ∧ ∀ e ∈ m', e.2 ∈ hosts
  | [], m, hm, _, _ => ⟨m, rfl, hm⟩
  | t :: ts, m, hm, hf, hn => by
    unfold mapSeries
    split
    · rename_i hx
      obtain ⟨h, h1, h2⟩ := hf t (by simp)
      have := List.find?_eq_none.mp hx h h1
      simp [h2] at this
    · rename_i x hx
      have hxm := hh x (List.mem_of_find?_eq_some hx)
      have hne : t.uuid ≠ x.uuid := fun e => hn t (by simp) (e ▸ hxm)
      have hany : ¬ (m.any (fun e => e.2 = t.uuid)) = true := by
        rw [List.any_eq_true]
        rintro ⟨e, he, h⟩
        exact hn t (by simp) ((by simpa using h : e.2 = t.uuid) ▸ hm e he)
      have : force m t.uuid x.uuid = .ok (m ++ [(t.uuid, x.uuid)]) := by
        unfold force; rw [if_neg hne, if_neg hany]
      rw [this]
      exact mapSeries_fits hh ts _ (by
        intro e he
        rcases List.mem_append.mp he with he | he
        · exact hm e he
        · have : e = (t.uuid, x.uuid) := by simpa using he
          subst this; exact hxm) (fun t' h' => hf t' (by simp [h'])) (fun t' h' => hn t' (by simp [h']))

theorem mapGrids_fits {hosts : List Nat} {host : List Grid} (hd : distinct host = true) (hh : ∀ h ∈ host, h.uuid ∈ hosts) :
    ∀ (gs : List Grid) (m : List (Nat × Nat)), (∀ e ∈ m, e.2 ∈ hosts) → (∀ g ∈ gs, ∃ h ∈ host, h.extent = g.extent) → (∀ g ∈ gs, g.uuid ∉ hosts) →
    ∃ m', mapGrids host gs m = .ok m'
  | [], m, hm, _, _ => ⟨m, rfl⟩
  | g :: gs, m, hm, hf, hn => by
    have hmt : ∃ x ∈ host, matchGrid host g = .ok x := by
      unfold matchGrid
      split
      · rename_i hx
        obtain ⟨h, h1, h2⟩ := hf g (by simp)
        have := List.find?_eq_none.mp hx h h1
        simp [h2] at this
      · rename_i x hx
        exact ⟨x, List.mem_of_find?_eq_some hx, by rw [if_pos hd]⟩
    obtain ⟨x, hxh, hx⟩ := hmt
    have hxm := hh x hxh
    have hne : g.uuid ≠ x.uuid := fun e => hn g (by simp) (e ▸ hxm)
    have hany : ¬ (m.any (fun e => e.2 = g.uuid)) = true := by
      rw [List.any_eq_true]
      rintro ⟨e, he, h⟩
      exact hn g (by simp) ((by simpa using h : e.2 = g.uuid) ▸ hm e he)
    have : force m g.uuid x.uuid = .ok (m ++ [(g.uuid, x.uuid)]) := by
      unfold force; rw [if_neg hne, if_neg hany]
    unfold mapGrids
    rw [hx]
    simp only
    rw [this]
    exact mapGrids_fits hd hh gs _ (by
      intro e he
      rcases List.mem_append.mp he with he | he
      · exact hm e he
      · have : e = (g.uuid, x.uuid) := by simpa using he
        subst this; exact hxm) (fun t' h' => hf t' (by simp [h'])) (fun t' h' => hn t' (by simp [h']))

theorem later_fits {host c : Case} (hd : distinct host.grids = true) (hf : Fits host c) (r : Nat) (s : Composite) :
    ∃ s', later .shared host r s c = .ok s' := by
  obtain ⟨f1, f2, f3⟩ := hf
  obtain ⟨m, h1, hm⟩ := mapSeries_fits (hosts := host.grids.map (·.uuid) ++ host.series.map (·.uuid)) (host := host.series)
    (fun h hh => List.mem_append_right _ (List.mem_map.mpr ⟨h, hh, rfl⟩)) c.series [] (by simp) f2
    (fun t ht => f3 _ (List.mem_append_right _ (List.mem_map.mpr ⟨t, ht, rfl⟩)))
  obtain ⟨m', h2⟩ := mapGrids_fits (hosts := host.grids.map (·.uuid) ++ host.series.map (·.uuid)) hd
    (fun h hh => List.mem_append_left _ (List.mem_map.mpr ⟨h, hh, rfl⟩)) c.grids m hm f1
    (fun t ht => f3 _ (List.mem_append_left _ (List.mem_map.mpr ⟨t, ht, rfl⟩)))
  unfold later
  simp only
  rw [h1]
  simp only
  rw [h2]
  exact ⟨_, rfl⟩

theorem loop_total {mode : Mode} {host : Case} : ∀ (cs : List Case) (r : Nat) (s : Composite),
    (∀ c ∈ cs, ∀ r s, ∃ s', later mode host r s c = .ok s') → ∃ s', loop mode host r s cs = .ok s'
  | [], r, s, _ => ⟨s, rfl⟩
  | c :: cs, r, s, h => by
    obtain ⟨s1, h1⟩ := h c (by simp) r s
    unfold loop
    rw [h1]
    exact loop_total cs _ _ (fun c' h' => h c' (by simp [h']))

theorem addGrids_sub (acc gs : List Grid) : (∀ h ∈ acc, h ∈ addGrids acc gs) ∧ ∀ g ∈ gs, ∃ h ∈ addGrids acc gs, h.uuid = g.uuid := by
  refine ⟨fun h hh => List.mem_append_left _ hh, fun g hg => ?_⟩
  by_cases hx : acc.any (fun h => h.uuid = g.uuid) = true
  · obtain ⟨h, h1, h2⟩ := List.any_eq_true.mp hx
    exact ⟨h, List.mem_append_left _ h1, by simpa using h2⟩
  · exact ⟨g, List.mem_append_right _ (List.mem_filter.mpr ⟨hg, by simpa using hx⟩), rfl⟩

theorem later_grids {mode : Mode} (hmode : mode ≠ .shared) {host : Case} {r : Nat} {s s' : Composite} {c : Case} (h : later mode host r s c = .ok s') :
    s'.grids = addGrids s.grids c.grids := by
  unfold later at h
  cases mode with
  | shared => exact absurd rfl hmode
  | separate =>
    simp only at h
    split at h
    · cases h
    · split at h
      · injection h with h; subst h; rfl
      · cases h
  | apart b =>
    simp only at h
    split at h
    · cases h
    · injection h with h; subst h; rfl

theorem loop_grids {mode : Mode} (hmode : mode ≠ .shared) {host : Case} : ∀ (cs : List Case) (r : Nat) (s s' : Composite),
    loop mode host r s cs = .ok s' → (∀ g ∈ s.grids, g ∈ s'.grids) ∧ ∀ c ∈ cs, ∀ g ∈ c.grids, ∃ h ∈ s'.grids, h.uuid = g.uuid
  | [], r, s, s', h => by unfold loop at h; injection h with h; subst h; exact ⟨fun _ h => h, by simp⟩
  | c :: cs, r, s, s', h => by
    obtain ⟨s1, h1, h2⟩ := loop_cons h
    have e := later_grids hmode h1
    obtain ⟨A, B⟩ := loop_grids hmode cs _ _ _ h2
    obtain ⟨C, D⟩ := addGrids_sub s.grids c.grids
    rw [← e] at C D
    refine ⟨fun g hg => A g (C g hg), ?_⟩
    intro c' hc' g hg
    rcases List.mem_cons.mp hc' with rfl | hc'
    · obtain ⟨h, x1, x2⟩ := D g hg
      exact ⟨h, A h x1, x2⟩
    · exact B c' hc' g hg

/-! ## Grids which are not shared -/

theorem separate_later {host : Case} {r : Nat} {s s' : Composite} {c : Case} (h : later .separate host r s c = .ok s') :
    ∃ m, mapSeries host.series c.series [] = .ok m ∧ s'.grids = addGrids s.grids c.grids ∧ s'.series = s.series ∧
      s'.props = addProps (copied (present s) m r) s.props c.props := by
  unfold later at h
  simp only at h
  split at h
  · cases h
  · rename_i m h1
    split at h
    · injection h with h; subst h
      exact ⟨m, h1, rfl, rfl, rfl⟩
    · cases h

theorem loop_separate_series (host : Case) : ∀ (cs : List Case) (r : Nat) (s s' : Composite), loop .separate host r s cs = .ok s' →
    s'.series = s.series
  | [], r, s, s', h => by unfold loop at h; injection h with h; simp [h]
  | c :: cs, r, s, s', h => by
    obtain ⟨s1, h1, h2⟩ := loop_cons h
    obtain ⟨m, _, _, e2, _⟩ := separate_later h1
    exact (loop_separate_series host cs _ _ _ h2).trans e2

theorem separate_grid {host c : Case} {m : List (Nat × Nat)} (pr : List Nat) (h1 : mapSeries host.series c.series [] = .ok m) (u : Nat)
    (hu : ∀ t ∈ c.series, t.uuid ≠ u) : resolve pr m u = u := by
  obtain ⟨_, B1, _⟩ := mapSeries_ok _ _ _ _ h1
  unfold resolve
  split
  · rfl
  · split
    · rename_i e he
      rcases B1 e (List.mem_of_find?_eq_some he) with h | ⟨t, ht, h, _, rfl, _⟩
      · simp at h
      · exact absurd (by simpa using List.find?_some he) (hu t ht)
    · rfl

theorem separate_series {host c : Case} {s : Composite} {m : List (Nat × Nat)} (n2 : (c.series.map (·.uuid)).Nodup)
    (n5 : ∀ t ∈ c.series, ∀ h ∈ host.series, t.uuid = h.uuid → t.title = h.title) (n7 : ∀ t ∈ c.series, ∀ g ∈ s.grids, t.uuid ≠ g.uuid)
    (hs : s.series = host.series) (h1 : mapSeries host.series c.series [] = .ok m) (t : Series) (htc : t ∈ c.series) :
    ∃ h ∈ s.series, h.uuid = resolve (present s) m t.uuid ∧ h.title = t.title := by
  obtain ⟨_, B1, C1⟩ := mapSeries_ok _ _ _ _ h1
  unfold resolve
  split
  · rename_i hp
    unfold present at hp
    rcases List.mem_append.mp hp with hp | hp
    · obtain ⟨h, hh, e⟩ := List.mem_map.mp hp
      exact absurd e.symm (n7 t htc h hh)
    · obtain ⟨h, hh, e⟩ := List.mem_map.mp hp
      exact ⟨h, hh, e, (n5 t htc h (hs ▸ hh) e.symm).symm⟩
  · rename_i hp
    rcases C1 t htc with ⟨h, hh, e, _⟩ | he
    · exfalso; apply hp
      unfold present
      rw [hs]
      exact List.mem_append_right _ (List.mem_map.mpr ⟨h, hh, e⟩)
    · obtain ⟨e, hem, he1, hef⟩ := find_entry he
      rw [hef]
      rcases B1 e hem with h | ⟨t', ht', h, hh, rfl, hx⟩
      · simp at h
      · have : t' = t := inj_of_nodup (·.uuid) n2 t' ht' t htc he1
        subst this
        exact ⟨h, hs ▸ hh, rfl, hx⟩

theorem addGrids_mem {acc gs : List Grid} {g : Grid} (h : g ∈ addGrids acc gs) : g ∈ acc ∨ g ∈ gs := by
  unfold addGrids at h
  rcases List.mem_append.mp h with h | h
  · exact Or.inl h
  · exact Or.inr (List.mem_filter.mp h).1

theorem loop_kept (host : Case) : ∀ (cs : List Case) (r : Nat) (s s' : Composite), loop .separate host r s cs = .ok s' →
    s.series = host.series → (∀ c ∈ cs, Consistent host c) → (∀ g ∈ s.grids, ∀ c ∈ cs, ∀ t ∈ c.series, t.uuid ≠ g.uuid) →
    (∀ c ∈ cs, ∀ g ∈ c.grids, ∀ c' ∈ cs, ∀ t ∈ c'.series, t.uuid ≠ g.uuid) →
    ∀ q ∈ s'.props, q ∈ s.props ∨ ∃ k c p pr m, cs[k]? = some c ∧ p ∈ c.props ∧ q = copied pr m (r + k) p ∧ Kept s' c p q
  | [], r, s, s', h, _, _, _, _, q, hq => by unfold loop at h; injection h with h; exact Or.inl (h ▸ hq)
  | c :: cs, r, s, s', h, hs, hc, hG, hX, q, hq => by
    obtain ⟨s1, h1, h2⟩ := loop_cons h
    obtain ⟨m, a1, e1, e2, e⟩ := separate_later h1
    have f2 := loop_separate_series host cs _ _ _ h2
    have hG' : ∀ g ∈ s1.grids, ∀ c' ∈ cs, ∀ t ∈ c'.series, t.uuid ≠ g.uuid := by
      intro g hg c' hc'
      rw [e1] at hg
      rcases addGrids_mem hg with hg | hg
      · exact hG g hg c' (by simp [hc'])
      · exact hX c (by simp) g hg c' (by simp [hc'])
    rcases loop_kept host cs _ _ _ h2 (e2.trans hs) (fun c' h' => hc c' (by simp [h'])) hG'
      (fun a ha g hg b hb => hX a (by simp [ha]) g hg b (by simp [hb])) q hq with
      hq | ⟨k, c', p, pr', m', hk, hp, hq, hpl⟩
    · rw [e] at hq
      rcases addProps_mem _ _ _ q hq with hq | ⟨p, hp, rfl⟩
      · exact Or.inl hq
      · obtain ⟨_, n2, n3, _, n5, _, _⟩ := hc c (by simp)
        refine Or.inr ⟨0, c, p, present s, m, by simp, hp, rfl, ?_, ?_⟩
        · intro g hgc hgp
          show resolve (present s) m p.grid = g.uuid
          rw [← hgp]
          exact separate_grid _ a1 _ (fun t ht e => n3 g hgc t ht e.symm)
        · intro t htc htp
          obtain ⟨h, hh, x1, x2⟩ := separate_series n2 n5 (fun t ht g hg => hG g hg c (by simp) t ht) hs a1 t htc
          exact ⟨h, by rw [f2, e2]; exact hh, by rw [x1]; simp [copied, htp], x2⟩
    · exact Or.inr ⟨k + 1, c', p, pr', m', by simpa using hk, hp, by rw [hq]; congr 1; omega, hpl⟩

theorem later_separate_fits {host c : Case} (f2 : ∀ t ∈ c.series, ∃ h ∈ host.series, h.title = t.title)
    (f3 : ∀ t ∈ c.series, ∀ h ∈ host.series, t.uuid ≠ h.uuid) (r : Nat) (s : Composite) : ∃ s', later .separate host r s c = .ok s' := by
  obtain ⟨m, h1, hm⟩ := mapSeries_fits (hosts := host.series.map (·.uuid)) (host := host.series)
    (fun h hh => List.mem_map.mpr ⟨h, hh, rfl⟩) c.series [] (by simp) f2
    (fun t ht hx => by
      obtain ⟨h, hh, e⟩ := List.mem_map.mp hx
      exact f3 t ht h hh e.symm)
  obtain ⟨_, B1, _⟩ := mapSeries_ok _ _ _ _ h1
  have hi : integral m = true := by
    unfold integral
    rw [List.all_eq_true]
    intro e he
    rw [List.all_eq_true]
    intro e' he'
    rcases B1 e he with h | ⟨t, ht, h, _, rfl, _⟩
    · simp at h
    · obtain ⟨x, hx, hxe⟩ := List.mem_map.mp (hm e' he')
      simp only [ne_eq, decide_eq_true_eq]
      rw [← hxe]
      exact f3 t ht x hx
  unfold later
  simp only
  rw [h1]
  simp only
  rw [if_pos hi]
  exact ⟨_, rfl⟩

theorem addSeries_sub (acc gs : List Series) : (∀ h ∈ acc, h ∈ addSeries acc gs) ∧ ∀ g ∈ gs, ∃ h ∈ addSeries acc gs, h.uuid = g.uuid := by
  refine ⟨fun h hh => List.mem_append_left _ hh, fun g hg => ?_⟩
  by_cases hx : acc.any (fun h => h.uuid = g.uuid) = true
  · obtain ⟨h, h1, h2⟩ := List.any_eq_true.mp hx
    exact ⟨h, List.mem_append_left _ h1, by simpa using h2⟩
  · exact ⟨g, List.mem_append_right _ (List.mem_filter.mpr ⟨hg, by simpa using hx⟩), rfl⟩

theorem apart_later {b : Bool} {host : Case} {r : Nat} {s s' : Composite} {c : Case} (h : later (.apart b) host r s c = .ok s') :
    s'.series = addSeries s.series c.series ∧ s'.props = addProps (copied [] [] r) s.props c.props := by
  unfold later at h
  simp only at h
  split at h
  · cases h
  · injection h with h; subst h; exact ⟨rfl, rfl⟩

theorem loop_apart (b : Bool) (host : Case) : ∀ (cs : List Case) (r : Nat) (s s' : Composite), loop (.apart b) host r s cs = .ok s' →
    (∀ t ∈ s.series, t ∈ s'.series) ∧ (∀ c ∈ cs, ∀ t ∈ c.series, ∃ h ∈ s'.series, h.uuid = t.uuid) ∧
    ∀ q ∈ s'.props, q ∈ s.props ∨ ∃ (k : Nat) (c : Case) (p : Property), cs[k]? = some c ∧ p ∈ c.props ∧ q = { p with realization := some (r + k) }
  | [], r, s, s', h => by
    unfold loop at h; injection h with h; subst h; exact ⟨fun _ h => h, by simp, fun _ h => Or.inl h⟩
  | c :: cs, r, s, s', h => by
    obtain ⟨s1, h1, h2⟩ := loop_cons h
    obtain ⟨e, e'⟩ := apart_later h1
    obtain ⟨A, B, Q⟩ := loop_apart b host cs _ _ _ h2
    obtain ⟨C, D⟩ := addSeries_sub s.series c.series
    rw [← e] at C D
    refine ⟨fun g hg => A g (C g hg), ?_, ?_⟩
    · intro c' hc' g hg
      rcases List.mem_cons.mp hc' with rfl | hc'
      · obtain ⟨h, x1, x2⟩ := D g hg
        exact ⟨h, A h x1, x2⟩
      · exact B c' hc' g hg
    · intro q hq
      rcases Q q hq with hq | ⟨k, c', p, hk, hp, hq⟩
      · rw [e'] at hq
        rcases addProps_mem _ _ _ q hq with hq | ⟨p, hp, rfl⟩
        · exact Or.inl hq
        · exact Or.inr ⟨0, c, p, by simp, hp, copied_nil r p⟩
      · exact Or.inr ⟨k + 1, c', p, by simpa using hk, hp, by rw [hq]; congr 2; omega⟩

end Verif.Ensemble
