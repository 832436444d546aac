import Verif.Ensemble.Lemmas

/-! # Gathered ensembles (C205) -/

namespace Verif.Ensemble

/-- A first case with two grids, and cases of one or two grids which fit to it -/
def exA : Case := ⟨"a.epc", [⟨1, (2, 3, 4), "fine"⟩, ⟨2, (1, 1, 1), "coarse"⟩], [⟨3, "years"⟩], [⟨4, 1, some 3, none, 40⟩, ⟨5, 2, none, some 7, 50⟩]⟩
def exB : Case := ⟨"b.epc", [⟨11, (2, 3, 4), "fine"⟩], [⟨13, "years"⟩], [⟨14, 11, some 13, none, 41⟩, ⟨16, 99, none, none, 61⟩]⟩
def exC : Case := ⟨"c.epc", [⟨21, (2, 3, 4), "fine"⟩, ⟨22, (1, 1, 1), "coarse"⟩], [⟨23, "years"⟩], [⟨24, 21, some 23, none, 42⟩, ⟨25, 22, none, none, 52⟩]⟩

/-! ## Realizations -/

/-- Each property of the composite model is one of a case, with the data it has there, and its realization number is the index of the case. -/
theorem C205_from_cases {mode : Mode} {cases : List Case} {out : Composite} (h : gather mode cases = .ok out) (q : Property) (hq : q ∈ out.props) :
    ∃ r p, Gathered mode cases r p ∧ q.uuid = p.uuid ∧ q.data = p.data ∧ q.realization = some r := by
  cases cases with
  | nil => unfold gather at h; injection h with h; subst h; simp at hq
  | cons d cs =>
    unfold gather at h
    rcases loop_mem _ _ _ _ _ _ h q hq with hq | ⟨k, c, p, pr, m, hk, hp, rfl⟩
    · rcases addProps_mem _ _ _ q hq with hq | ⟨p, hp, rfl⟩
      · simp at hq
      · exact ⟨0, p, ⟨d, by simp, hp, fun _ => Or.inl rfl⟩, rfl, rfl, rfl⟩
    · obtain ⟨h1, h2⟩ := mem_chosen.mp hp
      refine ⟨1 + k, p, ⟨c, ?_, h1, fun e => Or.inr (h2 e)⟩, rfl, rfl, rfl⟩
      rw [Nat.add_comm]; simpa using hk

/-- Where the properties of all cases have different uuids, each of them is in the composite model with its data and the number of its case. -/
theorem C205_all_gathered_partial {mode : Mode} {cases : List Case} {out : Composite} (h : gather mode cases = .ok out) (hd : Different cases)
    (r : Nat) (p : Property) (hp : Gathered mode cases r p) :
    ∃ q ∈ out.props, q.uuid = p.uuid ∧ q.data = p.data ∧ q.realization = some r := by
  obtain ⟨c, hc, hpc, hsh⟩ := hp
  cases cases with
  | nil => simp at hc
  | cons d cs =>
    unfold gather at h
    cases r with
    | zero =>
      have : d = c := by simpa using hc
      subst this
      refine ⟨_, loop_sub _ _ _ _ _ _ h _ (addProps_new _ (copied_uuid [] [] 0) d.props [] p hpc (by simp) ?_), rfl, rfl, rfl⟩
      intro q hq e
      exact (hd 0 0 d d (by simp) (by simp) q hq p hpc e).2
    | succ k =>
      have hk : cs[k]? = some c := by simpa using hc
      have hch : p ∈ chosen mode c := mem_chosen.mpr ⟨hpc, fun e => by
        rcases hsh e with h | h
        · omega
        · exact h⟩
      obtain ⟨pr, m, hm⟩ := loop_new _ _ _ _ _ _ h k c p hk hch (by
        intro q hq e
        rcases addProps_mem _ _ _ q hq with hq | ⟨p', hp', rfl⟩
        · simp at hq
        · have := (hd 0 (k + 1) d c (by simp) hc p' hp' p hpc e).1
          omega) (by
        intro k' c' hk' p' hp' e
        have := hd (k' + 1) (k + 1) c' c (by simpa using hk') hc p' (mem_chosen.mp hp').1 p hpc e
        exact ⟨by omega, this.2⟩)
      exact ⟨_, hm, rfl, rfl, by rw [Nat.add_comm]; rfl⟩

/-- A property which has the uuid of one of the first case is in the composite model only as that of realization 0, whatever its data: the property of the
later realization is missing. -/
theorem C205_same_uuid_violated {mode : Mode} {d : Case} {cs : List Case} {out : Composite} (h : gather mode (d :: cs) = .ok out) (p : Property)
    (hp : p ∈ d.props) (r : Nat) (hr : 0 < r) : ¬ ∃ q ∈ out.props, q.uuid = p.uuid ∧ q.realization = some r := by
  rintro ⟨q, hq, hu, hre⟩
  unfold gather at h
  have hthere : ∃ x ∈ (first d).props, x.uuid = p.uuid := by
    by_cases hx : ∃ x ∈ (first d).props, x.uuid = p.uuid
    · exact hx
    · exfalso
      have key : ∀ (ps acc : List Property), p ∈ ps → ∃ x ∈ addProps (copied [] [] 0) acc ps, x.uuid = p.uuid := by
        intro ps
        induction ps with
        | nil => intro acc h; simp at h
        | cons a ps ih =>
          intro acc hm
          rcases List.mem_cons.mp hm with rfl | hm
          · unfold addProps
            split
            · rename_i hany
              obtain ⟨x, h1, h2⟩ := List.any_eq_true.mp hany
              exact ⟨x, addProps_sub _ _ _ x h1, by simpa using h2⟩
            · exact ⟨_, addProps_sub _ ps _ (copied [] [] 0 p) (by simp), rfl⟩
          · unfold addProps
            split
            · exact ih _ hm
            · exact ih _ hm
      exact hx (key d.props [] hp)
  have := loop_old _ _ p.uuid _ _ _ _ h hthere q hq hu
  rcases addProps_mem _ _ _ q this with h | ⟨p', _, rfl⟩
  · simp at h
  · have : some 0 = some r := hre
    injection this with this
    omega

/-- The lookup table gives for each realization number the path of that case, and nothing else. -/
theorem C205_lookup {mode : Mode} {cases : List Case} {out : Composite} (h : gather mode cases = .ok out) :
    out.lookup = cases.mapIdx (fun r c => (r, c.path)) := by
  cases cases with
  | nil => unfold gather at h; injection h with h; subst h; rfl
  | cons d cs =>
    unfold gather at h
    rw [loop_lookup _ _ _ _ _ _ h, List.mapIdx_cons]
    simp only [first, List.singleton_append, List.cons.injEq, true_and]
    congr 1
    funext k c
    rw [Nat.add_comm]

/-! ## Shared grids -/

/-- With shared grids the composite model has the grids and time series of the first case and no others. -/
theorem C205_shared_objects {d : Case} {cs : List Case} {out : Composite} (h : gather .shared (d :: cs) = .ok out) :
    out.grids = d.grids ∧ out.series = d.series := by
  unfold gather at h
  exact loop_shared _ _ _ _ _ h

/-- With shared grids each property is on a grid with the extent of the one it was on, and its time series has the title of the one it had. -/
theorem C205_placed {d : Case} {cs : List Case} {out : Composite} (h : gather .shared (d :: cs) = .ok out) (hc : ∀ c ∈ cs, Consistent d c)
    (q : Property) (hq : q ∈ out.props) :
    ∃ r c p, (d :: cs)[r]? = some c ∧ p ∈ c.props ∧ q.uuid = p.uuid ∧ q.realization = some r ∧ Placed out c p q := by
  have hobj := C205_shared_objects h
  unfold gather at h
  rcases loop_placed _ _ _ _ _ h rfl rfl hc q hq with hq | ⟨k, c, p, pr, m, hk, hp, rfl, hpl⟩
  · rcases addProps_mem _ _ _ q hq with hq | ⟨p, hp, rfl⟩
    · simp at hq
    · refine ⟨0, d, p, by simp, hp, rfl, rfl, ?_, ?_⟩
      · intro g hg e
        exact ⟨g, hobj.1 ▸ hg, by rw [copied_nil]; exact e, rfl⟩
      · intro t ht e
        exact ⟨t, hobj.2 ▸ ht, by rw [copied_nil]; exact e, rfl⟩
  · refine ⟨1 + k, c, p, ?_, (mem_related.mp hp).1, rfl, rfl, hpl⟩
    rw [Nat.add_comm]; simpa using hk

/-- Where grids of the first case have different extents, and the later cases fit to it, the ensemble is gathered. -/
theorem C205_gathers {d : Case} {cs : List Case} (hd : (d.grids.map (·.extent)).Nodup) (hf : ∀ c ∈ cs, Fits d c) :
    ∃ out, gather .shared (d :: cs) = .ok out := by
  unfold gather
  exact loop_total cs 1 _ (fun c hc r s => later_fits ((distinct_iff _).mpr hd) (hf c hc) r s)

/-- A grid of a later case with an extent which no grid of the first case has raises an exception. -/
theorem C205_unmatched {d c : Case} {cs : List Case} (hc : c ∈ cs) {g : Grid} (hg : g ∈ c.grids) (hx : ∀ h ∈ d.grids, h.extent ≠ g.extent) :
    ∃ e, gather .shared (d :: cs) = .error e := by
  unfold gather
  refine loop_error _ _ c (later_grid_error (g := g) ?_ hg) cs _ _ hc
  intro h he
  obtain ⟨h1, h2⟩ := matchGrid_ok he
  exact hx h h1 h2

/-- Where two grids of the first case have the same extent, titles are to decide.  They never do: any later case with a grid raises an exception, also if
extents and titles of all grids match. -/
theorem C205_titles_violated {d c : Case} {cs : List Case} (hd : ¬ (d.grids.map (·.extent)).Nodup) (hc : c ∈ cs) (hg : c.grids ≠ []) :
    ∃ e, gather .shared (d :: cs) = .error e := by
  obtain ⟨g, hg⟩ := List.exists_mem_of_ne_nil _ hg
  unfold gather
  refine loop_error _ _ c (later_grid_error (g := g) ?_ hg) cs _ _ hc
  intro h he
  unfold matchGrid at he
  split at he
  · cases he
  · rw [if_neg (by rw [distinct_iff]; exact hd)] at he
    cases he

/-! ## Grids which are not shared -/

/-- Without shared grids the composite model has a grid for each grid of each case. -/
theorem C205_own_grids {mode : Mode} (hm : mode ≠ .shared) {cases : List Case} {out : Composite} (h : gather mode cases = .ok out)
    (c : Case) (hc : c ∈ cases) (g : Grid) (hg : g ∈ c.grids) : ∃ h ∈ out.grids, h.uuid = g.uuid := by
  cases cases with
  | nil => simp at hc
  | cons d cs =>
    unfold gather at h
    obtain ⟨A, B⟩ := loop_grids hm _ _ _ _ h
    rcases List.mem_cons.mp hc with rfl | hc
    · exact ⟨g, A g hg, rfl⟩
    · exact B c hc g hg

/-- Without shared grids, but with shared time series, each property is on the grid it was on, and its time series is one of the first case with the title of
the one it had. -/
theorem C205_separate {d : Case} {cs : List Case} {out : Composite} (h : gather .separate (d :: cs) = .ok out) (hc : ∀ c ∈ cs, Consistent d c)
    (hx : ∀ c ∈ d :: cs, ∀ g ∈ c.grids, ∀ c' ∈ cs, ∀ t ∈ c'.series, t.uuid ≠ g.uuid) :
    out.series = d.series ∧ ∀ q ∈ out.props,
      ∃ r c p, (d :: cs)[r]? = some c ∧ p ∈ c.props ∧ q.uuid = p.uuid ∧ q.realization = some r ∧ Kept out c p q := by
  unfold gather at h
  have hs : out.series = d.series := loop_separate_series _ _ _ _ _ h
  refine ⟨hs, fun q hq => ?_⟩
  rcases loop_kept _ _ _ _ _ h rfl hc (fun g hg => hx d (by simp) g hg) (fun c hc' => hx c (by simp [hc'])) q hq with
    hq | ⟨k, c, p, pr, m, hk, hp, rfl, hpl⟩
  · rcases addProps_mem _ _ _ q hq with hq | ⟨p, hp, rfl⟩
    · simp at hq
    · refine ⟨0, d, p, by simp, hp, rfl, rfl, ?_, ?_⟩
      · intro g hg e
        rw [copied_nil]; exact e.symm
      · intro t ht e
        exact ⟨t, hs ▸ ht, by rw [copied_nil]; exact e, rfl⟩
  · refine ⟨1 + k, c, p, ?_, hp, rfl, rfl, hpl⟩
    rw [Nat.add_comm]; simpa using hk

/-- Without shared grids, the ensemble is gathered where for each time series of the later cases there is another one of the same title in the first. -/
theorem C205_separate_gathers {d : Case} {cs : List Case} (hf : ∀ c ∈ cs, ∀ t ∈ c.series, ∃ h ∈ d.series, h.title = t.title)
    (hn : ∀ c ∈ cs, ∀ t ∈ c.series, ∀ h ∈ d.series, t.uuid ≠ h.uuid) : ∃ out, gather .separate (d :: cs) = .ok out := by
  unfold gather
  exact loop_total cs 1 _ (fun c hc r s => later_separate_fits (hf c hc) (hn c hc) r s)

/-- Without consolidation the composite model has a time series for each one of each case, and each property is that of a case but for its realization
number. -/
theorem C205_apart_kept {b : Bool} {cases : List Case} {out : Composite} (h : gather (.apart b) cases = .ok out) :
    (∀ c ∈ cases, ∀ t ∈ c.series, ∃ h ∈ out.series, h.uuid = t.uuid) ∧
    ∀ q ∈ out.props, ∃ (r : Nat) (c : Case) (p : Property), cases[r]? = some c ∧ p ∈ c.props ∧ q = { p with realization := some r } := by
  cases cases with
  | nil => unfold gather at h; injection h with h; subst h; simp
  | cons d cs =>
    unfold gather at h
    obtain ⟨A, B, Q⟩ := loop_apart _ _ _ _ _ _ h
    refine ⟨?_, fun q hq => ?_⟩
    · intro c hc t ht
      rcases List.mem_cons.mp hc with rfl | hc
      · exact ⟨t, A t ht, rfl⟩
      · exact B c hc t ht
    · rcases Q q hq with hq | ⟨k, c, p, hk, hp, rfl⟩
      · rcases addProps_mem _ _ _ q hq with hq | ⟨p, hp, rfl⟩
        · simp at hq
        · exact ⟨0, d, p, by simp, hp, copied_nil 0 p⟩
      · exact ⟨1 + k, c, p, by rw [Nat.add_comm]; simpa using hk, hp, rfl⟩

/-- Without consolidation and shared time series any list of cases is gathered. -/
theorem C205_apart (cases : List Case) : ∃ out, gather (.apart false) cases = .ok out := by
  cases cases with
  | nil => exact ⟨_, rfl⟩
  | cons d cs => exact loop_total cs 1 _ (fun c _ r s => ⟨_, rfl⟩)

/-- Without consolidation shared_time_series, which is on by default, is to be ignored.  It is not: a time series of a later case whose title is that of none of
the first case raises an exception. -/
theorem C205_apart_series_violated {d c : Case} {cs : List Case} (hc : c ∈ cs) {t : Series} (ht : t ∈ c.series) (hx : ∀ h ∈ d.series, h.title ≠ t.title) :
    ∃ e, gather (.apart true) (d :: cs) = .error e := by
  unfold gather
  refine loop_error _ _ c ?_ cs _ _ hc
  intro r s
  obtain ⟨e, he⟩ := mapSeries_error hx c.series [] ht
  unfold later
  simp only [if_true, he]
  exact ⟨e, rfl⟩

/-! ## Cases which meet the hypotheses -/

example : (gather .shared [exA, exB, exC]).toOption.map (·.props) =
    some [⟨4, 1, some 3, some 0, 40⟩, ⟨5, 2, none, some 0, 50⟩, ⟨14, 1, some 3, some 1, 41⟩, ⟨24, 1, some 3, some 2, 42⟩, ⟨25, 2, none, some 2, 52⟩] := by decide

example : (exA.grids.map (·.extent)).Nodup ∧ Fits exA exB ∧ Fits exA exC ∧ Consistent exA exB ∧ Consistent exA exC := by
  have f (c : Case) (h : c = exB ∨ c = exC) : Fits exA c ∧ Consistent exA c := by
    rcases h with rfl | rfl <;>
      exact ⟨⟨by decide, by decide, by decide⟩, by decide, by decide, by decide, by decide, by decide, by decide, by decide⟩
  exact ⟨by decide, (f exB (Or.inl rfl)).1, (f exC (Or.inr rfl)).1, (f exB (Or.inl rfl)).2, (f exC (Or.inr rfl)).2⟩

example : Gathered .shared [exA, exB, exC] 2 ⟨24, 21, some 23, none, 42⟩ := ⟨exC, by decide, by decide, fun _ => Or.inr ⟨⟨21, (2, 3, 4), "fine"⟩, by decide, rfl⟩⟩

example : Different [exA, exB] := by
  intro r s c d hc hd
  have lt {i : Nat} {x : Case} (h : [exA, exB][i]? = some x) : i = 0 ∧ x = exA ∨ i = 1 ∧ x = exB := by
    match i, h with
    | 0, h => exact Or.inl ⟨rfl, by simpa using h.symm⟩
    | 1, h => exact Or.inr ⟨rfl, by simpa using h.symm⟩
    | n + 2, h => simp at h
  rcases lt hc with ⟨rfl, rfl⟩ | ⟨rfl, rfl⟩ <;> rcases lt hd with ⟨rfl, rfl⟩ | ⟨rfl, rfl⟩ <;> decide

/-- Two grids of the same extent with different titles, and the same in a second case: an exception -/
example : gather .shared [⟨"a.epc", [⟨1, (1, 2, 2), "left"⟩, ⟨2, (1, 2, 2), "right"⟩], [], []⟩, ⟨"b.epc", [⟨11, (1, 2, 2), "left"⟩], [], []⟩] =
    .error .iterate := by decide

/-- The same property uuid in two cases with different data: that of the second case is lost -/
example : (gather .shared [⟨"a.epc", [⟨1, (1, 2, 2), "g"⟩], [], [⟨4, 1, none, none, 40⟩]⟩, ⟨"b.epc", [⟨1, (1, 2, 2), "g"⟩], [], [⟨4, 1, none, none, 41⟩]⟩]).toOption.map
    (·.props) = some [⟨4, 1, none, some 0, 40⟩] := by decide

example : (gather .separate [exA, exB]).toOption.map (fun o => (o.grids.map (·.uuid), o.series.map (·.uuid), o.props.map (fun p => (p.uuid, p.grid, p.series)))) =
    some ([1, 2, 11], [3], [(4, 1, some 3), (5, 2, none), (14, 11, some 3), (16, 99, none)]) := rfl

example : gather (.apart true) [exA, ⟨"b.epc", [], [⟨13, "months"⟩], []⟩] = .error .index ∧
    (gather (.apart false) [exA, ⟨"b.epc", [], [⟨13, "months"⟩], []⟩]).toOption.map (fun o => o.series.map (·.uuid)) = some [3, 13] := by decide

/-- Cases for `C205_separate` and `C205_separate_gathers` -/
example : (∀ c ∈ [exA, exB, exC], ∀ g ∈ c.grids, ∀ c' ∈ [exB, exC], ∀ t ∈ c'.series, t.uuid ≠ g.uuid) ∧
    (∀ c ∈ [exB, exC], ∀ t ∈ c.series, ∃ h ∈ exA.series, h.title = t.title) ∧ (∀ c ∈ [exB, exC], ∀ t ∈ c.series, ∀ h ∈ exA.series, t.uuid ≠ h.uuid) :=
  ⟨by decide, by decide, by decide⟩

end Verif.Ensemble
