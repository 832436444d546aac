import Verif.PolySet.Separate

/-!
# Properties: storing and loading sets of polylines
-/

namespace Verif.PolySet
open Verif.Py

variable {C P : Type}

/-! ## C135: flags -/

/-- Whichever polylines are closed, the flags written to the file are read back as they were. -/
theorem C135_flags (closed : List Bool) :
    getBoolArray (closedNode (boolArrayFormat closed) closed.length) = .ok closed := by
  have mixed : ∀ v : Bool, getBoolArray (closedNode ⟨true, v, placesOf (! v) closed⟩ closed.length) = .ok closed := by
    intro v
    have hb : (boolFromText (boolText (! v))).getD false = ! v := by cases v <;> decide
    unfold closedNode
    simp only [if_true, getBoolArray]
    rw [hb]
    obtain ⟨r, hr, hl, hj⟩ := setPlaces_ok (! v) (placesOf (! v) closed) (List.replicate closed.length (! ! v))
      (fun i hi => by
        rw [placesOf_mem] at hi
        rw [List.length_replicate]
        exact (List.getElem?_eq_some_iff.mp hi).1)
    rw [hr]
    congr 1
    apply List.ext_getElem?
    intro j
    by_cases hjl : j < closed.length
    · rw [hj j (by simpa using hjl)]
      simp only [placesOf_mem]
      rw [List.getElem?_eq_getElem hjl]
      rcases Bool.eq_false_or_eq_true closed[j] with h | h <;> cases v <;> simp [h, hjl]
    · rw [List.getElem?_eq_none (by rw [hl, List.length_replicate]; omega), List.getElem?_eq_none (by omega)]
  have const : ∀ v : Bool, (∀ b ∈ closed, b = v) →
      getBoolArray (closedNode ⟨false, v, []⟩ closed.length) = .ok closed := by
    intro v hv
    have hb : (boolFromText (boolText v)).getD false = v := by cases v <;> decide
    unfold closedNode
    simp only [Bool.false_eq_true, if_false, getBoolArray]
    rw [hb, ← List.eq_replicate_of_mem hv]
  unfold boolArrayFormat
  split_ifs with h1 h2 h3
  · exact const true (fun b hb => by simpa using List.all_eq_true.mp h1 b hb)
  · exact mixed true
  · exact mixed false
  · refine const false (fun b hb => ?_)
    rcases Bool.eq_false_or_eq_true b with hbt | hbf
    · exact absurd (List.any_eq_true.mpr ⟨b, hb, by simpa using hbt⟩) h2
    · exact hbf

/-- C136: of the flags of closed polylines no more than half are listed, and none if all are the same. -/
theorem C136_compact (closed : List Bool) : 2 * (boolArrayFormat closed).indices.length ≤ closed.length ∧
    ((∀ a ∈ closed, ∀ b ∈ closed, a = b) → (boolArrayFormat closed).indices = []) := by
  have hlen : ∀ b, (placesOf b closed).length = closed.count b := by
    intro b
    have key : ∀ (l : List Bool) (k : Nat), ((l.zipIdx k).filter (fun q => q.1 = b)).length = l.count b := by
      intro l
      induction l with
      | nil => intro k; rfl
      | cons a l ih =>
        intro k
        have := ih (k + 1)
        by_cases h : a = b
        · simp [List.zipIdx_cons, List.filter_cons, h, this]
        · simp [List.zipIdx_cons, List.filter_cons, h, this]
    unfold placesOf
    rw [List.length_map, key]
  have hsum : ∀ closed : List Bool, closed.count true + closed.count false = closed.length := by
    intro closed
    induction closed with
    | nil => rfl
    | cons a l ih => cases a <;> simp <;> omega
  have hsum := hsum closed
  unfold boolArrayFormat
  by_cases h1 : closed.all (· = true)
  · rw [if_pos h1]
    simp
  rw [if_neg h1]
  by_cases h2 : ¬ closed.any (· = true)
  · rw [if_pos h2]
    simp
  rw [if_neg h2]
  refine ⟨?_, ?_⟩
  · by_cases h3 : closed.count true > closed.length / 2
    · rw [if_pos h3]
      show 2 * (placesOf false closed).length ≤ _
      rw [hlen]
      omega
    · rw [if_neg h3]
      show 2 * (placesOf true closed).length ≤ _
      rw [hlen]
      omega
  · intro hall
    exfalso
    push Not at h2
    obtain ⟨b, hb, hbt⟩ := List.any_eq_true.1 h2
    simp only [decide_eq_true_eq] at hbt
    subst hbt
    exact h1 (List.all_eq_true.2 fun a ha => by simpa using hall a ha true hb)

example : boolArrayFormat [true, false, true, true] = ⟨true, true, [1]⟩ ∧
    boolArrayFormat [true, false] = ⟨true, false, [0]⟩ := by decide

/-! ## Loading one patch -/

/-- the first patch of a set -/
theorem load_one [DecidableEq C] (near : P → P → Bool) (p : Patch C P) (b : List Bool) (sp : List (Poly C P))
    (hb : getBoolArray p.closed = .ok b) (hl : p.counts.length = b.length) (hs : p.counts.sum = p.coords.length)
    (hsp : separate near p.crs (some b) p.counts p.coords = .ok sp) : load near [p] = .ok sp := by
  have hcn : ∀ n, cachedNode none n = n := by intro n; cases n <;> rfl
  have hpatch : loadPatch near ⟨none, none, none, none, [], []⟩ p =
      .ok ⟨some p.crs, some p.counts, some p.coords, cacheIndices none p.closed, sp, b⟩ := by
    unfold loadPatch
    simp only [hcn, hb, Option.any_none, Bool.false_eq_true, if_false, cached, Option.getD_none, hl, hs, ne_eq,
      not_true_eq_false, hsp, bind, Except.bind, List.nil_append]
  unfold load
  rw [List.foldlM_cons, hpatch]
  rfl

/-- A single patch, from whichever software, in which the flags are an array of one value per polyline and the points are those of
all the polylines in order, is loaded as those polylines; only a closed polyline of more than two points which ends near where it
began loses its last point. -/
theorem C137_one_patch_partial [DecidableEq C] (near : P → P → Bool) (crs : C) (lines : List (List P × Bool)) (node : ClosedNode)
    (h2 : ∀ q ∈ lines, 2 ≤ q.1.length) (hn : getBoolArray node = .ok (lines.map (·.2))) :
    load near [⟨crs, node, lines.map (fun q => q.1.length), lines.flatMap (·.1)⟩] =
      .ok (lines.map fun q =>
        ⟨0, crs, if q.2 = true ∧ endsMeet near q.1 = true then q.1.dropLast else q.1, q.2⟩) := by
  have h := load_one near ⟨crs, node, lines.map (fun q => q.1.length), lines.flatMap (·.1)⟩ _ _ hn (by simp)
    (by simp [List.length_flatMap]) (separate_flat near crs lines h2)
  rw [h]
  simp [tidied]

/-! ## C136: the round trip -/

theorem fold_others (equiv : C → C → Bool) (conv : C → C → List P → List P) (first : Poly C P) (rest : List (Poly C P))
    (hu : ∀ p ∈ rest, p.uuid ≠ first.uuid) (a : Combined C P) :
    rest.foldl (combineStep equiv conv first) a =
      ⟨a.crs, a.coords ++ rest.flatMap (shifted equiv conv a.crs), a.counts ++ rest.map (fun p => p.coords.length),
        a.closed ++ rest.map (·.closed)⟩ := by
  induction rest generalizing a with
  | nil => simp
  | cons p rest ih =>
    rw [List.foldl_cons, ih (fun q hq => hu q (List.mem_cons_of_mem _ hq))]
    have : combineStep equiv conv first a p = ⟨a.crs, a.coords ++ shifted equiv conv a.crs p,
        a.counts ++ [p.coords.length], a.closed ++ [p.closed]⟩ := by
      unfold combineStep; rw [if_neg (hu p (List.mem_cons_self ..))]
    rw [this]
    simp

theorem shifted_length (equiv : C → C → Bool) (conv : C → C → List P → List P)
    (hconv : ∀ c d l, (conv c d l).length = l.length) (m : C) (p : Poly C P) :
    (shifted equiv conv m p).length = p.coords.length := by
  unfold shifted; split_ifs <;> simp [hconv]

theorem combine_of (equiv : C → C → Bool) (conv : C → C → List P → List P)
    (hconv : ∀ c d l, (conv c d l).length = l.length) (first : Poly C P) (rest : List (Poly C P))
    (hu : ∀ p ∈ rest, p.uuid ≠ first.uuid) :
    combine equiv conv (first :: rest) =
      .ok (⟨first.crs, first.coords ++ rest.flatMap (shifted equiv conv first.crs),
        (first :: rest).map (fun p => p.coords.length), (first :: rest).map (·.closed)⟩,
        first :: rest.map (fun p => { p with coords := shifted equiv conv first.crs p })) := by
  have h1 : combineStep equiv conv first ⟨first.crs, [], [], []⟩ first =
      ⟨first.crs, first.coords, [first.coords.length], [first.closed]⟩ := by
    unfold combineStep; simp
  have hmap : (first :: rest).map (afterCombine equiv conv first) =
      first :: rest.map (fun p => { p with coords := shifted equiv conv first.crs p }) := by
    rw [List.map_cons]
    congr 1
    · unfold afterCombine; simp
    · apply List.map_congr_left
      intro p hp
      unfold afterCombine; rw [if_neg (hu p hp)]
  have hsum : (rest.map (fun p => p.coords.length)).sum = (rest.flatMap (shifted equiv conv first.crs)).length := by
    rw [List.length_flatMap]
    congr 1
    exact List.map_congr_left (fun p _ => (shifted_length equiv conv hconv _ p).symm)
  unfold combine
  dsimp only
  rw [List.foldl_cons, h1, fold_others equiv conv first rest hu]
  dsimp only
  rw [if_pos ⟨by simp, by simp [hsum]⟩, hmap]
  rfl

/-- A set of polylines of one crs, each of two points or more and none of them the same object as the first, which is stored and
loaded again, has the same polylines in the same order, each closed or open as it was, with the same points; only a closed polyline
of more than two points which ends near where it began loses its last point. -/
theorem C136_round_trip [DecidableEq C] (near : P → P → Bool) (equiv : C → C → Bool) (conv : C → C → List P → List P)
    (polys : List (Poly C P)) (first : Poly C P) (rest : List (Poly C P)) (hp : polys = first :: rest)
    (hu : ∀ p ∈ rest, p.uuid ≠ first.uuid) (h2 : ∀ p ∈ polys, 2 ≤ p.coords.length)
    (hc : ∀ p ∈ polys, equiv p.crs first.crs = true) :
    ∃ patch, store equiv conv polys = .ok patch ∧
      load near [patch] = .ok (polys.map fun p =>
        ⟨0, first.crs, if p.closed = true ∧ endsMeet near p.coords = true then p.coords.dropLast else p.coords, p.closed⟩) := by
  have hs : ∀ p ∈ rest, shifted equiv conv first.crs p = p.coords := by
    intro p hpr
    unfold shifted
    rw [if_neg (by rw [not_not]; exact hc p (by rw [hp]; exact List.mem_cons_of_mem _ hpr))]
  have hcomb : combine equiv conv (first :: rest) =
      .ok (⟨first.crs, (first :: rest).flatMap (·.coords),
        (first :: rest).map (fun p => p.coords.length), (first :: rest).map (·.closed)⟩, first :: rest) := by
    have hfm : rest.flatMap (shifted equiv conv first.crs) = rest.flatMap (·.coords) :=
      List.flatMap_congr fun p hpr => hs p hpr
    have h1 : combineStep equiv conv first ⟨first.crs, [], [], []⟩ first =
        ⟨first.crs, first.coords, [first.coords.length], [first.closed]⟩ := by
      unfold combineStep; simp
    have hmap : (first :: rest).map (afterCombine equiv conv first) = first :: rest := by
      rw [List.map_cons]
      congr 1
      · unfold afterCombine; simp
      · conv_rhs => rw [← List.map_id rest]
        apply List.map_congr_left
        intro p hpr
        unfold afterCombine; rw [if_neg (hu p hpr), hs p hpr]; rfl
    unfold combine
    dsimp only
    rw [List.foldl_cons, h1, fold_others equiv conv first rest hu]
    dsimp only
    rw [hfm, if_pos ⟨by simp, by simp [List.length_flatMap]⟩, hmap]
    rfl
  refine ⟨⟨first.crs, closedNode (boolArrayFormat (polys.map (·.closed))) polys.length,
    polys.map (fun p => p.coords.length), polys.flatMap (·.coords)⟩, ?_, ?_⟩
  · unfold store
    rw [hp, hcomb, ok_bind']
    simp
  · have hflags := C135_flags (polys.map (·.closed))
    rw [List.length_map] at hflags
    have hm : (polys.map fun p => (p.coords, p.closed)).map (fun q : List P × Bool => q.2) = polys.map (·.closed) := by simp
    have h := C137_one_patch_partial near first.crs (polys.map fun p => (p.coords, p.closed))
      (closedNode (boolArrayFormat (polys.map (·.closed))) polys.length)
      (by intro q hq; obtain ⟨p, hpm, rfl⟩ := List.mem_map.mp hq; exact h2 p hpm) (by rw [hm]; exact hflags)
    simp only [List.map_map, List.flatMap_map, Function.comp_def] at h
    exact h

/-- the hypotheses are met -/
example : ((store (fun _ _ : Unit => true) (fun _ _ l => l)
    [⟨1, (), [(0 : Int), 1, 2], true⟩, ⟨2, (), [5, 6, 5], true⟩, ⟨3, (), [5, 6, 5], false⟩]) >>=
      fun patch => load (fun a b => a == b) [patch]) =
    .ok [⟨0, (), [0, 1, 2], true⟩, ⟨0, (), [5, 6], true⟩, ⟨0, (), [5, 6, 5], false⟩] := by decide +kernel

/-- Not every set comes back as it was: a closed polyline which repeats its first point loses the repetition. -/
theorem C136_closed_violated :
    ∃ polys : List (Poly Unit Int), ((store (fun _ _ => true) (fun _ _ l => l) polys) >>=
      fun patch => load (fun a b => a == b) [patch]) = .ok [⟨0, (), [5, 6], true⟩] ∧ polys = [⟨0, (), [5, 6, 5], true⟩] :=
  ⟨_, by decide +kernel, rfl⟩

theorem fold_short (equiv : C → C → Bool) (conv : C → C → List P → List P)
    (hconv : ∀ c d l, (conv c d l).length = l.length) (first : Poly C P) (rest : List (Poly C P)) (a : Combined C P)
    (ha : a.coords.length < a.counts.sum) :
    (rest.foldl (combineStep equiv conv first) a).coords.length < (rest.foldl (combineStep equiv conv first) a).counts.sum := by
  induction rest generalizing a with
  | nil => exact ha
  | cons p rest ih =>
    rw [List.foldl_cons]
    apply ih
    unfold combineStep
    split_ifs
    · simp; omega
    · simp [shifted_length equiv conv hconv]; omega

/-- The same polyline given twice, once as the first of the set, makes an error, so that nothing is stored. -/
theorem C136_repeated_first_violated (equiv : C → C → Bool) (conv : C → C → List P → List P)
    (hconv : ∀ c d l, (conv c d l).length = l.length) (first : Poly C P) (hne : first.coords ≠ []) (between : List (Poly C P))
    (after : List (Poly C P)) (again : Poly C P) (hs : again.uuid = first.uuid) :
    store equiv conv (first :: between ++ again :: after) = .error .assertion := by
  have hpos : 0 < first.coords.length := List.length_pos_of_ne_nil hne
  have key : ∀ (l : List (Poly C P)) a, (a : Combined C P).coords.length ≤ a.counts.sum → 0 < a.counts.sum →
      (l.foldl (combineStep equiv conv first) a).coords.length ≤ (l.foldl (combineStep equiv conv first) a).counts.sum ∧
      0 < (l.foldl (combineStep equiv conv first) a).counts.sum := by
    intro l
    induction l with
    | nil => exact fun a h1 h2 => ⟨h1, h2⟩
    | cons p l ih =>
      intro a h1 h2
      rw [List.foldl_cons]
      apply ih
      · unfold combineStep
        split_ifs
        · simp
        · simp [shifted_length equiv conv hconv]; omega
      · unfold combineStep
        split_ifs <;> simp <;> omega
  have h : combine equiv conv (first :: between ++ again :: after) = .error .assertion := by
    unfold combine
    dsimp only [List.cons_append]
    rw [List.foldl_cons, List.foldl_append, List.foldl_cons]
    have h0 := key between (combineStep equiv conv first ⟨first.crs, [], [], []⟩ first)
      (by unfold combineStep; simp) (by unfold combineStep; simpa using hpos)
    have hlt := fold_short equiv conv hconv first after
      (combineStep equiv conv first (between.foldl (combineStep equiv conv first)
        (combineStep equiv conv first ⟨first.crs, [], [], []⟩ first)) again)
      (by
        have h0 := h0.2
        generalize between.foldl (combineStep equiv conv first)
          (combineStep equiv conv first ⟨first.crs, [], [], []⟩ first) = s at h0 ⊢
        unfold combineStep
        rw [if_pos hs]
        simp; omega)
    rw [if_neg (by rintro ⟨_, h⟩; omega)]
  unfold store
  rw [h]
  rfl

/-! ## C137: several patches -/

theorem loadPatch_some [DecidableEq C] (near : P → P → Bool) (s s' : Loading C P) (q : Patch C P)
    (h : loadPatch near s q = .ok s') : s'.counts.isSome ∧ s'.coords.isSome := by
  unfold loadPatch at h
  simp only [bind, Except.bind] at h
  cases hb : getBoolArray (cachedNode s.indices q.closed) with
  | error e => rw [hb] at h; split_ifs at h
  | ok b =>
    rw [hb] at h
    dsimp only at h
    cases hp : separate near q.crs (some b) (cached s.counts q.counts) (cached s.coords q.coords) with
    | error e => rw [hp] at h; split_ifs at h
    | ok sp =>
      rw [hp] at h
      split_ifs at h
      injection h with h
      subst h
      exact ⟨rfl, rfl⟩

theorem fold_ignored [DecidableEq C] (near : P → P → Bool) (ps qs : List (Patch C P))
    (hpq : ps.map (fun p => (p.crs, p.closed)) = qs.map (fun p => (p.crs, p.closed)))
    (s : Loading C P) (hs : s.counts.isSome ∧ s.coords.isSome) :
    ps.foldlM (loadPatch near) s = qs.foldlM (loadPatch near) s := by
  induction ps generalizing qs s with
  | nil =>
    cases qs with
    | nil => rfl
    | cons q qs => simp at hpq
  | cons p ps ih =>
    cases qs with
    | nil => simp at hpq
    | cons q qs =>
      simp only [List.map_cons, List.cons.injEq, Prod.mk.injEq] at hpq
      obtain ⟨⟨hc, hcl⟩, hrest⟩ := hpq
      obtain ⟨n, hn⟩ := Option.isSome_iff_exists.mp hs.1
      obtain ⟨c, hcc⟩ := Option.isSome_iff_exists.mp hs.2
      have hstep : loadPatch near s p = loadPatch near s q := by
        unfold loadPatch
        rw [hn, hcc, hc, hcl]
        rfl
      rw [List.foldlM_cons, List.foldlM_cons, hstep]
      cases hq : loadPatch near s q with
      | error e => rfl
      | ok s' =>
        exact ih qs hrest s' (loadPatch_some near s s' q hq)

/-- When a set holds several patches, the points and numbers of points of all but the first patch make no difference to what is
loaded. -/
theorem C137_later_patches_violated [DecidableEq C] (near : P → P → Bool) (p : Patch C P) (ps qs : List (Patch C P))
    (hpq : ps.map (fun p => (p.crs, p.closed)) = qs.map (fun p => (p.crs, p.closed))) :
    load near (p :: ps) = load near (p :: qs) := by
  unfold load
  rw [List.foldlM_cons, List.foldlM_cons]
  cases h : loadPatch near ⟨none, none, none, none, [], []⟩ p with
  | error e => rfl
  | ok s =>
    rw [ok_bind', ok_bind', fold_ignored near ps qs hpq s (loadPatch_some near _ s p h)]

/-- Two patches of one polyline each: the first polyline is loaded twice. -/
theorem C137_two_patches_violated :
    load (fun a b : Int => a == b) [⟨(), .constant "false" 1, [2], [1, 2]⟩, ⟨(), .constant "false" 1, [3], [7, 8, 9]⟩] =
      .ok [⟨0, (), [1, 2], false⟩, ⟨0, (), [1, 2], false⟩] := by decide +kernel

/-- the hypotheses are met -/
example : getBoolArray (.fromIndex "true" 2 [-1]) = .ok [false, true] := by decide

/-! ## C138: polylines of different crs -/

/-- Combining polylines puts the points of all of them into the crs of the first, one polyline after the other, and notes how many
points each has and whether it is closed. -/
theorem C138_combined (equiv : C → C → Bool) (conv : C → C → List P → List P)
    (hconv : ∀ c d l, (conv c d l).length = l.length) (first : Poly C P) (rest : List (Poly C P))
    (hu : ∀ p ∈ rest, p.uuid ≠ first.uuid) :
    ∃ a ps, combine equiv conv (first :: rest) = .ok (a, ps) ∧ a.crs = first.crs ∧
      a.coords = first.coords ++
        rest.flatMap (fun p => if equiv p.crs first.crs then p.coords else conv p.crs first.crs p.coords) ∧
      a.counts = (first :: rest).map (fun p => p.coords.length) ∧ a.closed = (first :: rest).map (·.closed) := by
  refine ⟨_, _, combine_of equiv conv hconv first rest hu, rfl, ?_, rfl, rfl⟩
  dsimp only
  congr 1
  apply List.flatMap_congr
  intro p _
  unfold shifted
  by_cases h : equiv p.crs first.crs = true <;> simp [h]

/-- A polyline of another crs is changed by being combined: its points are those of the crs of the first polyline while it still
claims its own crs. -/
theorem C138_changed_violated (equiv : C → C → Bool) (conv : C → C → List P → List P)
    (hconv : ∀ c d l, (conv c d l).length = l.length) (first p : Poly C P) (hu : p.uuid ≠ first.uuid)
    (he : equiv p.crs first.crs = false) :
    ∃ a, combine equiv conv [first, p] = .ok (a, [first, { p with coords := conv p.crs first.crs p.coords }]) := by
  have h := combine_of equiv conv hconv first [p] (by simpa using hu)
  have hsh : shifted equiv conv first.crs p = conv p.crs first.crs p.coords := by unfold shifted; simp [he]
  simp only [List.map_cons, List.map_nil, hsh] at h
  exact ⟨_, h⟩

/-- Combining the same polylines twice, as happens when they are combined and then written, gives other coordinates the second
time. -/
theorem C138_twice_violated :
    ∃ (a b : Combined Nat Int) (ps qs : List (Poly Nat Int)),
      combine (fun c d => c == d) (fun _ _ l => l.map (· + 10)) [⟨1, 0, [1, 2], false⟩, ⟨2, 1, [3, 4], false⟩] = .ok (a, ps) ∧
      combine (fun c d => c == d) (fun _ _ l => l.map (· + 10)) ps = .ok (b, qs) ∧
      a.coords = [1, 2, 13, 14] ∧ b.coords = [1, 2, 23, 24] :=
  ⟨⟨0, [1, 2, 13, 14], [2, 2], [false, false]⟩, ⟨0, [1, 2, 23, 24], [2, 2], [false, false]⟩,
    [⟨1, 0, [1, 2], false⟩, ⟨2, 1, [13, 14], false⟩], [⟨1, 0, [1, 2], false⟩, ⟨2, 1, [23, 24], false⟩], by decide +kernel⟩

/-- A set made from polylines is refused unless all of them, and the crs given if any, are of one crs. -/
theorem C138_one_crs [DecidableEq C] (equiv : C → C → Bool) (conv : C → C → List P → List P) (crs : Option C)
    (polys : List (Poly C P)) :
    (∃ p ∈ polys, ∃ q ∈ polys, p.crs ≠ q.crs) ∨ (∃ c, crs = some c ∧ ∃ p ∈ polys, p.crs ≠ c) →
      fromPolylines equiv conv crs polys = .error .assertion := by
  intro h
  unfold fromPolylines
  rw [if_neg]
  intro hl
  obtain ⟨c, hc⟩ := List.length_eq_one_iff.mp hl
  have hall : ∀ x ∈ crs.toList ++ polys.map (·.crs), x = c := by
    intro x hx
    have := List.mem_dedup.mpr hx
    rw [hc] at this
    simpa using this
  rcases h with ⟨p, hp, q, hq, hpq⟩ | ⟨d, hd, p, hp, hpd⟩
  · exact hpq ((hall _ (by simp; right; exact ⟨p, hp, rfl⟩)).trans (hall _ (by simp; right; exact ⟨q, hq, rfl⟩)).symm)
  · subst hd
    exact hpd ((hall _ (by simp; right; exact ⟨p, hp, rfl⟩)).trans (hall d (by simp)).symm)

/-- Polylines all of one crs are left as they are. -/
theorem C138_unchanged_partial (equiv : C → C → Bool) (conv : C → C → List P → List P)
    (polys ps : List (Poly C P)) (a : Combined C P) (hc : ∀ p ∈ polys, ∀ q ∈ polys, equiv p.crs q.crs = true)
    (h : combine equiv conv polys = .ok (a, ps)) : ps = polys := by
  cases polys with
  | nil => simp [combine] at h
  | cons first rest =>
    unfold combine at h
    dsimp only at h
    split_ifs at h
    injection h with h
    rw [← (Prod.mk.inj h).2]
    conv_rhs => rw [← List.map_id (first :: rest)]
    apply List.map_congr_left
    intro p hp
    have hsh : shifted equiv conv first.crs p = p.coords := by
      unfold shifted
      rw [if_neg (by rw [not_not]; exact hc p hp first (List.mem_cons_self ..))]
    unfold afterCombine
    rw [hsh]
    split_ifs <;> rfl

end Verif.PolySet
