import Verif.Surface.PropsTrim

namespace Verif.Surface
open Verif.Py Spec

variable {P α : Type}

theorem cornersN_append_left {p q : List P} {t : Tri} (h : (cornersN p t).isSome) : cornersN (p ++ q) t = cornersN p t := by
  obtain ⟨h1, h2, h3⟩ := (cornersN_isSome ..).1 h
  unfold cornersN
  rw [List.getElem?_append_left h1, List.getElem?_append_left h2, List.getElem?_append_left h3]

theorem cornersN_offset (p q : List P) (t : Tri) :
    cornersN (p ++ q) (t.1 + p.length, t.2.1 + p.length, t.2.2 + p.length) = cornersN q t := by
  unfold cornersN
  dsimp only
  rw [List.getElem?_append_right (by omega), List.getElem?_append_right (by omega), List.getElem?_append_right (by omega),
    Nat.add_sub_cancel, Nat.add_sub_cancel, Nat.add_sub_cancel]

/-- all triangles of a patch use points which it has -/
def ValidPatch (q : List Tri × List P) : Prop := ∀ t ∈ q.1, (cornersN q.2 t).isSome

theorem compositeLoop_spec (patches : List (List Tri × List P)) (hv : ∀ q ∈ patches, ValidPatch q) :
    ∀ (acc : Option (List Tri × List P)) (off : Nat) (t0 : List Tri) (p0 : List P),
      (acc = some (t0, p0) ∨ (acc = none ∧ t0 = [] ∧ p0 = [] ∧ patches ≠ [])) → off = p0.length → ValidPatch (t0, p0) →
      ∃ t p, compositeLoop off acc patches = some (t, p) ∧ p = p0 ++ patches.flatMap (·.2) ∧
        t.map (cornersN p) = t0.map (cornersN p0) ++ patches.flatMap (fun q => q.1.map (cornersN q.2)) ∧
        t.length = t0.length + (patches.map (·.1.length)).sum := by
  induction patches with
  | nil =>
    intro acc off t0 p0 h _ _
    rcases h with rfl | ⟨_, _, _, h⟩
    · exact ⟨t0, p0, rfl, by simp, by simp, by simp⟩
    · exact absurd rfl h
  | cons q rest ih =>
    intro acc off t0 p0 h hoff hv0
    obtain ⟨t, p⟩ := q
    have hq : ValidPatch (t, p) := hv _ List.mem_cons_self
    have hrest : ∀ q ∈ rest, ValidPatch q := fun q hq => hv q (List.mem_cons_of_mem _ hq)
    -- the step yields the arrays put together
    have key : ∀ t1 : List Tri, t1 = t0 ++ offsetTris off t → ValidPatch (t1, p0 ++ p) ∧
        t1.map (cornersN (p0 ++ p)) = t0.map (cornersN p0) ++ t.map (cornersN p) := by
      intro t1 e
      have e2 : t1.map (cornersN (p0 ++ p)) = t0.map (cornersN p0) ++ t.map (cornersN p) := by
        rw [e, List.map_append]
        congr 1
        · exact List.map_congr_left fun s hs => cornersN_append_left (hv0 s hs)
        · unfold offsetTris
          rw [List.map_map]
          refine List.map_congr_left fun s _ => ?_
          rw [hoff]
          exact cornersN_offset p0 p s
      refine ⟨?_, e2⟩
      intro s hs
      have : cornersN (p0 ++ p) s ∈ t1.map (cornersN (p0 ++ p)) := List.mem_map.2 ⟨s, hs, rfl⟩
      rw [e2, List.mem_append] at this
      rcases this with h' | h'
      · obtain ⟨r, hr, e⟩ := List.mem_map.1 h'
        show (cornersN (p0 ++ p) s).isSome
        rw [← e]
        exact hv0 r hr
      · obtain ⟨r, hr, e⟩ := List.mem_map.1 h'
        show (cornersN (p0 ++ p) s).isSome
        rw [← e]
        exact hq r hr
    have hstep : compositeStep off acc t p = some (t0 ++ offsetTris off t, p0 ++ p) := by
      unfold compositeStep
      by_cases h0 : off = 0
      · have hp0 : p0 = [] := List.length_eq_zero_iff.1 (by omega)
        subst hp0
        have ht0 : t0 = [] := by
          cases t0 with
          | nil => rfl
          | cons s l => exact absurd (hv0 s List.mem_cons_self) (by simp [cornersN])
        subst ht0
        rw [if_pos h0, h0]
        simp [offsetTris]
      · rw [if_neg h0]
        rcases h with rfl | ⟨_, _, hp0, _⟩
        · rfl
        · subst hp0
          exact absurd hoff h0
    obtain ⟨k1, k2⟩ := key _ rfl
    obtain ⟨t', p', r1, r2, r3, r4⟩ := ih hrest (some (t0 ++ offsetTris off t, p0 ++ p)) (off + p.length) _ _ (.inl rfl)
      (by rw [List.length_append, hoff]) k1
    refine ⟨t', p', ?_, ?_, ?_, ?_⟩
    · unfold compositeLoop
      rw [hstep]
      exact r1
    · rw [r2, List.flatMap_cons, List.append_assoc]
    · rw [r3, k2, List.flatMap_cons, List.append_assoc]
    · rw [r4]
      simp [offsetTris]
      omega

/-- **C146** The composite arrays of a surface with several patches (or of several surfaces combined) hold the triangles of the patches
one after the other, each with the corner points which it has in its patch. -/
theorem C146_composite (patches : List (List Tri × List P)) (hne : patches ≠ [])
    (hv : ∀ q ∈ patches, ∀ t ∈ q.1, (cornersN q.2 t).isSome) :
    ∃ t p, composite patches = some (t, p) ∧ p = patches.flatMap (·.2) ∧
      t.map (cornersN p) = patches.flatMap (fun q => q.1.map (cornersN q.2)) ∧ t.length = (patches.map (·.1.length)).sum := by
  obtain ⟨t, p, h1, h2, h3, h4⟩ := compositeLoop_spec patches hv none 0 [] [] (.inr ⟨rfl, rfl, rfl, hne⟩) rfl (by intro s hs; simp at hs)
  exact ⟨t, p, h1, by simpa using h2, by simpa using h3, by simpa using h4⟩

example : composite [([(0, 1, 2)], ["a", "b", "c"]), ([(1, 0, 2), (0, 2, 1)], ["d", "e", "f"])] =
    some ([(0, 1, 2), (4, 3, 5), (3, 5, 4)], ["a", "b", "c", "d", "e", "f"]) := by decide

/-- **C146** The surface found for the number of a triangle of a combined surface: for each triangle of each surface, counting on over the
surfaces, the number of the surface and that of the triangle in it; nothing for a number past the last triangle. -/
theorem C146_surface_index (counts : List Nat) (s : Nat) :
    (∀ m k : Nat, m < counts.length → k < counts.getD m 0 →
      surfaceIndexFor counts (((counts.take m).sum + k : Nat) : Int) s = some (s + m, (k : Int))) ∧
      ∀ t : Int, (counts.sum : Int) ≤ t → surfaceIndexFor counts t s = none := by
  induction counts generalizing s with
  | nil => exact ⟨fun m k h => by simp at h, fun t _ => rfl⟩
  | cons n rest ih =>
    obtain ⟨ih1, ih2⟩ := ih (s + 1)
    refine ⟨?_, ?_⟩
    · intro m k hm hk
      unfold surfaceIndexFor
      cases m with
      | zero =>
        simp only [List.getD_cons_zero] at hk
        rw [if_pos (by simp; omega)]
        simp
      | succ m =>
        simp only [List.getD_cons_succ] at hk
        rw [List.take_succ_cons, List.sum_cons, if_neg (by omega)]
        have := ih1 m k (by simpa using hm) hk
        rw [show (((n + (rest.take m).sum + k : Nat) : Int) - (n : Int)) = (((rest.take m).sum + k : Nat) : Int) by omega,
          this]
        simp only [Option.some.injEq, Prod.mk.injEq, and_true]
        omega
    · intro t ht
      unfold surfaceIndexFor
      rw [List.sum_cons] at ht
      rw [if_neg (by rw [Nat.cast_add] at ht; omega)]
      exact ih2 _ (by rw [Nat.cast_add] at ht; omega)

example : surfaceIndexFor [3, 0, 5] 4 = some (2, 1) := by decide

/-- **C146** So the triangle of a combined surface with a given number is the one found in the surface named. -/
theorem C146_combined (surfaces : List (List Tri × List P)) (hv : ∀ q ∈ surfaces, ∀ t ∈ q.1, (cornersN q.2 t).isSome)
    (m k : Nat) (q : List Tri × List P) (s : Tri) (hq : surfaces[m]? = some q) (hs : q.1[k]? = some s) :
    ∃ (t : List Tri) (p : List P) (n : Nat) (r : Tri), composite surfaces = some (t, p) ∧ t[n]? = some r ∧ cornersN p r = cornersN q.2 s ∧
      surfaceIndexFor (surfaces.map (·.1.length)) (n : Int) = some (m, (k : Int)) := by
  have hne : surfaces ≠ [] := by rintro rfl; simp at hq
  obtain ⟨t, p, h1, _, h3, h4⟩ := C146_composite surfaces hne hv
  obtain ⟨hm, hqe⟩ := List.getElem?_eq_some_iff.1 hq
  obtain ⟨hk, hse⟩ := List.getElem?_eq_some_iff.1 hs
  have look : ∀ (l : List (List Tri × List P)) (m : Nat) (_ : l[m]? = some q),
      (l.flatMap (fun q => q.1.map (cornersN q.2)))[((l.map (·.1.length)).take m).sum + k]? = some (cornersN q.2 s) := by
    intro l
    induction l with
    | nil => intro m h; simp at h
    | cons a l ih =>
      intro m h
      rw [List.flatMap_cons]
      cases m with
      | zero =>
        simp only [List.getElem?_cons_zero, Option.some.injEq] at h
        subst h
        simp only [List.take_zero, List.sum_nil, Nat.zero_add]
        rw [List.getElem?_append_left (by simpa using hk), List.getElem?_map, hs]
        rfl
      | succ m =>
        rw [List.map_cons, List.take_succ_cons, List.sum_cons, List.getElem?_append_right (by simp; omega), List.length_map,
          show a.1.length + ((l.map (·.1.length)).take m).sum + k - a.1.length = ((l.map (·.1.length)).take m).sum + k by omega]
        exact ih m (by simpa using h)
  have hl := look surfaces m hq
  rw [← h3, List.getElem?_map] at hl
  obtain ⟨r, hr1, hr2⟩ := Option.map_eq_some_iff.1 hl
  refine ⟨t, p, _, r, h1, hr1, hr2, ?_⟩
  have := (C146_surface_index (surfaces.map (·.1.length)) 0).1 m k (by simpa using hm)
    (by simp [List.getD_eq_getElem?_getD, hq, hk])
  simpa using this

example : ([([(0, 1, 2)], ["a", "b", "c"]), ([(1, 0, 2), (0, 2, 1)], ["d", "e", "f"])] : List (List Tri × List String))[1]? =
    some ([(1, 0, 2), (0, 2, 1)], ["d", "e", "f"]) := rfl

/-! ## Histories of a surface -/

/-- what can be done with a surface -/
inductive Op (P : Type) where
  | get
  | setTP (t : List Tri) (p : List P)
  | setMulti (l : List (List Tri × List P))
  | setPatches (l : List (List Tri × List P))
  | decache
  | rescale (f : P → P)

/-- the surface after one operation -/
def Op.run (s : Surf P) : Op P → Surf P
  | .get => s.get.1
  | .setTP t p => s.setTP t p
  | .setMulti l => s.setMulti l
  | .setPatches l => s.setPatches l
  | .decache => s.decache
  | .rescale f => s.rescale f

/-- the surface after some operations on an empty one -/
def runOps (ops : List (Op P)) : Surf P := ops.foldl Op.run ⟨[], none, none⟩

/-- the patches which the surface has been given last: an independent account of the history -/
def lastPatches (ops : List (Op P)) : List (List Tri × List P) :=
  ops.foldl (fun l o => match o with
    | .get => l
    | .setTP t p => [(t, p)]
    | .setMulti l' => l'
    | .setPatches l' => l'
    | .decache => l
    | .rescale f => l.map fun q => (q.1, q.2.map f)) []

/-- the arrays expected for some patches -/
def expected (l : List (List Tri × List P)) : Option (List Tri) × Option (List P) :=
  ((composite l).map (·.1), (composite l).map (·.2))

/-- every populating of a surface which may have arrays in its cache is preceded by `decache` (or the surface is new), except for that
from triangles and points: `fresh` tells whether the cache is known to be empty -/
def Disciplined : Bool → List (Op P) → Prop
  | _, [] => True
  | _, .get :: r => Disciplined false r
  | _, .setTP _ _ :: r => Disciplined false r
  | fresh, .setMulti _ :: r => fresh = true ∧ Disciplined true r
  | fresh, .setPatches _ :: r => fresh = true ∧ Disciplined true r
  | _, .decache :: r => Disciplined true r
  | _, .rescale _ :: r => Disciplined true r

theorem cache_ok (ops : List (Op P)) : ∀ (s : Surf P) (l : List (List Tri × List P)) (fresh : Bool), Disciplined fresh ops → s.patches = l →
    ((s.triangles, s.points) = (none, none) ∨ (fresh = false ∧ (s.triangles, s.points) = expected l)) →
    let s' := ops.foldl Op.run s
    let l' := ops.foldl (fun l o => match o with
      | .get => l
      | .setTP t p => [(t, p)]
      | .setMulti l' => l'
      | .setPatches l' => l'
      | .decache => l
      | .rescale f => l.map fun q => (q.1, q.2.map f)) l
    s'.patches = l' ∧ ((s'.triangles, s'.points) = (none, none) ∨ (s'.triangles, s'.points) = expected l') := by
  induction ops with
  | nil =>
    intro s l fresh _ h1 h2
    exact ⟨h1, h2.imp id (·.2)⟩
  | cons o r ih =>
    intro s l fresh hd h1 h2
    cases o with
    | get =>
      refine ih s.get.1 l false hd ?_ ?_
      · unfold Surf.get
        cases s.triangles with
        | some x => exact h1
        | none => cases composite s.patches <;> exact h1
      · unfold Surf.get
        rcases h2 with h2 | ⟨_, h2⟩
        · simp only [Prod.mk.injEq] at h2
          rw [h2.1, h1]
          cases hc : composite l with
          | none => exact .inl (by simp [h2])
          | some q => exact .inr ⟨rfl, by simp [expected, hc]⟩
        · cases ht : s.triangles with
          | some x =>
            right
            refine ⟨rfl, ?_⟩
            exact h2
          | none =>
            rw [h1]
            cases hc : composite l with
            | none => exact .inr ⟨rfl, h2⟩
            | some q => exact .inr ⟨rfl, by simp [expected, hc]⟩
    | setTP t p => exact ih (s.setTP t p) [(t, p)] false hd rfl (.inr ⟨rfl, rfl⟩)
    | setMulti l' =>
      obtain ⟨hf, hd⟩ := hd
      refine ih (s.setMulti l') l' true hd rfl (.inl ?_)
      rcases h2 with h2 | ⟨h2, _⟩
      · simp only [Prod.mk.injEq] at h2
        simp [Surf.setMulti, h2.1]
      · rw [hf] at h2; cases h2
    | setPatches l' =>
      obtain ⟨hf, hd⟩ := hd
      refine ih (s.setPatches l') l' true hd rfl (.inl ?_)
      rcases h2 with h2 | ⟨h2, _⟩
      · exact h2
      · rw [hf] at h2; cases h2
    | decache => exact ih s.decache l true hd h1 (.inl rfl)
    | rescale f => exact ih (s.rescale f) (l.map fun q => (q.1, q.2.map f)) true hd (by simp [Surf.rescale, h1]) (.inl rfl)

/-- **C146** (partial) In a history in which no populating other than that from triangles and points happens while there may be arrays in
the cache, `triangles_and_points` returns the arrays of the patches last given, after all rescaling since. -/
theorem C146_history_partial (ops : List (Op P)) (h : Disciplined true ops) :
    (runOps ops).get.2 = expected (lastPatches ops) := by
  obtain ⟨h1, h2⟩ := cache_ok ops ⟨[], none, none⟩ [] true h rfl (.inl rfl)
  change (runOps ops).patches = lastPatches ops at h1
  change ((runOps ops).triangles, (runOps ops).points) = (none, none) ∨
    ((runOps ops).triangles, (runOps ops).points) = expected (lastPatches ops) at h2
  unfold Surf.get
  rcases h2 with h2 | h2
  · simp only [Prod.mk.injEq] at h2
    rw [h2.1, h1]
    cases hc : composite (lastPatches ops) with
    | none => simp [expected, hc, h2.2]
    | some q => simp [expected, hc]
  · cases ht : (runOps ops).triangles with
    | some x =>
      rw [← h2, ht]
    | none =>
      rw [h1]
      cases hc : composite (lastPatches ops) with
      | none => rw [← h2, ht]
      | some q => simp [expected, hc]

example : Disciplined true [.setPatches [([(0, 1, 2)], [1, 2, 3])], .get, .rescale (fun x => 2 * x), .get, .decache,
    .setMulti [([(0, 1, 2)], [4, 5, 6])], .get, .setTP [(2, 1, 0)] [(7 : Int), 8, 9], .get] := by
  simp [Disciplined]

/-- **C146** (negation) Populating a surface anew, after its arrays have been asked for, leaves the old arrays to be returned. -/
theorem C146_repopulated_violated : ¬ ∀ ops : List (Op Int), (runOps ops).get.2 = expected (lastPatches ops) := by
  intro h
  have := h [.setPatches [([(0, 1, 2)], [1, 2, 3])], .get, .setPatches [([(0, 1, 2)], [4, 5, 6])]]
  revert this
  decide

/-- **C146** (negation) Populating from several patches, after the arrays have been asked for, gives the old triangles and no points. -/
theorem C146_multi_violated (l : List (List Tri × List Int)) :
    (runOps [.setTP [(0, 1, 2)] [1, 2, 3], .get, .setMulti l]).get.2 = (some [(0, 1, 2)], none) := rfl

end Verif.Surface
