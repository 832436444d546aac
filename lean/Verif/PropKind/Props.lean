import Verif.PropKind.Model
import Mathlib.Data.List.Basic

/-! # C204: bespoke property kinds -/

namespace Verif.PropKind
open Verif.Py

/-- The same but for uuid and unit. -/
def SameBut (a b : Kind) : Prop := a.title = b.title ∧ a.parent = b.parent ∧ a.abstract = b.abstract ∧ a.naming = b.naming ∧ a.extra = b.extra

theorem equivalent_iff (a b : Kind) : equivalent a b = true ↔ a.uuid = b.uuid ∨ SameBut a b ∧ (a.uom = none ∨ b.uom = none ∨ a.uom = b.uom) := by
  unfold equivalent SameBut
  by_cases h1 : a.uuid = b.uuid
  · simp [h1]
  · by_cases h2 : a.parent ≠ b.parent ∨ a.title ≠ b.title ∨ a.abstract ≠ b.abstract ∨ a.naming ≠ b.naming
    · rw [if_neg h1, if_pos h2]
      simp only [h1, false_or, Bool.false_eq_true, false_iff]
      rintro ⟨⟨e1, e2, e3, e4, _⟩, _⟩
      rcases h2 with h | h | h | h
      · exact h e2
      · exact h e1
      · exact h e3
      · exact h e4
    · have h2' := h2
      simp only [not_or, not_not] at h2'
      rw [if_neg h1, if_neg h2]
      cases ha : a.uom <;> cases hb : b.uom <;> simp [h1, h2'] <;> tauto

theorem tryReuse_some (k : Kind) (s : List Kind) (hn : ∀ o ∈ s, o.uuid ≠ k.uuid) (u : Nat) (h : tryReuse k s = some u) :
    ∃ pre o post, s = pre ++ o :: post ∧ o.uuid = u ∧ equivalent k o = true ∧ ∀ x ∈ pre, equivalent k x = false := by
  induction s with
  | nil => simp [tryReuse] at h
  | cons a s ih =>
    have ha := hn a (by simp)
    simp only [tryReuse, if_neg (Ne.symm ha)] at h
    by_cases he : equivalent k a = true
    · rw [if_pos he] at h
      cases h
      exact ⟨[], a, s, rfl, rfl, he, by simp⟩
    · rw [if_neg he] at h
      obtain ⟨pre, o, post, rfl, h2, h3, h4⟩ := ih (fun o ho => hn o (by simp [ho])) h
      refine ⟨a :: pre, o, post, rfl, h2, h3, ?_⟩
      intro x hx
      rcases List.mem_cons.1 hx with rfl | hx
      · simpa using he
      · exact h4 x hx

theorem tryReuse_none (k : Kind) (s : List Kind) (hn : ∀ o ∈ s, o.uuid ≠ k.uuid) (h : tryReuse k s = none) : ∀ x ∈ s, equivalent k x = false := by
  induction s with
  | nil => simp
  | cons a s ih =>
    have ha := hn a (by simp)
    simp only [tryReuse, if_neg (Ne.symm ha)] at h
    by_cases he : equivalent k a = true
    · rw [if_pos he] at h; cases h
    · rw [if_neg he] at h
      intro x hx
      rcases List.mem_cons.1 hx with rfl | hx
      · simpa using he
      · exact ih (fun o ho => hn o (by simp [ho])) h x hx

theorem tryReuse_first (k : Kind) (pre : List Kind) (o : Kind) (post : List Kind) (hn : ∀ x ∈ pre ++ o :: post, x.uuid ≠ k.uuid)
    (hp : ∀ x ∈ pre, equivalent k x = false) (ho : equivalent k o = true) : tryReuse k (pre ++ o :: post) = some o.uuid := by
  induction pre with
  | nil => simp [tryReuse, Ne.symm (hn o (by simp)), ho]
  | cons a pre ih =>
    have ha := hn a (by simp)
    simp only [List.cons_append, tryReuse, if_neg (Ne.symm ha), hp a (by simp), Bool.false_eq_true, if_false]
    exact ih (fun x hx => hn x (by simp only [List.cons_append, List.mem_cons]; exact Or.inr hx)) fun x hx => hp x (by simp [hx])

theorem not_any (s : List Kind) (u : Nat) (hn : ∀ o ∈ s, o.uuid ≠ u) : (s.any fun o => o.uuid = u) = false := by
  rw [List.any_eq_false]
  intro x hx
  simpa using hn x hx

/-- Every property kind of the model has a unit. -/
def WithUnits (s : List Kind) : Prop := ∀ o ∈ s, o.uom ≠ none

theorem create_units (s : List Kind) (k : Kind) (h : WithUnits s) : WithUnits (create s k).2 := by
  unfold create
  split
  · exact h
  · split
    · exact h
    · intro o ho
      rcases List.mem_append.1 ho with ho | ho
      · exact h o ho
      · rw [List.mem_singleton] at ho
        subst ho; simp [stored]

theorem run_units (ks : List Kind) : ∀ (s : List Kind), WithUnits s → WithUnits (run s ks) := by
  induction ks with
  | nil => intro s h; exact h
  | cons k ks ih => intro s h; exact ih _ (create_units s k h)

/-- C204: property kinds of a model stay as they are, in order, whatever is created. -/
theorem C204_kept (s ks : List Kind) : ∃ l, run s ks = s ++ l := by
  induction ks generalizing s with
  | nil => exact ⟨[], by simp [run]⟩
  | cons k ks ih =>
    obtain ⟨l, hl⟩ := ih (create s k).2
    have h1 : ∃ m, (create s k).2 = s ++ m := by
      unfold create
      split
      · exact ⟨[], by simp⟩
      · split
        · exact ⟨[], by simp⟩
        · exact ⟨_, rfl⟩
    obtain ⟨m, hm⟩ := h1
    refine ⟨m ++ l, ?_⟩
    show run (create s k).2 ks = _
    rw [hl, hm, List.append_assoc]

/-- C204 (in part): after any history a new object is stored, or takes the uuid of a property kind of the model with the same title, parent kind and other data,
and with the same unit if the object has one.  Missing: objects without a unit (`C204_unit_violated`, `C204_any_unit_violated`). -/
theorem C204_created_partial (ks : List Kind) (k : Kind) (hn : ∀ o ∈ run [] ks, o.uuid ≠ k.uuid) :
    ∃ o ∈ (create (run [] ks) k).2, o.uuid = (create (run [] ks) k).1 ∧ SameBut k o ∧ (k.uom ≠ none → o.uom = k.uom) := by
  have hu : WithUnits (run [] ks) := run_units ks [] (by simp [WithUnits])
  generalize run [] ks = s at *
  unfold create
  rw [if_neg (by rw [not_any s k.uuid hn]; simp)]
  cases h : tryReuse k s with
  | some u =>
    obtain ⟨pre, o, post, rfl, h2, h3, _⟩ := tryReuse_some k s hn u h
    refine ⟨o, by simp, h2, ?_⟩
    rcases (equivalent_iff k o).1 h3 with e | ⟨e1, e2⟩
    · exact absurd e.symm (hn o (by simp))
    · refine ⟨e1, fun hk => ?_⟩
      rcases e2 with e | e | e
      · exact absurd e hk
      · exact absurd e (hu o (by simp))
      · exact e.symm
  | none =>
    refine ⟨stored k, by simp, rfl, ⟨rfl, rfl, rfl, rfl, rfl⟩, fun hk => ?_⟩
    cases hm : k.uom with
    | none => exact absurd hm hk
    | some u => simp [stored, hm]

/-- C204: another object with the same data takes the same uuid, and the model gets no further property kind, whatever is created between. -/
theorem C204_reused (s ks : List Kind) (k k' : Kind) (hk : k' = { k with uuid := k'.uuid }) (hn : ∀ o ∈ s, o.uuid ≠ k.uuid)
    (hn' : ∀ o ∈ run (create s k).2 ks, o.uuid ≠ k'.uuid) :
    create (run (create s k).2 ks) k' = ((create s k).1, run (create s k).2 ks) := by
  obtain ⟨l, hl⟩ := C204_kept (create s k).2 ks
  rw [hl] at hn' ⊢
  have eqv : ∀ x : Kind, x.uuid ≠ k.uuid → x.uuid ≠ k'.uuid → equivalent k' x = equivalent k x := by
    intro x h1 h2
    rw [Bool.eq_iff_iff, equivalent_iff, equivalent_iff]
    rw [hk]
    simp only [SameBut, Ne.symm h1, Ne.symm h2, false_or]
  have key : ∃ pre o post, (create s k).2 = pre ++ o :: post ∧ o.uuid = (create s k).1 ∧ equivalent k' o = true ∧ ∀ x ∈ pre, equivalent k' x = false := by
    unfold create at hn' ⊢
    rw [if_neg (by rw [not_any s k.uuid hn]; simp)] at hn' ⊢
    cases h : tryReuse k s with
    | some u =>
      rw [h] at hn'
      obtain ⟨pre, o, post, rfl, h2, h3, h4⟩ := tryReuse_some k s hn u h
      have hx : ∀ x ∈ pre ++ o :: post, equivalent k' x = equivalent k x := fun x hx => eqv x (hn x hx) (hn' x (List.mem_append_left _ hx))
      refine ⟨pre, o, post, rfl, h2, by rw [hx o (by simp)]; exact h3, fun x hxp => ?_⟩
      rw [hx x (by simp [hxp])]; exact h4 x hxp
    | none =>
      rw [h] at hn'
      have h4 := tryReuse_none k s hn h
      refine ⟨s, stored k, [], rfl, rfl, ?_, fun x hxp => ?_⟩
      · rw [equivalent_iff, hk]
        refine Or.inr ⟨⟨rfl, rfl, rfl, rfl, rfl⟩, ?_⟩
        cases hm : k.uom with
        | none => exact Or.inl rfl
        | some u => simp [stored, hm]
      · rw [eqv x (hn x hxp) (hn' x (List.mem_append_left _ (List.mem_append_left _ hxp)))]; exact h4 x hxp
  obtain ⟨pre, o, post, h1, h2, h3, h4⟩ := key
  rw [h1] at hn' ⊢
  rw [← h2]
  have e : pre ++ o :: post ++ l = pre ++ o :: (post ++ l) := by simp
  rw [e] at hn' ⊢
  have ht := tryReuse_first k' pre o (post ++ l) hn' h4 h3
  conv_lhs => unfold create
  rw [if_neg (by rw [not_any _ k'.uuid hn']; simp), ht]

/-- C204 fails for an object without a unit: read again, it has the unit Euc. -/
theorem C204_unit_violated (s : List Kind) (k : Kind) (hk : k.uom = none) (hn : ∀ o ∈ s, o.uuid ≠ k.uuid) (hs : ∀ o ∈ s, equivalent k o = false) :
    ∃ o ∈ (create s k).2, o.uuid = (create s k).1 ∧ o.uuid = k.uuid ∧ o.uom = some "Euc" := by
  have ht : tryReuse k s = none := by
    cases h : tryReuse k s with
    | none => rfl
    | some u =>
      obtain ⟨pre, o, post, rfl, _, h3, _⟩ := tryReuse_some k s hn u h
      rw [hs o (by simp)] at h3; cases h3
  unfold create
  rw [if_neg (by rw [not_any s k.uuid hn]; simp), ht]
  exact ⟨stored k, by simp, rfl, rfl, by simp [stored, hk]⟩

/-- C204 fails for an object without a unit: it is taken for a property kind of the model of any unit, so that kinds with different units are both
equivalent to it but not to each other. -/
theorem C204_any_unit_violated (k : Kind) (u v w : Nat) (hu : u ≠ k.uuid) (hv : v ≠ k.uuid) (huv : u ≠ v) (a b : String) (hab : a ≠ b) (hk : k.uom = none) :
    equivalent k { k with uuid := u, uom := some a } = true ∧ equivalent k { k with uuid := v, uom := some b } = true ∧
    equivalent { k with uuid := u, uom := some a } { k with uuid := v, uom := some b } = false ∧
    (create [{ k with uuid := u, uom := some a }] { k with uuid := w }).1 = (if w = u then w else u) := by
  refine ⟨?_, ?_, ?_, ?_⟩
  · simp [equivalent, hk]
  · simp [equivalent, hk]
  · simp [equivalent, huv, hab]
  · by_cases h : w = u
    · simp [create, h]
    · simp [create, tryReuse, equivalent, h, Ne.symm h, hk]

/-- C204: the property kind for zones is the same each time, and is stored at most once, whatever is created between. -/
theorem C204_zone (s ks : List Kind) (u v : Nat) (hu : ∀ o ∈ s, o.uuid ≠ u) (hv : ∀ o ∈ run (establishZone s u).2 ks, o.uuid ≠ v) :
    establishZone (run (establishZone s u).2 ks) v = ((establishZone s u).1, run (establishZone s u).2 ks) :=
  C204_reused s ks _ _ rfl hu hv

/-- C204 fails for zones where the model has a property kind titled zone with another parent kind (or other data): it is not found, and a second one with the title is
added. -/
theorem C204_zone_violated (z : Kind) (_ht : z.title = "zone") (hp : z.parent ≠ "discrete") (u : Nat) (hu : u ≠ z.uuid) :
    (establishZone [z] u).1 = u ∧ ∃ n, (establishZone [z] u).2 = [z, n] ∧ n.title = "zone" := by
  have h : tryReuse ⟨u, "zone", "discrete", false, "urn:resqml:bp.com:resqpy", none, []⟩ [z] = none := by
    simp [tryReuse, hu, equivalent, Ne.symm hp]
  have h2 : establishZone [z] u = (u, [z] ++ [stored ⟨u, "zone", "discrete", false, "urn:resqml:bp.com:resqpy", none, []⟩]) := by
    unfold establishZone create
    rw [if_neg (by simp [Ne.symm hu]), h]
  rw [h2]
  exact ⟨rfl, _, rfl, rfl⟩

/-- A kind of a continuous property, with metres -/
def exKind : Kind := ⟨1, "net thickness", "thickness", false, "urn:resqml:bp.com:resqpy", some "m", []⟩

example : (create (run [] [exKind]) { exKind with uuid := 2, uom := some "ft" }).1 = 2 ∧ (create (run [] [exKind]) { exKind with uuid := 2, uom := none }).1 = 1 ∧
    (create (run [] [exKind]) { exKind with uuid := 2 }) = (1, [exKind]) ∧ (establishZone (establishZone [exKind] 5).2 6).1 = 5 := by decide +kernel

end Verif.PropKind
