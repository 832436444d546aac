import Verif.Refine.Inherit
import Verif.Refine.Props

/-! # C78: the properties a refined grid inherits -/

namespace Verif.Refine
open Verif.Py Verif.FineCoarse Verif.Box

/-- the lookup from fine to coarse has not been made before, so that it cannot be out of keeping with the ratios (see C07) -/
def LookupFresh (s : FC) : Prop := s.map = none

/-- the property is a continuous cell length along an axis, with one value for a cell -/
def IsLength (it : Item) : Prop :=
  it.continuous = true ∧ it.kind = "cell length" ∧ it.facetType = some "direction" ∧ it.count = 1

/-- the name of an axis -/
def axisName (a : Fin 3) : String := if a = 0 then "K" else if a = 1 then "J" else "I"

/-- the property is among those asked for: those of the realization if one is given, else those without one unless all are wanted -/
def Wanted (realization : Option Int) (copyAll : Bool) (it : Item) : Prop := match realization with
  | some r => it.realization = some r
  | none => copyAll = true ∨ it.realization = none

instance (r : Option Int) (c : Bool) (it : Item) : Decidable (Wanted r c it) := by unfold Wanted; split <;> infer_instance

theorem vectors_ok (s : FC) (hv : s.valid = true) (hm : LookupFresh s) :
    ∃ kv jv iv, vectors s = .ok (kv, jv, iv) ∧ (∀ c f l p, Within s 0 c f l p → look kv f = some c) ∧
      (∀ c f l p, Within s 1 c f l p → look jv f = some c) ∧ (∀ c f l p, Within s 2 c f l p → look iv f = some c) := by
  obtain ⟨r, hr⟩ := exists_ratios s (fun a => ⟨(valid_axes s hv a).1, (valid_axes s hv a).2.2.1⟩)
  obtain ⟨m, hme, hmo⟩ := setMapping_spec s r hr
  obtain ⟨kv, e0, l0, p0⟩ := hmo 0
  obtain ⟨jv, e1, l1, p1⟩ := hmo 1
  obtain ⟨iv, e2, l2, p2⟩ := hmo 2
  have own : ∀ a c f l p, Within s a c f l p → Owns (r a) c f := by
    intro a c f l p hw
    obtain ⟨h1, ⟨b, h2, h3⟩, ⟨q, h4, h5⟩, h6⟩ := hw
    have hc : c < (r a).length := by have := (hr a).len; omega
    have e2 : (s.ax a).fineBase c = .ok (b : Int) := h2
    have e3 : (s.ax a).ratio c = .ok (q : Int) := h4
    rw [(hr a).base c (by omega)] at e2
    rw [(hr a).ratio c hc] at e3
    have e2 := Except.ok.inj e2
    have e3 := Except.ok.inj e3
    have := take_succ_sum (r a) c hc
    exact ⟨hc, by omega, by omega⟩
  have get : ∀ (v : AxisMap) (c f : Nat), pyGet v (f : Int) = .ok (some (c : Int)) → look v f = some c := by
    intro v c f h
    unfold pyGet at h
    dsimp only at h
    rw [if_neg (show ¬ (f : Int) < 0 by omega), if_neg (show ¬ (f : Int) < 0 by omega), Int.toNat_natCast] at h
    unfold look
    cases hv : v[f]? with
    | none => rw [hv] at h; cases h
    | some x =>
      rw [hv] at h
      have := Except.ok.inj h
      subst this
      rfl
  refine ⟨kv, jv, iv, ?_, fun c f l p h => get _ _ _ (p0 _ _ (own 0 c f l p h)), fun c f l p h => get _ _ _ (p1 _ _ (own 1 c f l p h)),
    fun c f l p h => get _ _ _ (p2 _ _ (own 2 c f l p h))⟩
  unfold vectors coarseForFineAxialVector ensureMapping
  unfold LookupFresh at hm
  simp only [hm, hme, e0, e1, e2]

theorem proportionsForAxis_get (s : FC) (hv : s.valid = true) (a : Fin 3) :
    ∃ ps, (s.ax a).proportionsForAxis = .ok ps ∧ ∀ c f l p, Within s a c f l p → ps[f]? = p[l]? := by
  obtain ⟨f0, -, v0, q0⟩ := valid_axes s hv a
  obtain ⟨ps, hl, hp, he⟩ := C37_proportions_for_axis _ v0 f0 q0
  obtain ⟨n, R, p', d⟩ := axisData _ v0 f0 q0
  have hn : ps.length = n := by have := d.coarse; omega
  refine ⟨ps.flatten, he, ?_⟩
  intro c f l p hw
  obtain ⟨h1, h2, rfl, rfl⟩ := (within_iff d).1 hw
  have hps : ps = (List.range n).map p' := by
    apply List.ext_getElem
    · simp [hn]
    · intro i hi hi'
      have e1 := hp i hi
      rw [d.prop i (by omega)] at e1
      rw [List.getElem_map, List.getElem_range]
      exact (Except.ok.inj e1).symm
  have := (getElem_flatMap_range n p' R (fun c hc => d.len c hc)).2 c l h1 h2
  rw [hps, ← List.flatMap_def]
  exact this

/-- A property which is not constant and has a value for each cell is sampled: the value of a fine cell is that of the coarse cell it is
in, unless the property is a cell length along an axis. -/
theorem C78_sampled (upper : String → String) (s : FC) (hv : s.valid = true) (hm : LookupFresh s) (it : Item) (hc : it.constant = none)
    (hcells : it.indexable = "cells") (hshape : it.shape = ((s.ax 0).coarse, (s.ax 1).coarse, (s.ax 2).coarse)) (hlen : ¬ IsLength it) :
    ∃ x a, inheritOne upper s it = .ok x ∧ x.values = some a ∧ x.constant = none ∧ x.indexable = "cells" ∧
      (x.title = it.title ∧ x.kind = it.kind ∧ x.facetType = it.facetType ∧ x.facet = it.facet ∧ x.uom = it.uom ∧
        x.realization = it.realization ∧ x.discrete = !it.continuous) ∧
      ∀ ck cj ci k j i lk lj li pk pj pi, Within s 0 ck k lk pk → Within s 1 cj j lj pj → Within s 2 ci i li pi →
        a k j i = some (it.values ck cj ci) := by
  obtain ⟨kv, jv, iv, e, w0, w1, w2⟩ := vectors_ok s hv hm
  have hb : (it.continuous && it.kind == "cell length" && it.facetType == some "direction" && it.count == 1) = false := by
    cases hx : (it.continuous && it.kind == "cell length" && it.facetType == some "direction" && it.count == 1) with
    | false => rfl
    | true =>
      simp only [Bool.and_eq_true, beq_iff_eq] at hx
      exact absurd ⟨hx.1.1.1, hx.1.1.2, hx.1.2, hx.2⟩ hlen
  unfold inheritOne resample
  rw [hc]
  dsimp only
  rw [if_neg (by rw [hcells]; simp), if_neg (by rw [hshape]; simp), e]
  dsimp only
  rw [hb]
  refine ⟨_, _, rfl, rfl, rfl, rfl, ⟨rfl, rfl, rfl, rfl, rfl, rfl, rfl⟩, ?_⟩
  intro ck cj ci k j i lk lj li pk pj pi hk hj hi
  rw [w0 _ _ _ _ hk, w1 _ _ _ _ hj, w2 _ _ _ _ hi]

/-- the slice within the coarse cell, and the proportions, along an axis -/
def pick {α : Type} (a : Fin 3) (x y z : α) : α := if a = 0 then x else if a = 1 then y else z

/-- The values of a cell length along an axis which is not constant are those of the coarse cells scaled by the proportions along that
axis. -/
theorem C78_lengths (upper : String → String) (s : FC) (hv : s.valid = true) (hm : LookupFresh s) (it : Item) (hc : it.constant = none)
    (hcells : it.indexable = "cells") (hshape : it.shape = ((s.ax 0).coarse, (s.ax 1).coarse, (s.ax 2).coarse)) (hlen : IsLength it)
    (axis : Fin 3) (f : String) (hf : it.facet = some f) (haxis : upper f = axisName axis) :
    ∃ x a, inheritOne upper s it = .ok x ∧ x.values = some a ∧ x.constant = none ∧
      ∀ ck cj ci k j i lk lj li pk pj pi, Within s 0 ck k lk pk → Within s 1 cj j lj pj → Within s 2 ci i li pi →
        ∃ share, (pick axis pk pj pi)[pick axis lk lj li]? = some share ∧ a k j i = some (it.values ck cj ci * share) := by
  obtain ⟨kv, jv, iv, e, w0, w1, w2⟩ := vectors_ok s hv hm
  have hb : (it.continuous && it.kind == "cell length" && it.facetType == some "direction" && it.count == 1) = true := by
    obtain ⟨h1, h2, h3, h4⟩ := hlen
    simp [h1, h2, h3, h4]
  obtain ⟨ps0, q0, g0⟩ := proportionsForAxis_get s hv 0
  obtain ⟨ps1, q1, g1⟩ := proportionsForAxis_get s hv 1
  obtain ⟨ps2, q2, g2⟩ := proportionsForAxis_get s hv 2
  unfold inheritOne resample
  rw [hc]
  dsimp only
  rw [if_neg (by rw [hcells]; simp), if_neg (by rw [hshape]; simp), e]
  dsimp only
  rw [hb, if_pos rfl, hf]
  unfold scaleLengths
  dsimp only
  rw [haxis]
  have h3 : axis = 0 ∨ axis = 1 ∨ axis = 2 := by omega
  rcases h3 with rfl | rfl | rfl
  · rw [if_pos (show axisName 0 = "K" from rfl), q0]
    refine ⟨_, _, rfl, rfl, rfl, ?_⟩
    intro ck cj ci k j i lk lj li pk pj pi hk hj hi
    refine ⟨pk[lk]'(within_length hv hk), List.getElem?_eq_getElem _, ?_⟩
    rw [w0 _ _ _ _ hk, w1 _ _ _ _ hj, w2 _ _ _ _ hi, g0 _ _ _ _ hk, List.getElem?_eq_getElem (within_length hv hk)]
  · rw [if_neg (show ¬ axisName 1 = "K" by decide), if_pos (show axisName 1 = "J" from rfl), q1]
    refine ⟨_, _, rfl, rfl, rfl, ?_⟩
    intro ck cj ci k j i lk lj li pk pj pi hk hj hi
    refine ⟨pj[lj]'(within_length hv hj), List.getElem?_eq_getElem _, ?_⟩
    rw [w0 _ _ _ _ hk, w1 _ _ _ _ hj, w2 _ _ _ _ hi, g1 _ _ _ _ hj, List.getElem?_eq_getElem (within_length hv hj)]
  · rw [if_neg (show ¬ axisName 2 = "K" by decide), if_neg (show ¬ axisName 2 = "J" by decide),
      if_pos (show axisName 2 = "I" from rfl), q2]
    refine ⟨_, _, rfl, rfl, rfl, ?_⟩
    intro ck cj ci k j i lk lj li pk pj pi hk hj hi
    refine ⟨pi[li]'(within_length hv hi), List.getElem?_eq_getElem _, ?_⟩
    rw [w0 _ _ _ _ hk, w1 _ _ _ _ hj, w2 _ _ _ _ hi, g2 _ _ _ _ hi, List.getElem?_eq_getElem (within_length hv hi)]

/-- The lengths of the fine cells which make up a coarse cell along K add up to its length: exactly if the proportions add up to one,
which those that are equal do. -/
theorem C78_lengths_add_up (upper : String → String) (s : FC) (hv : s.valid = true) (hm : LookupFresh s) (it : Item)
    (hc : it.constant = none) (hcells : it.indexable = "cells")
    (hshape : it.shape = ((s.ax 0).coarse, (s.ax 1).coarse, (s.ax 2).coarse)) (hlen : IsLength it)
    (f : String) (hf : it.facet = some f) (haxis : upper f = "K") (x : Imported) (hx : inheritOne upper s it = .ok x)
    (ck cj ci b j i lj li : Nat) (pk pj pi : List ℚ) (hk : Within s 0 ck b 0 pk) (hj : Within s 1 cj j lj pj) (hi : Within s 2 ci i li pi) :
    ∃ a, x.values = some a ∧
      ((List.range pk.length).map fun l => (a (b + l) j i).getD 0).sum = it.values ck cj ci * pk.sum ∧
      ((s.ax 0).equal = true → pk.sum = 1) := by
  obtain ⟨x', a, h1, h2, -, h3⟩ := C78_lengths upper s hv hm it hc hcells hshape hlen 0 f hf haxis
  rw [hx] at h1
  cases h1
  obtain ⟨f0, -, v0, q0⟩ := valid_axes s hv 0
  obtain ⟨n, R, p', d⟩ := axisData _ v0 f0 q0
  obtain ⟨a1, a2, a3, rfl⟩ := (within_iff d).1 hk
  refine ⟨a, h2, ?_, ?_⟩
  · have hlist : (p' ck) = (List.range (p' ck).length).map fun l => ((p' ck)[l]?).getD 0 := by
      apply List.ext_getElem
      · simp
      · intro l hl hl'
        rw [List.getElem_map, List.getElem_range, List.getElem?_eq_getElem hl]
        rfl
    have hsum : it.values ck cj ci * (p' ck).sum =
        ((List.range (p' ck).length).map fun l => it.values ck cj ci * ((p' ck)[l]?).getD 0).sum := by
      rw [List.sum_map_mul_left, ← hlist]
    rw [hsum]
    congr 1
    apply List.map_congr_left
    intro l hl
    have hl' : l < R ck := by rw [List.mem_range, d.len ck a1] at hl; exact hl
    obtain ⟨share, e1, e2⟩ := h3 ck cj ci (b + l) j i l lj li (p' ck) pj pi
      ((within_iff d).2 ⟨a1, hl', by omega, rfl⟩) hj hi
    rw [e2]
    have e1 : (p' ck)[l]? = some share := e1
    simp [e1]
  · intro he
    have hp := d.prop ck a1
    have hpos := d.pos ck a1
    simp only [Axis.proportion, he, if_true, d.ratio ck a1, ok_bind, if_neg (show ¬ ((R ck : Nat) : Int) = 0 by omega),
      if_neg (show ¬ ((R ck : Nat) : Int) < 0 by omega)] at hp
    have hp := Except.ok.inj hp
    rw [← hp]
    simp only [Int.toNat_natCast, List.sum_replicate, nsmul_eq_mul]
    push_cast
    have : ((R ck : Nat) : ℚ) ≠ 0 := by exact_mod_cast (show R ck ≠ 0 by omega)
    field_simp

/-- Which properties are inherited: those asked for, in order, each of them imported. -/
theorem C78_selected (upper : String → String) (s : FC) (realization : Option Int) (copyAll : Bool) (items : List Item)
    (xs : List Imported) (h : inheritAll upper s realization copyAll items = .ok xs) :
    List.Forall₂ (fun it x => inheritOne upper s it = .ok x) (items.filter fun it => decide (Wanted realization copyAll it)) xs := by
  have gen : ∀ (l : List Item) (xs : List Imported), inheritAll.loop upper s realization copyAll l = .ok xs →
      List.Forall₂ (fun it x => inheritOne upper s it = .ok x) (l.filter fun it => !(!copyAll && it.realization != realization)) xs := by
    intro l
    induction l with
    | nil => intro xs h; cases h; exact .nil
    | cons it l ih =>
      intro xs h
      unfold inheritAll.loop at h
      cases hb : (!copyAll && it.realization != realization) with
      | true =>
        rw [hb, if_pos rfl] at h
        rw [List.filter_cons_of_neg (by simp [hb])]
        exact ih xs h
      | false =>
        rw [hb, if_neg (by simp)] at h
        rw [List.filter_cons_of_pos (by simp [hb])]
        cases h1 : inheritOne upper s it with
        | error e => rw [h1] at h; cases h
        | ok x =>
          rw [h1] at h
          dsimp only at h
          cases h2 : inheritAll.loop upper s realization copyAll l with
          | error e => rw [h2] at h; cases h
          | ok ys =>
            rw [h2] at h
            cases h
            exact .cons h1 (ih ys h2)
  unfold inheritAll at h
  have := gen _ _ h
  cases realization with
  | none =>
    dsimp only at this
    convert this using 2
    funext it
    unfold Wanted
    dsimp only
    by_cases hr : it.realization = none <;> cases copyAll <;> simp [hr]
  | some r =>
    dsimp only at this
    rw [List.filter_filter] at this
    convert this using 2
    funext it
    unfold Wanted
    dsimp only
    by_cases hr : it.realization = some r <;> cases copyAll <;> simp [hr]

/-- the value of a property at a cell, constant or not -/
def Item.at (it : Item) (k j i : Nat) : ℚ := it.constant.getD (it.values k j i)

/-- the value of an inherited property at a cell, constant or not -/
def Imported.at (x : Imported) (k j i : Nat) : Option ℚ := match x.constant, x.values with
  | some v, _ => some v
  | none, some a => a k j i
  | none, none => none

/-- that the lengths of the fine cells making up a coarse cell add up to its length, for all properties -/
def LengthsAddUp : Prop :=
  ∀ (upper : String → String) (s : FC) (it : Item) (x : Imported), s.valid = true → LookupFresh s → IsLength it → it.indexable = "cells" →
    it.shape = ((s.ax 0).coarse, (s.ax 1).coarse, (s.ax 2).coarse) → (s.ax 0).equal = true →
    (∃ f, it.facet = some f ∧ upper f = "K") → inheritOne upper s it = .ok x →
    ∀ (ck cj ci b j i lj li : Nat) (pk pj pi : List ℚ), Within s 0 ck b 0 pk → Within s 1 cj j lj pj → Within s 2 ci i li pi →
      ((List.range pk.length).map fun l => (x.at (b + l) j i).getD 0).sum = it.at ck cj ci

/-- refinement of a layer into two, for the examples -/
def exTwo : FC := ⟨fun a => if a = 0 then ⟨2, 1, some 2, none, true, none⟩ else ⟨1, 1, some 1, none, true, none⟩, none⟩

/-- a cell length along K, for the examples -/
def exLength (c : Option ℚ) : Item :=
  ⟨none, true, 1, "cells", "cell length", some "direction", some "K", "DZ", some "m", none, c, (1, 1, 1), fun _ _ _ => 6⟩

/-- A cell length given as a constant is not scaled: the lengths of the fine cells then do not add up to that of the coarse cell. -/
theorem C78_constant_length_violated : ¬ LengthsAddUp := by
  intro h
  have := h id exTwo (exLength (some 6)) _ (by decide +kernel) rfl ⟨rfl, rfl, rfl, rfl⟩ rfl rfl rfl ⟨"K", rfl, rfl⟩ rfl 0 0 0 0 0 0 0 0
    [1/2, 1/2] [1] [1]
    ⟨by decide, ⟨0, rfl, rfl⟩, ⟨2, rfl, by decide⟩, by decide +kernel⟩
    ⟨by decide, ⟨0, rfl, rfl⟩, ⟨1, rfl, by decide⟩, by decide +kernel⟩
    ⟨by decide, ⟨0, rfl, rfl⟩, ⟨1, rfl, by decide⟩, by decide +kernel⟩
  revert this
  decide +kernel

/-- The string lookup of a categorical property is not handed on. -/
theorem C78_string_lookup_lost_violated :
    ¬ ∀ (upper : String → String) (s : FC) (it : Item) (x : Imported), s.valid = true → LookupFresh s →
        inheritOne upper s it = .ok x → x.lookup = it.lookup := by
  intro h
  have := h id exTwo { exLength (some 1) with continuous := false, kind := "facies", facetType := none, facet := none, lookup := some "table" }
    _ (by decide +kernel) rfl rfl
  cases this

/-- the hypotheses of `C78_lengths` and `C78_lengths_add_up` can be met, with a length of six divided into two -/
example : exTwo.valid = true ∧ LookupFresh exTwo ∧ IsLength (exLength none) ∧
    (∃ x, inheritOne id exTwo (exLength none) = .ok x ∧ x.at 0 0 0 = some 3 ∧ x.at 1 0 0 = some 3) :=
  ⟨by decide +kernel, rfl, ⟨rfl, rfl, rfl, rfl⟩, _, rfl, by decide +kernel, by decide +kernel⟩

/-- properties of two realizations and without one -/
example : ((inheritAll id exTwo (some 1) false [{ exLength none with realization := some 1, title := "a" }, exLength none,
    { exLength none with realization := some 2 }]).toOption.map fun l => l.map fun x => x.title) = some ["a"] := by decide +kernel

end Verif.Refine
