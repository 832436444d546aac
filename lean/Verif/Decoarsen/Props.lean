import Verif.Decoarsen.Lemmas
import Mathlib.Data.Rat.Floor
import Mathlib.Tactic.IntervalCases

/-! # C76: decoarsening of imported properties -/

namespace Verif.Decoarsen
open Verif.Py

variable {K : Type} [Field K] [CharZero K]

theorem decoarsen_ok {e : Ext} (b : Boxes e) (d : Arr Nat) (hd : ArrayFor b d) (sh : Option (Arr Share))
    (hs : ∀ s ∈ sh, ∀ c, InGrid e c → s c = b.size c) (hne : ∃ c, InGrid e c ∧ b.host c ≠ c) (reactivate : Bool) (items : List (Item K))
    (inactive : Arr Bool) (h : ∀ t ∈ items, Wanted t → rule t.kind t.facetType t.facet ≠ .skip) :
    ∃ items' inactive', decoarsen e d sh reactivate items inactive = .ok (items', inactive', true) ∧
      Decoarsened b reactivate items items' inactive inactive' := by
  have h1 : ¬ (e.cells.all fun c => decide (d c = e.natural c)) = true := by
    rw [List.all_eq_true]
    intro hall
    obtain ⟨c, hc, hh⟩ := hne
    have := of_decide_eq_true (hall c (mem_cells.2 hc))
    rw [hd c hc] at this
    exact hh (natural_inj (b.host_in hc) hc this)
  have h2 : ¬ (e.cells.any fun c => decide (e.count ≤ d c)) = true := by
    rw [List.any_eq_true]
    rintro ⟨c, hc, h⟩
    have hc := mem_cells.1 hc
    have := of_decide_eq_true h
    rw [hd c hc] at this
    have := natural_lt (b.host_in hc)
    omega
  have hs' : ∀ c, InGrid e c → sh.getD (shares e d) c = b.size c := by
    cases sh with
    | none => exact fun c hc => shares_eq b d hd c hc
    | some s => exact fun c hc => hs s rfl c hc
  unfold decoarsen
  rw [if_neg h1, if_neg h2, redistribute_ok e d _ items none h]
  refine ⟨_, _, rfl, ?_, fun c hc => ?_⟩
  · rw [List.forall₂_map_right_iff]
    refine List.forall₂_same.2 fun t _ => ?_
    by_cases hw : Wanted t
    · rw [if_pos hw, if_pos hw]
      exact ⟨rfl, shareOut_spread b d _ hd hs' _ (fun a ha => rule_axis _ _ _ a ha) t.values⟩
    · rw [if_neg hw, if_neg hw]; exact ⟨rfl, rfl⟩
  · cases reactivate with
    | false => rfl
    | true =>
      show inactive (e.cellOf (d c)) = inactive (b.host c)
      rw [hd c hc, cellOf_natural (b.host_in hc)]

/-- **C76 (ICOARS).**  The grid is divided into boxes of cells in any way, not all of them single cells, and the ICOARS array has for each cell the (one based)
natural index of the first cell of its box, which holds the coarse values.  Then decoarsening succeeds: volumes are shared out equally
with the total over the box kept; lengths with the total along each line of cells in their direction kept; other values are copied from
the host to every cell of the box; a cell is inactive exactly when its host was.
Partial: there may be no transmissibility, nor length without direction; see `C76_skipped_property_violated`. -/
theorem C76_icoars_partial {e : Ext} (b : Boxes e) (icoars : Arr Nat) (hi : ∀ c, InGrid e c → icoars c = e.natural (b.host c) + 1)
    (hne : ∃ c, InGrid e c ∧ b.host c ≠ c) (kid : Option (Arr Int)) (reactivate : Bool) (items : List (Item K)) (inactive : Arr Bool)
    (h : ∀ t ∈ items, Wanted t → rule t.kind t.facetType t.facet ≠ .skip) :
    ∃ items' inactive', decoarsenImported e (some icoars) kid reactivate items inactive = .ok (items', inactive', true) ∧
      Decoarsened b reactivate items items' inactive inactive' :=
  decoarsen_ok b _ (fun c hc => by show icoars c - 1 = _; rw [hi c hc]; omega) none (fun s hs => by cases hs) hne reactivate items inactive h

/-- **C76 (KID).**  The same without ICOARS, from KID data, if the boxes are such that the cell following a box in each direction from
its host is a host. -/
theorem C76_kid_partial {e : Ext} (b : Boxes e) (kid : Arr Int) (hk : KidFor b kid) (ha : Aligned b)
    (hne : ∃ c, InGrid e c ∧ b.host c ≠ c) (reactivate : Bool) (items : List (Item K)) (inactive : Arr Bool)
    (h : ∀ t ∈ items, Wanted t → rule t.kind t.facetType t.facet ≠ .skip) :
    ∃ items' inactive', decoarsenImported e none (some kid) reactivate items inactive = .ok (items', inactive', true) ∧
      Decoarsened b reactivate items items' inactive inactive' := by
  obtain ⟨d, sh, hf, hd, hs⟩ := fromKid_eq b kid hk ha hne
  unfold decoarsenImported
  dsimp only
  rw [hf]
  exact decoarsen_ok b d hd (some sh) (fun s hs' => by cases hs'; exact hs) hne reactivate items inactive h

/-- **C76 (nothing to do).**  Where every cell is its own host the properties and the mask are left as they were. -/
theorem C76_identity (e : Ext) (icoars : Arr Nat) (hi : ∀ c, InGrid e c → icoars c = e.natural c + 1) (kid : Option (Arr Int))
    (reactivate : Bool) (items : List (Item K)) (inactive : Arr Bool) :
    decoarsenImported e (some icoars) kid reactivate items inactive = .ok (items, inactive, false) := by
  unfold decoarsenImported decoarsen
  dsimp only
  refine if_pos ?_
  rw [List.all_eq_true]
  intro c hc
  have := hi c (mem_cells.1 hc)
  rw [decide_eq_true_eq]
  show icoars c - 1 = _
  omega

/-- **C76 (kinds).**  Volumes are shared out over the box, thicknesses in the K direction and cell lengths in their own; values of any
kind not among those named are copied. -/
theorem C76_kinds :
    (∀ ft f, ∀ kind ∈ ["volume", "rock volume", "pore volume", "fluid volume"], rule kind ft f = .volume) ∧
    (∀ ft f, ∀ kind ∈ ["thickness", "permeability thickness"], rule kind ft f = .along 0) ∧
    (∀ kind ∈ ["length", "cell length", "permeability length"], rule kind (some "direction") (some "K") = .along 0 ∧
      rule kind (some "direction") (some "J") = .along 1 ∧ rule kind (some "direction") (some "I") = .along 2) ∧
    (∀ ft f kind, kind ∉ ["volume", "rock volume", "pore volume", "fluid volume", "transmissibility", "length", "cell length", "thickness",
      "permeability thickness", "permeability length"] → rule kind ft f = .copy) := by
  refine ⟨fun ft f kind h => ?_, fun ft f kind h => ?_, by decide +kernel, fun ft f kind h => ?_⟩
  · unfold rule; rw [if_pos h]
  · simp only [List.mem_cons, List.not_mem_nil, or_false] at h
    rcases h with rfl | rfl <;> simp [rule]
  · simp only [List.mem_cons, List.not_mem_nil, or_false, not_or] at h
    simp [rule, h]

/-! ## Boxes made by planes -/

/-- the division of a grid along planes, with boxes of `p`, `q` and `r` cells except at the far sides -/
def planes (e : Ext) (p q r : Nat) (hp : 0 < p) (hq : 0 < q) (hr : 0 < r) : Boxes e where
  host c := ⟨c.k / p * p, c.j / q * q, c.i / r * r⟩
  size c := ⟨min p (e.nk - c.k / p * p), min q (e.nj - c.j / q * q), min r (e.ni - c.i / r * r)⟩
  mem c hc := by
    obtain ⟨h1, h2, h3⟩ := hc
    have a1 := Nat.div_add_mod c.k p; have a2 := Nat.mod_lt c.k hp
    have b1 := Nat.div_add_mod c.j q; have b2 := Nat.mod_lt c.j hq
    have c1 := Nat.div_add_mod c.i r; have c2 := Nat.mod_lt c.i hr
    rw [Nat.mul_comm] at a1 b1 c1
    refine ⟨⟨?_, ?_⟩, ⟨?_, ?_⟩, ?_, ?_⟩ <;> dsimp only <;> omega
  fits c hc x hx := by
    obtain ⟨⟨g1, h1⟩, ⟨g2, h2⟩, ⟨g3, h3⟩⟩ := hx
    dsimp only at g1 g2 g3 h1 h2 h3
    refine ⟨?_, ?_, ?_⟩ <;> omega
  same c hc x hx := by
    obtain ⟨⟨g1, h1⟩, ⟨g2, h2⟩, ⟨g3, h3⟩⟩ := hx
    dsimp only at g1 g2 g3 h1 h2 h3
    have e1 : x.k / p = c.k / p := by
      rw [Nat.div_eq_iff hp]; constructor <;> omega
    have e2 : x.j / q = c.j / q := by
      rw [Nat.div_eq_iff hq]; constructor <;> omega
    have e3 : x.i / r = c.i / r := by
      rw [Nat.div_eq_iff hr]; constructor <;> omega
    rw [e1, e2, e3]; exact ⟨rfl, rfl⟩

/-- such a division satisfies the condition for KID data -/
theorem C76_planes_aligned (e : Ext) (p q r : Nat) (hp : 0 < p) (hq : 0 < q) (hr : 0 < r) : Aligned (planes e p q r hp hq hr) := by
  intro c hc hh x hx hg
  have hk : c.k / p * p = c.k := congrArg Cell.k hh
  have hj : c.j / q * q = c.j := congrArg Cell.j hh
  have hi : c.i / r * r = c.i := congrArg Cell.i hh
  have s1 : (planes e p q r hp hq hr).size c = ⟨min p (e.nk - c.k), min q (e.nj - c.j), min r (e.ni - c.i)⟩ := by
    show (⟨_, _, _⟩ : Share) = _
    rw [hk, hj, hi]
  rw [s1] at hx
  simp only [List.mem_cons, List.not_mem_nil, or_false] at hx
  have step : ∀ a m : Nat, 0 < m → a / m * m = a → (a + m) / m * m = a + m := fun a m hm h => by
    rw [Nat.add_div_right _ hm, Nat.succ_mul, h]
  show (⟨x.k / p * p, x.j / q * q, x.i / r * r⟩ : Cell) = x
  rcases hx with rfl | rfl | rfl
  · have : min p (e.nk - c.k) = p := by
      have := hg.1; dsimp only at this; omega
    dsimp only
    rw [this, step _ _ hp hk, hj, hi]
  · have : min q (e.nj - c.j) = q := by
      have := hg.2.1; dsimp only at this; omega
    dsimp only
    rw [this, step _ _ hq hj, hk, hi]
  · have : min r (e.ni - c.i) = r := by
      have := hg.2.2; dsimp only at this; omega
    dsimp only
    rw [this, step _ _ hr hi, hk, hj]

example : ∃ (e : Ext) (b : Boxes e) (icoars : Arr Nat) (kid : Arr Int), (∀ c, InGrid e c → icoars c = e.natural (b.host c) + 1) ∧
    KidFor b kid ∧ Aligned b ∧ (∃ c, InGrid e c ∧ b.host c ≠ c) ∧ e.count = 60 := by
  let e : Ext := ⟨3, 4, 5⟩
  let b := planes e 2 2 3 (by decide) (by decide) (by decide)
  refine ⟨e, b, fun c => e.natural (b.host c) + 1, fun c => if b.host c = c then 0 else -3, fun c _ => rfl, fun c _ => ?_,
    C76_planes_aligned e 2 2 3 _ _ _, ⟨⟨1, 0, 0⟩, ⟨by decide, by decide, by decide⟩, by decide⟩, rfl⟩
  by_cases h : b.host c = c
  · rw [if_pos h]; left; simp only [if_pos h]
  · rw [if_neg h]; simp only [if_neg h]

/-! ## Where the code does not do it -/

omit [CharZero K] in
theorem redistribute_cons (e : Ext) (d : Arr Nat) (sh : Arr Share) (last : Option (Arr K)) (t : Item K) (ts : List (Item K)) (h : Wanted t) :
    redistribute e d sh last (t :: ts) =
      match (if rule t.kind t.facetType t.facet = .skip then last else some (shareOut e d sh (rule t.kind t.facetType t.facet) t.values)) with
      | none => .error .unbound
      | some a =>
        match redistribute e d sh (some a) ts with
        | .error x => .error x
        | .ok r => .ok ({ t with values := a } :: r) := by
  conv_lhs => unfold redistribute
  rw [if_neg (by rw [Wanted] at h; rintro (h' | h' | h')
                 · exact h' h.1
                 · exact h' h.2.1
                 · exact h.2.2 h')]
  by_cases hr : rule t.kind t.facetType t.facet = .skip
  · simp only [if_pos hr]; cases last <;> rfl
  · simp only [if_neg hr]; rfl

/-- two cells in one box -/
def two : Ext := ⟨1, 1, 2⟩

/-- **C76 violated (skipped properties).**  The code says of transmissibility that it is skipped, but it is replaced by the values of the
property before it in the list. -/
theorem C76_skipped_property_violated : ∃ (poro trans : Item Rat), poro.kind = "porosity" ∧ trans.kind = "transmissibility" ∧
    ∃ items' m, decoarsenImported two (some fun _ => 1) none true [poro, trans] (fun _ => false) = .ok (items', m, true) ∧
      ∃ t', items'[1]? = some t' ∧ t'.kind = "transmissibility" ∧ ∀ c, trans.values c = 7 ∧ t'.values c = 1 / 4 := by
  refine ⟨⟨"POR", true, true, "porosity", none, none, fun _ => 1 / 4⟩, ⟨"TX", true, true, "transmissibility", none, none, fun _ => 7⟩,
    rfl, rfl, ?_⟩
  unfold decoarsenImported decoarsen
  dsimp only
  rw [if_neg (by decide), if_neg (by decide), redistribute_cons _ _ _ _ _ _ (by decide +kernel), if_neg (by decide +kernel)]
  dsimp only
  rw [redistribute_cons _ _ _ _ _ _ (by decide +kernel), if_pos (by decide +kernel)]
  refine ⟨_, _, rfl, _, rfl, rfl, fun c => ⟨rfl, ?_⟩⟩
  rw [show rule "porosity" none none = .copy from by decide +kernel]
  rfl

/-- **C76 violated.**  If transmissibility comes first there is an error instead. -/
theorem C76_skipped_first_violated : ∃ (trans : Item Rat), trans.kind = "transmissibility" ∧
    decoarsenImported two (some fun _ => 1) none true [trans] (fun _ => false) = .error .unbound := by
  refine ⟨⟨"TX", true, true, "transmissibility", none, none, fun _ => 7⟩, rfl, ?_⟩
  unfold decoarsenImported decoarsen
  dsimp only
  rw [if_neg (by decide), if_neg (by decide), redistribute_cons _ _ _ _ _ _ (by decide +kernel), if_pos (by decide +kernel)]

/-- Boxes side by side which are not made by planes: of the cells 0 1 2 in the first row 1 and 2 are one box, and of the cells 3 4 5
in the second row 3 and 4 are. -/
def steps : Ext := ⟨1, 2, 3⟩

def stepsKid : Arr Int := fun c => if (c.j = 0 ∧ c.i = 2) ∨ (c.j = 1 ∧ c.i = 1) then -3 else 0

def stepsHost (c : Cell) : Cell := if c.j = 0 ∧ c.i = 2 then ⟨c.k, 0, 1⟩ else if c.j = 1 ∧ c.i = 1 then ⟨c.k, 1, 0⟩ else c

def stepsSize (c : Cell) : Share := if (c.j = 0 ∧ c.i = 0) ∨ (c.j = 1 ∧ c.i = 2) then ⟨1, 1, 1⟩ else ⟨1, 1, 2⟩

theorem steps_all : ∀ k < 1, ∀ j < 2, ∀ i < 3, InBox (stepsHost ⟨k, j, i⟩) (stepsSize ⟨k, j, i⟩) ⟨k, j, i⟩ ∧
    (stepsHost ⟨k, j, i⟩).k + (stepsSize ⟨k, j, i⟩).k ≤ 1 ∧ (stepsHost ⟨k, j, i⟩).j + (stepsSize ⟨k, j, i⟩).j ≤ 2 ∧
    (stepsHost ⟨k, j, i⟩).i + (stepsSize ⟨k, j, i⟩).i ≤ 3 := by decide

theorem steps_same : ∀ c ∈ steps.cells, ∀ x ∈ steps.cells, InBox (stepsHost c) (stepsSize c) x →
    stepsHost x = stepsHost c ∧ stepsSize x = stepsSize c := by decide

def stepsBoxes : Boxes steps where
  host := stepsHost
  size := stepsSize
  mem c hc := (steps_all c.k hc.1 c.j hc.2.1 c.i hc.2.2).1
  fits c hc x hx := by
    obtain ⟨-, h1, h2, h3⟩ := steps_all c.k hc.1 c.j hc.2.1 c.i hc.2.2
    obtain ⟨⟨_, g1⟩, ⟨_, g2⟩, ⟨_, g3⟩⟩ := hx
    exact ⟨lt_of_lt_of_le g1 h1, lt_of_lt_of_le g2 h2, lt_of_lt_of_le g3 h3⟩
  same c hc x hx := by
    obtain ⟨-, h1, h2, h3⟩ := steps_all c.k hc.1 c.j hc.2.1 c.i hc.2.2
    obtain ⟨⟨_, g1⟩, ⟨_, g2⟩, ⟨_, g3⟩⟩ := id hx
    exact steps_same c (mem_cells.2 hc) x
      (mem_cells.2 ⟨lt_of_lt_of_le g1 h1, lt_of_lt_of_le g2 h2, lt_of_lt_of_le g3 h3⟩) hx

/-- **C76 violated (KID data, boxes not made by planes).**  For these boxes, with a volume of 4 in cell 1 the total over cells 1 and 2
afterwards is 2: the box of cell 1 is taken to go on into the second row. -/
theorem C76_kid_not_aligned_violated : KidFor stepsBoxes stepsKid ∧
    ∃ (vol : Item Rat), vol.kind = "volume" ∧ vol.values ⟨0, 0, 1⟩ = 4 ∧
    ∃ items' m, decoarsenImported steps none (some stepsKid) true [vol] (fun _ => false) = .ok (items', m, true) ∧
      ∃ t', items'[0]? = some t' ∧ boxTotal (stepsBoxes.host ⟨0, 0, 1⟩) (stepsBoxes.size ⟨0, 0, 1⟩) t'.values = 2 := by
  refine ⟨?_, ⟨"PV", true, true, "volume", none, none, fun _ => 4⟩, rfl, rfl, ?_⟩
  · intro c hc
    obtain ⟨k, j, i⟩ := c
    obtain ⟨h1, h2, h3⟩ := hc
    simp only [steps] at h1 h2 h3
    interval_cases k; interval_cases j <;> interval_cases i <;> decide
  · unfold decoarsenImported
    dsimp only
    rw [show fromKid steps stepsKid = .ok (some (fun c => (((steps.cells.foldl (kidStep steps stepsKid) (fun _ => none, fun _ => ⟨0, 0, 0⟩)).1 c).getD 0),
      (steps.cells.foldl (kidStep steps stepsKid) (fun _ => none, fun _ => ⟨0, 0, 0⟩)).2)) from rfl]
    unfold decoarsen
    dsimp only
    rw [if_neg (by decide), if_neg (by decide), redistribute_cons _ _ _ _ _ _ (by decide +kernel), if_neg (by decide +kernel)]
    refine ⟨_, _, rfl, _, rfl, ?_⟩
    dsimp only
    rw [show rule "volume" none none = .volume from by decide +kernel]
    decide +kernel

end Verif.Decoarsen
