import Verif.Gcs.Table
import Verif.Gcs.Lemmas
import Mathlib.Data.List.Nodup
import Mathlib.Data.List.Perm.Basic
import Mathlib.Data.List.Dedup
import Mathlib.Tactic.Linarith
import Mathlib.Tactic.Ring
import Mathlib.Algebra.Order.Ring.Rat

/-! # C57: connection sets from tables of fault faces -/

namespace Verif.Gcs
open Verif.Py

variable {K : Type}

/-! ## Specification -/

/-- what a face indicator means, in either case: axis and polarity; a letter alone is the plus face -/
def faceMeaning (f : List Char) : Option (Nat × Nat) :=
  match f.map Char.toUpper with
  | ['K'] => some (0, 1) | ['K', '+'] => some (0, 1) | ['K', '-'] => some (0, 0)
  | ['J'] => some (1, 1) | ['J', '+'] => some (1, 1) | ['J', '-'] => some (1, 0)
  | ['I'] => some (2, 1) | ['I', '+'] => some (2, 1) | ['I', '-'] => some (2, 0)
  | _ => none

/-- the cell (zero based) is in the ranges (one based) of the row -/
def inRow (r : TableRow K) (c : Cell) : Bool :=
  decide (r.k1 ≤ c.1 + 1) && decide ((c.1 : Int) + 1 ≤ r.k2) && decide (r.j1 ≤ c.2.1 + 1) && decide ((c.2.1 : Int) + 1 ≤ r.j2) &&
    decide (r.i1 ≤ c.2.2 + 1) && decide ((c.2.2 : Int) + 1 ≤ r.i2)

/-- position of a cell along an axis, and the extent of the grid along it -/
def along (axis : Nat) (c : Cell) : Nat := match axis with | 0 => c.1 | 1 => c.2.1 | _ => c.2.2
def extentOf (e : Ext) (axis : Nat) : Nat := match axis with | 0 => e.nk | 1 => e.nj | _ => e.ni

/-- there is a cell on the other side of the face -/
def internal (e : Ext) (f : Face) : Bool :=
  if f.2.2 = 0 then decide (0 < along f.2.1 f.1) else decide (along f.2.1 f.1 + 1 < extentOf e f.2.1)

/-- the cell before along an axis -/
def before (axis : Nat) (c : Cell) : Cell :=
  match axis with
  | 0 => (c.1 - 1, c.2.1, c.2.2)
  | 1 => (c.1, c.2.1 - 1, c.2.2)
  | _ => (c.1, c.2.1, c.2.2 - 1)

/-- the same face seen from the other side -/
def otherSide (f : Face) : Face :=
  if f.2.2 = 0 then (before f.2.1 f.1, (f.2.1, 1)) else (next f.2.1 f.1, (f.2.1, 0))

/-- the row has a single layer of cells along the axis -/
def singleLayer (r : TableRow K) (axis : Nat) : Prop :=
  match axis with
  | 0 => r.k1 = r.k2
  | 1 => r.j1 = r.j2
  | _ => r.i1 = r.i2

/-- the internal faces that a row of the table stands for -/
def rowFaces (e : Ext) (r : TableRow K) : List Face :=
  match faceMeaning r.face with
  | none => []
  | some a => (((triples e.nk e.nj e.ni).filter (inRow r)).map fun c => (c, a)).filter (internal e)

/-- a row that can be read: ranges within the grid, a single layer of cells in the direction of the face, and a known face -/
structure RowOk (e : Ext) (r : TableRow K) : Prop where
  k : 1 ≤ r.k1 ∧ r.k2 ≤ e.nk
  j : 1 ≤ r.j1 ∧ r.j2 ≤ e.nj
  i : 1 ≤ r.i1 ∧ r.i2 ≤ e.ni
  face : ∃ axis p, faceMeaning r.face = some (axis, p) ∧ singleLayer r axis
  /-- a single letter is in upper case -/
  single : r.face.length = 1 → r.face.map Char.toUpper = r.face

/-! ## Faces -/

theorem along_eq (c : Cell) : along 0 c = c.1 ∧ along 1 c = c.2.1 ∧ along 2 c = c.2.2 := ⟨rfl, rfl, rfl⟩
theorem extentOf_eq (e : Ext) : extentOf e 0 = e.nk ∧ extentOf e 1 = e.nj ∧ extentOf e 2 = e.ni := ⟨rfl, rfl, rfl⟩
theorem before_eq (c : Cell) : before 0 c = (c.1 - 1, c.2.1, c.2.2) ∧ before 1 c = (c.1, c.2.1 - 1, c.2.2) ∧
    before 2 c = (c.1, c.2.1, c.2.2 - 1) := ⟨rfl, rfl, rfl⟩
theorem next_eq (c : Cell) : next 0 c = (c.1 + 1, c.2.1, c.2.2) ∧ next 1 c = (c.1, c.2.1 + 1, c.2.2) ∧
    next 2 c = (c.1, c.2.1, c.2.2 + 1) := ⟨rfl, rfl, rfl⟩
theorem singleLayer_eq (r : TableRow K) : (singleLayer r 0 ↔ r.k1 = r.k2) ∧ (singleLayer r 1 ↔ r.j1 = r.j2) ∧
    (singleLayer r 2 ↔ r.i1 = r.i2) := ⟨Iff.rfl, Iff.rfl, Iff.rfl⟩

theorem standardFace_ok {f : List Char} {a : Nat × Nat} (h : faceMeaning f = some a) (hs : f.length = 1 → f.map Char.toUpper = f) :
    ∃ s, standardFace f = .ok s ∧ faceAxis s = a ∧ a.1 < 3 ∧ a.2 < 2 ∧
      s = [match a.1 with | 0 => 'K' | 1 => 'J' | _ => 'I', if a.2 = 0 then '-' else '+'] := by
  unfold faceMeaning at h
  unfold standardFace
  have hlen : f.length = (f.map Char.toUpper).length := (List.length_map _).symm
  by_cases h1 : f.length = 1
  · have := hs h1
    rw [this] at h
    dsimp only
    rw [if_pos h1]
    split at h <;> cases h <;> first
      | (exfalso; simp at h1; done)
      | exact ⟨_, rfl, rfl, by decide, by decide, rfl⟩
  · dsimp only
    rw [if_neg h1]
    rw [hlen] at h1
    generalize f.map Char.toUpper = g at h h1
    split at h <;> cases h <;> first
      | (exfalso; simp at h1; done)
      | exact ⟨_, rfl, rfl, by decide, by decide, rfl⟩

theorem mem_pyRange {lo hi x : Int} : x ∈ pyRange lo hi ↔ lo ≤ x ∧ x < hi := by
  unfold pyRange
  rw [List.mem_map]
  constructor
  · rintro ⟨n, hn, rfl⟩
    rw [List.mem_range] at hn
    omega
  · intro h
    exact ⟨(x - lo).toNat, by rw [List.mem_range]; omega, by omega⟩

theorem nodup_pyRange (lo hi : Int) : (pyRange lo hi).Nodup :=
  List.Nodup.map (fun a b h => by simpa using h) List.nodup_range

/-- the cells of a row, as integers -/
def rowCells (r : TableRow K) : List (Int × Int × Int) :=
  (pyRange r.k1 (r.k2 + 1)).flatMap fun k => (pyRange r.j1 (r.j2 + 1)).flatMap fun j => (pyRange r.i1 (r.i2 + 1)).map fun i => (k, j, i)

theorem mem_rowCells {r : TableRow K} {c : Int × Int × Int} :
    c ∈ rowCells r ↔ (r.k1 ≤ c.1 ∧ c.1 ≤ r.k2) ∧ (r.j1 ≤ c.2.1 ∧ c.2.1 ≤ r.j2) ∧ r.i1 ≤ c.2.2 ∧ c.2.2 ≤ r.i2 := by
  unfold rowCells
  obtain ⟨k, j, i⟩ := c
  simp only [List.mem_flatMap, List.mem_map, mem_pyRange, Prod.mk.injEq]
  constructor
  · rintro ⟨k', hk, j', hj, i', hi, rfl, rfl, rfl⟩
    omega
  · rintro ⟨hk, hj, hi⟩
    exact ⟨k, by omega, j, by omega, i, by omega, rfl, rfl, rfl⟩

theorem nodup_rowCells (r : TableRow K) : (rowCells r).Nodup := by
  unfold rowCells
  rw [List.nodup_flatMap]
  refine ⟨fun k _ => ?_, ?_⟩
  · rw [List.nodup_flatMap]
    refine ⟨fun j _ => List.Nodup.map (fun a b h => by simpa using h) (nodup_pyRange _ _), ?_⟩
    refine (nodup_pyRange _ _).imp ?_
    intro a b hab
    show List.Disjoint _ _
    intro x hx hy
    rw [List.mem_map] at hx hy
    obtain ⟨_, _, rfl⟩ := hx
    obtain ⟨_, _, hy⟩ := hy
    simp only [Prod.mk.injEq] at hy
    exact hab hy.2.1.symm
  · refine (nodup_pyRange _ _).imp ?_
    intro a b hab
    show List.Disjoint _ _
    intro x hx hy
    simp only [List.mem_flatMap, List.mem_map] at hx hy
    obtain ⟨_, _, _, _, rfl⟩ := hx
    obtain ⟨_, _, _, _, hy⟩ := hy
    simp only [Prod.mk.injEq] at hy
    exact hab hy.1.symm

/-- a cell as integers -/
def castCell (c : Cell) : Int × Int × Int := (c.1, c.2.1, c.2.2)

theorem castCell_inj {c d : Cell} (h : castCell c = castCell d) : c = d := by
  obtain ⟨k, j, i⟩ := c
  obtain ⟨k', j', i'⟩ := d
  simp only [castCell, Prod.mk.injEq, Int.natCast_inj] at h
  rw [h.1, h.2.1, h.2.2]

theorem naturalZ_cast (e : Ext) (c : Cell) : (naturalZ e (castCell c)).toNat = natural e c := by
  have : naturalZ e (castCell c) = ((natural e c : Nat) : Int) := by
    unfold naturalZ castCell natural
    push_cast
    rfl
  rw [this]; rfl

theorem neighbour_cast (axis p : Nat) (c : Cell) (ha : axis < 3) (hp : p < 2) (h0 : p = 0 → 0 < along axis c) :
    neighbour axis p (castCell c) = castCell (otherSide (c, (axis, p))).1 := by
  obtain ⟨k, j, i⟩ := c
  have ha3 : axis = 0 ∨ axis = 1 ∨ axis = 2 := by omega
  have hp2 : p = 0 ∨ p = 1 := by omega
  rcases hp2 with rfl | rfl
  · have := h0 rfl
    rcases ha3 with rfl | rfl | rfl <;>
      (simp only [along_eq] at this
       simp only [neighbour, castCell, otherSide, before_eq, if_true, Prod.mk.injEq, true_and, and_true]
       omega)
  · rcases ha3 with rfl | rfl | rfl <;> simp [neighbour, castCell, otherSide, next]

/-- the zero based row with its face standardised -/
def based (r : TableRow K) (f : List Char) : TableRow K := ⟨r.name, f, r.k1 - 1, r.k2 - 1, r.j1 - 1, r.j2 - 1, r.i1 - 1, r.i2 - 1, r.mult⟩

theorem otherSide_inside (e : Ext) (f : Face) (h : Inside e f.1) (ha : f.2.1 < 3) (hint : internal e f = true) : Inside e (otherSide f).1 := by
  obtain ⟨⟨k, j, i⟩, axis, p⟩ := f
  unfold Inside at *
  unfold internal at hint
  unfold otherSide
  dsimp only at *
  have ha3 : axis = 0 ∨ axis = 1 ∨ axis = 2 := by omega
  by_cases hp : p = 0
  · rw [if_pos hp] at hint ⊢
    rcases ha3 with rfl | rfl | rfl <;> (simp only [decide_eq_true_eq, along_eq, extentOf_eq] at hint; simp only [before_eq]; omega)
  · rw [if_neg hp] at hint ⊢
    rcases ha3 with rfl | rfl | rfl <;> (simp only [decide_eq_true_eq, along_eq, extentOf_eq] at hint; simp only [next_eq]; omega)

/-- C57 for one row: what the code makes of it, external rows having been removed, is the internal faces it stands for -/
theorem row_perm (e : Ext) (r : TableRow K) (h : RowOk e r) (s : List Char) (hs : standardFace r.face = .ok s) :
    ((if external e (based r s) then [] else rowConns e (based r s)).map (decode e)).Perm
      ((rowFaces e r).map fun f => (f, otherSide f)) := by
  obtain ⟨axis, p, hm, hsingle⟩ := h.face
  obtain ⟨s', hs', hax, ha, hp, hsform⟩ := standardFace_ok hm h.single
  rw [hs] at hs'
  cases hs'
  dsimp only at hax ha hp hsform
  have hk := h.k
  have hj := h.j
  have hi := h.i
  -- external exactly when the face of its cells is external
  have hext : ∀ c : Cell, inRow r c = true → (external e (based r s) = !internal e (c, (axis, p))) := by
    intro c hc
    obtain ⟨k, j, i⟩ := c
    simp only [inRow, Bool.and_eq_true, decide_eq_true_eq] at hc
    unfold external internal based
    rw [hsform]
    have ha3 : axis = 0 ∨ axis = 1 ∨ axis = 2 := by omega
    have hp2 : p = 0 ∨ p = 1 := by omega
    rcases hp2 with rfl | rfl <;> rcases ha3 with rfl | rfl | rfl <;> simp only [singleLayer_eq] at hsingle <;>
      simp only [along_eq, extentOf_eq, if_true, Nat.one_ne_zero, if_false, List.cons.injEq, beq_iff_eq, reduceCtorEq, and_false, false_and, Char.reduceEq,
        Bool.and_false, Bool.false_or, Bool.or_false, Bool.and_true, List.cons_beq_cons, Char.reduceBEq, BEq.rfl,
        List.beq_nil_eq, Bool.false_and, List.isEmpty_nil] <;>
      (rw [← decide_not, decide_eq_decide]; omega)
  have hmemrow : ∀ c : Cell, inRow r c = true ↔ castCell c ∈ rowCells (based r s) := by
    intro c
    rw [mem_rowCells]
    simp only [inRow, Bool.and_eq_true, decide_eq_true_eq, castCell, based]
    omega
  have hinside : ∀ c : Cell, inRow r c = true → Inside e c := by
    intro c hc
    simp only [inRow, Bool.and_eq_true, decide_eq_true_eq] at hc
    unfold Inside
    omega
  by_cases hx : external e (based r s) = true
  · rw [if_pos hx]
    have : rowFaces e r = [] := by
      unfold rowFaces
      rw [hm]
      dsimp only
      rw [List.filter_eq_nil_iff]
      intro f hf
      rw [List.mem_map] at hf
      obtain ⟨c, hc, rfl⟩ := hf
      rw [List.mem_filter] at hc
      have := hext c hc.2
      rw [hx] at this
      simpa using this.symm
    rw [this]
    exact List.Perm.nil
  · rw [if_neg hx]
    have hx' : external e (based r s) = false := by simpa using hx
    have hint : ∀ c : Cell, inRow r c = true → internal e (c, (axis, p)) = true := by
      intro c hc
      have := hext c hc
      rw [hx'] at this
      simpa using this.symm
    -- connections as a map over cells
    have hconns : rowConns e (based r s) = (rowCells (based r s)).map fun c =>
        (⟨(naturalZ e c).toNat, (naturalZ e (neighbour axis p c)).toNat, faceIndexMap axis p, faceIndexMap axis (1 - p)⟩ : Conn) := by
      unfold rowConns rowCells
      rw [show (based r s).face = s from rfl, hax]
      simp only [List.map_flatMap, List.map_map]
      rfl
    have hcells : (rowCells (based r s)).Perm (((triples e.nk e.nj e.ni).filter (inRow r)).map castCell) := by
      rw [List.perm_ext_iff_of_nodup (nodup_rowCells _)
        (List.Nodup.map (fun _ _ => castCell_inj) ((nodup_triples _ _ _).filter _))]
      intro c
      rw [List.mem_map]
      constructor
      · intro hc
        have hc' := mem_rowCells.mp hc
        obtain ⟨k, j, i⟩ := c
        simp only [based] at hc'
        have hcast : castCell (k.toNat, j.toNat, i.toNat) = (k, j, i) := by
          simp only [castCell, Prod.mk.injEq]
          omega
        refine ⟨(k.toNat, j.toNat, i.toNat), ?_, hcast⟩
        rw [List.mem_filter]
        have hr : inRow r (k.toNat, j.toNat, i.toNat) = true := by rw [hmemrow, hcast]; exact hc
        refine ⟨?_, hr⟩
        have := hinside _ hr
        rw [mem_triples]
        exact this
      · rintro ⟨d, hd, rfl⟩
        rw [List.mem_filter] at hd
        exact (hmemrow d).mp hd.2
    have hfaces : rowFaces e r = ((triples e.nk e.nj e.ni).filter (inRow r)).map fun c => (c, (axis, p)) := by
      unfold rowFaces
      rw [hm]
      dsimp only
      rw [List.filter_eq_self]
      intro f hf
      rw [List.mem_map] at hf
      obtain ⟨c, hc, rfl⟩ := hf
      rw [List.mem_filter] at hc
      exact hint c hc.2
    rw [hconns, hfaces, List.map_map, List.map_map]
    refine (hcells.map _).trans (List.Perm.of_eq ?_)
    rw [List.map_map]
    refine List.map_congr_left fun c hc => ?_
    rw [List.mem_filter] at hc
    have hin := hinside c hc.2
    have hint' := hint c hc.2
    have h0 : p = 0 → 0 < along axis c := by
      intro hp0
      unfold internal at hint'
      rw [if_pos hp0] at hint'
      simpa using hint'
    have hin2 := otherSide_inside e (c, (axis, p)) hin ha hint'
    simp only [Function.comp_apply, decode, naturalZ_cast, neighbour_cast axis p c ha hp h0]
    rw [denatural_natural e c hin.2.1 hin.2.2, denatural_natural e _ hin2.2.1 hin2.2.2, faceIndex_inverse axis p ha hp,
      faceIndex_inverse axis (1 - p) ha (by omega)]
    have hp2 : p = 0 ∨ p = 1 := by omega
    rcases hp2 with rfl | rfl <;> rfl

/-! ## The loop over names -/

theorem mem_unique {l : List String} {x : String} : x ∈ unique l ↔ x ∈ l := by
  unfold unique
  rw [List.mem_reverse, List.mem_dedup, List.mem_reverse]

theorem nodup_unique (l : List String) : (unique l).Nodup := by
  unfold unique
  exact List.nodup_reverse.mpr (List.nodup_dedup _)

theorem namesLoop_ok [Mul K] [One K] (e : Ext) (lower : String → String) (dict : List (String × K)) (rows : List (TableRow K))
    (names interps : List String) (fi : Nat) (out : List (Nat × Conn × K)) (hn : (names.map lower).Nodup)
    (hi : ∀ n ∈ names, lower n ∉ interps) :
    namesLoop e lower dict rows names interps fi out = .ok (out ++ (names.zipIdx fi).flatMap fun n =>
      (rows.filter fun r => r.name == n.1).flatMap fun r => (rowConns e r).map fun c => (n.2, c, r.mult * dictMult dict lower n.1)) := by
  induction names generalizing interps fi out with
  | nil => simp [namesLoop]
  | cons name names ih =>
    unfold namesLoop
    rw [if_neg (hi name List.mem_cons_self)]
    rw [List.map_cons, List.nodup_cons] at hn
    dsimp only
    rw [ih _ _ _ hn.2]
    · rw [List.zipIdx_cons, List.flatMap_cons, List.append_assoc]
    · intro n hnm
      rw [List.mem_cons, not_or]
      exact ⟨fun h => hn.1 (h ▸ List.mem_map_of_mem hnm), hi n (List.mem_cons_of_mem _ hnm)⟩

theorem group_perm {α : Type} (l : List α) (key : α → String) (names : List String) (hn : names.Nodup) (h : ∀ a ∈ l, key a ∈ names) :
    (names.flatMap fun n => l.filter fun a => key a == n).Perm l := by
  induction l with
  | nil => simp
  | cons a l ih =>
    refine List.Perm.trans ?_ ((ih fun b hb => h b (List.mem_cons_of_mem _ hb)).cons a)
    have ha := h a List.mem_cons_self
    have : ∀ names : List String, names.Nodup → (key a ∉ names →
        (names.flatMap fun n => (a :: l).filter fun a => key a == n) = names.flatMap fun n => l.filter fun a => key a == n) ∧
        (key a ∈ names → (names.flatMap fun n => (a :: l).filter fun a => key a == n).Perm
          (a :: names.flatMap fun n => l.filter fun a => key a == n)) := by
      intro names
      induction names with
      | nil => intro _; exact ⟨fun _ => rfl, fun h => by cases h⟩
      | cons n names ihn =>
        intro hnd
        rw [List.nodup_cons] at hnd
        obtain ⟨i1, i2⟩ := ihn hnd.2
        refine ⟨fun hne => ?_, fun hin => ?_⟩
        · rw [List.mem_cons, not_or] at hne
          rw [List.flatMap_cons, List.flatMap_cons, i1 hne.2, List.filter_cons_of_neg (by simpa using hne.1)]
        · rw [List.flatMap_cons, List.flatMap_cons]
          by_cases hk : key a = n
          · rw [List.filter_cons_of_pos (by simpa using hk), i1 (hk ▸ hnd.1), List.cons_append]
          · rw [List.filter_cons_of_neg (by simpa using hk)]
            have hin' : key a ∈ names := by
              rcases List.mem_cons.mp hin with h | h
              · exact absurd h hk
              · exact h
            exact ((i2 hin').append_left _).trans List.perm_middle
    exact (this names hn).2 ha

theorem standardRows_ok (e : Ext) (rows : List (TableRow K)) (h : ∀ r ∈ rows, RowOk e r) :
    ∃ rows', standardRows rows = .ok rows' ∧
      List.Forall₂ (fun r r' => ∃ s, standardFace r.face = .ok s ∧ r' = based r s) rows rows' := by
  induction rows with
  | nil => exact ⟨[], rfl, List.Forall₂.nil⟩
  | cons r rows ih =>
    have hr := h r List.mem_cons_self
    obtain ⟨axis, p, hm, -⟩ := hr.face
    obtain ⟨s, hs, -⟩ := standardFace_ok hm hr.single
    obtain ⟨rows', h1, h2⟩ := ih fun r hr => h r (List.mem_cons_of_mem _ hr)
    refine ⟨based r s :: rows', ?_, List.Forall₂.cons ⟨s, hs, rfl⟩ h2⟩
    unfold standardRows
    rw [hs, h1]
    rfl

/-- the multiplier given for a name in a dictionary of multipliers: that under the name in lower case if there is one, else that
under the name itself, else one -/
def namedMult [One K] (dict : List (String × K)) (lower : String → String) (name : String) : K :=
  if h : (dict.find? fun d => d.1 == lower name).isSome then ((dict.find? fun d => d.1 == lower name).get h).2
  else if h : (dict.find? fun d => d.1 == name).isSome then ((dict.find? fun d => d.1 == name).get h).2
  else 1

theorem lookup_eq_find (dict : List (String × K)) (n : String) : dict.lookup n = (dict.find? fun d => d.1 == n).map Prod.snd := by
  induction dict with
  | nil => rfl
  | cons d dict ih =>
    obtain ⟨k, v⟩ := d
    rw [List.lookup_cons, List.find?_cons]
    by_cases h : n = k
    · subst h; simp
    · rw [beq_false_of_ne h, beq_false_of_ne (Ne.symm h)]
      exact ih

theorem dictMult_eq [One K] (dict : List (String × K)) (lower : String → String) (name : String) :
    dictMult dict lower name = namedMult dict lower name := by
  unfold dictMult namedMult
  rw [lookup_eq_find, lookup_eq_find]
  cases dict.find? fun d => d.1 == lower name with
  | some d => rfl
  | none =>
    cases dict.find? fun d => d.1 == name with
    | some d => rfl
    | none => rfl

/-- C57 when organizing objects are to be created, all names are new, and no two names differ only in case: the set has a feature
for each name, and its connections are exactly the internal faces of the rows of the table, each paired with the facing face of
the neighbouring cell, with the name of its row as feature, and the multiplier of its row times that of the dictionary.
Missing: existing interpretations, and tables with names or single letter faces in lower case (all raise). -/
theorem C57_table_partial [Mul K] [One K] (e : Ext) (lower : String → String) (interps : List String) (dict : List (String × K))
    (rows : List (TableRow K)) (hrows : ∀ r ∈ rows, RowOk e r)
    (hnew : ∀ r ∈ rows, lower r.name ∉ interps) (hcase : ∀ r ∈ rows, ∀ r' ∈ rows, lower r.name = lower r'.name → r.name = r'.name) :
    ∃ names out, setPairsFromTable e lower true interps dict rows = .ok (names, out) ∧ names.Nodup ∧
      (out.map fun o => (names[o.1]?, decode e o.2.1, o.2.2)).Perm
        (rows.flatMap fun r => (rowFaces e r).map fun f => (some r.name, (f, otherSide f), r.mult * namedMult dict lower r.name)) := by
  simp only [← dictMult_eq]
  obtain ⟨rows', hstd, hall⟩ := standardRows_ok e rows hrows
  unfold setPairsFromTable
  rw [hstd]
  dsimp only
  rw [if_neg (by simp)]
  set kept := rows'.filter fun r => !external e r with hkept
  set names := unique (kept.map (·.name)) with hnames
  have hmem' : ∀ r' ∈ rows', ∃ r ∈ rows, r'.name = r.name := by
    intro r' hr'
    obtain ⟨n, hn, hrn⟩ := List.getElem_of_mem hr'
    have hlen := hall.length_eq
    have hget := (List.forall₂_iff_get.mp hall).2 n (by omega) hn
    obtain ⟨s, -, hb⟩ := hget
    refine ⟨rows[n]'(by omega), List.getElem_mem _, ?_⟩
    rw [← hrn]
    show (rows'.get ⟨n, hn⟩).name = _
    rw [hb]
    rfl
  have hnm : ∀ n ∈ names, ∃ r ∈ rows, n = r.name := by
    intro n hn
    rw [hnames, mem_unique, List.mem_map] at hn
    obtain ⟨r', hr', rfl⟩ := hn
    exact hmem' r' (List.mem_filter.mp hr').1
  have hnd : names.Nodup := nodup_unique _
  have hlow : (names.map lower).Nodup := by
    refine List.Nodup.map_on ?_ hnd
    intro a ha b hb hab
    obtain ⟨r, hr, rfl⟩ := hnm a ha
    obtain ⟨r', hr', rfl⟩ := hnm b hb
    exact hcase r hr r' hr' hab
  have hint : ∀ n ∈ names, lower n ∉ interps := by
    intro n hn
    obtain ⟨r, hr, rfl⟩ := hnm n hn
    exact hnew r hr
  rw [namesLoop_ok e lower dict kept names interps 0 [] hlow hint]
  refine ⟨names, _, rfl, hnd, ?_⟩
  rw [List.nil_append, List.map_flatMap]
  -- feature indices give the names
  have h1 : (names.zipIdx.flatMap fun n => List.map (fun o => (names[o.1]?, decode e o.2.1, o.2.2))
        ((kept.filter fun r => r.name == n.1).flatMap fun r => (rowConns e r).map fun c => (n.2, c, r.mult * dictMult dict lower n.1))) =
      (names.flatMap fun n => kept.filter fun r => r.name == n).flatMap fun r =>
        ((rowConns e r).map (decode e)).map fun d => (some r.name, d, r.mult * dictMult dict lower r.name) := by
    rw [List.flatMap_assoc]
    have hz : names.flatMap (fun n => (kept.filter fun r => r.name == n).flatMap fun r =>
        ((rowConns e r).map (decode e)).map fun d => (some r.name, d, r.mult * dictMult dict lower r.name)) =
        names.zipIdx.flatMap (fun m => (kept.filter fun r => r.name == m.1).flatMap fun r =>
        ((rowConns e r).map (decode e)).map fun d => (some r.name, d, r.mult * dictMult dict lower r.name)) := by
      conv_lhs => rw [← List.zipIdx_map_fst 0 names, List.flatMap_map]
    rw [hz]
    refine List.flatMap_congr fun m hm => ?_
    obtain ⟨n, idx⟩ := m
    rw [List.mk_mem_zipIdx_iff_getElem?] at hm
    dsimp only
    rw [List.map_flatMap]
    refine List.flatMap_congr fun r hr => ?_
    rw [List.mem_filter] at hr
    have hrn : r.name = n := by simpa using hr.2
    rw [List.map_map, List.map_map]
    refine List.map_congr_left fun c _ => ?_
    simp only [Function.comp_apply, hm, hrn]
  rw [h1]
  have h2 := group_perm kept (·.name) names hnd (fun r hr => by
    rw [hnames, mem_unique]; exact List.mem_map_of_mem hr)
  refine (h2.flatMap_right _).trans ?_
  -- row by row
  rw [hkept]
  clear h1 h2 hlow hint hnd hnm hmem' hnames hkept hnew hcase hstd
  induction hall with
  | nil => exact List.Perm.nil
  | @cons r r' rs rs' hr _ ih =>
    obtain ⟨s, hs, rfl⟩ := hr
    rw [List.flatMap_cons]
    have hp := (row_perm e r (hrows r List.mem_cons_self) s hs).map fun d => (some r.name, d, r.mult * dictMult dict lower r.name)
    have ih' := ih fun r hr => hrows r (List.mem_cons_of_mem _ hr)
    by_cases hx : external e (based r s) = true
    · rw [if_pos hx] at hp
      rw [List.filter_cons_of_neg (by simp [hx])]
      rw [List.map_nil, List.map_nil, List.nil_perm] at hp
      rw [List.map_map] at hp
      rw [show List.map (fun f => (some r.name, (f, otherSide f), r.mult * dictMult dict lower r.name)) (rowFaces e r) = [] from hp]
      exact ih'
    · rw [if_neg hx] at hp
      rw [List.filter_cons_of_pos (by simp [hx]), List.flatMap_cons]
      refine List.Perm.append ?_ ih'
      rw [List.map_map (g := fun d => (some r.name, d, r.mult * dictMult dict lower r.name)) (f := fun f => (f, otherSide f))] at hp
      exact hp

/-- a table with two faults; the second row of the first fault is on the edge of the grid -/
def exTable : List (TableRow Rat) :=
  [⟨"F1", ['I', '+'], 1, 2, 1, 1, 1, 1, 1 / 2⟩, ⟨"F2", ['j', '-'], 1, 1, 2, 2, 1, 1, 1⟩, ⟨"F1", ['I', '+'], 1, 2, 1, 1, 3, 3, 1⟩]

/-- hypotheses met -/
example : ∀ r ∈ exTable, RowOk ⟨2, 2, 3⟩ r := by
  intro r hr
  simp only [exTable, List.mem_cons, List.not_mem_nil, or_false] at hr
  rcases hr with rfl | rfl | rfl
  · exact ⟨by decide, by decide, by decide, ⟨2, 1, rfl, rfl⟩, by decide⟩
  · exact ⟨by decide, by decide, by decide, ⟨1, 0, by decide, rfl⟩, by decide⟩
  · exact ⟨by decide, by decide, by decide, ⟨2, 1, rfl, rfl⟩, by decide⟩

example : setPairsFromTable ⟨2, 2, 3⟩ id true ["f3"] [("F1", (2 : Rat))] exTable =
    .ok (["F1", "F2"], [(0, ⟨0, 1, 3, 5⟩, 1), (0, ⟨6, 7, 3, 5⟩, 1), (1, ⟨3, 0, 2, 4⟩, 1)]) := by decide +kernel

/-- C57 does not hold without creation of organizing objects: an exception is raised whenever any face is to be added. -/
theorem C57_existing_objects_violated [Mul K] [One K] (e : Ext) (lower : String → String) (interps : List String)
    (dict : List (String × K)) (rows rows' : List (TableRow K)) (h : standardRows rows = .ok rows') (r : TableRow K) (hr : r ∈ rows')
    (hx : external e r = false) : setPairsFromTable e lower false interps dict rows = .error .unbound := by
  unfold setPairsFromTable
  rw [h]
  dsimp only
  rw [if_pos]
  refine ⟨rfl, fun hnil => ?_⟩
  have : r.name ∈ unique ((rows'.filter fun r => !external e r).map (·.name)) :=
    mem_unique.mpr (List.mem_map_of_mem (List.mem_filter.mpr ⟨hr, by simp [hx]⟩))
  rw [hnil] at this
  cases this

/-- C57 does not hold when an interpretation for a fault already exists: an exception is raised. -/
theorem C57_existing_interpretation_violated [Mul K] [One K] (e : Ext) (lower : String → String) (create : Bool) (interps : List String)
    (dict : List (String × K)) (rows rows' : List (TableRow K)) (h : standardRows rows = .ok rows') (r : TableRow K) (hr : r ∈ rows')
    (hx : external e r = false) (hl : lower r.name ∈ interps) : setPairsFromTable e lower create interps dict rows = .error .unbound := by
  cases create with
  | false => exact C57_existing_objects_violated e lower interps dict rows rows' h r hr hx
  | true =>
    unfold setPairsFromTable
    rw [h]
    dsimp only
    rw [if_neg (by simp)]
    have hm : r.name ∈ unique ((rows'.filter fun r => !external e r).map (·.name)) :=
      mem_unique.mpr (List.mem_map_of_mem (List.mem_filter.mpr ⟨hr, by simp [hx]⟩))
    generalize rows'.filter (fun r => !external e r) = kept at hm ⊢
    have : ∀ (names ints : List String) (fi : Nat) (out : List (Nat × Conn × K)), (∃ n ∈ names, lower n ∈ ints) →
        namesLoop e lower dict kept names ints fi out = .error .unbound := by
      intro names
      induction names with
      | nil => rintro ints fi out ⟨n, hn, -⟩; cases hn
      | cons n names ih =>
        rintro ints fi out ⟨m, hm, hmi⟩
        unfold namesLoop
        by_cases hn : lower n ∈ ints
        · rw [if_pos hn]
        · rw [if_neg hn]
          rcases List.mem_cons.mp hm with rfl | hm
          · exact absurd hmi hn
          · exact ih _ _ _ ⟨m, hm, List.mem_cons_of_mem _ hmi⟩
    rw [this _ _ _ _ ⟨_, hm, hl⟩]

/-- C57 does not hold for a face given as a single lower case letter: an exception is raised, although two character indicators in
lower case are accepted. -/
theorem C57_lower_case_letter_violated : standardFace ['i'] = .error .assertion ∧ standardFace ['i', '+'] = .ok ['I', '+'] := by decide

end Verif.Gcs
