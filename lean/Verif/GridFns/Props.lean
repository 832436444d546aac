import Verif.GridFns.Lemmas
import Mathlib.Algebra.Order.Floor.Ring
import Mathlib.Data.Rat.Floor
import Mathlib.Tactic.IntervalCases
import Mathlib.Tactic.FinCases
import Mathlib.Data.Fintype.Prod
import Mathlib.Data.Fintype.EquivFin

/-! # C25, C45, C46 and C47: grid functions -/

namespace Verif.GridFns
open Verif.Py

/-! ## C25 resequencing -/

/-- C25: resequencing and then undoing it, in either order, restores every value.  (Corner indices are 0 or 1, coordinates
0 to 2.) -/
theorem C25_resequence_undone {α : Type} (cp : Corp α) (eightMode : Bool) (k j i : Nat) {kp jp ip x : Nat} (hk : kp ≤ 1)
    (hj : jp ≤ 1) (hi : ip ≤ 1) (hx : x ≤ 2) :
    resequence (resequence cp eightMode false) eightMode true k j i kp jp ip x = cp k j i kp jp ip x ∧
    resequence (resequence cp eightMode true) eightMode false k j i kp jp ip x = cp k j i kp jp ip x := by
  cases eightMode
  · unfold resequence
    simp only [Bool.false_eq_true, if_false]
    have e : 1 - (1 - ip) = ip := by omega
    by_cases h : jp = 1
    · simp only [if_pos h, e, and_self]
    · simp only [if_neg h, and_self]
  · unfold resequence flatCell
    simp only [if_true, Bool.false_eq_true, if_false]
    interval_cases kp <;> interval_cases jp <;> interval_cases ip <;> interval_cases x <;> exact ⟨rfl, rfl⟩

/-- C25: values are only moved: within each cell there is a one to one correspondence between the places of values before
and after, the same for every cell and every contents. -/
theorem C25_values_only_moved (eightMode undo : Bool) :
    ∃ f : Fin 2 × Fin 2 × Fin 2 × Fin 3 → Fin 2 × Fin 2 × Fin 2 × Fin 3, Function.Bijective f ∧
      ∀ {α : Type} (cp : Corp α) (k j i : Nat) (a : Fin 2 × Fin 2 × Fin 2 × Fin 3),
        resequence cp eightMode undo k j i a.1 a.2.1 a.2.2.1 a.2.2.2 =
          cp k j i (f a).1 (f a).2.1 (f a).2.2.1 (f a).2.2.2 := by
  cases eightMode
  · refine ⟨fun a => if a.2.1 = 1 then (a.1, a.2.1, 1 - a.2.2.1, a.2.2.2) else a, by decide, ?_⟩
    rintro α cp k j i ⟨a, b, c, d⟩
    fin_cases b <;> fin_cases c <;> simp [resequence]
  · cases undo
    · refine ⟨fun a =>
        let n := 8 * a.2.2.2.val + (a.1.val * 4 + a.2.1.val * 2 + a.2.2.1.val)
        (⟨n / 12 % 2, by omega⟩, ⟨n / 6 % 2, by omega⟩, ⟨n / 3 % 2, by omega⟩, ⟨n % 3, by omega⟩), by decide +kernel, ?_⟩
      rintro α cp k j i ⟨a, b, c, d⟩
      fin_cases a <;> fin_cases b <;> fin_cases c <;> fin_cases d <;> rfl
    · refine ⟨fun a =>
        let n := ((a.1.val * 2 + a.2.1.val) * 2 + a.2.2.1.val) * 3 + a.2.2.2.val
        (⟨n % 8 / 4 % 2, by omega⟩, ⟨n % 8 / 2 % 2, by omega⟩, ⟨n % 8 % 2, by omega⟩, ⟨n / 8 % 3, by omega⟩), by decide +kernel, ?_⟩
      rintro α cp k j i ⟨a, b, c, d⟩
      fin_cases a <;> fin_cases b <;> fin_cases c <;> fin_cases d <;> rfl

/-- C25: what eight mode means: data holding for each cell eight x values, then eight y values, then eight z values is turned
into data holding for each corner its x, y and z. -/
theorem C25_eight_mode_reads_blocks {α : Type} (cp : Corp α) (file : Nat → Nat → Nat → Nat → Nat → α) (k j i : Nat)
    (hfile : ∀ n, n < 24 → flatCell cp k j i n = file k j i (n / 8) (n % 8)) {kp jp ip x : Nat} (hk : kp ≤ 1)
    (hj : jp ≤ 1) (hi : ip ≤ 1) (hx : x ≤ 2) :
    resequence cp true false k j i kp jp ip x = file k j i x (4 * kp + 2 * jp + ip) := by
  unfold resequence
  simp only [if_true, Bool.false_eq_true, if_false]
  rw [hfile _ (by omega)]
  congr 1 <;> omega

/-- C25: what the other mode means: corners given in circular order in each of the two faces are put in row order. -/
theorem C25_ring_to_rows {α : Type} (cp : Corp α) (ring : Nat → Nat → Nat → Nat → Nat → Nat → α) (undo : Bool) (k j i : Nat)
    (hring : ∀ kp x, kp ≤ 1 → cp k j i kp 0 0 x = ring k j i kp 0 x ∧ cp k j i kp 0 1 x = ring k j i kp 1 x ∧
      cp k j i kp 1 0 x = ring k j i kp 2 x ∧ cp k j i kp 1 1 x = ring k j i kp 3 x) {kp : Nat} (hk : kp ≤ 1) (x : Nat) :
    let r := resequence cp false undo k j i kp
    r 0 0 x = ring k j i kp 0 x ∧ r 0 1 x = ring k j i kp 1 x ∧ r 1 1 x = ring k j i kp 2 x ∧ r 1 0 x = ring k j i kp 3 x := by
  obtain ⟨a, b, c, d⟩ := hring kp x hk
  simp only [resequence]
  exact ⟨a, b, c, d⟩

example : resequence (fun _ _ _ kp jp ip x => ((kp * 2 + jp) * 2 + ip) * 3 + x) true false 0 0 0 1 0 1 2 = 21 := by decide

/-! ## C45 sides -/

theorem isStep_of_index {a : Vec} {n : Nat} (h : indexOf? a entryTuples = some n) : IsStep a := by
  unfold IsStep
  simp only [indexOf?, entryTuples] at h
  split at h
  · rename_i e; exact Or.inl e.symm
  · split at h
    · rename_i e; exact Or.inr (Or.inl e.symm)
    · split at h
      · rename_i e; exact Or.inr (Or.inr (Or.inl e.symm))
      · split at h
        · rename_i e; exact Or.inr (Or.inr (Or.inr e.symm))
        · cases h

instance (a b q : Vec) : Decidable (OnRight a b q) := by unfold OnRight; infer_instance

/-- the table, for all steps but a reversal -/
theorem sidesFor_steps (a b : Vec) (ha : IsStep a) (hb : IsStep b) (hab : a ≠ (-b.1, -b.2)) :
    ∃ r, sidesFor a b = .ok r ∧ ∀ jp ip, jp < 2 → ip < 2 → (marked r jp ip = true ↔ OnRight a b (colDir jp ip)) := by
  have key : ∀ r : List (List Bool), (∀ jp < 2, ∀ ip < 2, (marked r jp ip = true ↔ OnRight a b (colDir jp ip))) →
      ∀ jp ip, jp < 2 → ip < 2 → (marked r jp ip = true ↔ OnRight a b (colDir jp ip)) :=
    fun r h jp ip h1 h2 => h jp h1 ip h2
  rcases ha with rfl | rfl | rfl | rfl <;> rcases hb with rfl | rfl | rfl | rfl <;>
    first
      | exact absurd rfl hab
      | exact ⟨_, rfl, key _ (by decide)⟩

/-- C45: the columns marked around a pillar inside a path are those to the right of it, for every path of single steps; the
function fails only where the path turns back on itself. -/
theorem C45_columns_on_the_right (l : List Vec) (p : Nat) (q here n : Vec) (h1 : l[p]? = some q) (h2 : l[p + 1]? = some here)
    (h3 : l[p + 2]? = some n) (ha : IsStep (sub here q)) (hb : IsStep (sub n here)) :
    (n ≠ q → ∃ r, leftRightFoursome l (p + 1) = .ok r ∧
      ∀ jp ip, jp < 2 → ip < 2 → (marked r jp ip = true ↔ OnRight (sub here q) (sub n here) (colDir jp ip))) ∧
    (n = q → leftRightFoursome l (p + 1) = .error .custom) := by
  have e : leftRightFoursome l (p + 1) = sidesFor (sub here q) (sub n here) := by
    unfold leftRightFoursome
    rw [h2]
    dsimp only
    rw [if_pos (Nat.succ_pos p), Nat.add_sub_cancel, h1, h3]
  rw [e]
  constructor
  · intro hne
    apply sidesFor_steps _ _ ha hb
    intro hc
    apply hne
    unfold sub at hc
    simp only [Prod.mk.injEq] at hc
    ext <;> omega
  · rintro rfl
    have hr : sub n here = (-(sub here n).1, -(sub here n).2) := by
      unfold sub; ext <;> simp
    rw [hr]
    rcases ha with e | e | e | e <;> rw [e] <;> rfl

/-- C45: at the ends of a path the only segment there is decides. -/
theorem C45_ends_of_path (l : List Vec) (a b : Vec) :
    (IsStep (sub b a) → ∃ r, leftRightFoursome (a :: b :: l) 0 = .ok r ∧
      ∀ jp ip, jp < 2 → ip < 2 → (marked r jp ip = true ↔ 0 < cross (sub b a) (colDir jp ip))) ∧
    (∀ p, l[p]? = some a → l[p + 1]? = some b → l[p + 2]? = none → IsStep (sub b a) →
      ∃ r, leftRightFoursome l (p + 1) = .ok r ∧
      ∀ jp ip, jp < 2 → ip < 2 → (marked r jp ip = true ↔ 0 < cross (sub b a) (colDir jp ip))) := by
  have hself : ∀ d : Vec, IsStep d → ∃ r, sidesFor d d = .ok r ∧
      ∀ jp ip, jp < 2 → ip < 2 → (marked r jp ip = true ↔ 0 < cross d (colDir jp ip)) := by
    intro d hd
    have hne : d ≠ (-d.1, -d.2) := by
      rcases hd with rfl | rfl | rfl | rfl <;> decide
    obtain ⟨r, h1, h2⟩ := sidesFor_steps d d hd hd hne
    refine ⟨r, h1, ?_⟩
    intro jp ip hj hi
    rw [h2 jp ip hj hi]
    unfold OnRight
    have : ¬ 0 < cross d d := by unfold cross; have := mul_comm d.2 d.1; omega
    rw [if_neg this, or_self]
  constructor
  · intro hs
    have e : leftRightFoursome (a :: b :: l) 0 = sidesFor (sub b a) (sub b a) := rfl
    rw [e]
    exact hself _ hs
  · intro p h1 h2 h3 hs
    have e : leftRightFoursome l (p + 1) = sidesFor (sub b a) (sub b a) := by
      unfold leftRightFoursome
      rw [h2]
      dsimp only
      rw [if_pos (Nat.succ_pos p), Nat.add_sub_cancel, h1, h3]
    rw [e]
    exact hself _ hs

/-- C45: a path followed the other way has the other columns on its right. -/
theorem C45_reversed_path (a b : Vec) (ha : IsStep a) (hb : IsStep b) (hab : a ≠ (-b.1, -b.2)) (jp ip : Nat) (hj : jp < 2)
    (hi : ip < 2) : ∃ r r', sidesFor a b = .ok r ∧ sidesFor (-b.1, -b.2) (-a.1, -a.2) = .ok r' ∧
      marked r' jp ip = !marked r jp ip := by
  have key : ∀ r r' : List (List Bool), (∀ jp < 2, ∀ ip < 2, marked r' jp ip = !marked r jp ip) → marked r' jp ip = !marked r jp ip :=
    fun r r' h => h jp hj ip hi
  rcases ha with rfl | rfl | rfl | rfl <;> rcases hb with rfl | rfl | rfl | rfl <;>
    first
      | exact absurd rfl hab
      | exact ⟨_, _, rfl, rfl, key _ _ (by decide)⟩

/-- C45: along a segment the same columns are on the right at both its ends: `d` is the direction of the segment, `a` that of
the one before, `b` that of the one after.  The column on one side of the segment is seen from its start in direction `v` and
from its end in direction `v - 2 d`. -/
theorem C45_consistent_along_path (a d b : Vec) (ha : IsStep a) (hd : IsStep d) (hb : IsStep b) (h1 : a ≠ (-d.1, -d.2))
    (h2 : d ≠ (-b.1, -b.2)) : ∃ r r', sidesFor a d = .ok r ∧ sidesFor d b = .ok r' ∧
      ∀ jp ip jp' ip', jp < 2 → ip < 2 → jp' < 2 → ip' < 2 →
        colDir jp' ip' = ((colDir jp ip).1 - 2 * d.1, (colDir jp ip).2 - 2 * d.2) →
        marked r jp ip = marked r' jp' ip' ∧ (marked r jp ip = true ↔ 0 < cross d (colDir jp ip)) := by
  have key : ∀ r r' : List (List Bool), (∀ jp ip jp' ip' : Fin 2,
      colDir jp' ip' = ((colDir jp ip).1 - 2 * d.1, (colDir jp ip).2 - 2 * d.2) →
        marked r jp ip = marked r' jp' ip' ∧ (marked r jp ip = true ↔ 0 < cross d (colDir jp ip))) →
      ∀ jp ip jp' ip', jp < 2 → ip < 2 → jp' < 2 → ip' < 2 →
        colDir jp' ip' = ((colDir jp ip).1 - 2 * d.1, (colDir jp ip).2 - 2 * d.2) →
        marked r jp ip = marked r' jp' ip' ∧ (marked r jp ip = true ↔ 0 < cross d (colDir jp ip)) :=
    fun r r' h jp ip jp' ip' a b c d => h ⟨jp, a⟩ ⟨ip, b⟩ ⟨jp', c⟩ ⟨ip', d⟩
  rcases ha with rfl | rfl | rfl | rfl <;> rcases hd with rfl | rfl | rfl | rfl <;>
    first
      | exact absurd rfl h1
      | (rcases hb with rfl | rfl | rfl | rfl <;>
          first
            | exact absurd rfl h2
            | exact ⟨_, _, rfl, rfl, key _ _ (by decide)⟩)

example : leftRightFoursome [(2, 0), (2, 1), (3, 1)] 1 = .ok [[false, false], [true, false]] := by decide

/-! ## C46 infill -/

section
variable {K : Type} [Field K] [LinearOrder K] [IsStrictOrderedRing K]

/-- C46 when snapping is turned off: every active cell is left alone, and the inactive cells between two active ones fill the
space between them.  Missing: the default is to snap, which overwrites active cells (`C46_snap_overwrites_violated`), and
small overlaps, which are meant to be removed, raise (`C46_small_overlap_fails_violated`). -/
theorem C46_infill_partial (s : Settings K) (hs : s.sign = 1 ∨ s.sign = -1) (hsnap : s.snap = false) (c : Col K)
    (ho : NoOverlap s c) :
    ∃ c', infillColumn s c = .ok c' ∧ (∀ k, Active s c k → SameAt c c' k) ∧
      ∀ a b, Consecutive s c a b → a + 1 < b → Filled s c' a b := by
  unfold infillColumn
  obtain ⟨q1, q2, q3, q4⟩ := cleanUp_spec s s.nk 0 c (by omega)
  generalize cleanUp s s.nk 0 c = B at q1 q2 q3 q4
  obtain ⟨kTop, c1⟩ := B
  dsimp only at q1 q2 q3 q4 ⊢
  have hkept : ∀ k, Active s c k → SameAt c c1 k := by
    intro k hk
    apply q4
    by_contra hc
    push Not at hc
    exact q2 k hc.1 hc.2 hk
  split
  · rename_i hge
    refine ⟨c1, rfl, hkept, ?_⟩
    intro a b hab _
    exact absurd hab.1 (q2 a (by omega) (by have := hab.1.1; omega))
  · rename_i hlt
    push Not at hlt
    have e : snapTop s kTop false c1 = c1 := by unfold snapTop; simp
    rw [e]
    refine infillLoop_spec s hs hsnap c ho _ kTop c1 ⟨?_, hkept, ?_⟩ (q3 hlt) (by omega)
    · intro k hk
      exact q4 k (Or.inr hk)
    · intro a b hb hab _
      exact absurd hab.1 (q2 a (by omega) (by have := hab.2.2.1; omega))

/-- C46 does not hold with snapping, the default: in a column with every cell active, and nothing to fill in, the depth of
every cell but the last is replaced by that of the top of the last. -/
theorem C46_snap_overwrites_violated (s : Settings K) (hsnap : s.snap = true) (c : Col K) (h0 : 0 < s.nk)
    (hact : ∀ k, k < s.nk → Active s c k) :
    ∃ c', infillColumn s c = .ok c' ∧ SameAt c c' (s.nk - 1) ∧ ∀ k, k + 1 < s.nk → c'.depth k = topOf s c (s.nk - 1) := by
  have hclean : ∀ n k, Active s c k → cleanUp s n k c = (k, c) := by
    intro n k hk
    cases n with
    | zero => rfl
    | succ n =>
      unfold cleanUp
      rw [if_neg]
      rintro ⟨_, h⟩
      exact absurd h (not_le.mpr hk.2)
  have hclean' : ∀ n k, s.nk ≤ k → cleanUp s n k c = (k, c) := by
    intro n k hk
    cases n with
    | zero => rfl
    | succ n =>
      unfold cleanUp
      rw [if_neg]
      rintro ⟨h, _⟩
      omega
  have e1 : snapTop s 0 false c = c := by unfold snapTop; simp
  have e2 : skipActive s s.nk 0 c = s.nk := by
    obtain ⟨a, b, d⟩ := skipActive_spec s s.nk 0 c (by omega)
    by_contra hne
    rcases Nat.lt_or_gt_of_ne hne with h | h
    · exact d (hact _ h)
    · have := (b s.nk (by omega) h).1
      omega
  unfold infillColumn
  rw [hclean _ 0 (hact 0 h0)]
  dsimp only
  rw [if_neg (by omega), e1]
  unfold infillLoop
  dsimp only
  rw [e2, hclean' _ _ (by omega)]
  dsimp only
  rw [if_pos (by omega)]
  refine ⟨_, rfl, ?_, ?_⟩
  · unfold snapTop SameAt
    simp [hsnap]
  intro k hk
  unfold snapTop
  simp only [hsnap, Bool.and_self, if_true]
  rw [if_pos (by omega)]
  rfl

/-- C46 does not hold for small overlaps: where two active cells with an inactive one between them overlap by less than the
tolerance, the function raises whatever is asked for. -/
theorem C46_small_overlap_fails_violated (s : Settings K) (c : Col K) (hn : s.nk = 3) (h0 : s.depthTol < |c.depth 0|)
    (h1 : |c.depth 1| ≤ s.depthTol) (h2 : s.depthTol < |c.depth 2|)
    (ho : s.sign * (topOf s c 2 - baseOf s c 0) < 0) (hs : -s.overlapTol < s.sign * (topOf s c 2 - baseOf s c 0)) :
    infillColumn s c = .error .type := by
  have hc0 : ∀ n, cleanUp s n 0 c = (0, c) := by
    intro n
    cases n with
    | zero => rfl
    | succ n => unfold cleanUp; rw [if_neg (fun h => absurd h.2 (not_le.mpr h0))]
  have hc2 : ∀ n, cleanUp s n 2 c = (2, c) := by
    intro n
    cases n with
    | zero => rfl
    | succ n => unfold cleanUp; rw [if_neg (fun h => absurd h.2 (not_le.mpr h2))]
  have e1 : snapTop s 0 false c = c := by unfold snapTop; simp
  have e2 : skipActive s 3 0 c = 1 := by
    simp only [skipActive]
    rw [if_pos ⟨by omega, h0⟩, if_neg (fun h => absurd h.2 (not_lt.mpr h1))]
  unfold infillColumn
  rw [hc0]
  dsimp only
  rw [if_neg (by omega), e1]
  unfold infillLoop
  dsimp only
  rw [hn, e2]
  rw [show 1 + 1 = 2 from rfl, hc2]
  dsimp only
  rw [if_neg (by omega)]
  have e : s.sign * (c.depth 2 - c.thick 2 / 2 * s.sign - (c.depth (1 - 1) + c.thick (1 - 1) / 2 * s.sign)) =
      s.sign * (topOf s c 2 - baseOf s c 0) := by unfold topOf baseOf; rw [Nat.sub_self]; ring
  rw [e, if_pos ho, if_pos (by linarith)]
end

/-- default settings -/
def defaults (nk : Nat) : Settings Rat := ⟨nk, 1, 1 / 100, 1 / 100, 1 / 100, true, true⟩

/-- a column whose second and third cells are inactive -/
def holed : Col Rat :=
  ⟨fun k => [10, 0, 0, 40].getD k 0, fun k => [6, 0, 0, 6].getD k 0, fun k => [0, 0, 0, 8].getD k 0, fun _ => 0⟩

/-- the hypotheses of the theorem are met, with something to fill in -/
example : NoOverlap { defaults 4 with snap := false } holed ∧ Consecutive { defaults 4 with snap := false } holed 0 3 := by
  have key : ∀ k, Active { defaults 4 with snap := false } holed k ↔ k = 0 ∨ k = 3 := by
    intro k
    unfold Active
    constructor
    · rintro ⟨h1, h2⟩
      have : k < 4 := h1
      interval_cases k
      · left; rfl
      · revert h2; decide +kernel
      · revert h2; decide +kernel
      · right; rfl
    · rintro (rfl | rfl) <;> decide +kernel
  constructor
  · rintro a b ⟨ha, hb, hab, _⟩ _
    rw [key] at ha hb
    have h1 : a = 0 := by omega
    have h2 : b = 3 := by omega
    subst h1 h2
    decide +kernel
  · refine ⟨(key 0).mpr (by simp), (key 3).mpr (by simp), by omega, ?_⟩
    intro k h1 h2 hk
    rw [key] at hk
    omega

example : (match infillColumn { defaults 4 with snap := false } holed with
    | .ok c => decide (c.depth 1 = 19 ∧ c.depth 2 = 31 ∧ c.thick 1 = 12 ∧ c.depth 0 = 10 ∧ c.x 2 = 6)
    | .error _ => false) = true := by decide +kernel

/-- a fully active column of three cells -/
def full : Col Rat := ⟨fun k => [10, 20, 30].getD k 0, fun _ => 10, fun _ => 0, fun _ => 0⟩

example : (∀ k, k < 3 → Active (defaults 3) full k) ∧ topOf (defaults 3) full 2 ≠ full.depth 0 := by
  constructor
  · intro k hk
    interval_cases k <;> (unfold Active; decide +kernel)
  · decide +kernel

/-- an overlap of 1/200 -/
def lapped : Col Rat := ⟨fun k => [10, 0, 20 - 1 / 200].getD k 0, fun _ => 10, fun _ => 0, fun _ => 0⟩

example : (match infillColumn (defaults 3) lapped with | .error .type => true | _ => false) = true := by decide +kernel

/-! ## C47 translation of corner points -/

/-- C47: translating by given shifts without preserving digits adds exactly the shift. -/
theorem C47_given_shift {K : Type} [Field K] (floor : K → K) (m shift : K) (minXy : Option K) (x : K) :
    x - translateShift floor m (some shift) minXy none = x + shift := by
  unfold translateShift
  ring

section
variable {K : Type} [Field K] [LinearOrder K] [IsStrictOrderedRing K] [FloorRing K]

/-- C47: without a shift, the least value becomes the one asked for; when digits are preserved, each value changes by a whole
multiple of the power of ten and the least value ends between the one asked for and one power of ten above it. -/
theorem C47_least_value (m : K) (minXy : Option K) (x : K) :
    m - translateShift (fun y => (⌊y⌋ : K)) m none minXy none = minXy.getD 0 ∧
    ∀ d : K, 0 < d →
      (∃ z : ℤ, x - translateShift (fun y => (⌊y⌋ : K)) m none minXy (some d) = x - z * d) ∧
      minXy.getD 0 ≤ m - translateShift (fun y => (⌊y⌋ : K)) m none minXy (some d) ∧
      m - translateShift (fun y => (⌊y⌋ : K)) m none minXy (some d) < minXy.getD 0 + d := by
  unfold translateShift
  dsimp only
  refine ⟨by ring, fun d hd => ⟨⟨⌊(m - minXy.getD 0) / d⌋, by ring⟩, ?_, ?_⟩⟩
  · have h := Int.floor_le ((m - minXy.getD 0) / d)
    rw [le_div_iff₀ hd] at h
    linarith
  · have h := Int.lt_floor_add_one ((m - minXy.getD 0) / d)
    rw [div_lt_iff₀ hd] at h
    linarith

/-- C47 does not hold when a shift is given and digits are to be preserved: the shift is not the nearest multiple towards
zero but rounded upwards; a shift smaller than the power of ten becomes a full step of it. -/
theorem C47_shift_rounded_up_violated (m : K) (minXy : Option K) (d shift : K) (hd : 0 < d) (h0 : 0 < shift) (h1 : shift < d) :
    translateShift (fun y => (⌊y⌋ : K)) m (some shift) minXy (some d) = -d := by
  unfold translateShift
  dsimp only
  have : ⌊-shift / d⌋ = -1 := by
    rw [Int.floor_eq_iff]
    constructor
    · rw [le_div_iff₀ hd]; push_cast; linarith
    · rw [div_lt_iff₀ hd]; push_cast; linarith
  rw [this]
  push_cast
  ring
end

example : translateShift (fun y : Rat => (⌊y⌋ : Rat)) 123456 none none (some 1000) = 123000 := by decide +kernel

end Verif.GridFns
