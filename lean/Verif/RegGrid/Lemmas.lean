import Verif.RegGrid.Spec
import Mathlib.Tactic.Ring
import Mathlib.Tactic.FieldSimp
import Mathlib.Tactic.Linarith
import Mathlib.Tactic.FinCases
import Mathlib.Tactic.NormNum

/-!
# Regular grids: lemmas
-/

namespace Verif.RegGrid
open Verif.Py

variable {K : Type} [Field K] [LinearOrder K]

section
variable [IsStrictOrderedRing K]

theorem lineK_eq (g : RegGrid K) (k : Nat) (a : Fin 3) : lineK g k a = (k : K) * g.d 0 a := by
  induction k with
  | zero => simp [lineK]
  | succ k ih => simp only [lineK, Pi.add_apply, ih]; push_cast; ring

theorem planeJ_eq (g : RegGrid K) (k j : Nat) (a : Fin 3) : planeJ g k j a = (k : K) * g.d 0 a + (j : K) * g.d 1 a := by
  induction j with
  | zero => simp [planeJ, lineK_eq]
  | succ j ih => simp only [planeJ, Pi.add_apply, ih]; push_cast; ring

theorem spaceI_eq (g : RegGrid K) (k j i : Nat) (a : Fin 3) : spaceI g k j i a = (k : K) * g.d 0 a + (j : K) * g.d 1 a + (i : K) * g.d 2 a := by
  induction i with
  | zero => simp [spaceI, planeJ_eq]
  | succ i ih => simp only [spaceI, Pi.add_apply, ih]; push_cast; ring

theorem pointsArray_eq (g : RegGrid K) : pointsArray g true = node g := by
  funext p a
  simp only [pointsArray, if_true, Pi.add_apply, spaceI_eq, node]
  ring

theorem pointDirect_eq (g : RegGrid K) : pointDirect g = node g := by
  funext p a
  simp only [pointDirect, node]
  ring

theorem linspaceOpen_eq (d : K) {n : Nat} (h : 0 < n) (i : Nat) : linspaceOpen 0 (d * (n : K)) n i = (i : K) * d := by
  have : (n : K) ≠ 0 := Nat.cast_ne_zero.mpr (by omega)
  unfold linspaceOpen
  field_simp
  ring

theorem acpStart_eq {g : RegGrid K} (h : Fit g) : acpStart g = cpStart g := by
  funext c a
  unfold acpStart cpStart
  rw [linspaceOpen_eq _ h.ni, linspaceOpen_eq _ h.nj, linspaceOpen_eq _ h.nk]
  split_ifs <;> ring

theorem cornersFrom_eq {g : RegGrid K} (h : Fit g) (ha : g.aligned = true) (c : Cell) : cornersFrom g (cpStart g c) = corner g c := by
  obtain ⟨h1, h2, h3, h4, h5, h6⟩ := h.axes ha
  funext p a
  obtain ⟨kp, jp, ip⟩ := p
  fin_cases a <;> fin_cases kp <;> fin_cases jp <;> fin_cases ip <;>
    simp [cornersFrom, cpStart, corner, node, h1, h2, h3, h4, h5, h6] <;> ring

theorem centreK_eq (g : RegGrid K) (k : Nat) : centreK g k = lineK g k := by
  induction k with
  | zero => rfl
  | succ k ih => simp only [centreK, lineK, ih]

theorem centreJ_eq (g : RegGrid K) (k j : Nat) : centreJ g k j = planeJ g k j := by
  induction j with
  | zero => exact centreK_eq g k
  | succ j ih => simp only [centreJ, planeJ, ih]

theorem centreI_eq (g : RegGrid K) (k j i : Nat) : centreI g k j i = spaceI g k j i := by
  induction i with
  | zero => exact centreJ_eq g k j
  | succ i ih => simp only [centreI, spaceI, ih]

/-- the mean of the corners, half a step along each axis from the first -/
theorem centre_eq (g : RegGrid K) (c : Cell) (a : Fin 3) : centre g c a =
    g.origin a + ((c.1 : K) + 1 / 2) * g.d 0 a + ((c.2.1 : K) + 1 / 2) * g.d 1 a + ((c.2.2 : K) + 1 / 2) * g.d 2 a := by
  simp only [centre, corner, node, Fin.val_zero, Fin.val_one, add_zero]
  push_cast
  field_simp
  ring

theorem centreDirect_eq (g : RegGrid K) (c : Cell) : centreDirect g true c = centre g c ∧ centreDirect g false c = centre g c - g.origin := by
  constructor
  · funext a
    rw [centre_eq]
    simp only [centreDirect, if_true]
    ring
  · funext a
    rw [Pi.sub_apply, centre_eq]
    simp only [centreDirect, Bool.false_eq_true, if_false]
    ring

theorem centresArray_eq {g : RegGrid K} (h : Fit g) :
    centresArray g true = centre g ∧ centresArray g false = fun c => centre g c - g.origin := by
  have key : ∀ (c : Cell) (a : Fin 3), (if g.aligned then acpStart g c a else centreI g c.1 c.2.1 c.2.2 a) =
      (c.1 : K) * g.d 0 a + (c.2.1 : K) * g.d 1 a + (c.2.2 : K) * g.d 2 a := by
    intro c a
    cases ha : g.aligned with
    | false => simp only [Bool.false_eq_true, if_false]; rw [centreI_eq, spaceI_eq]
    | true =>
      obtain ⟨h1, h2, h3, h4, h5, h6⟩ := h.axes ha
      rw [if_pos rfl, acpStart_eq h]
      fin_cases a <;> simp [cpStart, h1, h2, h3, h4, h5, h6] <;> ring
  constructor
  · funext c a
    rw [centre_eq]
    unfold centresArray
    rw [key, if_pos rfl]
    ring
  · funext c a
    rw [Pi.sub_apply, centre_eq]
    unfold centresArray
    rw [key, if_neg (by simp)]
    ring

end

/-! ### Calls -/

/-- the arrays kept are the right ones -/
structure Good (g : RegGrid K) (s : Cache K) : Prop where
  points : ∀ f, s.points = some f → f = node g
  corners : ∀ f, s.corners = some f → f = corner g
  centres : ∀ f, s.centres = some f → f = centre g

variable [IsStrictOrderedRing K]

theorem pointsOf_eq {g : RegGrid K} {s : Cache K} (hs : Good g s) : pointsOf g s = node g := by
  unfold pointsOf
  cases h : s.points with
  | none => exact pointsArray_eq g
  | some f => exact hs.points f h

theorem makePoints_good {g : RegGrid K} {s : Cache K} (hs : Good g s) : Good g (makePoints g true s) := by
  unfold makePoints
  cases h : s.points with
  | some f => exact hs
  | none => exact ⟨fun f hf => by cases hf; exact pointsArray_eq g, hs.corners, hs.centres⟩

theorem cornersOfPoints_eq (g : RegGrid K) : cornersOfPoints (node g) = corner g := rfl

theorem pointRaw_answer {g : RegGrid K} {s : Cache K} (hs : Good g s) (i : Option Cell) (c : Bool) :
    (pointRaw g i c s).1 = answer g (.pointRaw i c) ∧ Good g (pointRaw g i c s).2 := by
  unfold pointRaw
  cases c with
  | true =>
    cases i with
    | none => exact ⟨rfl, makePoints_good hs⟩
    | some p => exact ⟨by simp [pointsOf_eq hs, answer], makePoints_good hs⟩
  | false =>
    cases i with
    | none => exact ⟨rfl, hs⟩
    | some p => exact ⟨by simp [pointDirect_eq, answer], hs⟩

theorem general_answer {g : RegGrid K} {s : Cache K} (hs : Good g s) (cell : Option Cell) (r c : Bool) :
    (cornerPointsGeneral g cell r c s).1 = answer g (.cornerPoints cell r c) ∧ Good g (cornerPointsGeneral g cell r c s).2 := by
  have hs' : Good g (if r then makePoints g true s else s) := by
    split_ifs
    · exact makePoints_good hs
    · exact hs
  have hw := makePoints_good hs'
  unfold cornerPointsGeneral
  cases cell with
  | none =>
    refine ⟨?_, hw.points, ?_, hw.centres⟩
    · simp only [pointsOf_eq hw, cornersOfPoints_eq, answer]
    · intro f hf
      simp only [Option.some.injEq] at hf
      rw [← hf, pointsOf_eq hw]
      rfl
  | some cc =>
    dsimp only
    by_cases hc : c = true
    · rw [if_pos hc]
      refine ⟨?_, hw.points, ?_, hw.centres⟩
      · simp only [pointsOf_eq hw, cornersOfPoints_eq, answer]
      · intro f hf
        simp only [Option.some.injEq] at hf
        rw [← hf, pointsOf_eq hw]
        rfl
    · rw [if_neg hc]
      by_cases hr : r = true
      · rw [if_pos hr]
        exact ⟨by rw [pointsOf_eq hs']; rfl, hs'⟩
      · rw [if_neg hr]
        exact ⟨by rw [pointDirect_eq]; rfl, hs'⟩

theorem cornerPoints_answer {g : RegGrid K} (h : Fit g) {s : Cache K} (hs : Good g s) (cell : Option Cell) (r c : Bool) :
    (cornerPoints g cell r c s).1 = answer g (.cornerPoints cell r c) ∧ Good g (cornerPoints g cell r c s).2 := by
  unfold cornerPoints
  cases hc : s.corners with
  | some f =>
    have := hs.corners f hc
    subst this
    cases cell <;> exact ⟨rfl, hs⟩
  | none =>
    cases ha : g.aligned with
    | false =>
      have := general_answer hs cell r c
      cases cell <;> simpa using this
    | true =>
      have e : (fun cc => cornersFrom g (acpStart g cc)) = corner g := by
        funext cc
        rw [acpStart_eq h, cornersFrom_eq h ha]
      have hg : Good g { s with corners := some fun cc => cornersFrom g (acpStart g cc) } :=
        ⟨hs.points, fun f hf => by cases hf; exact e, hs.centres⟩
      cases cell with
      | none => exact ⟨by simp only [Bool.not_true, Bool.false_eq_true, if_false, e, answer], hg⟩
      | some cc =>
        simp only [Bool.not_true, Bool.false_eq_true, if_false]
        by_cases hcc : c = true
        · rw [if_pos hcc]
          exact ⟨by rw [congrFun e cc]; rfl, hg⟩
        · rw [if_neg hcc]
          exact ⟨by rw [cornersFrom_eq h ha]; rfl, hs⟩

theorem centrePoint_answer {g : RegGrid K} (h : Fit g) {s : Cache K} (hs : Good g s) (cell : Option Cell) (c o : Bool) :
    (centrePoint g cell c o s).1 = answer g (.centrePoint cell c o) ∧ Good g (centrePoint g cell c o s).2 := by
  obtain ⟨e1, e2⟩ := centresArray_eq h
  have hg : Good g { s with centres := some (centresArray g true) } := ⟨hs.points, hs.corners, fun f hf => by cases hf; exact e1⟩
  unfold centrePoint
  cases hc : s.centres with
  | none =>
    cases cell with
    | none => cases c <;> cases o <;> simp [answer, e1, e2, hs] <;> simpa [e1] using hg
    | some cc =>
      obtain ⟨d1, d2⟩ := centreDirect_eq g cc
      cases c <;> cases o <;> simp [answer, e1, e2, d1, d2, hs] <;> simpa [e1] using hg
  | some f =>
    have := hs.centres f hc
    subst this
    cases cell with
    | none => cases c <;> cases o <;> simp [answer, e2, hs]
    | some cc =>
      obtain ⟨d1, d2⟩ := centreDirect_eq g cc
      cases c <;> cases o <;> simp [answer, e2, d2, hs]

theorem call_answer {g : RegGrid K} (h : Fit g) {s : Cache K} (hs : Good g s) (c : Call) : (call g s c).1 = answer g c ∧ Good g (call g s c).2 := by
  cases c with
  | pointRaw i c => exact pointRaw_answer hs i c
  | cornerPoints cell r c => exact cornerPoints_answer h hs cell r c
  | centrePoint cell c o => exact centrePoint_answer h hs cell c o

end Verif.RegGrid
