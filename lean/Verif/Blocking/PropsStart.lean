import Verif.Blocking.PropsDerive
import Verif.Blocking.Kh

/-!
# C125, C127: where the trajectory of a derived blocked well starts, centres of faces, permeabilities left out
-/

namespace Verif.Blocking
open Verif.Py
open Verif.Volume (Vec)

/-- Specification: the corners (kp, jp, ip) of the face at end `p` of the given axis. -/
def onFace (axis p : Nat) : List (Nat × Nat × Nat) :=
  [(0, 0, 0), (0, 0, 1), (0, 1, 0), (0, 1, 1), (1, 0, 0), (1, 0, 1), (1, 1, 0), (1, 1, 1)].filter fun c =>
    (if axis = 0 then c.1 else if axis = 1 then c.2.1 else c.2.2) = p

variable {K : Type} [Field K] [LinearOrder K]

/-- **C125** the centre of a face is the mean of the four corners which the face has -/
theorem C125_face_centre (cp : Nat → Nat → Nat → Vec K) (axis p : Nat) (ha : axis < 3) (hp : p < 2) :
    (onFace axis p).length = 4 ∧
    (faceCentre cp (axis, p)).x = ((onFace axis p).map fun c => (cp c.1 c.2.1 c.2.2).x).sum / 4 ∧
    (faceCentre cp (axis, p)).y = ((onFace axis p).map fun c => (cp c.1 c.2.1 c.2.2).y).sum / 4 ∧
    (faceCentre cp (axis, p)).z = ((onFace axis p).map fun c => (cp c.1 c.2.1 c.2.2).z).sum / 4 := by
  interval_cases axis <;> interval_cases p <;>
    simp [faceCentre, onFace, List.filter] <;> refine ⟨?_, ?_, ?_⟩ <;> ring

/-- nothing yet, or the first point stands above the centre of the face by which the first cell is entered; for `C125_start` -/
def Started (e : Setting K) (s : State K) : Prop :=
  (s.prev = none ∧ s.points = [] ∧ s.cells = [] ∧ s.pairs = []) ∨
  (s.prev ≠ none ∧ ∃ (cell : Cell) (entry exit : Face) (p : Vec K), s.cells[0]? = some cell ∧ s.pairs[0]? = some (entry, exit) ∧ s.points[0]? = some p ∧
    p.x = (faceCentre (e.corners cell) entry).x ∧ p.y = (faceCentre (e.corners cell) entry).y ∧ p.z = 0)

theorem started_add {e : Setting K} {s : State K} (h : Started e s) (entry exit : Face) (cell : Cell) :
    Started e (addInterval e.len s entry (faceCentre (e.corners cell) entry) exit (faceCentre (e.corners cell) exit) cell) := by
  right
  rcases h with ⟨h1, h2, h3, h4⟩ | ⟨h1, c, en, ex, p, h2, h3, h4, h5⟩
  · unfold addInterval startAt addUnblocked addBlocked
    rw [h1]
    simp only [h2, h3, h4, List.nil_append]
    split_ifs
    · exact ⟨by simp, cell, entry, exit, _, rfl, rfl, rfl, rfl, rfl, rfl⟩
    · exact ⟨by simp, cell, entry, exit, _, rfl, rfl, rfl, rfl, rfl, rfl⟩
  · obtain ⟨q, hq⟩ := Option.ne_none_iff_exists'.mp h1
    have i2 := index_lt h2
    have i3 := index_lt h3
    have i4 := index_lt h4
    unfold addInterval startAt addUnblocked addBlocked
    rw [hq]
    simp only
    split_ifs
    · refine ⟨by simp, c, en, ex, p, ?_, ?_, ?_, h5⟩
      · rw [List.getElem?_append_left i2]; exact h2
      · rw [List.getElem?_append_left i3]; exact h3
      · rw [List.getElem?_append_left i4]; exact h4
    · refine ⟨by simp, c, en, ex, p, ?_, ?_, ?_, h5⟩
      · dsimp only; rw [List.getElem?_append_left i2]; exact h2
      · dsimp only; rw [List.getElem?_append_left i3]; exact h3
      · dsimp only
        rw [List.getElem?_append_left (by rw [List.length_append]; omega), List.getElem?_append_left i4]; exact h4

theorem step_started {e : Setting K} {s s' : State K} (i : Nat) (r : Row) (next : Option Row) (h : Started e s) (hs : step e i r next s = .ok s') :
    Started e s' := by
  unfold step at hs
  cases hc : cellOf r with
  | none =>
    rw [hc] at hs
    cases hs
    exact h
  | some cell =>
    rw [hc] at hs
    simp only at hs
    split_ifs at hs with hk
    · cases hs
      exact h
    · cases hf : facesFor e i r next cell s.cells with
      | error x => rw [hf, err_bind] at hs; cases hs
      | ok ff =>
        rw [hf, res_bind] at hs
        obtain ⟨entry, exit⟩ := ff
        simp only at hs
        unfold entryExitPoints at hs
        split_ifs at hs
        · rw [res_bind] at hs
          cases hs
          exact started_add (s := { s with lastCell := some cell, skipped := (verifyGridName e.upper e.check r s.skipped).1 }) (e := e) h entry exit cell
        · rw [err_bind] at hs; cases hs

theorem loop_started {e : Setting K} : ∀ (rows : List Row) (i : Nat) {s s' : State K}, Started e s → loop e i rows s = .ok s' → Started e s'
  | [], _, s, s', h, hs => by unfold loop at hs; cases hs; exact h
  | r :: rest, i, s, s', h, hs => by
    unfold loop at hs
    cases h1 : step e i r rest.head? s with
    | error x => rw [h1, err_bind] at hs; cases hs
    | ok s1 =>
      rw [h1, res_bind] at hs
      exact loop_started rest (i + 1) (step_started i r _ h h1) hs

/-- **C125** the trajectory starts at depth nought, straight above (or below) the centre of the face by which the first cell is entered -/
theorem C125_start [IsStrictOrderedRing K] (e : Setting K) (g : GridInfo) (rows : List Row) (w : Well K) (h : deriveFromDataframe e g rows = .ok w) :
    ∃ (cell : Cell) (entry exit : Face) (p : Vec K), w.cellIndices[0]? = some (natural g cell) ∧ w.facePairs[0]? = some (entry, exit) ∧
      w.trajPoints[0]? = some p ∧ p.x = (faceCentre (e.corners cell) entry).x ∧ p.y = (faceCentre (e.corners cell) entry).y ∧ p.z = 0 := by
  obtain ⟨s, h1, h2, ht, h4, h5, h6, h7, h8, h9⟩ := derive_inv h
  rcases loop_started (e := e) rows 0 (Or.inl ⟨rfl, rfl, rfl, rfl⟩) h1 with hb | ⟨-, c, en, ex, p, g1, g2, g3, g4⟩
  · exact absurd hb.2.2.1 h2
  · refine ⟨c, en, ex, p, ?_, by rw [h9]; exact g2, ?_, g4⟩
    · rw [h8, List.getElem?_map, g1]; rfl
    · rcases tail_prefix ht with ⟨h10, -⟩ | ⟨-, q, h10, -⟩
      · rw [h10]; exact g3
      · rw [h10, List.getElem?_append_left (index_lt g3)]; exact g3

/-- **C127** if only one of the permeabilities for j and for k is left out, that for i stands for it -/
theorem C127_left_out {U : Type} [DecidableEq U] (values : U → Option ℝ) (ntg : Option ℝ) (preferential : Bool) (ppf : ℝ) (i u : U)
    (length : ℝ) (a : Angles) :
    kh values ntg preferential ppf i (some u) none length a = kh values ntg preferential ppf i (some u) (some i) length a ∧
    kh values ntg preferential ppf i none (some u) length a = kh values ntg preferential ppf i (some i) (some u) length a := by
  constructor <;> simp [kh, verifyPermUuids]

end Verif.Blocking
