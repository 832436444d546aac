import Verif.FineCoarse.Model
import Verif.Box.Spec

/-!
# What the refinement properties mean
-/

namespace Verif.FineCoarse
open Verif.Py Verif.Box

/-- With refinement ratios `r` along an axis, fine slice `f` belongs to coarse slice `c`. -/
def Owns (r : List Int) (c : Nat) (f : Int) : Prop :=
  c < r.length ∧ (r.take c).sum ≤ f ∧ f < (r.take (c + 1)).sum

/-- The ratios currently reported for an axis of the object are `r`. -/
def RatiosAre (s : FC) (axis : Fin 3) (r : List Int) : Prop :=
  (r.length : Int) = (s.ax axis).coarse ∧ ∀ (c : Nat) (h : c < r.length), s.ratio axis c = .ok r[c]

/-- `c` is a cell of the coarse grid -/
def CoarseCell (s : FC) (c : V3) : Prop :=
  (0 ≤ c.k ∧ c.k < (s.ax 0).coarse) ∧ (0 ≤ c.j ∧ c.j < (s.ax 1).coarse) ∧ (0 ≤ c.i ∧ c.i < (s.ax 2).coarse)

/-- `f` is a cell of the fine grid -/
def FineCell (s : FC) (f : V3) : Prop :=
  (0 ≤ f.k ∧ f.k < (s.ax 0).fine) ∧ (0 ≤ f.j ∧ f.j < (s.ax 1).fine) ∧ (0 ≤ f.i ∧ f.i < (s.ax 2).fine)

/-- the fine box reported for coarse cell `c` contains fine cell `f` -/
def InFineBox (s : FC) (f c : V3) : Prop := ∃ b, s.fineBox c = .ok b ∧ In f b

/-- a setter call -/
def Op.isSetter : Op → Bool
  | .lookup _ _ => false
  | _ => true

/-- strictly increasing -/
def Increasing (l : List Rat) : Prop := l.Pairwise (· < ·)

end Verif.FineCoarse
