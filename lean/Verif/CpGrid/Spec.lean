import Verif.CpGrid.Model

/-! # What is asked of a grid made from corner points -/

namespace Verif.CpGrid
open Verif.Py

variable {K : Type} [Field K] [LinearOrder K]

/-- every coordinate of the points differs by at most `d` -/
def Within (d : K) (a b : Pt K) : Prop := |a.1 - b.1| ≤ d ∧ |a.2.1 - b.2.1| ≤ d ∧ |a.2.2 - b.2.2| ≤ d

/-- the indices of a cell corner in range -/
def InGrid (nk nj ni k j i kp jp ip : Nat) : Prop := k < nk ∧ j < nj ∧ i < ni ∧ kp ≤ 1 ∧ jp ≤ 1 ∧ ip ≤ 1

/-- no layer is separated from the one below by more than `d` anywhere -/
def VoidsWithin (nk nj ni : Nat) (cp : Cp K) (d : K) (k : Nat) : Prop :=
  k + 1 < nk → ∀ j i jp ip, j < nj → i < ni → jp ≤ 1 → ip ≤ 1 → Within d (cp (k + 1) j i 0 jp ip) (cp k j i 1 jp ip)

end Verif.CpGrid
