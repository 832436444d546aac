import Verif.Extract.Lemmas

/-! # Lemmas: the loop over extra pillars -/

namespace Verif.Extract
open Verif.Py Verif.CpGrid

/-- pillar (pj, pi) is at the edge of or inside the box -/
def InBox (b : Box) (pj pi : Nat) : Prop := b.j0 ≤ pj ∧ pj ≤ b.j1 + 1 ∧ b.i0 ≤ pi ∧ pi ≤ b.i1 + 1

def lpOf (b : Box) (pj pi : Nat) : Nat := (pj - b.j0) * (b.ni + 1) + (pi - b.i0)

def Covers (g : Pillars.Grid) (b : Box) (seg : List Nat) (pj pi : Nat) : Prop :=
  ∀ c ∈ locals b (pj - b.j0, pi - b.i0), colNo g.ni (pj, pi) c ∈ seg

theorem lpOf_inj {b : Box} {pj pi pj' pi' : Nat} (h : InBox b pj pi) (h' : InBox b pj' pi') (e : lpOf b pj pi = lpOf b pj' pi') :
    pj = pj' ∧ pi = pi' := by
  unfold InBox at h h'
  unfold lpOf at e
  obtain ⟨h1, h2⟩ := mul_add_inj (w := b.ni + 1) (by unfold Box.ni; omega) (by unfold Box.ni; omega) e
  omega

theorem contrib_lp (g : Pillars.Grid) (b : Box) (seg : List Nat) (n pj pi : Nat) : (contrib g b seg n pj pi).lp = lpOf b pj pi := by
  unfold contrib lpOf
  split
  · rfl
  · split <;> rfl

/-- the conditions on box and source tables -/
structure Cond (g : Pillars.Grid) (b : Box) : Prop where
  hj : b.j1 < g.nj
  hi : b.i1 < g.ni
  hj' : b.j0 ≤ b.j1
  hi' : b.i0 ≤ b.i1
  nat : ∀ p ∈ g.spi, p < (g.nj + 1) * (g.ni + 1)
  seg : ∀ n p, g.spi[n]? = some p → ∃ seg, Pillars.segment g n = .ok seg
  last : ∀ n n' pj pi seg, n < n' → g.spi[n]? = some (pj * (g.ni + 1) + pi) → g.spi[n']? = some (pj * (g.ni + 1) + pi) →
    InBox b pj pi → Pillars.segment g n = .ok seg → ¬ Covers g b seg pj pi

structure LInv (g : Pillars.Grid) (b : Box) (n : Nat) (s : State) : Prop where
  covered : ∀ pj pi n' seg, InBox b pj pi → n' < n → g.spi[n']? = some (pj * (g.ni + 1) + pi) → Pillars.segment g n' = .ok seg →
    Covers g b seg pj pi → s.base (lpOf b pj pi) = (g.nj + 1) * (g.ni + 1) + n'
  free : ∀ pj pi, InBox b pj pi → (∀ n' seg, n' < n → g.spi[n']? = some (pj * (g.ni + 1) + pi) → Pillars.segment g n' = .ok seg →
    ¬ Covers g b seg pj pi) → s.base (lpOf b pj pi) = pj * (g.ni + 1) + pi
  extras : ∀ e : NewExtra, e ∈ s.extras ↔ ∃ n' pj pi seg, n' < n ∧ g.spi[n']? = some (pj * (g.ni + 1) + pi) ∧ InBox b pj pi ∧
    Pillars.segment g n' = .ok seg ∧ ¬ Covers g b seg pj pi ∧ mine g b seg pj pi ≠ [] ∧
    e = (lpOf b pj pi, (g.nj + 1) * (g.ni + 1) + n', (mine g b seg pj pi).map (colNo b.ni (pj - b.j0, pi - b.i0)))

theorem LInv.zero {g : Pillars.Grid} {b : Box} (_h : Cond g b) : LInv g b 0 ⟨initialBase g b, []⟩ where
  covered := fun _ _ _ _ _ h => absurd h (Nat.not_lt_zero _)
  free := by
    intro pj pi hin _
    unfold InBox at hin
    have hd := Pillars.div_mod_of (n := b.ni + 1) (a := pi - b.i0) (b := pj - b.j0) (by unfold Box.ni; omega)
    unfold initialBase lpOf
    dsimp only
    rw [hd.1, hd.2, Nat.add_sub_cancel' hin.1, Nat.add_sub_cancel' hin.2.2.1]
  extras := by
    intro e
    constructor
    · intro h
      cases h
    · rintro ⟨n', _, _, _, h, _⟩
      exact absurd h (Nat.not_lt_zero _)

theorem mem_spi_lt {g : Pillars.Grid} {n p : Nat} (h : g.spi[n]? = some p) : p ∈ g.spi := List.mem_of_getElem? h

theorem pillar_coords {g : Pillars.Grid} {b : Box} (h : Cond g b) {n p : Nat} (hn : g.spi[n]? = some p) :
    ∃ pj pi, p = pj * (g.ni + 1) + pi ∧ pj ≤ g.nj ∧ pi ≤ g.ni := by
  have hp := h.nat p (mem_spi_lt hn)
  refine ⟨p / (g.ni + 1), p % (g.ni + 1), ?_, ?_, ?_⟩
  · rw [Nat.mul_comm]
    exact (Nat.div_add_mod p (g.ni + 1)).symm
  · have := (Nat.div_lt_iff_lt_mul (by omega)).mpr hp
    omega
  · have := Nat.mod_lt p (show g.ni + 1 > 0 by omega)
    omega

theorem coords_unique {ni pj pi pj' pi' : Nat} (h : pi ≤ ni) (h' : pi' ≤ ni)
    (e : pj * (ni + 1) + pi = pj' * (ni + 1) + pi') : pj = pj' ∧ pi = pi' :=
  mul_add_inj (by omega) (by omega) e

theorem InBox.le {g : Pillars.Grid} {b : Box} (h : Cond g b) {pj pi : Nat} (hin : InBox b pj pi) : pj ≤ g.nj ∧ pi ≤ g.ni := by
  have := h.hj
  have := h.hi
  unfold InBox at hin
  omega

theorem contrib_extras_mem {g : Pillars.Grid} {b : Box} {seg : List Nat} {n pj pi : Nat} (e : NewExtra) :
    e ∈ ((contrib g b seg n pj pi).extras.map fun x => ((contrib g b seg n pj pi).lp, x.1, x.2)) ↔
      ¬ Covers g b seg pj pi ∧ mine g b seg pj pi ≠ [] ∧
      e = (lpOf b pj pi, (g.nj + 1) * (g.ni + 1) + n, (mine g b seg pj pi).map (colNo b.ni (pj - b.j0, pi - b.i0))) := by
  rw [contrib_lp]
  unfold contrib
  by_cases h : ∀ c ∈ locals b (pj - b.j0, pi - b.i0), colNo g.ni (pj, pi) c ∈ seg
  · rw [if_pos h]
    constructor
    · intro h
      cases h
    · rintro ⟨h', _⟩
      exact absurd h h'
  · rw [if_neg h]
    by_cases hm : mine g b seg pj pi = []
    · rw [if_pos hm]
      constructor
      · intro h
        cases h
      · rintro ⟨_, h', _⟩
        exact absurd hm h'
    · rw [if_neg hm]
      simp only [List.map_cons, List.map_nil, List.mem_singleton]
      constructor
      · rintro rfl
        exact ⟨h, hm, rfl⟩
      · rintro ⟨_, _, rfl⟩
        rfl

theorem LInv.step {g : Pillars.Grid} {b : Box} (h : Cond g b) {n : Nat} {s : State} (hs : LInv g b n s) {p : Nat}
    (hn : g.spi[n]? = some p) :
    ∃ s', LInv g b (n + 1) s' ∧ ∀ ps, splitLoop g b (p :: ps) n s = splitLoop g b ps (n + 1) s' := by
  obtain ⟨pj, pi, rfl, hpj, hpi⟩ := pillar_coords h hn
  obtain ⟨seg, hseg⟩ := h.seg n _ hn
  have hc := contribution_eq hseg hpj hpi h.hj h.hi h.hj' h.hi'
  by_cases hin : InBox b pj pi
  swap
  · rw [if_neg (show ¬ (b.j0 ≤ pj ∧ pj ≤ b.j1 + 1 ∧ b.i0 ≤ pi ∧ pi ≤ b.i1 + 1) from hin)] at hc
    refine ⟨s, ?_, fun ps => by rw [splitLoop, hc]⟩
    have hno : ∀ {pj' pi' n'}, InBox b pj' pi' → n' < n + 1 → g.spi[n']? = some (pj' * (g.ni + 1) + pi') → n' < n := by
      intro pj' pi' n' h1 h2 h3
      rcases Nat.lt_succ_iff_lt_or_eq.mp h2 with h4 | rfl
      · exact h4
      · rw [hn] at h3
        obtain ⟨rfl, rfl⟩ := coords_unique hpi (h1.le h).2 (Option.some.inj h3)
        exact absurd h1 hin
    constructor
    · intro pj' pi' n' seg' h1 h2 h3 h4 h5
      exact hs.covered pj' pi' n' seg' h1 (hno h1 h2 h3) h3 h4 h5
    · intro pj' pi' h1 h2
      exact hs.free pj' pi' h1 fun n' seg' h3 h4 h5 => h2 n' seg' (Nat.lt_succ_of_lt h3) h4 h5
    · intro e
      rw [hs.extras]
      constructor
      · rintro ⟨n', pj', pi', seg', h1, h2⟩
        exact ⟨n', pj', pi', seg', Nat.lt_succ_of_lt h1, h2⟩
      · rintro ⟨n', pj', pi', seg', h1, h2, h3, h4⟩
        exact ⟨n', pj', pi', seg', hno h3 h1 h2, h2, h3, h4⟩
  rw [if_pos (show b.j0 ≤ pj ∧ pj ≤ b.j1 + 1 ∧ b.i0 ≤ pi ∧ pi ≤ b.i1 + 1 from hin)] at hc
  refine ⟨_, ?_, fun ps => by rw [splitLoop, hc]⟩
  constructor
  · intro pj' pi' n' seg' h1 h2 h3 h4 h5
    dsimp only
    rw [contrib_lp]
    rcases Nat.lt_succ_iff_lt_or_eq.mp h2 with h6 | rfl
    · rw [if_neg, hs.covered pj' pi' n' seg' h1 h6 h3 h4 h5]
      intro e
      obtain ⟨rfl, rfl⟩ := lpOf_inj h1 hin e
      exact h.last n' n pj' pi' seg' h6 h3 hn h1 h4 h5
    · rw [hn] at h3
      obtain ⟨rfl, rfl⟩ := coords_unique hpi (h1.le h).2 (Option.some.inj h3)
      rw [hseg] at h4
      cases h4
      rw [if_pos rfl]
      unfold contrib
      rw [if_pos (show ∀ c ∈ locals b (pj - b.j0, pi - b.i0), _ from h5)]
  · intro pj' pi' h1 h2
    dsimp only
    rw [contrib_lp]
    by_cases e : lpOf b pj' pi' = lpOf b pj pi
    · obtain ⟨rfl, rfl⟩ := lpOf_inj h1 hin e
      rw [if_pos rfl]
      have := h2 n seg (Nat.lt_succ_self n) hn hseg
      unfold contrib
      rw [if_neg (show ¬ ∀ c ∈ locals b (pj' - b.j0, pi' - b.i0), _ from this)]
      split <;> rfl
    · rw [if_neg e]
      exact hs.free pj' pi' h1 fun n' seg' h3 h4 h5 => h2 n' seg' (Nat.lt_succ_of_lt h3) h4 h5
  · intro e
    dsimp only
    rw [List.mem_append, hs.extras, contrib_extras_mem]
    constructor
    · rintro (⟨n', pj', pi', seg', h1, h2⟩ | ⟨h1, h2, h3⟩)
      · exact ⟨n', pj', pi', seg', Nat.lt_succ_of_lt h1, h2⟩
      · exact ⟨n, pj, pi, seg, Nat.lt_succ_self n, hn, hin, hseg, h1, h2, h3⟩
    · rintro ⟨n', pj', pi', seg', h1, h2, h3, h4, h5, h6, h7⟩
      rcases Nat.lt_succ_iff_lt_or_eq.mp h1 with h8 | rfl
      · exact Or.inl ⟨n', pj', pi', seg', h8, h2, h3, h4, h5, h6, h7⟩
      · rw [hn] at h2
        obtain ⟨rfl, rfl⟩ := coords_unique hpi (h3.le h).2 (Option.some.inj h2)
        rw [hseg] at h4
        cases h4
        exact Or.inr ⟨h5, h6, h7⟩

theorem splitLoop_inv {g : Pillars.Grid} {b : Box} (h : Cond g b) (ps : List Nat) (n : Nat) (s : State) (hps : g.spi.drop n = ps)
    (hn : n ≤ g.spi.length) (hs : LInv g b n s) : ∃ s', splitLoop g b ps n s = .ok s' ∧ LInv g b g.spi.length s' := by
  induction ps generalizing n s with
  | nil =>
    have : g.spi.length ≤ n := List.drop_eq_nil_iff.mp hps
    obtain rfl : n = g.spi.length := Nat.le_antisymm hn this
    exact ⟨s, rfl, hs⟩
  | cons p ps ih =>
    have hlt : n < g.spi.length := by
      by_contra hc
      rw [List.drop_eq_nil_of_le (by omega)] at hps
      cases hps
    have hp : g.spi[n]? = some p := by
      rw [List.drop_eq_getElem_cons hlt] at hps
      rw [List.getElem?_eq_getElem hlt]
      exact congrArg some (List.cons.inj hps).1
    have hps' : g.spi.drop (n + 1) = ps := by
      rw [List.drop_eq_getElem_cons hlt] at hps
      exact (List.cons.inj hps).2
    obtain ⟨s', h1, h2⟩ := hs.step h hp
    rw [h2]
    exact ih (n + 1) s' hps' hlt h1

end Verif.Extract
