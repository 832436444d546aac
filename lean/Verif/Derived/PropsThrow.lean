import Verif.Derived.Throw
import Verif.Derived.PropsUnsplit
import Mathlib.Tactic.Linarith
import Mathlib.Tactic.FieldSimp
import Mathlib.Tactic.Ring
import Mathlib.Tactic.Positivity
import Mathlib.Algebra.Order.BigOperators.Group.List
import Mathlib.Algebra.Order.Module.Rat

/-! # C84: scaling of the throws of faults -/

namespace Verif.Derived
open Verif.Py Verif.Pillars

/-! ## What is asked -/

/-- the number of steps along grid lines from one node to another -/
def stepsApart (j i j' i' : Nat) : Nat := (j - j') + (j' - j) + ((i - i') + (i' - i))

/-- a node is one of those at which the grid is faulted, or within so many steps of one -/
def FaultWithin (tab : Pillars.Grid) (d j i : Nat) : Prop :=
  ∃ j' i', j' ≤ tab.nj ∧ i' ≤ tab.ni ∧ j' * (tab.ni + 1) + i' ∈ tab.spi ∧ stepsApart j i j' i' ≤ d

/-- where the corner of a column is, in a given plane of points: as `cornerPoint`, given the four numbers -/
abbrev at' (m : Mapping) (pts : Nat → Xyz) (j i jp ip : Nat) : Xyz := cornerPoint m pts (j, i, jp, ip)

/-! ## Pillars -/

theorem mapping_cases {g : Pillars.Grid} {m : Mapping} (h : columnPillarMapping g = .ok m) {j i jp ip : Nat} (hi : i < g.ni) (hip : ip ≤ 1) :
    m j i jp ip = (j + jp) * (g.ni + 1) + (i + ip) ∨
    ∃ n, g.spi[n]? = some ((j + jp) * (g.ni + 1) + (i + ip)) ∧ m j i jp ip = (g.nj + 1) * (g.ni + 1) + n := by
  have hc : corner g j i jp ip = (j + jp) * (g.ni + 1) + (i + ip) := by unfold corner; ring
  have hv := mapping_val (jp := jp) (j := j) h hi hip
  rw [hc] at hv
  split at hv
  · rcases scan_spec g ((j + jp) * (g.ni + 1) + (i + ip)) (column g j i) g.spi 0 ((j + jp) * (g.ni + 1) + (i + ip)) with ⟨_, h2⟩ | ⟨k, h1, _, h3, _⟩
    · left; rw [hv, h2]
    · right; exact ⟨k, h1, by rw [hv, h3, Nat.zero_add]⟩
  · left; exact hv

theorem idx_lt {nj ni j i : Nat} (hj : j ≤ nj) (hi : i ≤ ni) : j * (ni + 1) + i < (nj + 1) * (ni + 1) := by
  have : j * (ni + 1) ≤ nj * (ni + 1) := Nat.mul_le_mul_right _ hj
  have e : (nj + 1) * (ni + 1) = nj * (ni + 1) + (ni + 1) := by ring
  omega

theorem idx_inj {ni j i j' i' : Nat} (hi : i ≤ ni) (hi' : i' ≤ ni) (h : j * (ni + 1) + i = j' * (ni + 1) + i') : j = j' ∧ i = i' := by
  obtain ⟨a, b⟩ := Pillars.div_mod_of (n := ni + 1) (a := i) (b := j) (by omega)
  obtain ⟨c, d⟩ := Pillars.div_mod_of (n := ni + 1) (a := i') (b := j') (by omega)
  rw [h] at a b
  exact ⟨a.symm.trans c, b.symm.trans d⟩

/-! ## One sweep -/

/-- the shift of a node in a sweep -/
def newOff (nk : Nat) (tab : Pillars.Grid) (m : Mapping) (range : Nat) (s : TState) (j i : Nat) : Xyz :=
  let p := j * (tab.ni + 1) + i
  let l := contributors tab.nj tab.ni m s.flag j i
  let a := s.pts nk p
  let b := s.pts 0 p
  let z := decay range * (l.map fun q => (s.off q).2.2).sum / l.length
  (z * ((a.1 - b.1) / (a.2.2 - b.2.2)), z * ((a.2.1 - b.2.1) / (a.2.2 - b.2.2)), z)

/-- a node is moved in a sweep -/
def Touched (tab : Pillars.Grid) (m : Mapping) (flag : Nat → Nat → Bool) (j i : Nat) : Prop :=
  flag j i = false ∧ j * (tab.ni + 1) + i ∉ tab.spi ∧ contributors tab.nj tab.ni m flag j i ≠ []

/-- pillars whose offsets are not changed in a sweep -/
def Readable (tab : Pillars.Grid) (flag : Nat → Nat → Bool) (q : Nat) : Prop :=
  (tab.nj + 1) * (tab.ni + 1) ≤ q ∨ ∃ j i, j ≤ tab.nj ∧ i ≤ tab.ni ∧ q = j * (tab.ni + 1) + i ∧ flag j i = true

/-- a contributor is a pillar of a column at a neighbouring node which has been flagged -/
theorem contributors_mem {nj ni : Nat} {m : Mapping} {flag : Nat → Nat → Bool} {j i q : Nat} (hj : j ≤ nj) (hi : i ≤ ni)
    (h : q ∈ contributors nj ni m flag j i) :
    ∃ a b jp ip, a < nj ∧ b < ni ∧ jp ≤ 1 ∧ ip ≤ 1 ∧ q = m a b jp ip ∧ flag (a + jp) (b + ip) = true ∧ stepsApart j i (a + jp) (b + ip) = 1 := by
  unfold contributors at h
  simp only [List.mem_append] at h
  rcases h with ((h | h) | h) | h
  · split at h
    · rename_i hc
      rcases List.mem_append.1 h with h | h
      · split at h
        · rename_i h1
          rw [List.mem_singleton] at h
          refine ⟨j - 1, i - 1, 1, 0, by omega, by omega, by omega, by omega, h, ?_, by unfold stepsApart; omega⟩
          rw [show j - 1 + 1 = j by omega, Nat.add_zero]; exact hc.2
        · cases h
      · split at h
        · rename_i h1
          rw [List.mem_singleton] at h
          refine ⟨j, i - 1, 0, 0, by omega, by omega, by omega, by omega, h, ?_, by unfold stepsApart; omega⟩
          exact hc.2
        · cases h
    · cases h
  · split at h
    · rename_i hc
      rcases List.mem_append.1 h with h | h
      · split at h
        · rename_i h1
          rw [List.mem_singleton] at h
          refine ⟨j - 1, i - 1, 0, 1, by omega, by omega, by omega, by omega, h, ?_, by unfold stepsApart; omega⟩
          rw [show i - 1 + 1 = i by omega, Nat.add_zero]; exact hc.2
        · cases h
      · split at h
        · rename_i h1
          rw [List.mem_singleton] at h
          refine ⟨j - 1, i, 0, 0, by omega, by omega, by omega, by omega, h, ?_, by unfold stepsApart; omega⟩
          exact hc.2
        · cases h
    · cases h
  · split at h
    · rename_i hc
      rcases List.mem_append.1 h with h | h
      · split at h
        · rename_i h1
          rw [List.mem_singleton] at h
          refine ⟨j - 1, i, 1, 1, by omega, by omega, by omega, by omega, h, ?_, by unfold stepsApart; omega⟩
          rw [show j - 1 + 1 = j by omega]; exact hc.2
        · cases h
      · split at h
        · rename_i h1
          rw [List.mem_singleton] at h
          refine ⟨j, i, 0, 1, by omega, by omega, by omega, by omega, h, ?_, by unfold stepsApart; omega⟩
          exact hc.2
        · cases h
    · cases h
  · split at h
    · rename_i hc
      rcases List.mem_append.1 h with h | h
      · split at h
        · rename_i h1
          rw [List.mem_singleton] at h
          refine ⟨j, i - 1, 1, 1, by omega, by omega, by omega, by omega, h, ?_, by unfold stepsApart; omega⟩
          rw [show i - 1 + 1 = i by omega]; exact hc.2
        · cases h
      · split at h
        · rename_i h1
          rw [List.mem_singleton] at h
          refine ⟨j, i, 1, 0, by omega, by omega, by omega, by omega, h, ?_, by unfold stepsApart; omega⟩
          exact hc.2
        · cases h
    · cases h

/-- a node with a flagged neighbour has a contributor -/
theorem contributors_ne {nj ni : Nat} (m : Mapping) {flag : Nat → Nat → Bool} {j i j' i' : Nat} (hnj : 0 < nj) (hni : 0 < ni) (hj : j ≤ nj)
    (hi : i ≤ ni) (hj' : j' ≤ nj) (hi' : i' ≤ ni) (h : flag j' i' = true) (h1 : stepsApart j i j' i' = 1) :
    contributors nj ni m flag j i ≠ [] := by
  intro hn
  unfold contributors at hn
  simp only [List.append_eq_nil_iff] at hn
  obtain ⟨⟨⟨n1, n2⟩, n3⟩, n4⟩ := hn
  unfold stepsApart at h1
  have cs : (j' = j ∧ i' = i - 1 ∧ 0 < i) ∨ (j' = j - 1 ∧ i' = i ∧ 0 < j) ∨ (j' = j ∧ i' = i + 1 ∧ i < ni) ∨ (j' = j + 1 ∧ i' = i ∧ j < nj) := by
    omega
  rcases cs with ⟨rfl, rfl, hb⟩ | ⟨rfl, rfl, hb⟩ | ⟨rfl, rfl, hb⟩ | ⟨rfl, rfl, hb⟩
  · rw [if_pos ⟨hb, h⟩] at n1
    obtain ⟨x, y⟩ := List.append_eq_nil_iff.1 n1
    split at x
    · cases x
    · rw [if_pos (by omega)] at y; cases y
  · rw [if_pos ⟨hb, h⟩] at n2
    obtain ⟨x, y⟩ := List.append_eq_nil_iff.1 n2
    split at x
    · cases x
    · rw [if_pos (by omega)] at y; cases y
  · rw [if_pos ⟨hb, h⟩] at n3
    obtain ⟨x, y⟩ := List.append_eq_nil_iff.1 n3
    split at x
    · cases x
    · rw [if_pos (by omega)] at y; cases y
  · rw [if_pos ⟨hb, h⟩] at n4
    obtain ⟨x, y⟩ := List.append_eq_nil_iff.1 n4
    split at x
    · cases x
    · rw [if_pos (by omega)] at y; cases y

theorem contributors_readable {tab : Pillars.Grid} {m : Mapping} (hm : columnPillarMapping tab = .ok m) {flag : Nat → Nat → Bool} {j i q : Nat}
    (hj : j ≤ tab.nj) (hi : i ≤ tab.ni) (h : q ∈ contributors tab.nj tab.ni m flag j i) : Readable tab flag q := by
  obtain ⟨a, b, jp, ip, h1, h2, h3, h4, rfl, h6, -⟩ := contributors_mem hj hi h
  rcases mapping_cases (j := a) (jp := jp) hm h2 h4 with e | ⟨n, -, e⟩
  · exact Or.inr ⟨a + jp, b + ip, by omega, by omega, e, h6⟩
  · left; omega

theorem fold_spec (nk : Nat) {tab : Pillars.Grid} {m : Mapping} (hm : columnPillarMapping tab = .ok m) (range : Nat) (s : TState)
    (l : List (Nat × Nat)) : ∀ s' : TState, l.Nodup → (∀ n ∈ l, n.1 ≤ tab.nj ∧ n.2 ≤ tab.ni) →
    (∀ n ∈ l, ∀ k, s'.pts k (n.1 * (tab.ni + 1) + n.2) = s.pts k (n.1 * (tab.ni + 1) + n.2)) →
    (∀ q, Readable tab s.flag q → s'.off q = s.off q) →
    let r := l.foldl (adjustNode nk tab m s.flag range) s'
    (∀ q, (∀ n ∈ l, n.1 * (tab.ni + 1) + n.2 ≠ q) → r.off q = s'.off q ∧ ∀ k, r.pts k q = s'.pts k q) ∧
    (∀ n ∈ l, Touched tab m s.flag n.1 n.2 → r.off (n.1 * (tab.ni + 1) + n.2) = newOff nk tab m range s n.1 n.2 ∧
      (∀ k, r.pts k (n.1 * (tab.ni + 1) + n.2) = s.pts k (n.1 * (tab.ni + 1) + n.2) + newOff nk tab m range s n.1 n.2) ∧
      r.flag n.1 n.2 = true) ∧
    (∀ n ∈ l, ¬ Touched tab m s.flag n.1 n.2 → r.off (n.1 * (tab.ni + 1) + n.2) = s'.off (n.1 * (tab.ni + 1) + n.2) ∧
      (∀ k, r.pts k (n.1 * (tab.ni + 1) + n.2) = s'.pts k (n.1 * (tab.ni + 1) + n.2)) ∧ r.flag n.1 n.2 = s'.flag n.1 n.2) ∧
    (∀ n ∉ l, r.flag n.1 n.2 = s'.flag n.1 n.2) := by
  induction l with
  | nil =>
    intro s' _ _ _ _
    exact ⟨fun q _ => ⟨rfl, fun _ => rfl⟩, fun n hn => (List.not_mem_nil hn).elim, fun n hn => (List.not_mem_nil hn).elim, fun _ _ => rfl⟩
  | cons x l ih =>
    intro s' hnd hb hp ho
    obtain ⟨hx, hnd'⟩ := List.nodup_cons.1 hnd
    obtain ⟨hxj, hxi⟩ := hb x List.mem_cons_self
    have hb' : ∀ n ∈ l, n.1 ≤ tab.nj ∧ n.2 ≤ tab.ni := fun n hn => hb n (List.mem_cons_of_mem _ hn)
    have hne : ∀ n ∈ l, n.1 * (tab.ni + 1) + n.2 ≠ x.1 * (tab.ni + 1) + x.2 := by
      intro n hn e
      obtain ⟨e1, e2⟩ := idx_inj (hb' n hn).2 hxi e
      exact hx (by rw [show x = n from (Prod.ext e1 e2).symm]; exact hn)
    rw [List.foldl_cons]
    by_cases ht : Touched tab m s.flag x.1 x.2
    · have e : adjustNode nk tab m s.flag range s' x =
          { pts := fun k q => if q = x.1 * (tab.ni + 1) + x.2 then s'.pts k q + newOff nk tab m range s x.1 x.2 else s'.pts k q
            off := fun q => if q = x.1 * (tab.ni + 1) + x.2 then newOff nk tab m range s x.1 x.2 else s'.off q
            flag := fun j' i' => if j' = x.1 ∧ i' = x.2 then true else s'.flag j' i' } := by
        have hsum : ((contributors tab.nj tab.ni m s.flag x.1 x.2).map fun q => (s'.off q).2.2) =
            (contributors tab.nj tab.ni m s.flag x.1 x.2).map fun q => (s.off q).2.2 :=
          List.map_congr_left fun q hq => by rw [ho q (contributors_readable hm hxj hxi hq)]
        unfold adjustNode newOff
        dsimp only
        rw [if_neg (by rw [ht.1]; simp), if_neg ht.2.1, if_neg (by intro h0; exact ht.2.2 (List.length_eq_zero_iff.1 h0)), hsum,
          hp x List.mem_cons_self nk, hp x List.mem_cons_self 0]
      rw [e]
      clear e
      generalize hS : ({ pts := fun k q => if q = x.1 * (tab.ni + 1) + x.2 then s'.pts k q + newOff nk tab m range s x.1 x.2 else s'.pts k q
                         off := fun q => if q = x.1 * (tab.ni + 1) + x.2 then newOff nk tab m range s x.1 x.2 else s'.off q
                         flag := fun j' i' => if j' = x.1 ∧ i' = x.2 then true else s'.flag j' i' } : TState) = S
      have hSp : ∀ k q, S.pts k q = if q = x.1 * (tab.ni + 1) + x.2 then s'.pts k q + newOff nk tab m range s x.1 x.2 else s'.pts k q :=
        fun k q => by rw [← hS]
      have hSo : ∀ q, S.off q = if q = x.1 * (tab.ni + 1) + x.2 then newOff nk tab m range s x.1 x.2 else s'.off q := fun q => by rw [← hS]
      have hSf : ∀ j' i', S.flag j' i' = if j' = x.1 ∧ i' = x.2 then true else s'.flag j' i' := fun j' i' => by rw [← hS]
      obtain ⟨a1, a2, a3, a4⟩ := ih S hnd' hb'
        (fun n hn k => by rw [hSp, if_neg (hne n hn)]; exact hp n (List.mem_cons_of_mem _ hn) k)
        (fun q hq => by
          rw [hSo, if_neg]
          · exact ho q hq
          · rintro rfl
            rcases hq with hq | ⟨j', i', h1, h2, h3, h4⟩
            · exact absurd (idx_lt hxj hxi) (by omega)
            · obtain ⟨e1, e2⟩ := idx_inj hxi h2 h3
              rw [← e1, ← e2, ht.1] at h4
              cases h4)
      refine ⟨?_, ?_, ?_, ?_⟩
      · intro q hq
        obtain ⟨b1, b2⟩ := a1 q fun n hn => hq n (List.mem_cons_of_mem _ hn)
        have hqx := hq x List.mem_cons_self
        refine ⟨?_, fun k => ?_⟩
        · rw [b1, hSo, if_neg fun e => hqx e.symm]
        · rw [b2 k, hSp, if_neg fun e => hqx e.symm]
      · intro n hn hnt
        rcases List.mem_cons.1 hn with rfl | hn
        · obtain ⟨b1, b2⟩ := a1 (n.1 * (tab.ni + 1) + n.2) hne
          refine ⟨by rw [b1, hSo, if_pos rfl], fun k => ?_, ?_⟩
          · rw [b2 k, hSp, if_pos rfl, hp n List.mem_cons_self k]
          · rw [a4 n hx, hSf, if_pos ⟨rfl, rfl⟩]
        · exact a2 n hn hnt
      · intro n hn hnt
        rcases List.mem_cons.1 hn with rfl | hn
        · exact absurd ht hnt
        · obtain ⟨b1, b2, b3⟩ := a3 n hn hnt
          refine ⟨by rw [b1, hSo, if_neg (hne n hn)], fun k => by rw [b2 k, hSp, if_neg (hne n hn)], ?_⟩
          rw [b3, hSf]
          refine if_neg ?_
          rintro ⟨e1, e2⟩
          exact hne n hn (by rw [e1, e2])
      · intro n hn
        rw [a4 n fun h => hn (List.mem_cons_of_mem _ h), hSf]
        refine if_neg ?_
        rintro ⟨e1, e2⟩
        exact hn (by rw [show n = x from Prod.ext e1 e2]; exact List.mem_cons_self)
    · have e : adjustNode nk tab m s.flag range s' x = s' := by
        unfold adjustNode
        dsimp only
        by_cases h1 : s.flag x.1 x.2 = true
        · rw [if_pos h1]
        · rw [if_neg h1]
          by_cases h2 : x.1 * (tab.ni + 1) + x.2 ∈ tab.spi
          · rw [if_pos h2]
          · rw [if_neg h2]
            refine if_pos ?_
            by_contra h3
            exact ht ⟨by simpa using h1, h2, fun h => h3 (by rw [h]; rfl)⟩
      rw [e]
      obtain ⟨a1, a2, a3, a4⟩ := ih s' hnd' hb' (fun n hn k => hp n (List.mem_cons_of_mem _ hn) k) ho
      refine ⟨fun q hq => a1 q fun n hn => hq n (List.mem_cons_of_mem _ hn), ?_, ?_, fun n hn => a4 n fun h => hn (List.mem_cons_of_mem _ h)⟩
      · intro n hn hnt
        rcases List.mem_cons.1 hn with rfl | hn
        · exact absurd hnt ht
        · exact a2 n hn hnt
      · intro n hn hnt
        rcases List.mem_cons.1 hn with rfl | hn
        · obtain ⟨b1, b2⟩ := a1 (n.1 * (tab.ni + 1) + n.2) hne
          exact ⟨b1, b2, a4 n hx⟩
        · exact a3 n hn hnt

theorem mem_nodes {nj ni : Nat} {n : Nat × Nat} : n ∈ nodes nj ni ↔ n.1 ≤ nj ∧ n.2 ≤ ni := by
  unfold nodes
  simp only [List.mem_flatMap, List.mem_map, List.mem_range]
  constructor
  · rintro ⟨j, hj, i, hi, rfl⟩; exact ⟨by dsimp only; omega, by dsimp only; omega⟩
  · rintro ⟨h1, h2⟩; exact ⟨n.1, by omega, n.2, by omega, rfl⟩

theorem nodes_nodup (nj ni : Nat) : (nodes nj ni).Nodup := by
  unfold nodes
  rw [List.nodup_flatMap]
  refine ⟨fun j _ => List.Nodup.map (fun a b h => (Prod.mk.inj h).2) List.nodup_range, ?_⟩
  refine List.Pairwise.imp ?_ List.nodup_range
  intro a b hab
  simp only [Function.onFun]
  intro x h1 h2
  obtain ⟨_, _, rfl⟩ := List.mem_map.1 h1
  obtain ⟨_, _, h3⟩ := List.mem_map.1 h2
  exact hab (Prod.mk.inj h3).1.symm

/-- What a sweep does. -/
theorem sweep_spec (nk : Nat) {tab : Pillars.Grid} {m : Mapping} (hm : columnPillarMapping tab = .ok m) (range : Nat) (s : TState) :
    (∀ q, (tab.nj + 1) * (tab.ni + 1) ≤ q → (sweep nk tab m range s).off q = s.off q ∧ ∀ k, (sweep nk tab m range s).pts k q = s.pts k q) ∧
    (∀ j i, j ≤ tab.nj → i ≤ tab.ni → Touched tab m s.flag j i →
      (sweep nk tab m range s).off (j * (tab.ni + 1) + i) = newOff nk tab m range s j i ∧
      (∀ k, (sweep nk tab m range s).pts k (j * (tab.ni + 1) + i) = s.pts k (j * (tab.ni + 1) + i) + newOff nk tab m range s j i) ∧
      (sweep nk tab m range s).flag j i = true) ∧
    (∀ j i, j ≤ tab.nj → i ≤ tab.ni → ¬ Touched tab m s.flag j i →
      (sweep nk tab m range s).off (j * (tab.ni + 1) + i) = s.off (j * (tab.ni + 1) + i) ∧
      (∀ k, (sweep nk tab m range s).pts k (j * (tab.ni + 1) + i) = s.pts k (j * (tab.ni + 1) + i)) ∧
      (sweep nk tab m range s).flag j i = false) := by
  obtain ⟨a1, a2, a3, -⟩ := fold_spec nk hm range s (nodes tab.nj tab.ni) { s with flag := fun _ _ => false } (nodes_nodup _ _)
    (fun n hn => mem_nodes.1 hn) (fun _ _ _ => rfl) (fun _ _ => rfl)
  refine ⟨fun q hq => a1 q ?_, fun j i hj hi ht => a2 (j, i) (mem_nodes.2 ⟨hj, hi⟩) ht, fun j i hj hi ht => a3 (j, i) (mem_nodes.2 ⟨hj, hi⟩) ht⟩
  intro n hn e
  obtain ⟨h1, h2⟩ := mem_nodes.1 hn
  have := idx_lt h1 h2
  omega

/-! ## All of the sweeps -/

/-- the part of the largest shift left at a node `d` steps from a fault, with a range of `n` -/
def weight (n d : Nat) : ℚ := (2 ^ (n + 1 - d) - 1) / (2 ^ (n + 1) - 1)

theorem two_pow_ge (n : Nat) : (1 : ℚ) ≤ 2 ^ n := one_le_pow₀ (by norm_num)

theorem two_pow_gt (n : Nat) : (1 : ℚ) < 2 ^ (n + 1) := by
  have := two_pow_ge n
  rw [pow_succ]; linarith

theorem weight_nonneg (n d : Nat) : 0 ≤ weight n d := by
  unfold weight
  exact div_nonneg (by have := two_pow_ge (n + 1 - d); linarith) (by have := two_pow_gt n; linarith)

theorem weight_anti (n : Nat) {d e : Nat} (h : d ≤ e) : weight n e ≤ weight n d := by
  unfold weight
  have h1 : (2 : ℚ) ^ (n + 1 - e) ≤ 2 ^ (n + 1 - d) := pow_le_pow_right₀ (by norm_num) (by omega)
  have := two_pow_gt n
  exact div_le_div_of_nonneg_right (by linarith) (by linarith)

theorem weight_zero (n : Nat) : weight n 0 = 1 := by
  unfold weight
  rw [Nat.sub_zero]
  exact div_self (by have := two_pow_gt n; linarith)

theorem decay_nonneg (r : Nat) : 0 ≤ decay r := by
  unfold decay
  exact div_nonneg (by have := two_pow_ge r; linarith) (by have := two_pow_gt r; linarith)

theorem decay_weight (n t : Nat) (h : t < n) : decay (n - t) * weight n t = weight n (t + 1) := by
  unfold decay weight
  have e1 : n + 1 - t = n - t + 1 := by omega
  have e2 : n + 1 - (t + 1) = n - t := by omega
  rw [e1, e2]
  have h1 := two_pow_gt (n - t)
  have h2 := two_pow_gt n
  have h1' : (2 : ℚ) ^ (n - t + 1) - 1 ≠ 0 := by linarith
  have h2' : (2 : ℚ) ^ (n + 1) - 1 ≠ 0 := by linarith
  field_simp

theorem sum_abs_le (l : List Nat) (f : Nat → ℚ) (B : ℚ) (h : ∀ q ∈ l, |f q| ≤ B) : |(l.map f).sum| ≤ l.length * B := by
  induction l with
  | nil => simp
  | cons x l ih =>
    rw [List.map_cons, List.sum_cons, List.length_cons]
    have h1 := h x List.mem_cons_self
    have h2 := ih fun q hq => h q (List.mem_cons_of_mem _ hq)
    have h3 := abs_add_le (f x) (l.map f).sum
    push_cast
    linarith

/-- after `t` of `n` sweeps -/
structure Inv (nk : Nat) (tab : Pillars.Grid) (pts0 : Nat → Nat → Xyz) (off0 : Nat → Xyz) (B : ℚ) (n t : Nat) (s : TState) : Prop where
  moved : ∀ k p, s.pts k p = pts0 k p + s.off p
  extra : ∀ p, (tab.nj + 1) * (tab.ni + 1) ≤ p → s.off p = off0 p
  split : ∀ p, p ∈ tab.spi → s.off p = off0 p
  flags : ∀ j i, j ≤ tab.nj → i ≤ tab.ni → (s.flag j i = true ↔ FaultWithin tab t j i)
  free : ∀ j i, j ≤ tab.nj → i ≤ tab.ni → s.flag j i = false → s.off (j * (tab.ni + 1) + i) = 0
  small : ∀ d j i, j ≤ tab.nj → i ≤ tab.ni → ¬ FaultWithin tab d j i → |(s.off (j * (tab.ni + 1) + i)).2.2| ≤ B * weight n (d + 1)
  along : ∀ j i, j ≤ tab.nj → i ≤ tab.ni → j * (tab.ni + 1) + i ∉ tab.spi →
    ∀ a b, a = pts0 nk (j * (tab.ni + 1) + i) → b = pts0 0 (j * (tab.ni + 1) + i) → a.2.2 ≠ b.2.2 →
      s.off (j * (tab.ni + 1) + i) = ((s.off (j * (tab.ni + 1) + i)).2.2 / (a.2.2 - b.2.2)) • (a - b)

theorem faultWithin_mono {tab : Pillars.Grid} {d e j i : Nat} (h : d ≤ e) : FaultWithin tab d j i → FaultWithin tab e j i := by
  rintro ⟨j', i', h1, h2, h3, h4⟩; exact ⟨j', i', h1, h2, h3, by omega⟩

theorem faultWithin_zero {tab : Pillars.Grid} {j i : Nat} (hj : j ≤ tab.nj) (hi : i ≤ tab.ni) :
    FaultWithin tab 0 j i ↔ j * (tab.ni + 1) + i ∈ tab.spi := by
  constructor
  · rintro ⟨j', i', h1, h2, h3, h4⟩
    unfold stepsApart at h4
    have : j = j' ∧ i = i' := by omega
    rw [this.1, this.2]; exact h3
  · intro h; exact ⟨j, i, hj, hi, h, by unfold stepsApart; omega⟩

theorem faultWithin_step {tab : Pillars.Grid} {d j i j' i' : Nat} (h : FaultWithin tab d j' i') (h1 : stepsApart j i j' i' = 1) :
    FaultWithin tab (d + 1) j i := by
  obtain ⟨a, b, ha, hb, hs, hd⟩ := h
  refine ⟨a, b, ha, hb, hs, ?_⟩
  unfold stepsApart at *
  omega

theorem faultWithin_back {tab : Pillars.Grid} {d j i : Nat} (hj : j ≤ tab.nj) (hi : i ≤ tab.ni) (h : FaultWithin tab (d + 1) j i)
    (hn : ¬ FaultWithin tab d j i) : ∃ j' i', j' ≤ tab.nj ∧ i' ≤ tab.ni ∧ FaultWithin tab d j' i' ∧ stepsApart j i j' i' = 1 := by
  obtain ⟨a, b, ha, hb, hs, hd⟩ := h
  have hd' : ¬ stepsApart j i a b ≤ d := fun h' => hn ⟨a, b, ha, hb, hs, h'⟩
  by_cases h1 : j < a
  · exact ⟨j + 1, i, by omega, hi, ⟨a, b, ha, hb, hs, by unfold stepsApart at *; omega⟩, by unfold stepsApart; omega⟩
  · by_cases h2 : a < j
    · exact ⟨j - 1, i, by omega, hi, ⟨a, b, ha, hb, hs, by unfold stepsApart at *; omega⟩, by unfold stepsApart; omega⟩
    · by_cases h3 : i < b
      · exact ⟨j, i + 1, hj, by omega, ⟨a, b, ha, hb, hs, by unfold stepsApart at *; omega⟩, by unfold stepsApart; omega⟩
      · exact ⟨j, i - 1, hj, by omega, ⟨a, b, ha, hb, hs, by unfold stepsApart at *; omega⟩, by unfold stepsApart at *; omega⟩

theorem inv_step {nk : Nat} {tab : Pillars.Grid} {m : Mapping} (hm : columnPillarMapping tab = .ok m) (hnj : 0 < tab.nj) (hni : 0 < tab.ni)
    {pts0 : Nat → Nat → Xyz} {off0 : Nat → Xyz} {B : ℚ} (hB0 : 0 ≤ B)
    (hB : ∀ a b jp ip, a < tab.nj → b < tab.ni → jp ≤ 1 → ip ≤ 1 → (a + jp) * (tab.ni + 1) + (b + ip) ∈ tab.spi → |(off0 (m a b jp ip)).2.2| ≤ B) {n t : Nat} (ht : t < n) {s : TState}
    (h : Inv nk tab pts0 off0 B n t s) :
    Inv nk tab pts0 off0 B n (t + 1)
      { sweep nk tab m (n - t) s with flag := fun j i => s.flag j i || (sweep nk tab m (n - t) s).flag j i } := by
  obtain ⟨a1, a2, a3⟩ := sweep_spec nk hm (n - t) s
  have hdec : ∀ p, (tab.nj + 1) * (tab.ni + 1) ≤ p ∨ ∃ j i, j ≤ tab.nj ∧ i ≤ tab.ni ∧ p = j * (tab.ni + 1) + i := by
    intro p
    by_cases hp : (tab.nj + 1) * (tab.ni + 1) ≤ p
    · exact Or.inl hp
    · right
      refine ⟨p / (tab.ni + 1), p % (tab.ni + 1), ?_, ?_, ?_⟩
      · have := (Nat.div_lt_iff_lt_mul (by omega : 0 < tab.ni + 1)).2 (by omega : p < (tab.nj + 1) * (tab.ni + 1)); omega
      · have := Nat.mod_lt p (by omega : 0 < tab.ni + 1); omega
      · have := Nat.div_add_mod p (tab.ni + 1); rw [Nat.mul_comm] at this; exact this.symm
  have hnf : ∀ j i, j ≤ tab.nj → i ≤ tab.ni → s.flag j i = false → j * (tab.ni + 1) + i ∉ tab.spi := by
    intro j i hj hi hf hs
    have := (h.flags j i hj hi).2 (faultWithin_mono (Nat.zero_le t) ((faultWithin_zero hj hi).2 hs))
    rw [hf] at this
    cases this
  have htouch : ∀ j i, j ≤ tab.nj → i ≤ tab.ni → s.flag j i = false → (Touched tab m s.flag j i ↔ FaultWithin tab (t + 1) j i) := by
    intro j i hj hi hf
    constructor
    · rintro ⟨-, -, h3⟩
      obtain ⟨q, hq⟩ := List.exists_mem_of_ne_nil _ h3
      obtain ⟨a, b, jp, ip, b1, b2, b3, b4, -, b6, b7⟩ := contributors_mem hj hi hq
      exact faultWithin_step ((h.flags _ _ (by omega) (by omega)).1 b6) b7
    · intro hw
      obtain ⟨j', i', c1, c2, c3, c4⟩ := faultWithin_back hj hi hw fun hc => by
        rw [(h.flags j i hj hi).2 hc] at hf; cases hf
      exact ⟨hf, hnf j i hj hi hf, contributors_ne m hnj hni hj hi c1 c2 ((h.flags _ _ c1 c2).2 c3) c4⟩
  refine ⟨?_, ?_, ?_, ?_, ?_, ?_, ?_⟩
  · intro k p
    dsimp only
    rcases hdec p with hp | ⟨j, i, hj, hi, rfl⟩
    · rw [(a1 p hp).2 k, (a1 p hp).1]; exact h.moved k p
    · by_cases hx : Touched tab m s.flag j i
      · obtain ⟨b1, b2, -⟩ := a2 j i hj hi hx
        rw [b1, b2 k, h.moved k, h.free j i hj hi hx.1, add_zero]
      · obtain ⟨b1, b2, -⟩ := a3 j i hj hi hx
        rw [b1, b2 k]; exact h.moved k _
  · intro p hp
    dsimp only
    rw [(a1 p hp).1]; exact h.extra p hp
  · intro p hs
    dsimp only
    rcases hdec p with hp | ⟨j, i, hj, hi, rfl⟩
    · rw [(a1 p hp).1]; exact h.split p hs
    · rw [(a3 j i hj hi fun hx => hx.2.1 hs).1]; exact h.split _ hs
  · intro j i hj hi
    dsimp only
    rw [Bool.or_eq_true]
    by_cases hf : s.flag j i = true
    · exact ⟨fun _ => faultWithin_mono (by omega) ((h.flags j i hj hi).1 hf), fun _ => Or.inl hf⟩
    · have hf' : s.flag j i = false := by simpa using hf
      by_cases hx : Touched tab m s.flag j i
      · exact ⟨fun _ => (htouch j i hj hi hf').1 hx, fun _ => Or.inr (a2 j i hj hi hx).2.2⟩
      · constructor
        · rintro (h' | h')
          · exact absurd h' hf
          · rw [(a3 j i hj hi hx).2.2] at h'; cases h'
        · intro hw; exact absurd ((htouch j i hj hi hf').2 hw) hx
  · intro j i hj hi hf
    dsimp only at hf ⊢
    rw [Bool.or_eq_false_iff] at hf
    by_cases hx : Touched tab m s.flag j i
    · rw [(a2 j i hj hi hx).2.2] at hf; cases hf.2
    · rw [(a3 j i hj hi hx).1]; exact h.free j i hj hi hf.1
  · intro d j i hj hi hd
    dsimp only
    by_cases hx : Touched tab m s.flag j i
    · rw [(a2 j i hj hi hx).1]
      have hw := (htouch j i hj hi hx.1).1 hx
      have hdt : d ≤ t := by
        by_contra hc
        exact hd (faultWithin_mono (by omega) hw)
      have hnt : ¬ FaultWithin tab t j i := fun hc => by
        have := (h.flags j i hj hi).2 hc
        rw [hx.1] at this; cases this
      have hcon : ∀ q ∈ contributors tab.nj tab.ni m s.flag j i, |(s.off q).2.2| ≤ B * weight n t := by
        intro q hq
        obtain ⟨a, b, jp, ip, b1, b2, b3, b4, b5, b6, b7⟩ := contributors_mem hj hi hq
        subst b5
        cases t with
        | zero =>
          rw [weight_zero, mul_one]
          have hs := (faultWithin_zero (by omega) (by omega)).1 ((h.flags _ _ (by omega) (by omega)).1 b6)
          have hb := hB a b jp ip b1 b2 b3 b4 hs
          rcases mapping_cases (j := a) (jp := jp) hm b2 b4 with e | ⟨n', -, e⟩
          · rw [e] at hb ⊢; rw [h.split _ hs]; exact hb
          · rw [e] at hb ⊢; rw [h.extra _ (by omega)]; exact hb
        | succ t =>
          have hnn : ¬ FaultWithin tab t (a + jp) (b + ip) := fun hc => hnt (faultWithin_step hc b7)
          have hns : (a + jp) * (tab.ni + 1) + (b + ip) ∉ tab.spi := fun hc =>
            hnn (faultWithin_mono (Nat.zero_le t) ((faultWithin_zero (by omega) (by omega)).2 hc))
          rcases mapping_cases (j := a) (jp := jp) hm b2 b4 with e | ⟨n', e', -⟩
          · rw [e]; exact h.small t _ _ (by omega) (by omega) hnn
          · exact absurd (List.mem_of_getElem? e') hns
      have hlen : 0 < ((contributors tab.nj tab.ni m s.flag j i).length : ℚ) := by
        exact_mod_cast List.length_pos_of_ne_nil hx.2.2
      have hsum := sum_abs_le _ (fun q => (s.off q).2.2) _ hcon
      have hz : |decay (n - t) * ((contributors tab.nj tab.ni m s.flag j i).map fun q => (s.off q).2.2).sum /
          ((contributors tab.nj tab.ni m s.flag j i).length : ℚ)| ≤ B * weight n (t + 1) := by
        rw [abs_div, abs_mul, abs_of_nonneg (decay_nonneg _), abs_of_pos hlen, div_le_iff₀ hlen, ← decay_weight n t ht]
        have := mul_le_mul_of_nonneg_left hsum (decay_nonneg (n - t))
        linarith
      refine le_trans hz ?_
      exact mul_le_mul_of_nonneg_left (weight_anti n (by omega)) hB0
    · rw [(a3 j i hj hi hx).1]; exact h.small d j i hj hi hd
  · intro j i hj hi hs a b ha hb hab
    dsimp only
    by_cases hx : Touched tab m s.flag j i
    · rw [(a2 j i hj hi hx).1]
      have hoff := h.free j i hj hi hx.1
      have hpk : ∀ k, s.pts k (j * (tab.ni + 1) + i) = pts0 k (j * (tab.ni + 1) + i) := fun k => by rw [h.moved k, hoff, add_zero]
      have hab' : a.2.2 - b.2.2 ≠ 0 := sub_ne_zero.2 hab
      unfold newOff
      dsimp only
      rw [hpk nk, hpk 0, ← ha, ← hb]
      generalize decay (n - t) * ((contributors tab.nj tab.ni m s.flag j i).map fun q => (s.off q).2.2).sum /
          ((contributors tab.nj tab.ni m s.flag j i).length : ℚ) = z
      refine Prod.ext ?_ (Prod.ext ?_ ?_)
      · show z * ((a.1 - b.1) / (a.2.2 - b.2.2)) = z / (a.2.2 - b.2.2) * (a.1 - b.1)
        ring
      · show z * ((a.2.1 - b.2.1) / (a.2.2 - b.2.2)) = z / (a.2.2 - b.2.2) * (a.2.1 - b.2.1)
        ring
      · show z = z / (a.2.2 - b.2.2) * (a.2.2 - b.2.2)
        exact (div_mul_cancel₀ z hab').symm
    · rw [(a3 j i hj hi hx).1]; exact h.along j i hj hi hs a b ha hb hab

theorem inv_all {nk : Nat} {tab : Pillars.Grid} {m : Mapping} (hm : columnPillarMapping tab = .ok m) (hnj : 0 < tab.nj) (hni : 0 < tab.ni)
    {pts0 : Nat → Nat → Xyz} {off0 : Nat → Xyz} {B : ℚ} (hB0 : 0 ≤ B)
    (hB : ∀ a b jp ip, a < tab.nj → b < tab.ni → jp ≤ 1 → ip ≤ 1 → (a + jp) * (tab.ni + 1) + (b + ip) ∈ tab.spi → |(off0 (m a b jp ip)).2.2| ≤ B) (n r : Nat) : ∀ (t : Nat) (s : TState), t + r = n →
    Inv nk tab pts0 off0 B n t s → Inv nk tab pts0 off0 B n n (sweeps nk tab m r s) := by
  induction r with
  | zero =>
    intro t s ht h
    have : t = n := by omega
    subst this
    exact h
  | succ r ih =>
    intro t s ht h
    have e : r + 1 = n - t := by omega
    unfold sweeps
    dsimp only
    rw [e]
    exact ih (t + 1) _ (by omega) (inv_step hm hnj hni hB0 hB (by omega) h)

/-! ## The grid which is made -/

/-- the state at the end, and what is known of it -/
theorem throw_ok (g : Grid Xyz) (f : ℚ) (n ref : Nat) (base : Bool) (m : Mapping) (hs : g.tab.hasSplit = true)
    (hm : columnPillarMapping g.tab = .ok m) (hc : g.cache = none) (hnj : 0 < g.tab.nj) (hni : 0 < g.tab.ni) (R : Nat)
    (hR : R = if base then ref + 1 else ref) (hRk : R ≤ g.nk) :
    ∃ (off0 : Nat → Xyz) (s : TState), throwScaled g f n ref base = .ok s.pts ∧
      (∀ j i jp ip, j < g.tab.nj → i < g.tab.ni → jp ≤ 1 → ip ≤ 1 → (j + jp) * (g.tab.ni + 1) + (i + ip) ∈ g.tab.spi →
        off0 (m j i jp ip) = (f - 1) • (at' m (g.pts R) j i jp ip -
          mean ((around g.tab.nj g.tab.ni (j + jp) (i + ip)).map (cornerPoint m (g.pts R))))) ∧
      ∀ B, 0 ≤ B → (∀ a b jp ip, a < g.tab.nj → b < g.tab.ni → jp ≤ 1 → ip ≤ 1 → (a + jp) * (g.tab.ni + 1) + (b + ip) ∈ g.tab.spi →
        |(off0 (m a b jp ip)).2.2| ≤ B) → Inv g.nk g.tab g.pts off0 B n n s := by
  obtain ⟨u, g', eu, hu⟩ := C80_unsplit_points g false m hs hm hc hnj hni
  refine ⟨offsetsOf g.tab f (g.pts R) fun p => u R (p / (g.tab.ni + 1)) (p % (g.tab.ni + 1)), ?_⟩
  generalize hoff : offsetsOf g.tab f (g.pts R) (fun p => u R (p / (g.tab.ni + 1)) (p % (g.tab.ni + 1))) = off0
  refine ⟨sweeps g.nk g.tab m n ⟨fun k p => if p < (g.tab.nj + 1) * (g.tab.ni + 1) then if p ∈ g.tab.spi then g.pts k p + off0 p else g.pts k p
      else g.pts k p + off0 p, off0, fun j i => decide (j * (g.tab.ni + 1) + i ∈ g.tab.spi)⟩, ?_, ?_, ?_⟩
  · unfold throwScaled
    dsimp only
    rw [if_pos hs, ← hR, if_pos hRk, eu, hm]
    dsimp only
    rw [hoff]
  · intro j i jp ip hj hi hjp hip hsp
    obtain ⟨d1, d2⟩ := Pillars.div_mod_of (n := g.tab.ni + 1) (a := i + ip) (b := j + jp) (by omega)
    have hlt := idx_lt (nj := g.tab.nj) (ni := g.tab.ni) (j := j + jp) (i := i + ip) (by omega) (by omega)
    rw [← hu R (j + jp) (i + ip) (by omega) (by omega), ← hoff]
    unfold offsetsOf at' cornerPoint
    dsimp only
    rcases mapping_cases (j := j) (jp := jp) hm hi hip with e | ⟨k, e', e⟩
    · rw [e, if_pos hlt, if_pos hsp, d1, d2]
    · rw [e, if_neg (by omega), Nat.add_sub_cancel_left, List.getD_eq_getElem?_getD, e']
      dsimp only [Option.getD_some]
      rw [d1, d2]
  · intro B hB0 hB
    refine inv_all hm hnj hni hB0 hB n n 0 _ (by omega) ?_
    have hz : ∀ p, p < (g.tab.nj + 1) * (g.tab.ni + 1) → p ∉ g.tab.spi → off0 p = 0 := by
      intro p h1 h2
      rw [← hoff]
      unfold offsetsOf
      dsimp only
      rw [if_pos h1, if_neg h2]
    refine ⟨?_, fun _ _ => rfl, fun _ _ => rfl, ?_, ?_, ?_, ?_⟩
    · intro k p
      dsimp only
      split
      · rename_i h1
        split
        · rfl
        · rename_i h2
          rw [hz p h1 h2, add_zero]
      · rfl
    · intro j i hj hi
      dsimp only
      rw [faultWithin_zero hj hi, decide_eq_true_eq]
    · intro j i hj hi hf
      dsimp only at hf ⊢
      exact hz _ (idx_lt hj hi) (by simpa using hf)
    · intro d j i hj hi hd
      dsimp only
      have : j * (g.tab.ni + 1) + i ∉ g.tab.spi := fun hc => hd (faultWithin_mono (Nat.zero_le d) ((faultWithin_zero hj hi).2 hc))
      rw [hz _ (idx_lt hj hi) this]
      show |(0 : ℚ)| ≤ _
      rw [abs_zero]
      exact mul_nonneg hB0 (weight_nonneg _ _)
    · intro j i hj hi hns a b _ _ _
      dsimp only
      rw [hz _ (idx_lt hj hi) hns]
      show (0 : Xyz) = ((0 : ℚ) / _) • (a - b)
      rw [zero_div, zero_smul]

/-- some bound there is -/
theorem bound_exists (tab : Pillars.Grid) (m : Mapping) (off0 : Nat → Xyz) :
    ∃ B : ℚ, 0 ≤ B ∧ ∀ a b jp ip, a < tab.nj → b < tab.ni → jp ≤ 1 → ip ≤ 1 → (a + jp) * (tab.ni + 1) + (b + ip) ∈ tab.spi →
      |(off0 (m a b jp ip)).2.2| ≤ B := by
  let S := (List.range tab.nj).flatMap fun a => (List.range tab.ni).flatMap fun b => (List.range 2).flatMap fun jp => (List.range 2).map fun ip =>
    |(off0 (m a b jp ip)).2.2|
  refine ⟨S.sum, ?_, ?_⟩
  · apply List.sum_nonneg
    intro x hx
    simp only [S, List.mem_flatMap, List.mem_map] at hx
    obtain ⟨_, _, _, _, _, _, _, _, rfl⟩ := hx
    exact abs_nonneg _
  · intro a b jp ip h1 h2 h3 h4 _
    apply List.single_le_sum (l := S)
    · intro x hx
      simp only [S, List.mem_flatMap, List.mem_map] at hx
      obtain ⟨_, _, _, _, _, _, _, _, rfl⟩ := hx
      exact abs_nonneg _
    · simp only [S, List.mem_flatMap, List.mem_map, List.mem_range]
      exact ⟨a, h1, b, h2, jp, by omega, ip, by omega, rfl⟩

/-- a grid with faults and no K gaps, its table of pillars by column, and a plane of reference -/
structure Faulted (g : Grid Xyz) (m : Mapping) (ref : Nat) (base : Bool) (R : Nat) : Prop where
  split : g.tab.hasSplit = true
  mapping : columnPillarMapping g.tab = .ok m
  fresh : g.cache = none
  gaps : g.kGaps = none
  nj : 0 < g.tab.nj
  ni : 0 < g.tab.ni
  /-- the plane is that above the layer of reference, or below it -/
  plane : R = if base then ref + 1 else ref
  within : R ≤ g.nk

/-- Scaling succeeds for any factor and range if the plane of reference is one of the grid.  Each corner of a column at a faulted node is
shifted, at every interface alike, by (factor - 1) times its distance in the plane of reference from the mean of the corners which meet
there. -/
theorem C84_shift_at_faults {g : Grid Xyz} {m : Mapping} {ref R : Nat} {base : Bool} (h : Faulted g m ref base R) (f : ℚ) (n : Nat) :
    ∃ new, throwScaled g f n ref base = .ok new ∧
      ∀ k j i jp ip, j < g.tab.nj → i < g.tab.ni → jp ≤ 1 → ip ≤ 1 → (j + jp) * (g.tab.ni + 1) + (i + ip) ∈ g.tab.spi →
        at' m (new k) j i jp ip = at' m (g.pts k) j i jp ip + (f - 1) • (at' m (g.pts R) j i jp ip -
          mean ((around g.tab.nj g.tab.ni (j + jp) (i + ip)).map (cornerPoint m (g.pts R)))) := by
  obtain ⟨off0, s, e, ho, hI⟩ := throw_ok g f n ref base m h.split h.mapping h.fresh h.nj h.ni R h.plane h.within
  obtain ⟨B, hB0, hB⟩ := bound_exists g.tab m off0
  have hI := hI B hB0 hB
  refine ⟨s.pts, e, ?_⟩
  intro k j i jp ip hj hi hjp hip hsp
  rw [← ho j i jp ip hj hi hjp hip hsp]
  show s.pts k (m j i jp ip) = g.pts k (m j i jp ip) + off0 (m j i jp ip)
  rw [hI.moved k]
  congr 1
  rcases mapping_cases (j := j) (jp := jp) h.mapping hi hip with e | ⟨_, _, e⟩
  · rw [e]; exact hI.split _ hsp
  · rw [e]; exact hI.extra _ (by omega)

/-- The throw between any two columns which meet at a node, in the plane of reference, is that of before times the factor; at another
interface it has changed by as much as in the plane of reference. -/
theorem C84_throws_scaled {g : Grid Xyz} {m : Mapping} {ref R : Nat} {base : Bool} (h : Faulted g m ref base R) (f : ℚ) (n : Nat)
    {new : Nat → Nat → Xyz} (hn : throwScaled g f n ref base = .ok new) (j i jp ip j' i' jp' ip' : Nat) (hj : j < g.tab.nj) (hi : i < g.tab.ni)
    (hjp : jp ≤ 1) (hip : ip ≤ 1) (hj' : j' < g.tab.nj) (hi' : i' < g.tab.ni) (hjp' : jp' ≤ 1) (hip' : ip' ≤ 1) (same : j + jp = j' + jp')
    (same' : i + ip = i' + ip') :
    at' m (new R) j i jp ip - at' m (new R) j' i' jp' ip' = f • (at' m (g.pts R) j i jp ip - at' m (g.pts R) j' i' jp' ip') ∧
    ∀ k, at' m (new k) j i jp ip - at' m (new k) j' i' jp' ip' = (at' m (g.pts k) j i jp ip - at' m (g.pts k) j' i' jp' ip') +
      (f - 1) • (at' m (g.pts R) j i jp ip - at' m (g.pts R) j' i' jp' ip') := by
  obtain ⟨new', e, hw⟩ := C84_shift_at_faults h f n
  rw [hn] at e
  cases e
  suffices hk : ∀ k, at' m (new k) j i jp ip - at' m (new k) j' i' jp' ip' = (at' m (g.pts k) j i jp ip - at' m (g.pts k) j' i' jp' ip') +
      (f - 1) • (at' m (g.pts R) j i jp ip - at' m (g.pts R) j' i' jp' ip') by
    refine ⟨?_, hk⟩
    rw [hk R]
    module
  intro k
  by_cases hsp : (j + jp) * (g.tab.ni + 1) + (i + ip) ∈ g.tab.spi
  · rw [hw k j i jp ip hj hi hjp hip hsp, hw k j' i' jp' ip' hj' hi' hjp' hip' (by rw [← same, ← same']; exact hsp), ← same, ← same']
    module
  · have e : m j i jp ip = m j' i' jp' ip' := by
      rcases mapping_cases (j := j) (jp := jp) h.mapping hi hip with e | ⟨_, e, _⟩
      · rcases mapping_cases (j := j') (jp := jp') h.mapping hi' hip' with e' | ⟨_, e', _⟩
        · rw [e, e', same, same']
        · exact absurd (by rw [same, same']; exact List.mem_of_getElem? e') hsp
      · exact absurd (List.mem_of_getElem? e) hsp
    unfold at' cornerPoint
    dsimp only
    rw [e, sub_self, sub_self, sub_self, smul_zero, add_zero]

theorem mean_shift {ι V : Type} [AddCommGroup V] [Module ℚ V] (l : List ι) (hl : l ≠ []) (p : ι → V) (c : ℚ) :
    mean (l.map fun x => p x + c • (p x - mean (l.map p))) = mean (l.map p) := by
  have hn : (l.length : ℚ) ≠ 0 := by
    intro h0
    exact hl (List.length_eq_zero_iff.1 (by exact_mod_cast h0))
  have gen : ∀ (l : List ι) (M : V), (l.map fun x => p x + c • (p x - M)).sum = (1 + c) • (l.map p).sum - (c * (l.length : ℚ)) • M := by
    intro l M
    induction l with
    | nil => simp
    | cons x l ih =>
      rw [List.map_cons, List.sum_cons, ih, List.map_cons, List.sum_cons, List.length_cons]
      push_cast
      module
  unfold mean
  rw [gen, List.length_map, List.length_map]
  set S := (l.map p).sum
  rw [smul_smul (c * (l.length : ℚ)), show c * (l.length : ℚ) * (1 / (l.length : ℚ)) = c by field_simp]
  module

/-- The mean of the corners which meet at a node stays where it is in the plane of reference, at faulted nodes. -/
theorem C84_mean_kept {g : Grid Xyz} {m : Mapping} {ref R : Nat} {base : Bool} (h : Faulted g m ref base R) (f : ℚ) (n : Nat)
    {new : Nat → Nat → Xyz} (hn : throwScaled g f n ref base = .ok new) (j i : Nat) (hj : j ≤ g.tab.nj) (hi : i ≤ g.tab.ni)
    (hsp : j * (g.tab.ni + 1) + i ∈ g.tab.spi) :
    mean ((around g.tab.nj g.tab.ni j i).map (cornerPoint m (new R))) = mean ((around g.tab.nj g.tab.ni j i).map (cornerPoint m (g.pts R))) := by
  obtain ⟨new', e, hw⟩ := C84_shift_at_faults h f n
  rw [hn] at e
  cases e
  rw [← mean_shift (around g.tab.nj g.tab.ni j i) (around_ne _ _ _ _ h.nj h.ni hj hi) (cornerPoint m (g.pts R)) (f - 1)]
  congr 1
  apply List.map_congr_left
  intro c hc
  obtain ⟨h3, h4, h5, h6, h7, h8⟩ := around_mem hc
  have := hw R c.1 c.2.1 c.2.2.1 c.2.2.2 h3 h4 h5 h6 (by rw [h7, h8]; exact hsp)
  rw [h7, h8] at this
  exact this

/-- Every pillar is moved as a whole. -/
theorem C84_pillars_moved_whole {g : Grid Xyz} {m : Mapping} {ref R : Nat} {base : Bool} (h : Faulted g m ref base R) (f : ℚ) (n : Nat)
    {new : Nat → Nat → Xyz} (hn : throwScaled g f n ref base = .ok new) (p : Nat) : ∃ d, ∀ k, new k p = g.pts k p + d := by
  obtain ⟨off0, s, e, ho, hI⟩ := throw_ok g f n ref base m h.split h.mapping h.fresh h.nj h.ni R h.plane h.within
  obtain ⟨B, hB0, hB⟩ := bound_exists g.tab m off0
  rw [hn] at e
  cases e
  exact ⟨s.off p, fun k => (hI B hB0 hB).moved k p⟩

/-- A node further than the range from any fault stays where it is. -/
theorem C84_far_kept {g : Grid Xyz} {m : Mapping} {ref R : Nat} {base : Bool} (h : Faulted g m ref base R) (f : ℚ) (n : Nat)
    {new : Nat → Nat → Xyz} (hn : throwScaled g f n ref base = .ok new) (j i jp ip : Nat) (hj : j < g.tab.nj) (hi : i < g.tab.ni) (hjp : jp ≤ 1)
    (hip : ip ≤ 1) (far : ¬ FaultWithin g.tab n (j + jp) (i + ip)) (k : Nat) : at' m (new k) j i jp ip = at' m (g.pts k) j i jp ip := by
  obtain ⟨off0, s, e, ho, hI⟩ := throw_ok g f n ref base m h.split h.mapping h.fresh h.nj h.ni R h.plane h.within
  obtain ⟨B, hB0, hB⟩ := bound_exists g.tab m off0
  have hI := hI B hB0 hB
  rw [hn] at e
  cases e
  show s.pts k (m j i jp ip) = g.pts k (m j i jp ip)
  rw [hI.moved k]
  rcases mapping_cases (j := j) (jp := jp) h.mapping hi hip with e | ⟨_, e', _⟩
  · rw [e, hI.free (j + jp) (i + ip) (by omega) (by omega), add_zero]
    by_contra hf
    exact far ((hI.flags _ _ (by omega) (by omega)).1 (by simpa using hf))
  · exact absurd (faultWithin_mono (Nat.zero_le n) ((faultWithin_zero (by omega) (by omega)).2 (List.mem_of_getElem? e'))) far

/-- The effect decays away from faults: if at faulted nodes no corner of a column is moved up or down by more than `B`, then at a node
without a fault within `d` steps none is by more than (2 ^ (n - d) - 1) / (2 ^ (n + 1) - 1) of that, with a range of `n`. -/
theorem C84_decay {g : Grid Xyz} {m : Mapping} {ref R : Nat} {base : Bool} (h : Faulted g m ref base R) (f : ℚ) (n : Nat)
    {new : Nat → Nat → Xyz} (hn : throwScaled g f n ref base = .ok new) (B : ℚ) (hB0 : 0 ≤ B)
    (hB : ∀ k j i jp ip, j < g.tab.nj → i < g.tab.ni → jp ≤ 1 → ip ≤ 1 → FaultWithin g.tab 0 (j + jp) (i + ip) →
      |(at' m (new k) j i jp ip).2.2 - (at' m (g.pts k) j i jp ip).2.2| ≤ B)
    (d k j i jp ip : Nat) (hj : j < g.tab.nj) (hi : i < g.tab.ni) (hjp : jp ≤ 1) (hip : ip ≤ 1) (far : ¬ FaultWithin g.tab d (j + jp) (i + ip)) :
    |(at' m (new k) j i jp ip).2.2 - (at' m (g.pts k) j i jp ip).2.2| ≤ B * ((2 ^ (n - d) - 1) / (2 ^ (n + 1) - 1)) := by
  obtain ⟨new', e', hw⟩ := C84_shift_at_faults h f n
  rw [hn] at e'
  cases e'
  obtain ⟨off0, s, e, ho, hI⟩ := throw_ok g f n ref base m h.split h.mapping h.fresh h.nj h.ni R h.plane h.within
  rw [hn] at e
  cases e
  have hI := hI B hB0 (fun a b jp ip h1 h2 h3 h4 h5 => by
    have hb := hB 0 a b jp ip h1 h2 h3 h4 ((faultWithin_zero (by omega) (by omega)).2 h5)
    rw [hw 0 a b jp ip h1 h2 h3 h4 h5, ← ho a b jp ip h1 h2 h3 h4 h5] at hb
    rw [Prod.snd_add, Prod.snd_add, add_sub_cancel_left] at hb
    exact hb)
  show |(s.pts k (m j i jp ip)).2.2 - (g.pts k (m j i jp ip)).2.2| ≤ _
  rw [hI.moved k, Prod.snd_add, Prod.snd_add, add_sub_cancel_left]
  rcases mapping_cases (j := j) (jp := jp) h.mapping hi hip with e | ⟨_, e', _⟩
  · rw [e]
    have := hI.small d (j + jp) (i + ip) (by omega) (by omega) far
    unfold weight at this
    rw [show n + 1 - (d + 1) = n - d by omega] at this
    exact this
  · exact absurd (faultWithin_mono (Nat.zero_le d) ((faultWithin_zero (by omega) (by omega)).2 (List.mem_of_getElem? e'))) far

/-- At a node without a fault the shift is along the straight line from the top to the base of its pillar. -/
theorem C84_along_pillar {g : Grid Xyz} {m : Mapping} {ref R : Nat} {base : Bool} (h : Faulted g m ref base R) (f : ℚ) (n : Nat)
    {new : Nat → Nat → Xyz} (hn : throwScaled g f n ref base = .ok new) (j i jp ip : Nat) (hj : j < g.tab.nj) (hi : i < g.tab.ni) (hjp : jp ≤ 1)
    (hip : ip ≤ 1) (hns : ¬ FaultWithin g.tab 0 (j + jp) (i + ip))
    (tall : (at' m (g.pts g.nk) j i jp ip).2.2 ≠ (at' m (g.pts 0) j i jp ip).2.2) :
    ∃ c : ℚ, ∀ k, at' m (new k) j i jp ip = at' m (g.pts k) j i jp ip + c • (at' m (g.pts g.nk) j i jp ip - at' m (g.pts 0) j i jp ip) := by
  obtain ⟨off0, s, e, ho, hI⟩ := throw_ok g f n ref base m h.split h.mapping h.fresh h.nj h.ni R h.plane h.within
  obtain ⟨B, hB0, hB⟩ := bound_exists g.tab m off0
  have hI := hI B hB0 hB
  rw [hn] at e
  cases e
  rw [faultWithin_zero (by omega) (by omega)] at hns
  rcases mapping_cases (j := j) (jp := jp) h.mapping hi hip with e | ⟨_, e', _⟩
  · unfold at' cornerPoint at *
    dsimp only at *
    rw [e] at tall ⊢
    have ha := hI.along (j + jp) (i + ip) (by omega) (by omega) hns _ _ rfl rfl tall
    refine ⟨_, fun k => (hI.moved k _).trans (congrArg (fun o => g.pts k _ + o) ha)⟩
  · exact absurd (List.mem_of_getElem? e') hns

/-- A factor of one leaves the corners of all columns where they are, if pillars have height. -/
theorem C84_factor_one {g : Grid Xyz} {m : Mapping} {ref R : Nat} {base : Bool} (h : Faulted g m ref base R) (n : Nat)
    {new : Nat → Nat → Xyz} (hn : throwScaled g 1 n ref base = .ok new) (k j i jp ip : Nat) (hj : j < g.tab.nj) (hi : i < g.tab.ni) (hjp : jp ≤ 1)
    (hip : ip ≤ 1) (tall : (at' m (g.pts g.nk) j i jp ip).2.2 ≠ (at' m (g.pts 0) j i jp ip).2.2) :
    at' m (new k) j i jp ip = at' m (g.pts k) j i jp ip := by
  obtain ⟨new', e', hw⟩ := C84_shift_at_faults h 1 n
  rw [hn] at e'
  cases e'
  have hw0 : ∀ k j i jp ip, j < g.tab.nj → i < g.tab.ni → jp ≤ 1 → ip ≤ 1 → FaultWithin g.tab 0 (j + jp) (i + ip) →
      at' m (new k) j i jp ip = at' m (g.pts k) j i jp ip := by
    intro k j i jp ip h1 h2 h3 h4 h5
    rw [hw k j i jp ip h1 h2 h3 h4 ((faultWithin_zero (by omega) (by omega)).1 h5), sub_self, zero_smul, add_zero]
  by_cases hf : FaultWithin g.tab 0 (j + jp) (i + ip)
  · exact hw0 k j i jp ip hj hi hjp hip hf
  · have hd := C84_decay h 1 n hn 0 (le_refl _) (fun k j i jp ip h1 h2 h3 h4 h5 => by
      rw [hw0 k j i jp ip h1 h2 h3 h4 h5, sub_self, abs_zero]) 0 k j i jp ip hj hi hjp hip hf
    rw [zero_mul] at hd
    have hz := sub_eq_zero.1 (abs_eq_zero.1 (le_antisymm hd (abs_nonneg _)))
    obtain ⟨c, hc⟩ := C84_along_pillar h 1 n hn j i jp ip hj hi hjp hip hf tall
    have hck := hc k
    rw [hck] at hz
    rw [Prod.snd_add, Prod.snd_add] at hz
    have hz' : c * ((at' m (g.pts g.nk) j i jp ip).2.2 - (at' m (g.pts 0) j i jp ip).2.2) = 0 := by
      have : (c • (at' m (g.pts g.nk) j i jp ip - at' m (g.pts 0) j i jp ip)).2.2 = 0 := by linarith
      exact this
    rcases mul_eq_zero.1 hz' with h0 | h0
    · rw [hck, h0, zero_smul, add_zero]
    · exact absurd (sub_eq_zero.1 h0) tall

/-- What is refused: a grid without split pillars, and a plane of reference which is not one of the grid. -/
theorem C84_refused (g : Grid Xyz) (f : ℚ) (n ref : Nat) (base : Bool)
    (h : g.tab.hasSplit = false ∨ g.nk < if base then ref + 1 else ref) : throwScaled g f n ref base = .error .assertion := by
  unfold throwScaled
  rcases h with h | h
  · rw [if_neg (by simp [h])]
  · split
    · dsimp only
      rw [if_neg (by omega)]
    · rfl

/-! ## A case -/

/-- four columns in a row and one layer, with a fault between the second and the third; the throw is 2 -/
def exThrow : Grid Xyz where
  nk := 1
  kGaps := none
  tab := ⟨1, 4, true, [2, 7], [2, 2], [1, 2]⟩
  pts := fun k p => if p < 10 then (((p % 5 : ℕ) : ℚ), ((p / 5 : ℕ) : ℚ), 100 * (k : ℚ)) else (2, ((p - 10 : ℕ) : ℚ), 100 * (k : ℚ) + 2)
  cache := none

/-- the hypotheses of the theorems are met -/
example : ∃ m, Faulted exThrow m 0 true 1 := ⟨_, rfl, rfl, rfl, rfl, by decide, by decide, rfl, by decide⟩

/-- nodes at the end of the rows are two steps from the fault -/
example : FaultWithin exThrow.tab 2 0 0 ∧ ¬ FaultWithin exThrow.tab 1 0 0 := by
  constructor
  · exact ⟨0, 2, by decide, by decide, by decide, by decide⟩
  · rintro ⟨j, i, h1, h2, h3, h4⟩
    have h1 : j ≤ 1 := h1
    have h2 : i ≤ 4 := h2
    have h3 : j * 5 + i = 2 ∨ j * 5 + i = 7 := by simpa [exThrow] using h3
    unfold stepsApart at h4
    omega

/-- with a factor of 3 and a range of 1 the throw of 2 becomes one of 6; the nodes next to the fault move by a third of the 2 by which
those at the fault do, on average over the columns, which is 2 up on one side and 2 down on the other; the next do not move -/
example : (match throwScaled exThrow 3 1 0 false with
    | .ok new => decide ((new 0 2).2.2 = -2 ∧ (new 0 10).2.2 = 4 ∧ (new 1 10).2.2 = 104 ∧ (new 0 1).2.2 = -2 / 3 ∧ (new 0 3).2.2 = 2 / 3 ∧
        (new 0 0).2.2 = 0 ∧ (new 1 4).2.2 = 100)
    | .error _ => false) = true := by decide +kernel

end Verif.Derived
