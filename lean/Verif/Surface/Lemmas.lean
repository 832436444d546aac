import Verif.Surface.Model
import Verif.Surface.Spec
import Mathlib.Tactic.Ring
import Mathlib.Tactic.IntervalCases

namespace Verif.Surface
open Verif.Py Spec

variable {P α : Type}

/-- lists of equal length put one after the other -/
theorem getElem_uniform (n R : Nat) (L : Nat → List α) (h : ∀ c, c < n → (L c).length = R) :
    ((List.range n).flatMap L).length = n * R ∧
      ∀ c l, c < n → l < R → ((List.range n).flatMap L)[c * R + l]? = (L c)[l]? := by
  induction n with
  | zero => exact ⟨by simp, fun c l hc => by omega⟩
  | succ n ih =>
    obtain ⟨h1, h2⟩ := ih fun c hc => h c (by omega)
    rw [List.range_succ, List.flatMap_append, List.flatMap_singleton]
    refine ⟨by rw [List.length_append, h1, h n (by omega)]; ring, ?_⟩
    intro c l hc hl
    by_cases hcn : c = n
    · subst hcn
      rw [List.getElem?_append_right (by omega), h1, Nat.add_sub_cancel_left]
    · rw [List.getElem?_append_left, h2 c l (by omega) hl]
      have h3 : (c + 1) * R ≤ n * R := Nat.mul_le_mul_right R (by omega)
      have h4 : (c + 1) * R = c * R + R := by ring
      omega

/-- the same with two indices -/
theorem getElem_nested (m n R : Nat) (L : Nat → Nat → List α) (h : ∀ j i, j < m → i < n → (L j i).length = R) :
    ((List.range m).flatMap fun j => (List.range n).flatMap fun i => L j i).length = m * n * R ∧
      ∀ j i l, j < m → i < n → l < R →
        ((List.range m).flatMap fun j => (List.range n).flatMap fun i => L j i)[(j * n + i) * R + l]? = (L j i)[l]? := by
  have inner : ∀ j, j < m → _ := fun j hj => getElem_uniform n R (L j) (fun c hc => h j c hj hc)
  obtain ⟨h1, h2⟩ := getElem_uniform m (n * R) (fun j => (List.range n).flatMap fun i => L j i) (fun c hc => (inner c hc).1)
  refine ⟨by rw [h1]; ring, ?_⟩
  intro j i l hj hi hl
  have h3 : (i + 1) * R ≤ n * R := Nat.mul_le_mul_right R (by omega)
  have h4 : (i + 1) * R = i * R + R := by ring
  have := h2 j (i * R + l) hj (by omega)
  rw [(inner j hj).2 i l hi hl] at this
  rw [← this]
  congr 1
  ring

theorem flatMesh_get (nj ni : Nat) (mesh : Nat → Nat → P) :
    (flatMesh nj ni mesh).length = nj * ni ∧
      ∀ j i, j < nj → i < ni → (flatMesh nj ni mesh)[j * ni + i]? = some (mesh j i) := by
  obtain ⟨h1, h2⟩ := getElem_uniform nj ni (fun j => (List.range ni).map fun i => mesh j i) (by simp)
  refine ⟨h1, fun j i hj hi => ?_⟩
  have := h2 j i hj hi
  unfold flatMesh
  rw [this]
  simp [hi]

theorem cornersN_some {points : List P} {t : Tri} {a b c : P} (ha : points[t.1]? = some a) (hb : points[t.2.1]? = some b)
    (hc : points[t.2.2]? = some c) : cornersN points t = some (a, b, c) := by
  unfold cornersN
  rw [ha, hb, hc]

theorem four_corners {points : List P} {e a b c d : P} {ne na nb nc nd : Nat} (he : points[ne]? = some e) (ha : points[na]? = some a)
    (hb : points[nb]? = some b) (hc : points[nc]? = some c) (hd : points[nd]? = some d) :
    (fourTris ne na nb nc nd).map (cornersN points) = (quadTriangles true e a b c d).map some := by
  simp [fourTris, quadTriangles, cornersN, he, ha, hb, hc, hd]

theorem two_corners {points : List P} {e a b c d : P} {na nb nc nd : Nat} (ha : points[na]? = some a)
    (hb : points[nb]? = some b) (hc : points[nc]? = some c) (hd : points[nd]? = some d) :
    (twoTris na nb nc nd).map (cornersN points) = (quadTriangles false e a b c d).map some := by
  simp [twoTris, quadTriangles, cornersN, ha, hb, hc, hd]

/-- from equal lists to equal elements -/
theorem lookup_of_map {ts : List Tri} {points : List P} {l : List (P × P × P)} (h : ts.map (cornersN points) = l.map some) (k : Nat)
    (hk : k < ts.length) : ∃ t, ts[k]? = some t ∧ cornersN points t = l[k]? ∧ k < l.length := by
  have hl : l.length = ts.length := by
    have := congrArg List.length h
    simpa using this.symm
  refine ⟨ts[k], by simp [hk], ?_, by omega⟩
  have := congrArg (fun x => x[k]?) h
  simp only [List.getElem?_map, List.getElem?_eq_getElem hk, List.getElem?_eq_getElem (show k < l.length by omega),
    Option.map_some, Option.some.injEq] at this
  rw [this, List.getElem?_eq_getElem (show k < l.length by omega)]

theorem col_div (j i k n R : Nat) (hi : i < n) (hk : k < R) :
    ((((j * n + i) * R + k : Nat) : Int) / (R : Int)) / (n : Int) = j ∧ ((((j * n + i) * R + k : Nat) : Int) / (R : Int)) % (n : Int) = i := by
  have e : (((j * n + i) * R + k : Nat) : Int) / (R : Int) = ((j * n + i : Nat) : Int) := by
    rw [← Int.natCast_ediv]
    congr 1
    rw [Nat.mul_comm, Nat.mul_add_div (by omega), Nat.div_eq_of_lt hk, Nat.add_zero]
  rw [e, ← Int.natCast_ediv, ← Int.natCast_emod]
  constructor
  · congr 1
    rw [Nat.mul_comm, Nat.mul_add_div (by omega), Nat.div_eq_of_lt hi, Nat.add_zero]
  · congr 1
    rw [Nat.mul_comm, Nat.mul_add_mod, Nat.mod_eq_of_lt hi]

theorem flatMap_congr' {β : Type} {l : List α} {f g : α → List β} (h : ∀ x ∈ l, f x = g x) : l.flatMap f = l.flatMap g := by
  induction l with
  | nil => rfl
  | cons x l ih =>
    rw [List.flatMap_cons, List.flatMap_cons, h x List.mem_cons_self, ih fun y hy => h y (List.mem_cons_of_mem _ hy)]

end Verif.Surface
