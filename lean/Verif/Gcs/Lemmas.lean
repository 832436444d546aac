import Verif.Gcs.Spec
import Mathlib.Tactic.FinCases
import Mathlib.Tactic.IntervalCases
import Mathlib.Tactic.ByContra
import Mathlib.Tactic.Push

/-! # Lemmas for connection sets -/

namespace Verif.Gcs

theorem denatural_natural (e : Ext) (c : Cell) (hj : c.2.1 < e.nj) (hi : c.2.2 < e.ni) : denatural e (natural e c) = c := by
  obtain ⟨k, j, i⟩ := c
  dsimp only at hj hi
  unfold denatural natural
  dsimp only
  have h1 : j * e.ni + i < e.nj * e.ni := by
    calc j * e.ni + i < j * e.ni + e.ni := by omega
      _ = (j + 1) * e.ni := by rw [Nat.succ_mul]
      _ ≤ e.nj * e.ni := Nat.mul_le_mul_right _ hj
  have h2 : (k * e.nj + j) * e.ni + i = (j * e.ni + i) + (e.nj * e.ni) * k := by
    rw [Nat.add_mul, Nat.mul_comm (e.nj * e.ni) k, Nat.mul_assoc]; omega
  rw [h2, Nat.add_mul_div_left _ _ (by omega), Nat.add_mul_mod_self_left, Nat.div_eq_of_lt h1, Nat.mod_eq_of_lt h1]
  rw [Nat.add_comm (j * e.ni) i, Nat.add_mul_div_right _ _ (by omega), Nat.add_mul_mod_self_right, Nat.div_eq_of_lt hi,
    Nat.mod_eq_of_lt hi]
  simp

theorem natural_inj (e : Ext) {c d : Cell} (hc : Inside e c) (hd : Inside e d) (h : natural e c = natural e d) : c = d := by
  rw [← denatural_natural e c hc.2.1 hc.2.2, ← denatural_natural e d hd.2.1 hd.2.2, h]

/-- distance in natural index between neighbours -/
def stepOf (e : Ext) (axis : Nat) : Nat :=
  match axis with
  | 0 => e.nj * e.ni
  | 1 => e.ni
  | _ => 1

theorem natural_next (e : Ext) (axis : Nat) (c : Cell) : natural e (next axis c) = natural e c + stepOf e axis := by
  obtain ⟨k, j, i⟩ := c
  rcases axis with _ | _ | a <;> simp only [natural, next, stepOf]
  · rw [Nat.succ_mul, Nat.add_right_comm, Nat.add_mul, Nat.add_right_comm]
  · rw [← Nat.add_assoc, Nat.succ_mul, Nat.add_right_comm]
  · omega

/-- shape of the face array of an axis -/
def shapeOf (e : Ext) (axis : Nat) : List Cell :=
  match axis with
  | 0 => triples (e.nk - 1) e.nj e.ni
  | 1 => triples e.nk (e.nj - 1) e.ni
  | _ => triples e.nk e.nj (e.ni - 1)

theorem mem_triples {a b c : Nat} {x : Cell} : x ∈ triples a b c ↔ x.1 < a ∧ x.2.1 < b ∧ x.2.2 < c := by
  obtain ⟨k, j, i⟩ := x
  simp only [triples, List.mem_flatMap, List.mem_range, List.mem_map, Prod.mk.injEq]
  constructor
  · rintro ⟨k', hk, j', hj, i', hi, rfl, rfl, rfl⟩
    exact ⟨hk, hj, hi⟩
  · rintro ⟨hk, hj, hi⟩
    exact ⟨k, hk, j, hj, i, hi, rfl, rfl, rfl⟩

theorem nodup_triples (a b c : Nat) : (triples a b c).Nodup := by
  unfold triples
  rw [List.nodup_flatMap]
  constructor
  · intro k _
    rw [List.nodup_flatMap]
    constructor
    · intro j _
      exact List.nodup_range.map fun x y h => by simpa using h
    · refine List.Pairwise.imp_of_mem ?_ (List.nodup_range (n := b))
      intro x y _ _ hne
      simp only [Function.onFun, List.disjoint_left, List.mem_map, List.mem_range]
      rintro z ⟨i, _, rfl⟩ ⟨i', _, h⟩
      simp only [Prod.mk.injEq] at h
      exact hne h.2.1.symm
  · refine List.Pairwise.imp_of_mem ?_ (List.nodup_range (n := a))
    intro x y _ _ hne
    simp only [Function.onFun, List.disjoint_left, List.mem_flatMap, List.mem_map, List.mem_range]
    rintro z ⟨j, _, i, _, rfl⟩ ⟨j', _, i', _, h⟩
    simp only [Prod.mk.injEq] at h
    exact hne h.1.symm

theorem mem_shapeOf (e : Ext) (axis : Nat) (ha : axis < 3) (c : Cell) :
    c ∈ shapeOf e axis ↔ Inside e c ∧ Inside e (next axis c) := by
  obtain ⟨k, j, i⟩ := c
  interval_cases axis <;> simp only [shapeOf, mem_triples, Inside, next] <;> omega

theorem faceIndex_inverse (axis p : Nat) (ha : axis < 3) (hp : p < 2) : faceIndexInverse (faceIndexMap axis p) = (axis, p) := by
  interval_cases axis <;> interval_cases p <;> rfl

theorem faceIndex_map_inverse (f : Nat) (hf : f < 6) :
    faceIndexMap (faceIndexInverse f).1 (faceIndexInverse f).2 = f ∧ (faceIndexInverse f).1 < 3 ∧ (faceIndexInverse f).2 < 2 := by
  interval_cases f <;> decide

/-- the connection across the plus face of a cell, as the code writes it -/
def connOf (e : Ext) (axis : Nat) (flip : Bool) (c : Cell) : Conn :=
  if flip then ⟨natural e c + stepOf e axis, natural e c, faceIndexMap axis 0, faceIndexMap axis 1⟩
  else ⟨natural e c, natural e c + stepOf e axis, faceIndexMap axis 1, faceIndexMap axis 0⟩

theorem decode_connOf (e : Ext) (axis : Nat) (ha : axis < 3) (flip : Bool) (c : Cell) (hc : Inside e c) (hn : Inside e (next axis c)) :
    decode e (connOf e axis flip c) =
      if flip then (minusFace axis c, plusFace axis c) else (plusFace axis c, minusFace axis c) := by
  have h1 := denatural_natural e c hc.2.1 hc.2.2
  have h2 := denatural_natural e (next axis c) hn.2.1 hn.2.2
  rw [natural_next] at h2
  cases flip <;> simp [connOf, decode, h1, h2, faceIndex_inverse axis _ ha, minusFace, plusFace]

theorem fromFaceMasks_conns (e : Ext) (m : Masks) (f : Feature) :
    (fromFaceMasks e m f).conns = [0, 1, 2].flatMap fun axis =>
      ((shapeOf e axis).filter (m.faces axis)).map fun c => connOf e axis (m.sides axis c) c := by
  simp only [fromFaceMasks, axisConns, List.flatMap_cons, List.flatMap_nil, List.append_nil, List.append_assoc]
  rfl

theorem takeIdx_eq_some {α : Type} {l : List α} {idx : List Nat} {r : List α} (h : takeIdx l idx = some r) :
    r.length = idx.length ∧ ∀ n i : Nat, idx[n]? = some i → r[n]? = l[i]? := by
  unfold takeIdx at h
  induction idx generalizing r with
  | nil => simp at h; subst h; simp
  | cons i idx ih =>
    rw [List.mapM_cons] at h
    cases hl : l[i]? with
    | none => simp [hl] at h
    | some v =>
      cases hr : idx.mapM (fun i => l[i]?) with
      | none => simp [hl, hr] at h
      | some r' =>
        simp [hl, hr] at h
        subst h
        obtain ⟨h1, h2⟩ := ih hr
        refine ⟨by simp [h1], ?_⟩
        intro n j hn
        cases n with
        | zero => simp at hn; subst hn; simp [hl]
        | succ n => simp at hn; simp [h2 n j hn]

theorem takeIdx_total {α : Type} {l : List α} {idx : List Nat} (h : ∀ i ∈ idx, i < l.length) : ∃ r, takeIdx l idx = some r := by
  unfold takeIdx
  induction idx with
  | nil => exact ⟨[], by simp⟩
  | cons i idx ih =>
    obtain ⟨r, hr⟩ := ih fun j hj => h j (List.mem_cons_of_mem _ hj)
    have hi := h i List.mem_cons_self
    exact ⟨l[i] :: r, by simp [hr, hi]⟩

end Verif.Gcs
