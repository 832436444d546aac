import Verif.Mesh.Spec
import Verif.Box.Lemmas
import Mathlib.Tactic.Linarith
import Mathlib.Tactic.FieldSimp
import Mathlib.Tactic.Ring
import Mathlib.Tactic.FinCases

/-!
# Lemmas about meshes
-/

namespace Verif.Mesh
open Verif.Py

theorem linspace_steps (a d : ℝ) (n i : Nat) (h : i < n) : linspace a (a + ((n : ℝ) - 1) * d) n i = a + (i : ℝ) * d := by
  unfold linspace
  split_ifs with h1
  · have : i = 0 := by omega
    simp [this]
  · have hn : (n : ℝ) - 1 ≠ 0 := by
      intro e
      have : (n : ℝ) = ((1 : Nat) : ℝ) := by push_cast; linarith
      exact h1 (Nat.cast_injective this)
    have : a + ((n : ℝ) - 1) * d - a = ((n : ℝ) - 1) * d := by ring
    rw [this]
    congr 1
    field_simp

theorem regularAt_eq (l : Lat) (ni nj j i : Nat) (c : Fin 3) (hj : j < nj) (hi : i < ni) : regularAt l ni nj j i c = node l j i c := by
  unfold regularAt node
  rw [linspace_steps _ _ _ _ hi]
  have := linspace_steps 0 (l.dj c) nj j hj
  rw [zero_add, zero_add] at this
  unfold startI0
  rw [this]
  ring

theorem regularPts_holds (l : Lat) (ni nj : Nat) :
    Holds (regularPts l ni nj) nj ni (fun j i => some (node l j i 0)) (fun j i => some (node l j i 1)) (fun j i => some (node l j i 2)) := by
  refine ⟨rfl, ?_⟩
  intro j i hj hi
  refine ⟨?_, ?_, ?_⟩
  · exact congrArg some (regularAt_eq l ni nj j i 0 hj hi)
  · exact congrArg some (regularAt_eq l ni nj j i 1 hj hi)
  · exact congrArg some (regularAt_eq l ni nj j i 2 hj hi)

/-! ### Offsets -/

theorem dot_pos {d : Vec} (h : d ≠ fun _ => 0) : 0 < dot d := by
  unfold dot
  by_contra hn
  apply h
  have h0 := mul_self_nonneg (d 0)
  have h1 := mul_self_nonneg (d 1)
  have h2 := mul_self_nonneg (d 2)
  have e0 : d 0 = 0 := mul_self_eq_zero.mp (by linarith)
  have e1 : d 1 = 0 := mul_self_eq_zero.mp (by linarith)
  have e2 : d 2 = 0 := mul_self_eq_zero.mp (by linarith)
  funext a
  fin_cases a <;> assumption

theorem dot_zero : ¬ 0 < dot (fun _ => 0) := by simp [dot]

theorem loadOff_storeOff (n : Nat) (d : Vec) (o : OffX) (h : storeOff n d = .ok o) : loadOff n o = .ok d := by
  unfold storeOff at h
  split_ifs at h with hd
  cases h
  unfold loadOff
  dsimp only
  rw [if_pos rfl, if_pos (Real.sqrt_pos.mpr hd)]
  congr 1
  funext a
  have := (Real.sqrt_pos.mpr hd).ne'
  field_simp

theorem loadLat_storeLat (ni nj : Nat) (l : Lat) (x : LatX) (h : storeLat ni nj l = .ok x) : loadLat ni nj x = .ok l := by
  unfold storeLat at h
  cases hj : storeOff nj l.dj with
  | error e => rw [hj] at h; cases h
  | ok oj =>
    cases hi : storeOff ni l.di with
    | error e => rw [hj, hi] at h; cases h
    | ok oi =>
      rw [hj, hi] at h
      cases h
      unfold loadLat
      dsimp only
      rw [loadOff_storeOff _ _ _ hj, loadOff_storeOff _ _ _ hi]
      rfl

theorem refUseOk_store (ni nj : Nat) : refUseOk ni nj 0 (storeRefUse ni nj) = true := by
  simp [refUseOk, storeRefUse]

/-! ### More fuel and more stored -/

/-- what is stored in one store is stored in the other -/
structure Ext (s t : Store) : Prop where
  nodes : ∀ u x, s.nodes.lookup u = some x → t.nodes.lookup u = some x
  points : ∀ u x, s.points.lookup u = some x → t.points.lookup u = some x
  zs : ∀ u x, s.zs.lookup u = some x → t.zs.lookup u = some x

theorem Ext.refl (s : Store) : Ext s s := ⟨fun _ _ h => h, fun _ _ h => h, fun _ _ h => h⟩

theorem Ext.trans {s t r : Store} (h : Ext s t) (g : Ext t r) : Ext s r :=
  ⟨fun u x e => g.nodes u x (h.nodes u x e), fun u x e => g.points u x (h.points u x e), fun u x e => g.zs u x (h.zs u x e)⟩

theorem load_mono {s t : Store} (hst : Ext s t) : ∀ (f g u : Nat) (m : Mesh), f ≤ g → load f s u = .ok m → load g t u = .ok m := by
  intro f
  induction f with
  | zero => intro g u m _ h; cases h
  | succ f ih =>
    intro g u m hfg h
    cases g with
    | zero => omega
    | succ g =>
      unfold load at h ⊢
      cases hn : s.nodes.lookup u with
      | none => rw [hn] at h; cases h
      | some n =>
        rw [hn] at h
        rw [hst.nodes u n hn]
        dsimp only at h ⊢
        obtain ⟨role, ni, nj, crs, p⟩ := n
        cases ni <;> cases nj <;> cases crs <;> cases p <;> try (cases h; done)
        rename_i ni nj crs p
        dsimp only at h ⊢
        cases p with
        | lattice x => exact h
        | zLattice x => exact h
        | coords b => exact h
        | other => cases h
        | zRef ref start offs =>
          cases ref with
          | none => cases h
          | some r =>
            dsimp only at h ⊢
            cases hl : load f s r with
            | error e => rw [hl] at h; cases h
            | ok rm =>
              rw [hl] at h
              rw [ih g r rm (by omega) hl]
              exact h

theorem fullArray_mono {s t : Store} (hst : Ext s t) :
    ∀ (f g u : Nat) (m : Mesh) (p : Pts), f ≤ g → fullArray f s u m = .ok p → fullArray g t u m = .ok p := by
  intro f
  induction f with
  | zero => intro g u m p _ h; cases h
  | succ f ih =>
    intro g u m p hfg h
    cases g with
    | zero => omega
    | succ g =>
      unfold fullArray at h ⊢
      obtain ⟨role, ni, nj, fl, full, lat, ref, crs⟩ := m
      cases full with
      | some q => exact h
      | none =>
        dsimp only at h ⊢
        cases fl with
        | explicit =>
          dsimp only at h ⊢
          cases hp : s.points.lookup u with
          | none => rw [hp] at h; cases h
          | some q => rw [hp] at h; rw [hst.points u q hp]; exact h
        | regular => exact h
        | regz =>
          cases lat with
          | none => cases h
          | some l =>
            dsimp only at h ⊢
            cases hp : s.zs.lookup u with
            | none => rw [hp] at h; cases h
            | some q => rw [hp] at h; rw [hst.zs u q hp]; exact h
        | refz =>
          cases ref with
          | none => cases h
          | some r =>
            dsimp only at h ⊢
            cases hl : load f s r with
            | error e => rw [hl] at h; cases h
            | ok rm =>
              rw [hl] at h
              rw [load_mono hst f g r rm (by omega) hl]
              rw [Verif.Box.ok_bind] at h ⊢
              cases hf : fullArray f s r rm with
              | error e => rw [hf] at h; cases h
              | ok q =>
                rw [hf] at h
                rw [ih g r rm q (by omega) hf]
                rw [Verif.Box.ok_bind] at h ⊢
                cases hp : s.zs.lookup u with
                | none => rw [hp] at h; cases h
                | some z => rw [hp] at h; rw [hst.zs u z hp]; exact h

end Verif.Mesh
