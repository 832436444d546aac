import Verif.Delaunay.Model
import Mathlib.Tactic.FinCases
import Mathlib.Algebra.BigOperators.Group.Finset.Basic
import Mathlib.Algebra.BigOperators.Intervals
import Mathlib.Algebra.BigOperators.Fin
import Mathlib.Tactic.Ring
import Mathlib.Tactic.Linarith
import Verif.Box.Lemmas

/-! # The arrays of the triangulation fit together -/

namespace Verif.Delaunay
open Verif.Py

/-- a place of an edge: a triangle and which of its edges, as held in `e` (triangulation.py:141-142) -/
abbrev Slot := Nat × Fin 3

/-- the corner at which an edge of a triangle begins -/
def St.beg (s : St) (z : Slot) : Nat := s.t z.1 z.2
/-- the corner at which it ends -/
def St.fin (s : St) (z : Slot) : Nat := s.t z.1 (z.2 + 1)
/-- the corner opposite -/
def St.apex (s : St) (z : Slot) : Nat := s.t z.1 (z.2 + 2)

/-- an edge of the container -/
def Outer (n a b : Nat) : Prop := (a = n ∧ b = n + 1) ∨ (a = n + 1 ∧ b = n + 2) ∨ (a = n + 2 ∧ b = n)

/-- the points in use when `m` points have been inserted -/
def InUse (n m v : Nat) : Prop := v < m ∨ (n ≤ v ∧ v < n + 3)

/-- the arrays fit together: corners of triangles are different points in use, and triangles and edges refer to each other -/
structure Good (n m : Nat) (s : St) : Prop where
  distinct : ∀ (k : Nat) (j : Fin 3), k < s.nt → s.t k j ≠ s.t k (j + 1)
  te_lt : ∀ (k : Nat) (j : Fin 3), k < s.nt → s.te k j < s.ne
  te_e : ∀ (k : Nat) (j : Fin 3), k < s.nt → ∃ sd : Fin 2, s.e (s.te k j) sd = some (k, j)
  e_te : ∀ (ei : Nat) (sd : Fin 2) (z : Slot), s.e ei sd = some z → ei < s.ne ∧ z.1 < s.nt ∧ s.te z.1 z.2 = ei
  mates : ∀ (ei : Nat) (sd : Fin 2) (z w : Slot), s.e ei sd = some z → s.e ei (sd + 1) = some w → s.beg w = s.fin z ∧ s.fin w = s.beg z
  bdry : ∀ (ei : Nat) (sd : Fin 2), ei < s.ne → s.e ei sd = none → ∃ z, s.e ei (sd + 1) = some z ∧ Outer n (s.beg z) (s.fin z)
  corners : ∀ (k : Nat) (j : Fin 3), k < s.nt → InUse n m (s.t k j)

theorem fin3_add (j : Fin 3) : j + 1 + 1 = j + 2 ∧ j + 2 + 1 = j ∧ j + 1 + 2 = j ∧ j + 2 + 2 = j + 1 := by
  fin_cases j <;> decide

theorem fin3_sub (j : Fin 3) : j - 1 = j + 2 ∧ 3 - (j + (j - 1)) = j + 1 := by fin_cases j <;> decide

theorem fin3_cases (j i : Fin 3) : i = j ∨ i = j + 1 ∨ i = j + 2 := by fin_cases j <;> fin_cases i <;> decide

theorem fin3_ne (j : Fin 3) : j ≠ j + 1 ∧ j ≠ j + 2 ∧ j + 1 ≠ j + 2 := by fin_cases j <;> decide

theorem fin2_add (sd : Fin 2) : sd + 1 + 1 = sd ∧ sd ≠ sd + 1 := by fin_cases sd <;> decide

theorem fin2_cases (sd i : Fin 2) : i = sd ∨ i = sd + 1 := by fin_cases sd <;> fin_cases i <;> decide

section
variable {n m : Nat} {s : St}

theorem Good.distinct3 (h : Good n m s) (z : Slot) (hz : z.1 < s.nt) : s.beg z ≠ s.fin z ∧ s.fin z ≠ s.apex z ∧ s.apex z ≠ s.beg z := by
  obtain ⟨e1, e2, -, -⟩ := fin3_add z.2
  refine ⟨h.distinct z.1 z.2 hz, ?_, ?_⟩
  · have := h.distinct z.1 (z.2 + 1) hz
    rwa [e1] at this
  · have := h.distinct z.1 (z.2 + 2) hz
    rwa [e2] at this

/-- a slot, and what is on the other side of its edge -/
theorem Good.side (h : Good n m s) (z : Slot) (hz : z.1 < s.nt) :
    ∃ sd : Fin 2, s.e (s.te z.1 z.2) sd = some z ∧
      ((∃ w, s.e (s.te z.1 z.2) (sd + 1) = some w ∧ w.1 < s.nt ∧ s.te w.1 w.2 = s.te z.1 z.2 ∧ s.beg w = s.fin z ∧ s.fin w = s.beg z) ∨
        (s.e (s.te z.1 z.2) (sd + 1) = none ∧ Outer n (s.beg z) (s.fin z))) := by
  obtain ⟨sd, hsd⟩ := h.te_e z.1 z.2 hz
  refine ⟨sd, hsd, ?_⟩
  cases hw : s.e (s.te z.1 z.2) (sd + 1) with
  | some w =>
    left
    obtain ⟨-, h2, h3⟩ := h.e_te _ _ _ hw
    exact ⟨w, rfl, h2, h3, h.mates _ _ _ _ hsd hw⟩
  | none =>
    right
    obtain ⟨w, h1, h2⟩ := h.bdry _ _ (h.te_lt _ _ hz) hw
    rw [(fin2_add sd).1, hsd] at h1
    obtain rfl := Option.some.inj h1
    exact ⟨rfl, h2⟩

/-- two slots of one edge go opposite ways -/
theorem Good.opposite (h : Good n m s) {z w : Slot} (hz : z.1 < s.nt) (hw : w.1 < s.nt) (he : s.te z.1 z.2 = s.te w.1 w.2) (hne : z ≠ w) :
    s.beg w = s.fin z ∧ s.fin w = s.beg z := by
  obtain ⟨sd, h1⟩ := h.te_e z.1 z.2 hz
  obtain ⟨sd', h2⟩ := h.te_e w.1 w.2 hw
  rw [← he] at h2
  rcases fin2_cases sd sd' with e | e
  · rw [e, h1] at h2
    exact absurd (Option.some.inj h2) hne
  · rw [e] at h2
    exact h.mates _ _ _ _ h1 h2

/-- the two slots of an edge are in different triangles -/
theorem Good.other (h : Good n m s) {ei : Nat} {sd : Fin 2} {z w : Slot} (h1 : s.e ei sd = some z) (h2 : s.e ei (sd + 1) = some w) : z.1 ≠ w.1 := by
  intro he
  obtain ⟨-, hz, -⟩ := h.e_te _ _ _ h1
  obtain ⟨hm1, hm2⟩ := h.mates _ _ _ _ h1 h2
  obtain ⟨d1, d2, d3⟩ := h.distinct3 z hz
  obtain ⟨f1, f2, f3, f4⟩ := fin3_add z.2
  unfold St.beg St.fin St.apex at *
  rw [← he] at hm1 hm2
  rcases fin3_cases z.2 w.2 with e | e | e
  · rw [e] at hm1
    exact d1 hm1
  · rw [e, f1] at hm2
    exact d3 hm2
  · rw [e] at hm1
    exact d2 hm1.symm

end

/-- the side of an edge which belongs to a triangle is given its new place -/
theorem reattach_spec {e : Nat → Fin 2 → Option Slot} {ei old : Nat} {new : Slot} {sd : Fin 2} {j : Fin 3} (h : e ei sd = some (old, j))
    (ho : ∀ w, e ei (sd + 1) = some w → w.1 ≠ old) :
    reattach e ei old new = .ok (Function.update e ei (Function.update (e ei) sd (some new))) := by
  unfold reattach
  rcases fin2_cases 0 sd with e0 | e0
  · subst e0
    rw [if_pos (by rw [h]; rfl)]
  · have e1 : sd = 1 := by rw [e0]; rfl
    subst e1
    rw [if_neg, if_pos (by rw [h]; rfl)]
    intro hn
    rw [show (1 : Fin 2) + 1 = 0 by decide] at ho
    cases h0 : e ei 0 with
    | none => rw [h0] at hn; simp at hn
    | some w =>
      rw [h0] at hn
      exact ho w h0 (Option.some.inj hn)

/-! ## Flipping -/

/-- where the slots go when an edge is flipped; for `flipped` (triangulation.py:67-105) -/
def moved (t0 : Nat) (te0 : Fin 3) (t1 : Nat) (te1 : Fin 3) (z : Slot) : Slot :=
  if z = (t0, te0) then (t0, 1)
  else if z = (t1, te1) then (t1, 1)
  else if z = (t1, te1 + 1) then (t0, 0)
  else if z = (t0, te0 + 1) then (t1, 0)
  else if z = (t0, te0 + 2) then (t0, 2)
  else if z = (t1, te1 + 2) then (t1, 2)
  else z

/-- the state after one flip, before the recursion (triangulation.py:67-105; proved equal to what the model computes) -/
def flipped (s : St) (ei t0 : Nat) (te0 : Fin 3) (t1 : Nat) (te1 : Fin 3) : St where
  t := Function.update (Function.update s.t t0 ![s.t t0 te0, s.t t1 (te1 + 2), s.t t0 (te0 + 2)]) t1 ![s.t t1 te1, s.t t0 (te0 + 2), s.t t1 (te1 + 2)]
  te := Function.update (Function.update s.te t0 ![s.te t1 (te1 + 1), ei, s.te t0 (te0 + 2)]) t1 ![s.te t0 (te0 + 1), ei, s.te t1 (te1 + 2)]
  e := fun x sd => (s.e x sd).map (moved t0 te0 t1 te1)
  fm := Function.update s.fm ei true
  nt := s.nt
  ne := s.ne

section
variable {n m : Nat} {s : St} {ei t0 t1 : Nat} {te0 te1 : Fin 3}

theorem moved_other {z : Slot} (h0 : z.1 ≠ t0) (h1 : z.1 ≠ t1) : moved t0 te0 t1 te1 z = z := by
  have a : ∀ j, z ≠ (t0, j) := fun j e => h0 (by rw [e])
  have b : ∀ j, z ≠ (t1, j) := fun j e => h1 (by rw [e])
  unfold moved
  rw [if_neg (a _), if_neg (b _), if_neg (b _), if_neg (a _), if_neg (a _), if_neg (b _)]

theorem moved_vals (h : t0 ≠ t1) :
    moved t0 te0 t1 te1 (t0, te0) = (t0, 1) ∧ moved t0 te0 t1 te1 (t1, te1) = (t1, 1) ∧ moved t0 te0 t1 te1 (t1, te1 + 1) = (t0, 0) ∧
      moved t0 te0 t1 te1 (t0, te0 + 1) = (t1, 0) ∧ moved t0 te0 t1 te1 (t0, te0 + 2) = (t0, 2) ∧ moved t0 te0 t1 te1 (t1, te1 + 2) = (t1, 2) := by
  obtain ⟨a1, a2, a3⟩ := fin3_ne te0
  obtain ⟨b1, b2, b3⟩ := fin3_ne te1
  have hs := h.symm
  unfold moved
  refine ⟨?_, ?_, ?_, ?_, ?_, ?_⟩ <;>
    simp [h, hs, a1.symm, a2.symm, a3.symm, b1.symm, b2.symm, b3.symm]

/-- two triangles on an edge -/
structure Quad (s : St) (ei t0 : Nat) (te0 : Fin 3) (t1 : Nat) (te1 : Fin 3) (a b c d : Nat) : Prop where
  e0 : s.e ei 0 = some (t0, te0)
  e1 : s.e ei 1 = some (t1, te1)
  l0 : t0 < s.nt
  l1 : t1 < s.nt
  ne : t0 ≠ t1
  k0 : s.te t0 te0 = ei
  k1 : s.te t1 te1 = ei
  v0 : s.t t0 te0 = a
  v1 : s.t t0 (te0 + 1) = b
  v2 : s.t t0 (te0 + 2) = c
  w0 : s.t t1 te1 = b
  w1 : s.t t1 (te1 + 1) = a
  w2 : s.t t1 (te1 + 2) = d
  ab : a ≠ b
  bc : b ≠ c
  ca : c ≠ a
  ad : a ≠ d
  db : d ≠ b
  cd : c ≠ d

theorem Good.quad (h : Good n m s) (h0 : s.e ei 0 = some (t0, te0)) (h1 : s.e ei 1 = some (t1, te1))
    (hcd : s.t t0 (te0 + 2) ≠ s.t t1 (te1 + 2)) :
    Quad s ei t0 te0 t1 te1 (s.t t0 te0) (s.t t0 (te0 + 1)) (s.t t0 (te0 + 2)) (s.t t1 (te1 + 2)) := by
  obtain ⟨-, l0, k0⟩ := h.e_te _ _ _ h0
  obtain ⟨-, l1, k1⟩ := h.e_te _ _ _ h1
  have hm : s.t t1 te1 = s.t t0 (te0 + 1) ∧ s.t t1 (te1 + 1) = s.t t0 te0 := h.mates ei 0 _ _ h0 h1
  have hne : t0 ≠ t1 := h.other (ei := ei) (sd := 0) h0 h1
  obtain ⟨d1, d2, d3⟩ := h.distinct3 (t0, te0) l0
  obtain ⟨f1, f2, f3⟩ := h.distinct3 (t1, te1) l1
  simp only [St.beg, St.fin, St.apex] at d1 d2 d3 f1 f2 f3
  dsimp only at l0 l1 k0 k1
  rw [hm.2] at f2
  rw [hm.1] at f3
  exact ⟨h0, h1, l0, l1, hne, k0, k1, rfl, rfl, rfl, hm.1, hm.2, rfl, d1, d2, d3, f2, f3, hcd⟩

section quad
variable {a b c d : Nat}

theorem Quad.outer (h : Good n m s) (Q : Quad s ei t0 te0 t1 te1 a b c d) {z w : Slot} (hw : w.1 < s.nt)
    (hz : z = (t1, te1 + 1) ∨ z = (t0, te0 + 1) ∨ z = (t0, te0 + 2) ∨ z = (t1, te1 + 2)) (he : s.te z.1 z.2 = s.te w.1 w.2) (hne : z ≠ w) :
    w.1 ≠ t0 ∧ w.1 ≠ t1 := by
  obtain ⟨e0, e1, l0, l1, ne, k0, k1, v0, v1, v2, w0, w1, w2, ab, bc, ca, ad, db, cd⟩ := Q
  have hzl : z.1 < s.nt := by rcases hz with rfl | rfl | rfl | rfl <;> assumption
  obtain ⟨o1, o2⟩ := h.opposite hzl hw he hne
  obtain ⟨f1, f2, f3, f4⟩ := fin3_add te0
  obtain ⟨g1, g2, g3, g4⟩ := fin3_add te1
  obtain ⟨k, j⟩ := w
  unfold St.beg St.fin at o1 o2
  dsimp only at o1 o2 ⊢
  constructor
  · rintro rfl
    rcases hz with rfl | rfl | rfl | rfl <;> dsimp only at o1 o2 <;> rcases fin3_cases te0 j with rfl | rfl | rfl <;>
      simp only [f1, f2, g1, g2, v0, v1, v2, w0, w1, w2] at o1 o2 <;> omega
  · rintro rfl
    rcases hz with rfl | rfl | rfl | rfl <;> dsimp only at o1 o2 <;> rcases fin3_cases te1 j with rfl | rfl | rfl <;>
      simp only [f1, f2, g1, g2, v0, v1, v2, w0, w1, w2] at o1 o2 <;> omega

/-- the four outer edges of the quadrilateral and the edge within it are five different edges -/
theorem Quad.edges_ne (h : Good n m s) (Q : Quad s ei t0 te0 t1 te1 a b c d) :
    s.te t1 (te1 + 1) ≠ ei ∧ s.te t0 (te0 + 1) ≠ ei ∧ s.te t0 (te0 + 2) ≠ ei ∧ s.te t1 (te1 + 2) ≠ ei ∧
    s.te t0 (te0 + 1) ≠ s.te t1 (te1 + 1) ∧ s.te t0 (te0 + 2) ≠ s.te t1 (te1 + 1) ∧ s.te t1 (te1 + 2) ≠ s.te t1 (te1 + 1) ∧
    s.te t0 (te0 + 2) ≠ s.te t0 (te0 + 1) ∧ s.te t1 (te1 + 2) ≠ s.te t0 (te0 + 1) ∧ s.te t1 (te1 + 2) ≠ s.te t0 (te0 + 2) := by
  obtain ⟨a1, a2, a3⟩ := fin3_ne te0
  obtain ⟨b1, b2, b3⟩ := fin3_ne te1
  have hne := Q.ne
  have hs := hne.symm
  have key : ∀ z w : Slot, (z = (t1, te1 + 1) ∨ z = (t0, te0 + 1) ∨ z = (t0, te0 + 2) ∨ z = (t1, te1 + 2)) → (w.1 = t0 ∨ w.1 = t1) → z ≠ w →
      s.te z.1 z.2 ≠ s.te w.1 w.2 := by
    intro z w hz hw hzw he
    have hwl : w.1 < s.nt := by rcases hw with e | e <;> rw [e]; exacts [Q.l0, Q.l1]
    obtain ⟨h0, h1⟩ := Q.outer h hwl hz he hzw
    rcases hw with e | e
    · exact h0 e
    · exact h1 e
  have k0 := Q.k0
  have k1 := Q.k1
  refine ⟨?_, ?_, ?_, ?_, ?_, ?_, ?_, ?_, ?_, ?_⟩
  · rw [← k1]
    exact key (t1, te1 + 1) (t1, te1) (by simp) (Or.inr rfl) (by simp [b1.symm])
  · rw [← k0]
    exact key (t0, te0 + 1) (t0, te0) (by simp) (Or.inl rfl) (by simp [a1.symm])
  · rw [← k0]
    exact key (t0, te0 + 2) (t0, te0) (by simp) (Or.inl rfl) (by simp [a2.symm])
  · rw [← k1]
    exact key (t1, te1 + 2) (t1, te1) (by simp) (Or.inr rfl) (by simp [b2.symm])
  · exact key (t0, te0 + 1) (t1, te1 + 1) (by simp) (Or.inr rfl) (by simp [hne])
  · exact key (t0, te0 + 2) (t1, te1 + 1) (by simp) (Or.inr rfl) (by simp [hne])
  · exact key (t1, te1 + 2) (t1, te1 + 1) (by simp) (Or.inr rfl) (by simp [b3.symm])
  · exact key (t0, te0 + 2) (t0, te0 + 1) (by simp) (Or.inl rfl) (by simp [a3.symm])
  · exact key (t1, te1 + 2) (t0, te0 + 1) (by simp) (Or.inl rfl) (by simp [hs])
  · exact key (t1, te1 + 2) (t0, te0 + 2) (by simp) (Or.inl rfl) (by simp [hs])

/-- the four attachments succeed, and move the slots -/
theorem Quad.attach (h : Good n m s) (Q : Quad s ei t0 te0 t1 te1 a b c d) {β : Type} (f : (Nat → Fin 2 → Option Slot) → Res β) :
    (do
      let e ← reattach (Function.update s.e ei ![some (t0, 1), some (t1, 1)]) (s.te t1 (te1 + 1)) t1 (t0, 0)
      let e ← reattach e (s.te t0 (te0 + 1)) t0 (t1, 0)
      let e ← reattach e (s.te t0 (te0 + 2)) t0 (t0, 2)
      let e ← reattach e (s.te t1 (te1 + 2)) t1 (t1, 2)
      f e) = f fun x sd => (s.e x sd).map (moved t0 te0 t1 te1) := by
  obtain ⟨n1, n2, n3, n4, n5, n6, n7, n8, n9, n10⟩ := Q.edges_ne h
  obtain ⟨m1, m2, m3, m4, m5, m6⟩ := moved_vals (te0 := te0) (te1 := te1) Q.ne
  obtain ⟨s1, p1⟩ := h.te_e t1 (te1 + 1) Q.l1
  obtain ⟨s2, p2⟩ := h.te_e t0 (te0 + 1) Q.l0
  obtain ⟨s3, p3⟩ := h.te_e t0 (te0 + 2) Q.l0
  obtain ⟨s4, p4⟩ := h.te_e t1 (te1 + 2) Q.l1
  rw [reattach_spec (sd := s1) (j := te1 + 1), Box.ok_bind, reattach_spec (sd := s2) (j := te0 + 1), Box.ok_bind,
    reattach_spec (sd := s3) (j := te0 + 2), Box.ok_bind, reattach_spec (sd := s4) (j := te1 + 2), Box.ok_bind]
  · congr 1
    funext x sd
    have other : ∀ (z : Slot) (sz : Fin 2), (z = (t1, te1 + 1) ∨ z = (t0, te0 + 1) ∨ z = (t0, te0 + 2) ∨ z = (t1, te1 + 2)) → z.1 < s.nt →
        s.e (s.te z.1 z.2) sz = some z →
        (s.e (s.te z.1 z.2) (sz + 1)).map (moved t0 te0 t1 te1) = s.e (s.te z.1 z.2) (sz + 1) := by
      intro z sz hz hzl hp
      cases hw : s.e (s.te z.1 z.2) (sz + 1) with
      | none => rfl
      | some w =>
        obtain ⟨-, hwl, hwe⟩ := h.e_te _ _ _ hw
        obtain ⟨o0, o1⟩ := Q.outer h hwl hz hwe.symm (fun e => h.other hp hw (by rw [e]))
        rw [Option.map_some, moved_other o0 o1]
    by_cases x4 : x = s.te t1 (te1 + 2)
    · subst x4
      rw [Function.update_self, Function.update_of_ne n10, Function.update_of_ne n9, Function.update_of_ne n7, Function.update_of_ne n4]
      rcases fin2_cases s4 sd with e | e
      · rw [e, Function.update_self, p4, Option.map_some, m6]
      · rw [e, Function.update_of_ne (fin2_add s4).2.symm, other (t1, te1 + 2) s4 (by simp) Q.l1 p4]
    rw [Function.update_of_ne x4]
    by_cases x3 : x = s.te t0 (te0 + 2)
    · subst x3
      rw [Function.update_self, Function.update_of_ne n8, Function.update_of_ne n6, Function.update_of_ne n3]
      rcases fin2_cases s3 sd with e | e
      · rw [e, Function.update_self, p3, Option.map_some, m5]
      · rw [e, Function.update_of_ne (fin2_add s3).2.symm, other (t0, te0 + 2) s3 (by simp) Q.l0 p3]
    rw [Function.update_of_ne x3]
    by_cases x2 : x = s.te t0 (te0 + 1)
    · subst x2
      rw [Function.update_self, Function.update_of_ne n5, Function.update_of_ne n2]
      rcases fin2_cases s2 sd with e | e
      · rw [e, Function.update_self, p2, Option.map_some, m4]
      · rw [e, Function.update_of_ne (fin2_add s2).2.symm, other (t0, te0 + 1) s2 (by simp) Q.l0 p2]
    rw [Function.update_of_ne x2]
    by_cases x1 : x = s.te t1 (te1 + 1)
    · subst x1
      rw [Function.update_self, Function.update_of_ne n1]
      rcases fin2_cases s1 sd with e | e
      · rw [e, Function.update_self, p1, Option.map_some, m3]
      · rw [e, Function.update_of_ne (fin2_add s1).2.symm, other (t1, te1 + 1) s1 (by simp) Q.l1 p1]
    rw [Function.update_of_ne x1]
    by_cases x0 : x = ei
    · subst x0
      rw [Function.update_self]
      rcases fin2_cases 0 sd with e | e
      · rw [e, Q.e0, Option.map_some, m1]
        rfl
      · have e' : sd = 1 := by rw [e]; rfl
        rw [e', Q.e1, Option.map_some, m2]
        rfl
    rw [Function.update_of_ne x0]
    cases hw : s.e x sd with
    | none => rfl
    | some w =>
      obtain ⟨-, hwl, hwe⟩ := h.e_te _ _ _ hw
      rw [Option.map_some, moved_other]
      · intro e
        obtain ⟨k, j⟩ := w
        dsimp only at e hwe
        subst e
        rcases fin3_cases te0 j with rfl | rfl | rfl
        · exact x0 (by rw [← hwe, Q.k0])
        · exact x2 hwe.symm
        · exact x3 hwe.symm
      · intro e
        obtain ⟨k, j⟩ := w
        dsimp only at e hwe
        subst e
        rcases fin3_cases te1 j with rfl | rfl | rfl
        · exact x0 (by rw [← hwe, Q.k1])
        · exact x1 hwe.symm
        · exact x4 hwe.symm
  · rw [Function.update_of_ne n10, Function.update_of_ne n9, Function.update_of_ne n7, Function.update_of_ne n4]
    exact p4
  · rw [Function.update_of_ne n10, Function.update_of_ne n9, Function.update_of_ne n7, Function.update_of_ne n4]
    exact fun w hw => (h.other p4 hw).symm
  · rw [Function.update_of_ne n8, Function.update_of_ne n6, Function.update_of_ne n3]
    exact p3
  · rw [Function.update_of_ne n8, Function.update_of_ne n6, Function.update_of_ne n3]
    exact fun w hw => (h.other p3 hw).symm
  · rw [Function.update_of_ne n5, Function.update_of_ne n2]
    exact p2
  · rw [Function.update_of_ne n5, Function.update_of_ne n2]
    exact fun w hw => (h.other p2 hw).symm
  · rw [Function.update_of_ne n1]
    exact p1
  · rw [Function.update_of_ne n1]
    exact fun w hw => (h.other p1 hw).symm

theorem Quad.t_other {k : Nat} (h0 : k ≠ t0) (h1 : k ≠ t1) : (flipped s ei t0 te0 t1 te1).t k = s.t k := by
  unfold flipped
  dsimp only
  rw [Function.update_of_ne h1, Function.update_of_ne h0]

theorem Quad.t_0 (Q : Quad s ei t0 te0 t1 te1 a b c d) : (flipped s ei t0 te0 t1 te1).t t0 = ![a, d, c] := by
  unfold flipped
  dsimp only
  rw [Function.update_of_ne Q.ne, Function.update_self, Q.v0, Q.w2, Q.v2]

theorem Quad.t_1 (Q : Quad s ei t0 te0 t1 te1 a b c d) : (flipped s ei t0 te0 t1 te1).t t1 = ![b, c, d] := by
  unfold flipped
  dsimp only
  rw [Function.update_self, Q.w0, Q.w2, Q.v2]

theorem Quad.te_other {k : Nat} (h0 : k ≠ t0) (h1 : k ≠ t1) : (flipped s ei t0 te0 t1 te1).te k = s.te k := by
  unfold flipped
  dsimp only
  rw [Function.update_of_ne h1, Function.update_of_ne h0]

theorem Quad.te_0 (Q : Quad s ei t0 te0 t1 te1 a b c d) :
    (flipped s ei t0 te0 t1 te1).te t0 = ![s.te t1 (te1 + 1), ei, s.te t0 (te0 + 2)] := by
  unfold flipped
  dsimp only
  rw [Function.update_of_ne Q.ne, Function.update_self]

theorem Quad.te_1 : (flipped s ei t0 te0 t1 te1).te t1 = ![s.te t0 (te0 + 1), ei, s.te t1 (te1 + 2)] := by
  unfold flipped
  dsimp only
  rw [Function.update_self]

theorem slot_cases (z : Slot) : (z.1 ≠ t0 ∧ z.1 ≠ t1) ∨ z = (t0, te0) ∨ z = (t1, te1) ∨ z = (t1, te1 + 1) ∨ z = (t0, te0 + 1) ∨ z = (t0, te0 + 2) ∨
    z = (t1, te1 + 2) := by
  obtain ⟨k, j⟩ := z
  by_cases h0 : k = t0
  · subst h0
    rcases fin3_cases te0 j with rfl | rfl | rfl <;> simp
  by_cases h1 : k = t1
  · subst h1
    rcases fin3_cases te1 j with rfl | rfl | rfl <;> simp
  exact Or.inl ⟨h0, h1⟩

/-- what moving the slots does: they keep their edges, and except for those of the flipped edge also their ends -/
theorem Quad.moved_facts (Q : Quad s ei t0 te0 t1 te1 a b c d) (z : Slot) (hz : z.1 < s.nt) :
    (moved t0 te0 t1 te1 z).1 < s.nt ∧
      (flipped s ei t0 te0 t1 te1).te (moved t0 te0 t1 te1 z).1 (moved t0 te0 t1 te1 z).2 = s.te z.1 z.2 ∧
      (z ≠ (t0, te0) → z ≠ (t1, te1) → (flipped s ei t0 te0 t1 te1).beg (moved t0 te0 t1 te1 z) = s.beg z ∧
        (flipped s ei t0 te0 t1 te1).fin (moved t0 te0 t1 te1 z) = s.fin z) := by
  obtain ⟨m1, m2, m3, m4, m5, m6⟩ := moved_vals (te0 := te0) (te1 := te1) Q.ne
  obtain ⟨f1, f2, f3, f4⟩ := fin3_add te0
  obtain ⟨g1, g2, g3, g4⟩ := fin3_add te1
  rcases slot_cases (t0 := t0) (te0 := te0) (t1 := t1) (te1 := te1) z with ⟨h0, h1⟩ | rfl | rfl | rfl | rfl | rfl | rfl
  · rw [moved_other h0 h1]
    refine ⟨hz, by rw [Quad.te_other h0 h1], fun _ _ => ?_⟩
    unfold St.beg St.fin
    rw [Quad.t_other h0 h1]
    exact ⟨rfl, rfl⟩
  · rw [m1]
    refine ⟨Q.l0, ?_, fun h => absurd rfl h⟩
    rw [Q.te_0]
    exact Q.k0.symm
  · rw [m2]
    refine ⟨Q.l1, ?_, fun _ h => absurd rfl h⟩
    rw [Quad.te_1]
    exact Q.k1.symm
  · rw [m3]
    refine ⟨Q.l0, ?_, fun _ _ => ?_⟩
    · rw [Q.te_0]; rfl
    · unfold St.beg St.fin
      dsimp only
      rw [Q.t_0, g1, Q.w1, Q.w2]
      exact ⟨rfl, rfl⟩
  · rw [m4]
    refine ⟨Q.l1, ?_, fun _ _ => ?_⟩
    · rw [Quad.te_1]; rfl
    · unfold St.beg St.fin
      dsimp only
      rw [Q.t_1, f1, Q.v1, Q.v2]
      exact ⟨rfl, rfl⟩
  · rw [m5]
    refine ⟨Q.l0, ?_, fun _ _ => ?_⟩
    · rw [Q.te_0]; rfl
    · unfold St.beg St.fin
      dsimp only
      rw [Q.t_0, f2, Q.v2, Q.v0]
      exact ⟨rfl, rfl⟩
  · rw [m6]
    refine ⟨Q.l1, ?_, fun _ _ => ?_⟩
    · rw [Quad.te_1]; rfl
    · unfold St.beg St.fin
      dsimp only
      rw [Q.t_1, g2, Q.w2, Q.w0]
      exact ⟨rfl, rfl⟩

theorem Quad.moved_onto (Q : Quad s ei t0 te0 t1 te1 a b c d) (z : Slot) (hz : z.1 < s.nt) : ∃ w : Slot, w.1 < s.nt ∧ moved t0 te0 t1 te1 w = z := by
  obtain ⟨m1, m2, m3, m4, m5, m6⟩ := moved_vals (te0 := te0) (te1 := te1) Q.ne
  by_cases h0 : z.1 = t0
  · obtain ⟨k, j⟩ := z
    dsimp only at h0
    subst h0
    fin_cases j
    · exact ⟨_, Q.l1, m3⟩
    · exact ⟨_, Q.l0, m1⟩
    · exact ⟨_, Q.l0, m5⟩
  by_cases h1 : z.1 = t1
  · obtain ⟨k, j⟩ := z
    dsimp only at h1
    subst h1
    fin_cases j
    · exact ⟨_, Q.l0, m4⟩
    · exact ⟨_, Q.l1, m2⟩
    · exact ⟨_, Q.l1, m6⟩
  exact ⟨z, hz, moved_other h0 h1⟩

theorem Quad.e_some (h : Good n m s) {x : Nat} {sd : Fin 2} {z : Slot} (hz : (flipped s ei t0 te0 t1 te1).e x sd = some z) :
    ∃ w, s.e x sd = some w ∧ w.1 < s.nt ∧ s.te w.1 w.2 = x ∧ moved t0 te0 t1 te1 w = z := by
  unfold flipped at hz
  dsimp only at hz
  cases hw : s.e x sd with
  | none => rw [hw] at hz; simp at hz
  | some w =>
    rw [hw] at hz
    obtain ⟨-, h2, h3⟩ := h.e_te _ _ _ hw
    exact ⟨w, rfl, h2, h3, Option.some.inj hz⟩

theorem Quad.good (h : Good n m s) (Q : Quad s ei t0 te0 t1 te1 a b c d) : Good n m (flipped s ei t0 te0 t1 te1) where
  distinct := by
    intro k j hk
    by_cases h0 : k = t0
    · subst h0
      rw [Q.t_0]
      fin_cases j
      · exact Q.ad
      · exact Q.cd.symm
      · exact Q.ca
    by_cases h1 : k = t1
    · subst h1
      rw [Q.t_1]
      fin_cases j
      · exact Q.bc
      · exact Q.cd
      · exact Q.db
    rw [Quad.t_other h0 h1]
    exact h.distinct k j hk
  te_lt := by
    intro k j hk
    obtain ⟨w, hw, e⟩ := Q.moved_onto (k, j) hk
    have := (Q.moved_facts w hw).2.1
    rw [e] at this
    dsimp only at this
    rw [this]
    exact h.te_lt _ _ hw
  te_e := by
    intro k j hk
    obtain ⟨w, hw, e⟩ := Q.moved_onto (k, j) hk
    have := (Q.moved_facts w hw).2.1
    rw [e] at this
    dsimp only at this
    obtain ⟨sd, hsd⟩ := h.te_e w.1 w.2 hw
    refine ⟨sd, ?_⟩
    rw [this]
    show (s.e (s.te w.1 w.2) sd).map (moved t0 te0 t1 te1) = some (k, j)
    rw [hsd]
    show some (moved t0 te0 t1 te1 w) = _
    rw [e]
  e_te := by
    intro x sd z hz
    obtain ⟨w, h1, h2, h3, rfl⟩ := Quad.e_some h hz
    obtain ⟨f1, f2, -⟩ := Q.moved_facts w h2
    exact ⟨(h.e_te _ _ _ h1).1, f1, by rw [f2, h3]⟩
  mates := by
    intro x sd z w hz hw
    obtain ⟨z', z1, z2, z3, rfl⟩ := Quad.e_some h hz
    obtain ⟨w', w1, w2, w3, rfl⟩ := Quad.e_some h hw
    obtain ⟨m1, m2, -⟩ := moved_vals (te0 := te0) (te1 := te1) Q.ne
    by_cases hx : x = ei
    · subst hx
      rcases fin2_cases 0 sd with e | e
      · subst e
        rw [Q.e0] at z1
        have hw1 : some (t1, te1) = some w' := by rw [← w1]; exact Q.e1.symm
        obtain rfl := Option.some.inj z1
        obtain rfl := Option.some.inj hw1
        rw [m1, m2]
        unfold St.beg St.fin
        dsimp only
        rw [Q.t_0, Q.t_1]
        exact ⟨rfl, rfl⟩
      · have e' : sd = 1 := by rw [e]; rfl
        subst e'
        rw [Q.e1] at z1
        have hw1 : some (t0, te0) = some w' := by rw [← w1]; exact Q.e0.symm
        obtain rfl := Option.some.inj z1
        obtain rfl := Option.some.inj hw1
        rw [m1, m2]
        unfold St.beg St.fin
        dsimp only
        rw [Q.t_0, Q.t_1]
        exact ⟨rfl, rfl⟩
    · have hn : ∀ v : Slot, s.te v.1 v.2 = x → v ≠ (t0, te0) ∧ v ≠ (t1, te1) := by
        intro v hv
        constructor
        · rintro rfl
          exact hx (hv.symm.trans Q.k0)
        · rintro rfl
          exact hx (hv.symm.trans Q.k1)
      obtain ⟨f1, f2⟩ := (Q.moved_facts z' z2).2.2 (hn _ z3).1 (hn _ z3).2
      obtain ⟨g1, g2⟩ := (Q.moved_facts w' w2).2.2 (hn _ w3).1 (hn _ w3).2
      rw [f1, f2, g1, g2]
      exact h.mates x sd z' w' z1 w1
  bdry := by
    intro x sd hx hz
    have hz' : s.e x sd = none := by
      cases hw : s.e x sd with
      | none => rfl
      | some w =>
        have : (flipped s ei t0 te0 t1 te1).e x sd = some (moved t0 te0 t1 te1 w) := by
          show (s.e x sd).map (moved t0 te0 t1 te1) = _
          rw [hw]; rfl
        rw [this] at hz
        simp at hz
    obtain ⟨w, h1, h2⟩ := h.bdry x sd hx hz'
    refine ⟨moved t0 te0 t1 te1 w, ?_, ?_⟩
    · show (s.e x (sd + 1)).map (moved t0 te0 t1 te1) = _
      rw [h1]; rfl
    · obtain ⟨-, w2, w3⟩ := h.e_te _ _ _ h1
      have hxe : x ≠ ei := by
        rintro rfl
        rcases fin2_cases 0 sd with e | e
        · subst e
          rw [Q.e0] at hz'
          simp at hz'
        · have e' : sd = 1 := by rw [e]; rfl
          subst e'
          rw [Q.e1] at hz'
          simp at hz'
      obtain ⟨f1, f2⟩ := (Q.moved_facts w w2).2.2 (fun e => hxe (by rw [← w3, e]; exact Q.k0)) (fun e => hxe (by rw [← w3, e]; exact Q.k1))
      rw [f1, f2]
      exact h2
  corners := by
    intro k j hk
    have ha : InUse n m a := by rw [← Q.v0]; exact h.corners _ _ Q.l0
    have hb : InUse n m b := by rw [← Q.v1]; exact h.corners _ _ Q.l0
    have hc : InUse n m c := by rw [← Q.v2]; exact h.corners _ _ Q.l0
    have hd : InUse n m d := by rw [← Q.w2]; exact h.corners _ _ Q.l1
    by_cases h0 : k = t0
    · subst h0
      rw [Q.t_0]
      fin_cases j
      · exact ha
      · exact hd
      · exact hc
    by_cases h1 : k = t1
    · subst h1
      rw [Q.t_1]
      fin_cases j
      · exact hb
      · exact hc
      · exact hd
    rw [Quad.t_other h0 h1]
    exact h.corners k j hk

end quad

end

end Verif.Delaunay
