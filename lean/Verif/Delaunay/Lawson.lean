import Verif.Delaunay.Step
import Verif.Delaunay.Geo

/-! # Flipping edges restores the empty circles -/

namespace Verif.Delaunay
open Verif.Py
open Verif.Polygon (Pt orient)

variable {K : Type} [Field K] [LinearOrder K]

/-- twice the area of a triangle of indices -/
def area (p : Nat → Pt K) (T : Fin 3 → Nat) : K := orient (p (T 0)) (p (T 1)) (p (T 2))
/-- the determinant of `in_circumcircle` for a triangle of indices (vector_utilities.py:1366-1378) -/
def circ (p : Nat → Pt K) (T : Fin 3 → Nat) (v : Nat) : K := circumDet (p (T 0)) (p (T 1)) (p (T 2)) (p v)

theorem area_rot (p : Nat → Pt K) (T : Fin 3 → Nat) (j : Fin 3) : area p T = orient (p (T j)) (p (T (j + 1))) (p (T (j + 2))) := by
  unfold area
  fin_cases j
  · rfl
  · exact (orient_cyc _ _ _).symm
  · exact orient_cyc _ _ _

theorem circ_rot (p : Nat → Pt K) (T : Fin 3 → Nat) (v : Nat) (j : Fin 3) :
    circ p T v = circumDet (p (T j)) (p (T (j + 1))) (p (T (j + 2))) (p v) := by
  unfold circ
  fin_cases j
  · rfl
  · exact (circumDet_cyc _ _ _ _).symm
  · exact circumDet_cyc _ _ _ _

theorem circ_corner (p : Nat → Pt K) (T : Fin 3 → Nat) (j : Fin 3) : circ p T (T j) = 0 := by
  rw [circ_rot p T (T j) j]
  unfold circumDet determinant lifted
  ring

/-- a triangulation of the points in use, within the container, with empty circles -/
structure DT (n m : Nat) (p : Nat → Pt K) (s : St) : Prop where
  good : Good n m s
  cycle : Cycle n s
  area : ∀ k, k < s.nt → 0 < area p (s.t k)
  empty : ∀ k v, k < s.nt → InUse n m v → circ p (s.t k) v ≤ 0
  nt : s.nt = 2 * m + 1
  ne : s.ne = 3 * m + 3

/-- a triangle at the point `q` being inserted, with the edge from `x` to `y` opposite; `F` is the triangle in which `q` was found -/
structure Star (n q : Nat) (p : Nat → Pt K) (F : Fin 3 → Nat) (x y : Nat) : Prop where
  ux : InUse n q x
  uy : InUse n q y
  empty : ∀ v, InUse n q v → 0 ≤ orient (p x) (p y) (p v) → circumDet (p x) (p y) (p q) (p v) ≤ 0
  area : 0 < orient (p x) (p y) (p q) ∨ (orient (p x) (p y) (p q) = 0 ∧ mdot (p x) (p y) (p q) < 0 ∧ ∃ i, x = F i ∧ y = F (i + 1))

/-- a triangle with a corner at `q` -/
def IsStar (n q : Nat) (p : Nat → Pt K) (F : Fin 3 → Nat) (T : Fin 3 → Nat) : Prop := ∃ j, T j = q ∧ Star n q p F (T (j + 1)) (T (j + 2))

/-- the far corner of one triangle is not within the circle of the other -/
def Legal (p : Nat → Pt K) (s : St) (x : Nat) : Prop := ∀ z w, s.e x 0 = some z → s.e x 1 = some w → circ p (s.t z.1) (s.apex w) ≤ 0

/-- the state while `q` is being inserted in triangle `f` of the state `O` -/
structure Ins (n q : Nat) (p : Nat → Pt K) (O : St) (f : Nat) (s : St) (pend : Nat → Prop) : Prop where
  good : Good n (q + 1) s
  cycle : Cycle n s
  nt : s.nt = O.nt + 2
  ne : s.ne = O.ne + 3
  kinds : ∀ k, k < s.nt → IsStar n q p (O.t f) (s.t k) ∨ (k < O.nt ∧ k ≠ f ∧ s.t k = O.t k)
  fmq : ∀ x sd z, s.fm x = true → s.e x sd = some z → s.beg z = q ∨ s.fin z = q
  legal : ∀ x, ¬ pend x → Legal p s x

/-- the number of edges not marked as flipped -/
def unflipped (s : St) : Nat := ((Finset.range s.ne).filter fun x => s.fm x = false).card

section
variable [IsStrictOrderedRing K]
variable {n q : Nat} {p : Nat → Pt K} {F : Fin 3 → Nat}

theorem not_inUse (hq : q < n) : ¬ InUse n q q := by unfold InUse; omega

theorem Star.nonneg {x y : Nat} (h : Star n q p F x y) : 0 ≤ orient (p x) (p y) (p q) := by
  rcases h.area with h | ⟨h, -⟩
  · exact h.le
  · exact h.ge

theorem IsStar.area_nonneg {T : Fin 3 → Nat} (h : IsStar n q p F T) : 0 ≤ Delaunay.area p T := by
  obtain ⟨j, h1, h2⟩ := h
  rw [area_rot p T j, h1, ← orient_cyc]
  exact h2.nonneg

/-- where `q` is in a triangle, seen from one of its edges -/
theorem IsStar.at {s : St} (hq : q < n) {z : Slot} (h : IsStar n q p F (s.t z.1)) :
    (s.apex z = q ∧ Star n q p F (s.beg z) (s.fin z)) ∨ (s.beg z = q ∧ Star n q p F (s.fin z) (s.apex z)) ∨
      (s.fin z = q ∧ Star n q p F (s.apex z) (s.beg z)) := by
  obtain ⟨j, h1, h2⟩ := h
  obtain ⟨k, i⟩ := z
  obtain ⟨a1, a2, a3, a4⟩ := fin3_add i
  unfold St.beg St.fin St.apex
  dsimp only at h1 h2 ⊢
  rcases fin3_cases i j with rfl | rfl | rfl
  · exact Or.inr (Or.inl ⟨h1, h2⟩)
  · rw [a1, a3] at h2
    exact Or.inr (Or.inr ⟨h1, h2⟩)
  · rw [a2, a4] at h2
    exact Or.inl ⟨h1, h2⟩

theorem Star.ne {x y : Nat} (hq : q < n) (h : Star n q p F x y) : x ≠ q ∧ y ≠ q :=
  ⟨fun e => not_inUse hq (e ▸ h.ux), fun e => not_inUse hq (e ▸ h.uy)⟩

theorem circ_slot (p : Nat → Pt K) (s : St) (z : Slot) (v : Nat) :
    circ p (s.t z.1) v = circumDet (p (s.beg z)) (p (s.fin z)) (p (s.apex z)) (p v) := circ_rot p _ v z.2

theorem area_slot (p : Nat → Pt K) (s : St) (z : Slot) :
    Delaunay.area p (s.t z.1) = orient (p (s.beg z)) (p (s.fin z)) (p (s.apex z)) := area_rot p _ z.2

/-- an edge between two triangles at `q` is as it should be -/
theorem star_star {s : St} (hq : q < n) {z w : Slot} (hz : IsStar n q p F (s.t z.1)) (hw : IsStar n q p F (s.t w.1))
    (m1 : s.beg w = s.fin z) (m2 : s.fin w = s.beg z) : circ p (s.t z.1) (s.apex w) ≤ 0 := by
  have az := hz.area_nonneg
  have aw := hw.area_nonneg
  rw [area_slot p s z] at az
  rw [area_slot p s w, m1, m2] at aw
  rw [circ_slot p s z]
  by_contra hn
  push Not at hn
  obtain ⟨f1, f2⟩ := flip_pos az aw hn
  rcases hz.at hq with ⟨z1, z2⟩ | ⟨z1, z2⟩ | ⟨z1, z2⟩ <;> rcases hw.at hq with ⟨w1, w2⟩ | ⟨w1, w2⟩ | ⟨w1, w2⟩
  · rw [z1, w1] at hn
    have : circumDet (p (s.beg z)) (p (s.fin z)) (p q) (p q) = 0 := by
      unfold circumDet determinant lifted
      ring
    rw [this] at hn
    exact lt_irrefl _ hn
  · exact (z2.ne hq).2 (m1 ▸ w1)
  · exact (z2.ne hq).1 (m2 ▸ w1)
  · exact (w2.ne hq).2 (m2.trans z1)
  · exact (w2.ne hq).1 (m2.trans z1)
  · have h := z2.empty (s.apex w) w2.ux f2.le
    rw [circumDet_cyc] at hn
    rw [← z1, ← circumDet_cyc] at h
    rw [circumDet_cyc, circumDet_cyc, circumDet_cyc] at h
    exact absurd h (not_le.mpr hn)
  · exact (w2.ne hq).1 (m1.trans z1)
  · have f3 : 0 ≤ orient (p (s.apex z)) (p (s.beg z)) (p (s.apex w)) := by
      rw [orient_cyc, orient_cyc] at f1
      rw [← orient_cyc] at f1
      first
        | exact f1.le
        | (rw [orient_cyc]; exact f1.le)
        | (rw [orient_cyc, orient_cyc]; exact f1.le)
    have h := z2.empty (s.apex w) w2.uy f3
    rw [← z1, circumDet_cyc] at h
    first
      | exact absurd h (not_le.mpr hn)
      | (rw [circumDet_cyc] at h; exact absurd h (not_le.mpr hn))
  · exact (w2.ne hq).2 (m1.trans z1)

/-- the two triangles at `q` after flipping the edge between a triangle at `q` and one which was there before -/
theorem new_star {x y d : Nat} (h : Star n q p F x y) (hd : InUse n q d) (ha : 0 < orient (p y) (p x) (p d))
    (he : ∀ v, InUse n q v → circumDet (p y) (p x) (p d) (p v) ≤ 0) (hi : 0 < circumDet (p x) (p y) (p q) (p d)) :
    Star n q p F x d ∧ Star n q p F d y := by
  obtain ⟨f1, f2⟩ := flip_pos h.nonneg ha.le hi
  have hi' : 0 < circumDet (p y) (p x) (p d) (p q) := by rw [circumDet_swap]; exact hi
  have k2 : 0 < orient (p d) (p y) (p q) := by rw [orient_cyc] at f2; exact f2
  constructor
  · refine ⟨h.ux, hd, fun v hv h0 => ?_, Or.inl f1⟩
    refine pencil_in (c := p y) ?_ f1.le h0 ?_ ?_
    · rw [orient_cyc]; exact ha
    · rw [circumDet_cyc]; exact hi'.le
    · rw [circumDet_cyc]; exact he v hv
  · refine ⟨hd, h.uy, fun v hv h0 => ?_, Or.inl k2⟩
    refine pencil_in (c := p x) ?_ k2.le h0 ?_ ?_
    · rw [← orient_cyc]; exact ha
    · rw [← circumDet_cyc]; exact hi'.le
    · rw [← circumDet_cyc]; exact he v hv

variable {O : St} {f : Nat}

theorem Ins.mono {s : St} {P P' : Nat → Prop} (h : Ins n q p O f s P) (hp : ∀ x, P x → P' x) : Ins n q p O f s P' :=
  ⟨h.good, h.cycle, h.nt, h.ne, h.kinds, h.fmq, fun x hx => h.legal x fun hn => hx (hp x hn)⟩

theorem Ins.drop {s : St} {P : Nat → Prop} {ei : Nat} (h : Ins n q p O f s (fun x => x = ei ∨ P x)) (hl : Legal p s ei) : Ins n q p O f s P := by
  refine ⟨h.good, h.cycle, h.nt, h.ne, h.kinds, h.fmq, fun x hx => ?_⟩
  by_cases e : x = ei
  · exact e ▸ hl
  · exact h.legal x fun hn => hn.elim e hx

/-- an edge at `q` is as it should be -/
theorem Ins.legal_q {s : St} {P : Nat → Prop} (hO : DT n q p O) (hq : q < n) (h : Ins n q p O f s P) {x : Nat}
    (hx : ∀ z, s.e x 0 = some z → s.beg z = q ∨ s.fin z = q) : Legal p s x := by
  intro z w hz hw
  obtain ⟨-, lz, -⟩ := h.good.e_te _ _ _ hz
  obtain ⟨-, lw, -⟩ := h.good.e_te _ _ _ hw
  obtain ⟨m1, m2⟩ := h.good.mates x 0 z w hz hw
  have star : ∀ v : Slot, v.1 < s.nt → (s.beg v = q ∨ s.fin v = q) → IsStar n q p (O.t f) (s.t v.1) := by
    intro v lv hv
    rcases h.kinds v.1 lv with hs | ⟨l, -, e⟩
    · exact hs
    · exfalso
      unfold St.beg St.fin at hv
      rw [e] at hv
      rcases hv with hv | hv
      · exact not_inUse hq (hv ▸ hO.good.corners v.1 v.2 l)
      · exact not_inUse hq (hv ▸ hO.good.corners v.1 (v.2 + 1) l)
  have hz' := hx z hz
  exact star_star hq (star z lz hz') (star w lw (by rw [m1, m2]; exact hz'.symm)) m1 m2

/-- a flip which is called for keeps the state as it should be -/
theorem Ins.flipped {s : St} {P : Nat → Prop} (hO : DT n q p O) (hq : q < n) {ei : Nat} (h : Ins n q p O f s (fun x => x = ei ∨ P x))
    {t0 t1 : Nat} {te0 te1 : Fin 3} {a b c d : Nat} (Q : Quad s ei t0 te0 t1 te1 a b c d)
    (hi : 0 < circumDet (p a) (p b) (p c) (p d)) :
    Ins n q p O f (flipped s ei t0 te0 t1 te1)
      (fun x => x = s.te t1 (te1 + 1) ∨ x = s.te t0 (te0 + 2) ∨ x = s.te t0 (te0 + 1) ∨ x = s.te t1 (te1 + 2) ∨ P x) := by
  have hg := Q.good h.good
  have e_a : s.beg (t0, te0) = a := Q.v0
  have e_b : s.fin (t0, te0) = b := Q.v1
  have e_c : s.apex (t0, te0) = c := Q.v2
  have e_b' : s.beg (t1, te1) = b := Q.w0
  have e_a' : s.fin (t1, te1) = a := Q.w1
  have e_d : s.apex (t1, te1) = d := Q.w2
  have hi' : 0 < circumDet (p b) (p a) (p d) (p c) := by rw [circumDet_swap]; exact hi
  -- which of the triangles is at `q`
  have key : IsStar n q p (O.t f) ((Delaunay.flipped s ei t0 te0 t1 te1).t t0) ∧ IsStar n q p (O.t f) ((Delaunay.flipped s ei t0 te0 t1 te1).t t1) ∧
      (c = q ∨ d = q) := by
    rw [Q.t_0, Q.t_1]
    rcases h.kinds t0 Q.l0 with k0 | ⟨l0, -, k0⟩ <;> rcases h.kinds t1 Q.l1 with k1 | ⟨l1, -, k1⟩
    · exfalso
      have := star_star (z := (t0, te0)) (w := (t1, te1)) hq k0 k1 (by rw [e_b', e_b]) (by rw [e_a', e_a])
      rw [circ_slot p s (t0, te0), e_a, e_b, e_c, e_d] at this
      exact absurd this (not_le.mpr hi)
    · -- the first is
      have hu : ∀ j, InUse n q (s.t t1 j) := fun j => k1 ▸ hO.good.corners t1 j l1
      have ub : InUse n q b := Q.w0 ▸ hu te1
      have ua : InUse n q a := Q.w1 ▸ hu (te1 + 1)
      have ud : InUse n q d := Q.w2 ▸ hu (te1 + 2)
      rcases IsStar.at (z := (t0, te0)) hq k0 with ⟨z1, z2⟩ | ⟨z1, z2⟩ | ⟨z1, z2⟩
      · rw [e_c] at z1
        rw [e_a, e_b] at z2
        have har := hO.area t1 l1
        rw [← k1, area_slot p s (t1, te1), e_b', e_a', e_d] at har
        have hem := fun v hv => hO.empty t1 v l1 hv
        simp only [← k1, circ_slot p s (t1, te1), e_b', e_a', e_d] at hem
        rw [z1] at hi
        obtain ⟨n1, n2⟩ := new_star z2 ud har hem hi
        exact ⟨⟨2, z1, n1⟩, ⟨1, z1, n2⟩, Or.inl z1⟩
      · rw [e_a] at z1
        exact absurd (z1 ▸ ua) (not_inUse hq)
      · rw [e_b] at z1
        exact absurd (z1 ▸ ub) (not_inUse hq)
    · -- the second is
      have hu : ∀ j, InUse n q (s.t t0 j) := fun j => k0 ▸ hO.good.corners t0 j l0
      have ua : InUse n q a := Q.v0 ▸ hu te0
      have ub : InUse n q b := Q.v1 ▸ hu (te0 + 1)
      have uc : InUse n q c := Q.v2 ▸ hu (te0 + 2)
      rcases IsStar.at (z := (t1, te1)) hq k1 with ⟨z1, z2⟩ | ⟨z1, z2⟩ | ⟨z1, z2⟩
      · rw [e_d] at z1
        rw [e_b', e_a'] at z2
        have har := hO.area t0 l0
        rw [← k0, area_slot p s (t0, te0), e_a, e_b, e_c] at har
        have hem := fun v hv => hO.empty t0 v l0 hv
        simp only [← k0, circ_slot p s (t0, te0), e_a, e_b, e_c] at hem
        rw [z1] at hi'
        obtain ⟨n1, n2⟩ := new_star z2 uc har hem hi'
        exact ⟨⟨1, z1, n2⟩, ⟨2, z1, n1⟩, Or.inr z1⟩
      · rw [e_b'] at z1
        exact absurd (z1 ▸ ub) (not_inUse hq)
      · rw [e_a'] at z1
        exact absurd (z1 ▸ ua) (not_inUse hq)
    · exfalso
      have hd : InUse n q d := by
        have := hO.good.corners t1 (te1 + 2) l1
        rw [← k1, Q.w2] at this
        exact this
      have := hO.empty t0 d l0 hd
      rw [← k0, circ_slot p s (t0, te0), e_a, e_b, e_c] at this
      exact absurd this (not_le.mpr hi)
  have hkinds : ∀ k, k < (Delaunay.flipped s ei t0 te0 t1 te1).nt → IsStar n q p (O.t f) ((Delaunay.flipped s ei t0 te0 t1 te1).t k) ∨
      (k < O.nt ∧ k ≠ f ∧ (Delaunay.flipped s ei t0 te0 t1 te1).t k = O.t k) := by
    intro k hk
    by_cases h0 : k = t0
    · exact Or.inl (h0 ▸ key.1)
    by_cases h1 : k = t1
    · exact Or.inl (h1 ▸ key.2.1)
    rw [Quad.t_other h0 h1]
    exact h.kinds k hk
  obtain ⟨m1, m2, m3, m4, m5, m6⟩ := moved_vals (te0 := te0) (te1 := te1) Q.ne
  have hfin : ∀ sd z, (Delaunay.flipped s ei t0 te0 t1 te1).e ei sd = some z →
      (Delaunay.flipped s ei t0 te0 t1 te1).beg z = q ∨ (Delaunay.flipped s ei t0 te0 t1 te1).fin z = q := by
    intro sd z hz
    unfold Delaunay.flipped at hz
    dsimp only at hz
    unfold St.beg St.fin
    fin_cases sd
    · have hz' : Option.map (moved t0 te0 t1 te1) (s.e ei 0) = some z := hz
      rw [Q.e0, Option.map_some, m1] at hz'
      obtain rfl := Option.some.inj hz'
      dsimp only
      rw [Q.t_0]
      exact key.2.2.symm
    · have hz' : Option.map (moved t0 te0 t1 te1) (s.e ei 1) = some z := hz
      rw [Q.e1, Option.map_some, m2] at hz'
      obtain rfl := Option.some.inj hz'
      dsimp only
      rw [Q.t_1]
      exact key.2.2
  have hfmq : ∀ x sd z, (Delaunay.flipped s ei t0 te0 t1 te1).fm x = true → (Delaunay.flipped s ei t0 te0 t1 te1).e x sd = some z →
      (Delaunay.flipped s ei t0 te0 t1 te1).beg z = q ∨ (Delaunay.flipped s ei t0 te0 t1 te1).fin z = q := by
    intro x sd z hx hz
    by_cases e : x = ei
    · subst e
      exact hfin sd z hz
    · have hx' : s.fm x = true := by
        unfold Delaunay.flipped at hx
        dsimp only at hx
        rwa [Function.update_of_ne e] at hx
      obtain ⟨w, hw, lw, kw, rfl⟩ := Quad.e_some h.good hz
      have := (Q.moved_facts w lw).2.2 (fun e' => e (by rw [← kw, e']; exact Q.k0)) (fun e' => e (by rw [← kw, e']; exact Q.k1))
      rw [this.1, this.2]
      exact h.fmq x sd w hx' hw
  have pre : Ins n q p O f (Delaunay.flipped s ei t0 te0 t1 te1) (fun _ => True) :=
    ⟨hg, Q.cycle h.cycle, h.nt, h.ne, hkinds, hfmq, fun x hx => absurd trivial hx⟩
  refine ⟨hg, Q.cycle h.cycle, h.nt, h.ne, hkinds, hfmq, fun x hx => ?_⟩
  by_cases e : x = ei
  · subst e
    exact pre.legal_q hO hq fun z hz => hfin 0 z hz
  · intro z w hz hw
    obtain ⟨z', hz', lz, kz, rfl⟩ := Quad.e_some h.good hz
    obtain ⟨w', hw', lw, kw, rfl⟩ := Quad.e_some h.good hw
    push Not at hx
    obtain ⟨x1, x2, x3, x4, x5⟩ := hx
    have out : ∀ v : Slot, s.te v.1 v.2 = x → v.1 ≠ t0 ∧ v.1 ≠ t1 := by
      intro v kv
      rcases slot_cases (t0 := t0) (te0 := te0) (t1 := t1) (te1 := te1) v with h' | rfl | rfl | rfl | rfl | rfl | rfl
      · exact h'
      · exact absurd (kv.symm.trans Q.k0) e
      · exact absurd (kv.symm.trans Q.k1) e
      · exact absurd kv.symm x1
      · exact absurd kv.symm x3
      · exact absurd kv.symm x2
      · exact absurd kv.symm x4
    obtain ⟨z0, z1⟩ := out z' kz
    obtain ⟨w0, w1⟩ := out w' kw
    rw [moved_other z0 z1, moved_other w0 w1]
    unfold St.apex
    rw [Quad.t_other z0 z1, Quad.t_other w0 w1]
    exact h.legal x (fun hn => hn.elim e x5) z' w' hz' hw'

theorem unflipped_flipped {s : St} {ei t0 t1 : Nat} {te0 te1 : Fin 3} (he : ei < s.ne) (hf : s.fm ei = false) :
    unflipped (flipped s ei t0 te0 t1 te1) < unflipped s := by
  unfold unflipped
  refine Finset.card_lt_card ?_
  rw [Finset.ssubset_iff_of_subset]
  · refine ⟨ei, ?_, ?_⟩
    · rw [Finset.mem_filter, Finset.mem_range]
      exact ⟨he, hf⟩
    · rw [Finset.mem_filter]
      rintro ⟨-, h⟩
      unfold flipped at h
      dsimp only at h
      rw [Function.update_self] at h
      simp at h
  · intro x hx
    rw [Finset.mem_filter] at hx ⊢
    refine ⟨hx.1, ?_⟩
    have h := hx.2
    unfold flipped at h
    dsimp only at h
    by_cases e : x = ei
    · rw [e]; exact hf
    · rwa [Function.update_of_ne e] at h

/-- flipping succeeds, and leaves the edge as it should be -/
theorem flip_ok (hO : DT n q p O) (hq : q < n) : ∀ (fuel : Nat) (s : St) (ei : Nat) (P : Nat → Prop),
    Ins n q p O f s (fun x => x = ei ∨ P x) → unflipped s < fuel →
      ∃ s', flip p fuel s ei = .ok s' ∧ Ins n q p O f s' P ∧ unflipped s' ≤ unflipped s := by
  intro fuel
  induction fuel with
  | zero => intro s ei P _ h; omega
  | succ fuel ih =>
    intro s ei P h hf
    by_cases hfm : s.fm ei = true
    · refine ⟨s, by rw [flip, if_pos hfm], h.drop ?_, le_rfl⟩
      exact h.legal_q hO hq fun z hz => h.fmq ei 0 z hfm hz
    have hfm' : s.fm ei = false := by simpa using hfm
    cases h0 : s.e ei 0 with
    | none =>
      refine ⟨s, by rw [flip, if_neg hfm, h0], h.drop ?_, le_rfl⟩
      intro z w hz _
      rw [h0] at hz
      simp at hz
    | some z =>
      cases h1 : s.e ei 1 with
      | none =>
        refine ⟨s, by rw [flip, if_neg hfm, h0, h1], h.drop ?_, le_rfl⟩
        intro z w _ hw
        rw [h1] at hw
        simp at hw
      | some w =>
        obtain ⟨t0, te0⟩ := z
        obtain ⟨t1, te1⟩ := w
        obtain ⟨lei, l0, -⟩ := h.good.e_te _ _ _ h0
        obtain ⟨-, l1, -⟩ := h.good.e_te _ _ _ h1
        obtain ⟨m1, m2⟩ := h.good.mates ei 0 _ _ h0 h1
        have c0 := circ_slot p s (t0, te0) (s.apex (t1, te1))
        have c1 := circ_slot p s (t1, te1) (s.apex (t0, te0))
        rw [m1, m2, circumDet_swap, ← c0] at c1
        have g0 : inCircumcircle (p (s.t t0 0)) (p (s.t t0 1)) (p (s.t t0 2)) (p (s.t t1 (te1 + 2))) = decide (0 < circ p (s.t t0) (s.apex (t1, te1))) := rfl
        have g1 : inCircumcircle (p (s.t t1 0)) (p (s.t t1 1)) (p (s.t t1 2)) (p (s.t t0 (te0 + 2))) = decide (0 < circ p (s.t t0) (s.apex (t1, te1))) := by
          rw [← c1]; rfl
        by_cases hc : 0 < circ p (s.t t0) (s.apex (t1, te1))
        · have hcd : s.t t0 (te0 + 2) ≠ s.t t1 (te1 + 2) := by
            intro e
            have : s.apex (t1, te1) = s.t t0 (te0 + 2) := e.symm
            rw [this, circ_corner] at hc
            exact lt_irrefl _ hc
          have Q := h.good.quad h0 h1 hcd
          rw [c0] at hc
          have hI := h.flipped hO hq Q hc
          have hu := unflipped_flipped (t0 := t0) (t1 := t1) (te0 := te0) (te1 := te1) lei hfm'
          rw [Q.flip_eq h.good p fuel hfm' (Or.inl (by rw [g0, ← c0] at *; rw [decide_eq_true_eq, c0]; exact hc))]
          obtain ⟨s1, r1, I1, u1⟩ := ih _ _ _ hI (by omega)
          rw [r1, Box.ok_bind]
          obtain ⟨s2, r2, I2, u2⟩ := ih _ _ _ I1 (by omega)
          rw [r2, Box.ok_bind]
          obtain ⟨s3, r3, I3, u3⟩ := ih _ _ _ I2 (by omega)
          rw [r3, Box.ok_bind]
          obtain ⟨s4, r4, I4, u4⟩ := ih _ _ _ I3 (by omega)
          exact ⟨s4, r4, I4, by omega⟩
        · refine ⟨s, ?_, h.drop ?_, le_rfl⟩
          · rw [flip, if_neg hfm, h0, h1]
            simp only [(fin3_sub te0).1, (fin3_sub te1).1]
            rw [g0, g1, if_pos (by simp [hc])]
          · intro z w hz hw
            rw [h0] at hz
            rw [h1] at hw
            obtain rfl := Option.some.inj hz
            obtain rfl := Option.some.inj hw
            exact not_lt.mp hc

end

end Verif.Delaunay
