import Verif.Delaunay.Struct
import Mathlib.Algebra.BigOperators.Group.Finset.Piecewise

/-! # Flipping an edge and splitting a triangle -/

namespace Verif.Delaunay
open Verif.Py
open Verif.Polygon (Pt)

/-- the sum of something over the edges of a triangle -/
def around (g : Nat → Nat → Int) (T : Fin 3 → Nat) : Int := g (T 0) (T 1) + g (T 1) (T 2) + g (T 2) (T 0)

theorem around_rot (g : Nat → Nat → Int) (T : Fin 3 → Nat) (j : Fin 3) :
    around g T = g (T j) (T (j + 1)) + g (T (j + 1)) (T (j + 2)) + g (T (j + 2)) (T j) := by
  unfold around
  fin_cases j
  · rfl
  · show _ = g (T 1) (T 2) + g (T 2) (T 0) + g (T 0) (T 1)
    ring
  · show _ = g (T 2) (T 0) + g (T 0) (T 1) + g (T 1) (T 2)
    ring

/-- the edges of the triangles add up to the edges of the container, edges in opposite directions cancelling -/
def Cycle (n : Nat) (s : St) : Prop :=
  ∀ g : Nat → Nat → Int, (∀ a b, g b a = -g a b) → ∑ k ∈ Finset.range s.nt, around g (s.t k) = g n (n + 1) + g (n + 1) (n + 2) + g (n + 2) n

section
variable {K : Type} [Field K] [LinearOrder K]
variable {n m : Nat} {s : St} {ei t0 t1 : Nat} {te0 te1 : Fin 3} {a b c d : Nat}

theorem Quad.flip_eq (h : Good n m s) (Q : Quad s ei t0 te0 t1 te1 a b c d) (p : Nat → Pt K) (fuel : Nat) (hfm : s.fm ei = false)
    (hi : inCircumcircle (p (s.t t0 0)) (p (s.t t0 1)) (p (s.t t0 2)) (p d) = true ∨
      inCircumcircle (p (s.t t1 0)) (p (s.t t1 1)) (p (s.t t1 2)) (p c) = true) :
    flip p (fuel + 1) s ei = (do
      let s' ← flip p fuel (flipped s ei t0 te0 t1 te1) (s.te t1 (te1 + 1))
      let s' ← flip p fuel s' (s.te t0 (te0 + 2))
      let s' ← flip p fuel s' (s.te t0 (te0 + 1))
      flip p fuel s' (s.te t1 (te1 + 2))) := by
  rw [flip, hfm, Q.e0, Q.e1]
  simp only [Bool.false_eq_true, if_false, (fin3_sub te0).1, (fin3_sub te1).1]
  rw [if_neg]
  · have e0 := (fin3_sub te0).2
    have e1 := (fin3_sub te1).2
    rw [(fin3_sub te0).1] at e0
    rw [(fin3_sub te1).1] at e1
    rw [e0, e1]
    exact Q.attach h _
  · rw [Q.v2, Q.w2]
    rcases hi with hi | hi <;> rw [hi] <;> simp

theorem Quad.cycle (Q : Quad s ei t0 te0 t1 te1 a b c d) (h : Cycle n s) : Cycle n (flipped s ei t0 te0 t1 te1) := by
  intro g hg
  rw [← h g hg]
  show ∑ k ∈ Finset.range s.nt, _ = _
  rw [← sub_eq_zero, ← Finset.sum_sub_distrib]
  rw [Finset.sum_eq_add_of_mem t0 t1 (Finset.mem_range.mpr Q.l0) (Finset.mem_range.mpr Q.l1) Q.ne]
  · rw [around_rot g (s.t t0) te0, around_rot g (s.t t1) te1, Q.t_0, Q.t_1, Q.v0, Q.v1, Q.v2, Q.w0, Q.w1, Q.w2]
    show (g a d + g d c + g c a) - _ + ((g b c + g c d + g d b) - _) = 0
    rw [hg a b, hg c d]
    ring
  · rintro k - ⟨h0, h1⟩
    rw [Quad.t_other h0 h1, sub_self]

end

/-! ## Splitting -/

/-- where the slots go when a triangle is split; for `splitted` (triangulation.py:175-210) -/
def smoved (s : St) (f : Nat) (z : Slot) : Slot := if z = (f, 1) then (s.nt, 0) else if z = (f, 2) then (s.nt + 1, 0) else z

/-- the state after a triangle is split (triangulation.py:175-210; proved equal to what the model computes) -/
def splitted (s : St) (f q : Nat) : St where
  t := fun k => if k = f then ![s.t f 0, s.t f 1, q] else if k = s.nt then ![s.t f 1, s.t f 2, q] else if k = s.nt + 1 then ![s.t f 2, s.t f 0, q]
    else s.t k
  te := fun k => if k = f then ![s.te f 0, s.ne + 1, s.ne] else if k = s.nt then ![s.te f 1, s.ne + 2, s.ne + 1]
    else if k = s.nt + 1 then ![s.te f 2, s.ne, s.ne + 2] else s.te k
  e := fun x => if x = s.ne then ![some (f, 2), some (s.nt + 1, 1)] else if x = s.ne + 1 then ![some (f, 1), some (s.nt, 2)]
    else if x = s.ne + 2 then ![some (s.nt, 1), some (s.nt + 1, 2)] else fun sd => (s.e x sd).map (smoved s f)
  fm := fun _ => false
  nt := s.nt + 2
  ne := s.ne + 3

section
variable {n m : Nat} {s : St} {f q : Nat}

theorem smoved_other {z : Slot} (h1 : z ≠ (f, 1)) (h2 : z ≠ (f, 2)) : smoved s f z = z := by
  unfold smoved
  rw [if_neg h1, if_neg h2]

theorem split_eq (h : Good n m s) (hf : f < s.nt) : split s f q = .ok (splitted s f q) := by
  obtain ⟨s1, p1⟩ := h.te_e f 1 hf
  obtain ⟨s2, p2⟩ := h.te_e f 2 hf
  have l1 := h.te_lt f 1 hf
  have l2 := h.te_lt f 2 hf
  have hne : s.te f 2 ≠ s.te f 1 := by
    intro e
    rw [← e] at p1
    rcases fin2_cases s2 s1 with e' | e'
    · rw [e', p2] at p1
      simp at p1
    · rw [e'] at p1
      exact h.other p2 p1 rfl
  unfold split
  dsimp only
  rw [reattach_spec (sd := s1) (j := 1), Box.ok_bind, reattach_spec (sd := s2) (j := 2), Box.ok_bind]
  · unfold splitted
    congr 1
    simp only [St.mk.injEq, and_true]
    refine ⟨?_, ?_, ?_⟩
    · funext k
      by_cases h0 : k = f
      · subst h0
        rw [Function.update_self, if_pos rfl, Function.update_of_ne (by omega), Function.update_of_ne (by omega)]
        funext j
        fin_cases j <;> rfl
      rw [if_neg h0, Function.update_of_ne h0]
      by_cases h1 : k = s.nt + 1
      · subst h1
        rw [Function.update_self, if_neg (by omega), if_pos rfl, Function.update_of_ne (by omega)]
      rw [Function.update_of_ne h1, if_neg h1]
      by_cases h2 : k = s.nt
      · subst h2
        rw [Function.update_self, if_pos rfl]
      rw [Function.update_of_ne h2, if_neg h2]
    · funext k
      by_cases h0 : k = f
      · subst h0
        rw [Function.update_self, if_pos rfl, Function.update_of_ne (by omega), Function.update_of_ne (by omega)]
        funext j
        fin_cases j <;> rfl
      rw [if_neg h0, Function.update_of_ne h0]
      by_cases h1 : k = s.nt + 1
      · subst h1
        rw [Function.update_self, if_neg (by omega), if_pos rfl]
      rw [Function.update_of_ne h1, if_neg h1]
      by_cases h2 : k = s.nt
      · subst h2
        rw [Function.update_self, if_pos rfl]
      rw [Function.update_of_ne h2, if_neg h2]
    · funext x
      by_cases x2 : x = s.te f 2
      · subst x2
        rw [Function.update_self, Function.update_of_ne hne, Function.update_of_ne (by omega), Function.update_of_ne (by omega),
          Function.update_of_ne (by omega), if_neg (by omega), if_neg (by omega), if_neg (by omega)]
        funext sd
        rcases fin2_cases s2 sd with e | e
        · rw [e, Function.update_self, p2]
          simp [smoved]
        · rw [e, Function.update_of_ne (fin2_add s2).2.symm]
          cases hw : s.e (s.te f 2) (s2 + 1) with
          | none => rfl
          | some w =>
            have := h.other p2 hw
            rw [Option.map_some, smoved_other (fun e => this (by rw [e])) (fun e => this (by rw [e]))]
      rw [Function.update_of_ne x2]
      by_cases x1 : x = s.te f 1
      · subst x1
        rw [Function.update_self, Function.update_of_ne (by omega), Function.update_of_ne (by omega),
          Function.update_of_ne (by omega), if_neg (by omega), if_neg (by omega), if_neg (by omega)]
        funext sd
        rcases fin2_cases s1 sd with e | e
        · rw [e, Function.update_self, p1]
          simp [smoved]
        · rw [e, Function.update_of_ne (fin2_add s1).2.symm]
          cases hw : s.e (s.te f 1) (s1 + 1) with
          | none => rfl
          | some w =>
            have := h.other p1 hw
            rw [Option.map_some, smoved_other (fun e => this (by rw [e])) (fun e => this (by rw [e]))]
      rw [Function.update_of_ne x1]
      by_cases y2 : x = s.ne + 2
      · subst y2
        rw [Function.update_self, if_neg (by omega), if_neg (by omega), if_pos rfl]
      rw [Function.update_of_ne y2, if_neg y2]
      by_cases y1 : x = s.ne + 1
      · subst y1
        rw [Function.update_self, if_neg (by omega), if_pos rfl]
      rw [Function.update_of_ne y1, if_neg y1]
      by_cases y0 : x = s.ne
      · subst y0
        rw [Function.update_self, if_pos rfl]
      rw [Function.update_of_ne y0, if_neg y0]
      funext sd
      cases hw : s.e x sd with
      | none => rfl
      | some w =>
        obtain ⟨-, -, w3⟩ := h.e_te _ _ _ hw
        rw [Option.map_some, smoved_other (fun e => x1 (by rw [← w3, e])) (fun e => x2 (by rw [← w3, e]))]
  · rw [Function.update_of_ne hne, Function.update_of_ne (by omega), Function.update_of_ne (by omega), Function.update_of_ne (by omega)]
    exact p2
  · rw [Function.update_of_ne hne, Function.update_of_ne (by omega), Function.update_of_ne (by omega), Function.update_of_ne (by omega)]
    exact fun w hw => (h.other p2 hw).symm
  · rw [Function.update_of_ne (by omega), Function.update_of_ne (by omega), Function.update_of_ne (by omega)]
    exact p1
  · rw [Function.update_of_ne (by omega), Function.update_of_ne (by omega), Function.update_of_ne (by omega)]
    exact fun w hw => (h.other p1 hw).symm

theorem sp_t_f : (splitted s f q).t f = ![s.t f 0, s.t f 1, q] := if_pos rfl
theorem sp_te_f : (splitted s f q).te f = ![s.te f 0, s.ne + 1, s.ne] := if_pos rfl

theorem sp_t_nt (hf : f < s.nt) : (splitted s f q).t s.nt = ![s.t f 1, s.t f 2, q] := by
  unfold splitted
  dsimp only
  rw [if_neg (by omega), if_pos rfl]

theorem sp_te_nt (hf : f < s.nt) : (splitted s f q).te s.nt = ![s.te f 1, s.ne + 2, s.ne + 1] := by
  unfold splitted
  dsimp only
  rw [if_neg (by omega), if_pos rfl]

theorem sp_t_nt1 (hf : f < s.nt) : (splitted s f q).t (s.nt + 1) = ![s.t f 2, s.t f 0, q] := by
  unfold splitted
  dsimp only
  rw [if_neg (by omega), if_neg (by omega), if_pos rfl]

theorem sp_te_nt1 (hf : f < s.nt) : (splitted s f q).te (s.nt + 1) = ![s.te f 2, s.ne, s.ne + 2] := by
  unfold splitted
  dsimp only
  rw [if_neg (by omega), if_neg (by omega), if_pos rfl]

theorem sp_t_other {k : Nat} (hk : k < s.nt) (hf : k ≠ f) : (splitted s f q).t k = s.t k := by
  unfold splitted
  dsimp only
  rw [if_neg hf, if_neg (by omega), if_neg (by omega)]

theorem sp_te_other {k : Nat} (hk : k < s.nt) (hf : k ≠ f) : (splitted s f q).te k = s.te k := by
  unfold splitted
  dsimp only
  rw [if_neg hf, if_neg (by omega), if_neg (by omega)]

theorem sp_e_0 : (splitted s f q).e s.ne = ![some (f, 2), some (s.nt + 1, 1)] := if_pos rfl

theorem sp_e_1 : (splitted s f q).e (s.ne + 1) = ![some (f, 1), some (s.nt, 2)] := by
  unfold splitted
  dsimp only
  rw [if_neg (by omega), if_pos rfl]

theorem sp_e_2 : (splitted s f q).e (s.ne + 2) = ![some (s.nt, 1), some (s.nt + 1, 2)] := by
  unfold splitted
  dsimp only
  rw [if_neg (by omega), if_neg (by omega), if_pos rfl]

theorem sp_e_old {x : Nat} (hx : x < s.ne) (sd : Fin 2) : (splitted s f q).e x sd = (s.e x sd).map (smoved s f) := by
  unfold splitted
  dsimp only
  rw [if_neg (by omega), if_neg (by omega), if_neg (by omega)]

/-- an old slot keeps its edge and its ends -/
theorem smoved_facts (hf : f < s.nt) (z : Slot) (hz : z.1 < s.nt) :
    (smoved s f z).1 < s.nt + 2 ∧ (splitted s f q).te (smoved s f z).1 (smoved s f z).2 = s.te z.1 z.2 ∧
      (splitted s f q).beg (smoved s f z) = s.beg z ∧ (splitted s f q).fin (smoved s f z) = s.fin z := by
  unfold St.beg St.fin
  by_cases h1 : z = (f, 1)
  · subst h1
    have : smoved s f (f, 1) = (s.nt, 0) := if_pos rfl
    rw [this]
    dsimp only
    rw [sp_te_nt hf, sp_t_nt hf]
    exact ⟨by omega, rfl, rfl, rfl⟩
  by_cases h2 : z = (f, 2)
  · subst h2
    have : smoved s f (f, 2) = (s.nt + 1, 0) := by unfold smoved; rw [if_neg h1, if_pos rfl]
    rw [this]
    dsimp only
    rw [sp_te_nt1 hf, sp_t_nt1 hf]
    exact ⟨by omega, rfl, rfl, rfl⟩
  rw [smoved_other h1 h2]
  refine ⟨by omega, ?_⟩
  obtain ⟨k, j⟩ := z
  dsimp only
  by_cases hk : k = f
  · subst hk
    have hj : j = 0 := by
      fin_cases j
      · rfl
      · exact absurd rfl h1
      · exact absurd rfl h2
    subst hj
    rw [sp_te_f, sp_t_f]
    exact ⟨rfl, rfl, rfl⟩
  · rw [sp_te_other hz hk, sp_t_other hz hk]
    exact ⟨rfl, rfl, rfl⟩

/-- the slots after splitting -/
theorem sp_slots (hf : f < s.nt) (z : Slot) (hz : z.1 < s.nt + 2) :
    (∃ w : Slot, w.1 < s.nt ∧ smoved s f w = z) ∨ z = (f, 1) ∨ z = (f, 2) ∨ z = (s.nt, 1) ∨ z = (s.nt, 2) ∨ z = (s.nt + 1, 1) ∨ z = (s.nt + 1, 2) := by
  obtain ⟨k, j⟩ := z
  dsimp only at hz
  by_cases h1 : k = s.nt
  · subst h1
    fin_cases j
    · exact Or.inl ⟨(f, 1), hf, if_pos rfl⟩
    · simp
    · simp
  by_cases h2 : k = s.nt + 1
  · subst h2
    fin_cases j
    · refine Or.inl ⟨(f, 2), hf, ?_⟩
      unfold smoved
      rw [if_neg (by simp), if_pos rfl]
      rfl
    · simp
    · simp
  by_cases h3 : k = f
  · subst h3
    fin_cases j
    · refine Or.inl ⟨(k, 0), hf, ?_⟩
      rw [smoved_other (by simp) (by simp)]
      rfl
    · simp
    · simp
  · refine Or.inl ⟨(k, j), by dsimp only; omega, smoved_other ?_ ?_⟩ <;> simp [h3]

theorem sp_e_some (h : Good n m s) {x : Nat} {sd : Fin 2} {z : Slot} (hx : x < s.ne) (hz : (splitted s f q).e x sd = some z) :
    ∃ w, s.e x sd = some w ∧ w.1 < s.nt ∧ s.te w.1 w.2 = x ∧ smoved s f w = z := by
  rw [sp_e_old hx] at hz
  cases hw : s.e x sd with
  | none => rw [hw] at hz; simp at hz
  | some w =>
    rw [hw] at hz
    obtain ⟨-, h2, h3⟩ := h.e_te _ _ _ hw
    exact ⟨w, rfl, h2, h3, Option.some.inj hz⟩

theorem sp_e_big (h : Good n m s) {x : Nat} {sd : Fin 2} (hx : s.ne + 3 ≤ x) : (splitted s f q).e x sd = none := by
  have : s.e x sd = none := by
    cases hw : s.e x sd with
    | none => rfl
    | some w =>
      have := (h.e_te _ _ _ hw).1
      omega
  unfold splitted
  dsimp only
  rw [if_neg (by omega), if_neg (by omega), if_neg (by omega), this]
  rfl

theorem sp_good (h : Good n m s) (hf : f < s.nt) (hq : ¬ InUse n m q) (hqm : InUse n (m + 1) q) : Good n (m + 1) (splitted s f q) where
  distinct := by
    intro k j hk
    have hv : ∀ i, s.t f i ≠ q := fun i e => hq (e ▸ h.corners f i hf)
    have hd := h.distinct f
    have hk' : k < s.nt + 2 := hk
    by_cases h1 : k = s.nt
    · subst h1
      rw [sp_t_nt hf]
      fin_cases j
      · exact hd 1 hf
      · exact hv 2
      · exact (hv 1).symm
    by_cases h2 : k = s.nt + 1
    · subst h2
      rw [sp_t_nt1 hf]
      fin_cases j
      · exact hd 2 hf
      · exact hv 0
      · exact (hv 2).symm
    by_cases h3 : k = f
    · subst h3
      rw [sp_t_f]
      fin_cases j
      · exact hd 0 hf
      · exact hv 1
      · exact (hv 0).symm
    rw [sp_t_other (by omega) h3]
    exact h.distinct k j (by omega)
  te_lt := by
    intro k j hk
    show _ < s.ne + 3
    rcases sp_slots hf (k, j) hk with ⟨w, hw, e⟩ | e | e | e | e | e | e
    · have := (smoved_facts (q := q) hf w hw).2.1
      rw [e] at this
      dsimp only at this
      rw [this]
      have := h.te_lt w.1 w.2 hw
      omega
    all_goals
      obtain ⟨rfl, rfl⟩ := Prod.mk.inj e
      first
        | rw [sp_te_f] | rw [sp_te_nt hf] | rw [sp_te_nt1 hf]
    · show s.ne + 1 < _; omega
    · show s.ne < _; omega
    · show s.ne + 2 < _; omega
    · show s.ne + 1 < _; omega
    · show s.ne < _; omega
    · show s.ne + 2 < _; omega
  te_e := by
    intro k j hk
    rcases sp_slots hf (k, j) hk with ⟨w, hw, e⟩ | e | e | e | e | e | e
    · have := (smoved_facts (q := q) hf w hw).2.1
      rw [e] at this
      dsimp only at this
      obtain ⟨sd, hsd⟩ := h.te_e w.1 w.2 hw
      refine ⟨sd, ?_⟩
      rw [this, sp_e_old (h.te_lt w.1 w.2 hw), hsd]
      show some (smoved s f w) = _
      rw [e]
    all_goals obtain ⟨rfl, rfl⟩ := Prod.mk.inj e
    · rw [sp_te_f]
      exact ⟨0, by show (splitted s k q).e (s.ne + 1) 0 = _; rw [sp_e_1]; rfl⟩
    · rw [sp_te_f]
      exact ⟨0, by show (splitted s k q).e s.ne 0 = _; rw [sp_e_0]; rfl⟩
    · rw [sp_te_nt hf]
      exact ⟨0, by show (splitted s f q).e (s.ne + 2) 0 = _; rw [sp_e_2]; rfl⟩
    · rw [sp_te_nt hf]
      exact ⟨1, by show (splitted s f q).e (s.ne + 1) 1 = _; rw [sp_e_1]; rfl⟩
    · rw [sp_te_nt1 hf]
      exact ⟨1, by show (splitted s f q).e s.ne 1 = _; rw [sp_e_0]; rfl⟩
    · rw [sp_te_nt1 hf]
      exact ⟨1, by show (splitted s f q).e (s.ne + 2) 1 = _; rw [sp_e_2]; rfl⟩
  e_te := by
    intro x sd z hz
    show x < s.ne + 3 ∧ z.1 < s.nt + 2 ∧ _
    by_cases hx : x < s.ne
    · obtain ⟨w, h1, h2, h3, rfl⟩ := sp_e_some h hx hz
      obtain ⟨f1, f2, -, -⟩ := smoved_facts (q := q) hf w h2
      exact ⟨by omega, f1, by rw [f2, h3]⟩
    by_cases hx3 : s.ne + 3 ≤ x
    · rw [sp_e_big h hx3] at hz
      simp at hz
    have hc : x = s.ne ∨ x = s.ne + 1 ∨ x = s.ne + 2 := by omega
    rcases hc with rfl | rfl | rfl
    · rw [sp_e_0] at hz
      fin_cases sd
      · obtain rfl := Option.some.inj hz
        exact ⟨by omega, by dsimp only; omega, by dsimp only; rw [sp_te_f]; rfl⟩
      · obtain rfl := Option.some.inj hz
        exact ⟨by omega, by dsimp only; omega, by dsimp only; rw [sp_te_nt1 hf]; rfl⟩
    · rw [sp_e_1] at hz
      fin_cases sd
      · obtain rfl := Option.some.inj hz
        exact ⟨by omega, by dsimp only; omega, by dsimp only; rw [sp_te_f]; rfl⟩
      · obtain rfl := Option.some.inj hz
        exact ⟨by omega, by dsimp only; omega, by dsimp only; rw [sp_te_nt hf]; rfl⟩
    · rw [sp_e_2] at hz
      fin_cases sd
      · obtain rfl := Option.some.inj hz
        exact ⟨by omega, by dsimp only; omega, by dsimp only; rw [sp_te_nt hf]; rfl⟩
      · obtain rfl := Option.some.inj hz
        exact ⟨by omega, by dsimp only; omega, by dsimp only; rw [sp_te_nt1 hf]; rfl⟩
  mates := by
    intro x sd z w hz hw
    by_cases hx : x < s.ne
    · obtain ⟨z', z1, z2, z3, rfl⟩ := sp_e_some h hx hz
      obtain ⟨w', w1, w2, w3, rfl⟩ := sp_e_some h hx hw
      obtain ⟨-, -, f1, f2⟩ := smoved_facts (q := q) hf z' z2
      obtain ⟨-, -, g1, g2⟩ := smoved_facts (q := q) hf w' w2
      rw [f1, f2, g1, g2]
      exact h.mates x sd z' w' z1 w1
    by_cases hx3 : s.ne + 3 ≤ x
    · rw [sp_e_big h hx3] at hz
      simp at hz
    unfold St.beg St.fin
    have hc : x = s.ne ∨ x = s.ne + 1 ∨ x = s.ne + 2 := by omega
    rcases hc with rfl | rfl | rfl
    · rw [sp_e_0] at hz hw
      fin_cases sd <;> obtain rfl := Option.some.inj hz <;> obtain rfl := Option.some.inj hw <;> dsimp only <;>
        rw [sp_t_f, sp_t_nt1 hf] <;> exact ⟨rfl, rfl⟩
    · rw [sp_e_1] at hz hw
      fin_cases sd <;> obtain rfl := Option.some.inj hz <;> obtain rfl := Option.some.inj hw <;> dsimp only <;>
        rw [sp_t_f, sp_t_nt hf] <;> exact ⟨rfl, rfl⟩
    · rw [sp_e_2] at hz hw
      fin_cases sd <;> obtain rfl := Option.some.inj hz <;> obtain rfl := Option.some.inj hw <;> dsimp only <;>
        rw [sp_t_nt hf, sp_t_nt1 hf] <;> exact ⟨rfl, rfl⟩
  bdry := by
    intro x sd hx hz
    have hx' : x < s.ne + 3 := hx
    by_cases hx : x < s.ne
    · have hz' : s.e x sd = none := by
        rw [sp_e_old hx] at hz
        cases hw : s.e x sd with
        | none => rfl
        | some w => rw [hw] at hz; simp at hz
      obtain ⟨w, h1, h2⟩ := h.bdry x sd hx hz'
      obtain ⟨-, w2, -⟩ := h.e_te _ _ _ h1
      obtain ⟨-, -, f1, f2⟩ := smoved_facts (q := q) hf w w2
      refine ⟨smoved s f w, by rw [sp_e_old hx, h1]; rfl, ?_⟩
      rw [f1, f2]
      exact h2
    · exfalso
      have hc : x = s.ne ∨ x = s.ne + 1 ∨ x = s.ne + 2 := by omega
      rcases hc with rfl | rfl | rfl
      · rw [sp_e_0] at hz
        fin_cases sd <;> simp at hz
      · rw [sp_e_1] at hz
        fin_cases sd <;> simp at hz
      · rw [sp_e_2] at hz
        fin_cases sd <;> simp at hz
  corners := by
    intro k j hk
    have hk' : k < s.nt + 2 := hk
    have hold : ∀ v, InUse n m v → InUse n (m + 1) v := by
      intro v hv
      unfold InUse at *
      omega
    have hc : ∀ i, InUse n (m + 1) (s.t f i) := fun i => hold _ (h.corners f i hf)
    by_cases h1 : k = s.nt
    · subst h1
      rw [sp_t_nt hf]
      fin_cases j
      · exact hc 1
      · exact hc 2
      · exact hqm
    by_cases h2 : k = s.nt + 1
    · subst h2
      rw [sp_t_nt1 hf]
      fin_cases j
      · exact hc 2
      · exact hc 0
      · exact hqm
    by_cases h3 : k = f
    · subst h3
      rw [sp_t_f]
      fin_cases j
      · exact hc 0
      · exact hc 1
      · exact hqm
    rw [sp_t_other (by omega) h3]
    exact hold _ (h.corners k j (by omega))

theorem sp_cycle (h : Cycle n s) (hf : f < s.nt) : Cycle n (splitted s f q) := by
  intro g hg
  rw [← h g hg]
  show ∑ k ∈ Finset.range (s.nt + 2), _ = _
  rw [Finset.sum_range_succ, Finset.sum_range_succ, sp_t_nt hf, sp_t_nt1 hf]
  have e : ∑ k ∈ Finset.range s.nt, around g ((splitted s f q).t k) - ∑ k ∈ Finset.range s.nt, around g (s.t k) =
      around g ![s.t f 0, s.t f 1, q] - around g (s.t f) := by
    rw [← Finset.sum_sub_distrib, Finset.sum_eq_single_of_mem f (Finset.mem_range.mpr hf), sp_t_f]
    intro k hk hkf
    rw [sp_t_other (Finset.mem_range.mp hk) hkf, sub_self]
  have e2 : around g ![s.t f 0, s.t f 1, q] + around g ![s.t f 1, s.t f 2, q] + around g ![s.t f 2, s.t f 0, q] = around g (s.t f) := by
    unfold around
    show g (s.t f 0) (s.t f 1) + g (s.t f 1) q + g q (s.t f 0) + (g (s.t f 1) (s.t f 2) + g (s.t f 2) q + g q (s.t f 1)) +
      (g (s.t f 2) (s.t f 0) + g (s.t f 0) q + g q (s.t f 2)) = _
    rw [hg (s.t f 0) q, hg (s.t f 1) q, hg (s.t f 2) q]
    ring
  linarith

end

end Verif.Delaunay
