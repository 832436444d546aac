import Verif.Delaunay.Lawson
import Verif.Delaunay.Closed
import Mathlib.Algebra.BigOperators.Group.Finset.Sigma
import Mathlib.Algebra.Order.BigOperators.Group.Finset

/-! # Inserting a point keeps a Delaunay triangulation -/

namespace Verif.Delaunay
open Verif.Py
open Verif.Polygon (Pt orient)

variable {K : Type} [Field K] [LinearOrder K]

/-- the points are different and strictly within the container -/
structure Frame (n : Nat) (p : Nat → Pt K) : Prop where
  inside : ∀ v a b, v < n → Outer n a b → 0 < orient (p a) (p b) (p v)
  container : 0 < orient (p n) (p (n + 1)) (p (n + 2))
  distinct : ∀ a b, a < n → b < n → p a = p b → a = b

/-! ## The other side of an edge -/

/-- the slot on the other side of the edge -/
def mate (s : St) (z : Slot) : Option Slot := if s.e (s.te z.1 z.2) 0 = some z then s.e (s.te z.1 z.2) 1 else s.e (s.te z.1 z.2) 0

section
variable {n m : Nat} {s : St}

theorem Good.e_inj (h : Good n m s) {x : Nat} {z : Slot} (h0 : s.e x 0 = some z) : s.e x 1 ≠ some z := by
  intro h1
  exact h.other (ei := x) (sd := 0) h0 h1 rfl

theorem Good.mate_some (h : Good n m s) {z w : Slot} (hz : z.1 < s.nt) (hw : mate s z = some w) :
    w.1 < s.nt ∧ s.beg w = s.fin z ∧ s.fin w = s.beg z ∧ mate s w = some z ∧ w ≠ z ∧
      ((s.e (s.te z.1 z.2) 0 = some z ∧ s.e (s.te z.1 z.2) 1 = some w) ∨ (s.e (s.te z.1 z.2) 0 = some w ∧ s.e (s.te z.1 z.2) 1 = some z)) := by
  obtain ⟨sd, hsd⟩ := h.te_e z.1 z.2 hz
  unfold mate at hw
  by_cases h0 : s.e (s.te z.1 z.2) 0 = some z
  · rw [if_pos h0] at hw
    obtain ⟨-, lw, kw⟩ := h.e_te _ _ _ hw
    obtain ⟨m1, m2⟩ := h.mates _ 0 z w h0 hw
    have hne : w ≠ z := fun e => h.e_inj h0 (e ▸ hw)
    refine ⟨lw, m1, m2, ?_, hne, Or.inl ⟨h0, hw⟩⟩
    unfold mate
    rw [kw, h0, if_neg (fun e => hne (Option.some.inj e).symm)]
  · rw [if_neg h0] at hw
    have h1 : s.e (s.te z.1 z.2) 1 = some z := by
      rcases fin2_cases 0 sd with e | e
      · rw [e] at hsd
        exact absurd hsd h0
      · rw [e] at hsd
        exact hsd
    obtain ⟨-, lw, kw⟩ := h.e_te _ _ _ hw
    obtain ⟨m1, m2⟩ := h.mates _ 0 w z hw h1
    have hne : w ≠ z := fun e => h0 (e ▸ hw)
    refine ⟨lw, m2.symm, m1.symm, ?_, hne, Or.inr ⟨hw, h1⟩⟩
    unfold mate
    rw [kw, hw, if_pos rfl, h1]

theorem Good.mate_none (h : Good n m s) {z : Slot} (hz : z.1 < s.nt) (hw : mate s z = none) : Outer n (s.beg z) (s.fin z) := by
  obtain ⟨sd, hsd, h'⟩ := h.side z hz
  rcases h' with ⟨w, h1, -⟩ | ⟨-, h2⟩
  · exfalso
    unfold mate at hw
    rcases fin2_cases 0 sd with e | e
    · rw [e] at hsd h1
      rw [if_pos hsd] at hw
      have : s.e (s.te z.1 z.2) 1 = some w := h1
      rw [this] at hw
      simp at hw
    · have e1 : sd = 1 := by rw [e]; rfl
      rw [e1] at hsd h1
      have h1' : s.e (s.te z.1 z.2) 0 = some w := h1
      rw [if_neg (fun e => h.e_inj e hsd), h1'] at hw
      simp at hw
  · exact h2

/-- summed over the edges of some of the triangles, edges between two of them cancel -/
theorem Good.sum_boundary (h : Good n m s) {A : Type} [AddCommGroup A] (g : Nat → Nat → A) (hg : ∀ a b, g a b + g b a = 0) (R : Finset Nat)
    (hR : ∀ k ∈ R, k < s.nt) :
    ∑ k ∈ R, ∑ j : Fin 3, g (s.t k j) (s.t k (j + 1)) =
      ∑ z ∈ (R ×ˢ Finset.univ).filter (fun z : Slot => ¬ ∃ w, mate s z = some w ∧ w.1 ∈ R), g (s.beg z) (s.fin z) := by
  classical
  rw [← Finset.sum_product' (f := fun k j => g (s.t k j) (s.t k (j + 1)))]
  rw [← Finset.sum_filter_add_sum_filter_not (R ×ˢ Finset.univ) (fun z : Slot => ∃ w, mate s z = some w ∧ w.1 ∈ R)]
  have hz : ∑ z ∈ (R ×ˢ Finset.univ).filter (fun z : Slot => ∃ w, mate s z = some w ∧ w.1 ∈ R), g (s.t z.1 z.2) (s.t z.1 (z.2 + 1)) = 0 := by
    refine Finset.sum_involution (fun z _ => (mate s z).getD z) ?_ ?_ ?_ ?_
    · intro z hz
      rw [Finset.mem_filter, Finset.mem_product] at hz
      obtain ⟨⟨z1, -⟩, w, hw, hwR⟩ := hz
      obtain ⟨lw, m1, m2, -⟩ := h.mate_some (hR _ z1) hw
      rw [hw]
      show g (s.beg z) (s.fin z) + g (s.beg w) (s.fin w) = 0
      rw [m1, m2]
      exact hg _ _
    · intro z hz _
      rw [Finset.mem_filter, Finset.mem_product] at hz
      obtain ⟨⟨z1, -⟩, w, hw, hwR⟩ := hz
      obtain ⟨-, -, -, -, hne, -⟩ := h.mate_some (hR _ z1) hw
      rw [hw]
      exact hne
    · intro z hz
      rw [Finset.mem_filter, Finset.mem_product] at hz ⊢
      obtain ⟨⟨z1, -⟩, w, hw, hwR⟩ := hz
      obtain ⟨-, -, -, hm, -⟩ := h.mate_some (hR _ z1) hw
      rw [hw]
      exact ⟨⟨hwR, Finset.mem_univ _⟩, z, hm, z1⟩
    · intro z hz
      rw [Finset.mem_filter, Finset.mem_product] at hz
      obtain ⟨⟨z1, -⟩, w, hw, hwR⟩ := hz
      obtain ⟨-, -, -, hm, -⟩ := h.mate_some (hR _ z1) hw
      simp only [hw, Option.getD_some, hm]
  rw [hz, zero_add]
  rfl

end

/-! ## Covering -/

section
variable [IsStrictOrderedRing K]
variable {n m q : Nat} {p : Nat → Pt K}

/-- the turns of a triangle of points -/
def tturn (p : Nat → Pt K) (x r : Pt K) (T : Fin 3 → Nat) : Int := turn3 x r (p (T 0)) (p (T 1)) (p (T 2))

theorem tturn_rot (p : Nat → Pt K) (x r : Pt K) (T : Fin 3 → Nat) (j : Fin 3) :
    tturn p x r T = turn3 x r (p (T j)) (p (T (j + 1))) (p (T (j + 2))) := by
  unfold tturn
  fin_cases j
  · rfl
  · exact (turn3_cyc _ _ _ _ _).symm
  · exact turn3_cyc _ _ _ _ _

theorem Cycle.turns {s : St} (h : Cycle n s) (x r : Pt K) :
    ∑ k ∈ Finset.range s.nt, tturn p x r (s.t k) = turn3 x r (p n) (p (n + 1)) (p (n + 2)) :=
  h (fun a b => turn x r (p a) (p b)) fun _ _ => turn_swap _ _ _ _

/-- the closed triangle -/
def Has (p : Nat → Pt K) (T : Fin 3 → Nat) (x : Pt K) : Prop := ∀ j, 0 ≤ orient (p (T j)) (p (T (j + 1))) x

theorem has_iff (p : Nat → Pt K) (T : Fin 3 → Nat) (x : Pt K) :
    Has p T x ↔ 0 ≤ orient (p (T 0)) (p (T 1)) x ∧ 0 ≤ orient (p (T 1)) (p (T 2)) x ∧ 0 ≤ orient (p (T 2)) (p (T 0)) x := by
  constructor
  · intro h
    exact ⟨h 0, h 1, h 2⟩
  · rintro ⟨h0, h1, h2⟩ j
    fin_cases j
    · exact h0
    · exact h1
    · exact h2

theorem tturn_has {T : Fin 3 → Nat} {x r : Pt K} (ha : 0 ≤ area p T) (h : tturn p x r T ≠ 0) : Has p T x :=
  (has_iff p T x).mpr ((turns ha x r).closed h)

/-- two triangles with disjoint interiors -/
theorem turns_two_le {s : St} (hc : Cycle n s) (ha : ∀ k, k < s.nt → 0 ≤ area p (s.t k)) (hf : 0 ≤ orient (p n) (p (n + 1)) (p (n + 2)))
    (x r : Pt K) (S : Finset Nat) (hS : ∀ k ∈ S, k < s.nt) : ∑ k ∈ S, tturn p x r (s.t k) ≤ 1 := by
  have h1 := hc.turns (p := p) x r
  have h2 := (turns hf x r).le_one
  have h3 : ∑ k ∈ S, tturn p x r (s.t k) ≤ ∑ k ∈ Finset.range s.nt, tturn p x r (s.t k) := by
    refine Finset.sum_le_sum_of_subset_of_nonneg (fun k hk => Finset.mem_range.mpr (hS k hk)) fun k hk _ => ?_
    exact (turns (ha k (Finset.mem_range.mp hk)) x r).nonneg
  omega

/-- every point of the inside of the container is in a triangle -/
theorem covered {s : St} (hc : Cycle n s) (ha : ∀ k, k < s.nt → 0 ≤ area p (s.t k)) (hf : 0 ≤ orient (p n) (p (n + 1)) (p (n + 2)))
    (x : Pt K) (hx : ∀ a b, Outer n a b → 0 < orient (p a) (p b) x) : ∃ k, k < s.nt ∧ Has p (s.t k) x := by
  have h1 := hc.turns (p := p) x ⟨1, 0⟩
  rw [(turns hf x ⟨1, 0⟩).inside (hx _ _ (Or.inl ⟨rfl, rfl⟩)) (hx _ _ (Or.inr (Or.inl ⟨rfl, rfl⟩))) (hx _ _ (Or.inr (Or.inr ⟨rfl, rfl⟩)))
    (Or.inl one_ne_zero)] at h1
  by_contra hn
  push Not at hn
  have : ∑ k ∈ Finset.range s.nt, tturn p x ⟨1, 0⟩ (s.t k) = 0 := by
    refine Finset.sum_eq_zero fun k hk => ?_
    by_contra h0
    exact hn k (Finset.mem_range.mp hk) (tturn_has (ha k (Finset.mem_range.mp hk)) h0)
  rw [this] at h1
  simp at h1

theorem Frame.ne (h : Frame n p) {v : Nat} (hq : q < n) (hm : m ≤ q) (hv : InUse n m v) : p q ≠ p v := by
  intro e
  rcases hv with hv | ⟨h1, h2⟩
  · have := h.distinct q v hq (by omega) e
    omega
  · have hc : v = n ∨ v = n + 1 ∨ v = n + 2 := by omega
    have z : ∀ a b : Pt K, orient a b a = 0 := fun a b => by unfold orient; ring
    rcases hc with rfl | rfl | rfl
    · have := h.inside q v (v + 1) hq (Or.inl ⟨rfl, rfl⟩)
      rw [e, z] at this
      exact lt_irrefl _ this
    · have := h.inside q (n + 1) (n + 2) hq (Or.inr (Or.inl ⟨rfl, rfl⟩))
      rw [e, z] at this
      exact lt_irrefl _ this
    · have := h.inside q (n + 2) n hq (Or.inr (Or.inr ⟨rfl, rfl⟩))
      rw [e, z] at this
      exact lt_irrefl _ this

theorem Frame.outer (h : Frame n p) {a b v : Nat} (hm : m ≤ n) (hv : InUse n m v) (ho : Outer n a b) : 0 ≤ orient (p a) (p b) (p v) := by
  rcases hv with hv | ⟨h1, h2⟩
  · exact (h.inside v a b (by omega) ho).le
  · have hc : v = n ∨ v = n + 1 ∨ v = n + 2 := by omega
    have z : ∀ a b : Pt K, orient a b a = 0 := fun a b => by unfold orient; ring
    have z' : ∀ a b : Pt K, orient a b b = 0 := fun a b => by unfold orient; ring
    have k0 := h.container
    have k1 : 0 < orient (p (n + 1)) (p (n + 2)) (p n) := by rw [orient_cyc]; exact k0
    have k2 : 0 < orient (p (n + 2)) (p n) (p (n + 1)) := by rw [orient_cyc]; exact k1
    rcases ho with ⟨rfl, rfl⟩ | ⟨rfl, rfl⟩ | ⟨rfl, rfl⟩ <;> rcases hc with rfl | rfl | rfl <;>
      first | exact k0.le | exact k1.le | exact k2.le | exact (z _ _).ge | exact (z' _ _).ge

variable {O : St} {f : Nat}

/-- the three triangles at `q` after splitting -/
theorem star_init (hF : Frame n p) (hO : DT n q p O) (hq : q < n) (hf : f < O.nt) (hh : Has p (O.t f) (p q)) (i : Fin 3) :
    Star n q p (O.t f) (O.t f i) (O.t f (i + 1)) := by
  obtain ⟨a1, a2, a3, a4⟩ := fin3_add i
  have hu := fun j => hO.good.corners f j hf
  have har := hO.area f hf
  rw [area_rot p _ i] at har
  have h1 := hh i
  have h2 := hh (i + 1)
  have h3 := hh (i + 2)
  rw [a1] at h2
  rw [a2] at h3
  refine ⟨hu _, hu _, fun v hv h0 => ?_, ?_⟩
  · refine pencil_in har h1 h0 (closed_circ har h1 h2 h3) ?_
    rw [← circ_rot p _ v i]
    exact hO.empty f v hf hv
  · rcases h1.lt_or_eq with h1 | h1
    · exact Or.inl h1
    · have := closed_edge har h1.symm h2 h3 (hF.ne hq le_rfl (hu _)) (hF.ne hq le_rfl (hu _))
      exact Or.inr ⟨h1.symm, this.2.2, i, rfl, rfl⟩

theorem ins_split (hF : Frame n p) (hO : DT n q p O) (hq : q < n) (hf : f < O.nt) (hh : Has p (O.t f) (p q)) :
    Ins n q p O f (splitted O f q) (fun x => x = O.te f 0 ∨ x = O.te f 1 ∨ x = O.te f 2 ∨ False) := by
  have hg : Good n (q + 1) (splitted O f q) := sp_good hO.good hf (not_inUse hq) (Or.inl (Nat.lt_succ_self q))
  have hkinds : ∀ k, k < (splitted O f q).nt → IsStar n q p (O.t f) ((splitted O f q).t k) ∨ (k < O.nt ∧ k ≠ f ∧ (splitted O f q).t k = O.t k) := by
    intro k hk
    have hk' : k < O.nt + 2 := hk
    have st := star_init hF hO hq hf hh
    by_cases h1 : k = O.nt
    · subst h1
      rw [sp_t_nt hf]
      exact Or.inl ⟨2, rfl, st 1⟩
    by_cases h2 : k = O.nt + 1
    · subst h2
      rw [sp_t_nt1 hf]
      exact Or.inl ⟨2, rfl, st 2⟩
    by_cases h3 : k = f
    · subst h3
      rw [sp_t_f]
      exact Or.inl ⟨2, rfl, st 0⟩
    have lk : k < O.nt := by omega
    exact Or.inr ⟨lk, h3, sp_t_other lk h3⟩
  have hfmq : ∀ x sd z, (splitted O f q).fm x = true → (splitted O f q).e x sd = some z → (splitted O f q).beg z = q ∨ (splitted O f q).fin z = q := by
    intro x sd z h
    exact absurd h (by simp [splitted])
  have hcy := sp_cycle (q := q) hO.cycle hf
  have pre : Ins n q p O f (splitted O f q) (fun _ => True) := ⟨hg, hcy, rfl, rfl, hkinds, hfmq, fun x hx => absurd trivial hx⟩
  refine ⟨hg, hcy, rfl, rfl, hkinds, hfmq, fun x hx => ?_⟩
  by_cases l : x < O.ne
  · intro z w hz hw
    obtain ⟨z', hz', lz, kz, rfl⟩ := sp_e_some hO.good l hz
    obtain ⟨w', hw', lw, kw, rfl⟩ := sp_e_some hO.good l hw
    have out : ∀ v : Slot, O.te v.1 v.2 = x → v.1 ≠ f := by
      rintro ⟨k, j⟩ kv rfl
      apply hx
      rw [← kv]
      dsimp only
      fin_cases j
      · exact Or.inl rfl
      · exact Or.inr (Or.inl rfl)
      · exact Or.inr (Or.inr (Or.inl rfl))
    have oz := out z' kz
    have ow := out w' kw
    have mo : ∀ v : Slot, v.1 ≠ f → smoved O f v = v := fun v hv => smoved_other (fun e => hv (by rw [e])) (fun e => hv (by rw [e]))
    rw [mo z' oz, mo w' ow]
    unfold St.apex
    rw [sp_t_other lz oz, sp_t_other lw ow]
    exact hO.empty z'.1 _ lz (hO.good.corners w'.1 _ lw)
  by_cases l3 : O.ne + 3 ≤ x
  · intro z w hz _
    rw [sp_e_big hO.good l3] at hz
    simp at hz
  · refine pre.legal_q hO hq fun z hz => ?_
    have hc : x = O.ne ∨ x = O.ne + 1 ∨ x = O.ne + 2 := by omega
    unfold St.beg St.fin
    rcases hc with rfl | rfl | rfl
    · rw [sp_e_0] at hz
      obtain rfl := Option.some.inj hz
      dsimp only
      rw [sp_t_f]
      exact Or.inl rfl
    · rw [sp_e_1] at hz
      obtain rfl := Option.some.inj hz
      dsimp only
      rw [sp_t_f]
      exact Or.inr rfl
    · rw [sp_e_2] at hz
      obtain rfl := Option.some.inj hz
      dsimp only
      rw [sp_t_nt hf]
      exact Or.inr rfl

/-! ## When no edges are left to look at -/

section
variable {s : St}

theorem Ins.legal_mate (h : Ins n q p O f s (fun _ => False)) {z w : Slot} (hz : z.1 < s.nt) (hw : mate s z = some w) :
    circumDet (p (s.beg z)) (p (s.fin z)) (p (s.apex z)) (p (s.apex w)) ≤ 0 := by
  obtain ⟨lw, m1, m2, -, -, hc⟩ := h.good.mate_some hz hw
  rcases hc with ⟨h0, h1⟩ | ⟨h0, h1⟩
  · have := h.legal _ (fun hn => hn) z w h0 h1
    rwa [circ_slot p s z] at this
  · have := h.legal _ (fun hn => hn) w z h0 h1
    rwa [circ_slot p s w, m1, m2, circumDet_swap] at this

theorem Ins.area_nonneg (hO : DT n q p O) (h : Ins n q p O f s (fun _ => False)) {k : Nat} (hk : k < s.nt) : 0 ≤ Delaunay.area p (s.t k) := by
  rcases h.kinds k hk with hs | ⟨l, -, e⟩
  · exact hs.area_nonneg
  · rw [e]
    exact (hO.area k l).le

/-- the triangles at `q` are not flat -/
theorem Ins.star_pos (hF : Frame n p) (hO : DT n q p O) (hq : q < n) (hf : f < O.nt) (h : Ins n q p O f s (fun _ => False)) {z : Slot}
    (hz : z.1 < s.nt) (hs : Star n q p (O.t f) (s.beg z) (s.fin z)) (ha : s.apex z = q) : 0 < orient (p (s.beg z)) (p (s.fin z)) (p q) := by
  rcases hs.area with h1 | ⟨h1, h2, i, hi⟩
  · exact h1
  exfalso
  cases hw : mate s z with
  | none =>
    have := hF.inside q _ _ hq (h.good.mate_none hz hw)
    rw [h1] at this
    exact lt_irrefl _ this
  | some w =>
    obtain ⟨lw, m1, m2, -⟩ := h.good.mate_some hz hw
    have hl := h.legal_mate hz hw
    rcases h.kinds w.1 lw with hsw | ⟨l, -, e⟩
    · rcases hsw.at hq with ⟨w1, w2⟩ | ⟨w1, w2⟩ | ⟨w1, w2⟩
      · rw [m1, m2] at w2
        rcases w2.area with g | ⟨-, -, i', hi'⟩
        · rw [orient_swap, h1, neg_zero] at g
          exact lt_irrefl _ g
        · have d0 := hO.good.distinct f i hf
          have d1 := hO.good.distinct f (i + 1) hf
          have d2 := hO.good.distinct f (i + 2) hf
          obtain ⟨a1, a2, a3, a4⟩ := fin3_add i
          rw [a1] at d1
          rw [a2] at d2
          rcases fin3_cases i i' with rfl | rfl | rfl
          · exact d0 (hi.1.symm.trans hi'.2 |>.trans (hi'.2.symm.trans hi.1) |>.trans (hi.1.symm.trans hi'.2))
          · rw [a1] at hi'
            exact d2 (hi'.2.symm.trans hi.1)
          · exact d1 (hi.2.symm.trans hi'.1)
      · exact (hs.ne hq).2 (m1.symm.trans w1)
      · exact (hs.ne hq).1 (m2.symm.trans w1)
    · have har := hO.area w.1 l
      rw [← e, area_slot p s w, m1, m2, orient_swap] at har
      rw [ha, circumDet_eq, h1, zero_mul, sub_zero] at hl
      have := mul_pos_of_neg_of_neg (neg_pos.mp har) h2
      linarith

/-- an edge of an old triangle with `q` within its circle, if what is beyond it is not such a triangle, is seen from `q` from the inside -/
theorem Ins.seen (hF : Frame n p) (hO : DT n q p O) (hq : q < n) (h : Ins n q p O f s (fun _ => False)) {z : Slot} (hz : z.1 < O.nt)
    (hz' : z.1 < s.nt) (ez : s.t z.1 = O.t z.1) (hc : 0 < circ p (s.t z.1) q)
    (hb : ∀ w, mate s z = some w → ¬ (w.1 < O.nt ∧ w.1 ≠ f ∧ s.t w.1 = O.t w.1 ∧ 0 < circ p (s.t w.1) q)) :
    0 < orient (p (s.beg z)) (p (s.fin z)) (p q) := by
  cases hw : mate s z with
  | none => exact hF.inside q _ _ hq (h.good.mate_none hz' hw)
  | some w =>
    obtain ⟨lw, m1, m2, -⟩ := h.good.mate_some hz' hw
    have hl := h.legal_mate hz' hw
    have hn := hb w hw
    have ub : InUse n q (s.beg z) := by unfold St.beg; rw [ez]; exact hO.good.corners _ _ hz
    have uf : InUse n q (s.fin z) := by unfold St.fin; rw [ez]; exact hO.good.corners _ _ hz
    rcases h.kinds w.1 lw with hsw | ⟨l, hf, e⟩
    · exfalso
      rcases hsw.at hq with ⟨w1, w2⟩ | ⟨w1, w2⟩ | ⟨w1, w2⟩
      · rw [w1, ← circ_slot p s z] at hl
        exact absurd hl (not_le.mpr hc)
      · exact not_inUse hq ((m1.symm.trans w1) ▸ uf)
      · exact not_inUse hq ((m2.symm.trans w1) ▸ ub)
    · have hcw : circ p (s.t w.1) q ≤ 0 := by
        by_contra hn'
        push Not at hn'
        exact hn ⟨l, hf, e, hn'⟩
      have az := hO.area z.1 hz
      rw [← ez, area_slot p s z] at az
      have aw := hO.area w.1 l
      rw [← e, area_slot p s w, m1, m2] at aw
      rw [circ_slot p s z] at hc
      rw [circ_slot p s w, m1, m2] at hcw
      exact pencil_side az aw hl hc hcw

/-- no old triangle is left with `q` within its circle -/
theorem Ins.none_left (hF : Frame n p) (hO : DT n q p O) (hq : q < n) (hf : f < O.nt) (hh : Has p (O.t f) (p q))
    (h : Ins n q p O f s (fun _ => False)) {k : Nat} (hk : k < O.nt) (hkf : k ≠ f) (ek : s.t k = O.t k) : circ p (s.t k) q ≤ 0 := by
  classical
  have lt_s : ∀ k, k < O.nt → k < s.nt := fun k hk => by rw [h.nt]; omega
  by_contra hn
  push Not at hn
  let R : Finset Nat := (Finset.range O.nt).filter fun k => k ≠ f ∧ s.t k = O.t k ∧ 0 < circ p (s.t k) q
  have memR : ∀ k, k ∈ R ↔ k < O.nt ∧ k ≠ f ∧ s.t k = O.t k ∧ 0 < circ p (s.t k) q := by
    intro k
    simp only [R, Finset.mem_filter, Finset.mem_range]
  have hR : ∀ k ∈ R, k < s.nt := fun k hk => lt_s k ((memR k).mp hk).1
  have seen : ∀ z ∈ (R ×ˢ (Finset.univ : Finset (Fin 3))).filter (fun z : Slot => ¬ ∃ w, mate s z = some w ∧ w.1 ∈ R),
      0 < orient (p (s.beg z)) (p (s.fin z)) (p q) := by
    intro z hz
    rw [Finset.mem_filter, Finset.mem_product] at hz
    obtain ⟨⟨z1, -⟩, hz2⟩ := hz
    obtain ⟨c1, c2, c3, c4⟩ := (memR _).mp z1
    refine h.seen hF hO hq c1 (hR _ z1) c3 c4 fun w hw hc => hz2 ⟨w, hw, (memR _).mpr hc⟩
  -- there is such an edge, since the areas add up to something
  have hex : ((R ×ˢ (Finset.univ : Finset (Fin 3))).filter (fun z : Slot => ¬ ∃ w, mate s z = some w ∧ w.1 ∈ R)).Nonempty := by
    by_contra hem
    rw [Finset.not_nonempty_iff_eq_empty] at hem
    have hs := h.good.sum_boundary (fun a b => (p a).x * (p b).y - (p b).x * (p a).y) (fun a b => by ring) R hR
    rw [hem, Finset.sum_empty] at hs
    have hpos : 0 < ∑ k ∈ R, ∑ j : Fin 3, ((p (s.t k j)).x * (p (s.t k (j + 1))).y - (p (s.t k (j + 1))).x * (p (s.t k j)).y) := by
      refine Finset.sum_pos ?_ ⟨k, (memR k).mpr ⟨hk, hkf, ek, hn⟩⟩
      intro k hk
      obtain ⟨c1, -, c3, -⟩ := (memR k).mp hk
      have := hO.area k c1
      rw [← c3] at this
      rw [Fin.sum_univ_three]
      have e : Delaunay.area p (s.t k) = (p (s.t k 0)).x * (p (s.t k (0 + 1))).y - (p (s.t k (0 + 1))).x * (p (s.t k 0)).y +
          ((p (s.t k 1)).x * (p (s.t k (1 + 1))).y - (p (s.t k (1 + 1))).x * (p (s.t k 1)).y) +
          ((p (s.t k 2)).x * (p (s.t k (2 + 1))).y - (p (s.t k (2 + 1))).x * (p (s.t k 2)).y) := by
        show orient (p (s.t k 0)) (p (s.t k 1)) (p (s.t k 2)) = (p (s.t k 0)).x * (p (s.t k 1)).y - (p (s.t k 1)).x * (p (s.t k 0)).y +
          ((p (s.t k 1)).x * (p (s.t k 2)).y - (p (s.t k 2)).x * (p (s.t k 1)).y) +
          ((p (s.t k 2)).x * (p (s.t k 0)).y - (p (s.t k 0)).x * (p (s.t k 2)).y)
        unfold orient
        ring
      rw [← e]
      exact this
    exact hpos.ne' hs
  obtain ⟨z0, hz0⟩ := hex
  -- in the direction of its middle, the turns add up to something, so that `q` is in one of the triangles
  have hin : ∃ k ∈ R, Has p (s.t k) (p q) := by
    let r : Pt K := ⟨(p (s.beg z0)).x + (p (s.fin z0)).x - 2 * (p q).x, (p (s.beg z0)).y + (p (s.fin z0)).y - 2 * (p q).y⟩
    have hs := h.good.sum_boundary (fun a b => turn (p q) r (p a) (p b)) (fun a b => by rw [turn_swap (p q) r (p b) (p a)]; ring) R hR
    have hpos : 0 < ∑ z ∈ (R ×ˢ (Finset.univ : Finset (Fin 3))).filter (fun z : Slot => ¬ ∃ w, mate s z = some w ∧ w.1 ∈ R),
        turn (p q) r (p (s.beg z)) (p (s.fin z)) :=
      Finset.sum_pos' (fun z hz => turn_nonneg (seen z hz).le) ⟨z0, hz0, turn_mid (seen z0 hz0)⟩
    rw [← hs] at hpos
    by_contra hno
    push Not at hno
    refine hpos.ne' (Finset.sum_eq_zero fun k hk => ?_)
    rw [Fin.sum_univ_three]
    by_contra h0
    exact hno k hk (tturn_has (r := r) (h.area_nonneg hO (hR k hk)) h0)
  obtain ⟨k, hkR, hkh⟩ := hin
  obtain ⟨c1, c2, c3, c4⟩ := (memR k).mp hkR
  -- but it is in another triangle
  have hu := fun k j (l : k < O.nt) => hO.good.corners k j l
  have hne := fun k j (l : k < O.nt) => hF.ne hq le_rfl (hu k j l)
  obtain ⟨r, hr, hrf⟩ := turn3_dir (hO.area f hf) (hh 0) (hh 1) (hh 2) (hne f 0 hf) (hne f 1 hf) (hne f 2 hf)
  have hrf' : tturn p (p q) r (O.t f) = 1 := hrf
  have hOa : ∀ k, k < O.nt → 0 ≤ Delaunay.area p (O.t k) := fun k l => (hO.area k l).le
  by_cases hstrict : ∀ j, 0 < orient (p (s.t k j)) (p (s.t k (j + 1))) (p q)
  · have e1 : tturn p (p q) r (O.t k) = 1 := by
      rw [← c3]
      refine (turns ?_ _ _).inside (hstrict 0) (hstrict 1) (hstrict 2) hr
      have := hOa k c1
      rwa [← c3] at this
    have := turns_two_le hO.cycle hOa hF.container.le (p q) r {f, k} (by
      intro k' hk'
      rw [Finset.mem_insert, Finset.mem_singleton] at hk'
      rcases hk' with rfl | rfl
      · exact hf
      · exact c1)
    rw [Finset.sum_pair c2.symm, hrf', e1] at this
    omega
  · push Not at hstrict
    obtain ⟨j, hj⟩ := hstrict
    have hj0 : orient (p (s.t k j)) (p (s.t k (j + 1))) (p q) = 0 := le_antisymm hj (hkh j)
    -- `q` is on an edge, and the triangle beyond it is of the same kind
    have hmate : ∃ w, mate s (k, j) = some w ∧ w.1 ∈ R := by
      by_contra hno
      have := seen (k, j) (by
        rw [Finset.mem_filter, Finset.mem_product]
        exact ⟨⟨hkR, Finset.mem_univ _⟩, hno⟩)
      have h' : 0 < orient (p (s.t k j)) (p (s.t k (j + 1))) (p q) := this
      rw [hj0] at h'
      exact lt_irrefl _ h'
    obtain ⟨w, hw, hwR⟩ := hmate
    obtain ⟨d1, d2, d3, d4⟩ := (memR _).mp hwR
    obtain ⟨lw, m1, m2, -, -, hcc⟩ := h.good.mate_some (z := (k, j)) (hR k hkR) hw
    have hkw : k ≠ w.1 := by
      rcases hcc with ⟨h0, h1⟩ | ⟨h0, h1⟩
      · exact h.good.other (sd := 0) h0 h1
      · exact (h.good.other (sd := 0) h0 h1).symm
    obtain ⟨a1, a2, a3, a4⟩ := fin3_add j
    have ak := hO.area k c1
    rw [← c3, area_rot p _ j] at ak
    have hk1 := hkh (j + 1)
    have hk2 := hkh (j + 2)
    rw [a1] at hk1
    rw [a2] at hk2
    have nek : ∀ i, p q ≠ p (s.t k i) := by
      intro i
      rw [c3]
      exact hne k i c1
    obtain ⟨q1, q2, q3⟩ := closed_edge ak hj0 hk1 hk2 (nek _) (nek _)
    have aw := hO.area w.1 d1
    rw [← d3, area_slot p s w, m1, m2] at aw
    have eb : s.beg (k, j) = s.t k j := rfl
    have ef : s.fin (k, j) = s.t k (j + 1) := rfl
    rw [eb, ef] at aw
    have aw' := between_pos aw (by rw [orient_swap, hj0, neg_zero]) (by rw [mdot_swap]; exact q3)
    have e1 : tturn p (p q) r (O.t k) + tturn p (p q) r (O.t w.1) = 1 := by
      have t1 := tturn_rot p (p q) r (O.t w.1) w.2
      rw [tturn_rot p (p q) r (O.t k) j, ← c3, t1, ← d3]
      have b1 : s.t w.1 w.2 = s.t k (j + 1) := m1
      have b2 : s.t w.1 (w.2 + 1) = s.t k j := m2
      rw [b1, b2]
      exact turn3_pair hj0 q1 q2 aw'.1 aw'.2 hr
    have := turns_two_le hO.cycle hOa hF.container.le (p q) r {f, k, w.1} (by
      intro k' hk'
      rw [Finset.mem_insert, Finset.mem_insert, Finset.mem_singleton] at hk'
      rcases hk' with rfl | rfl | rfl
      · exact hf
      · exact c1
      · exact d1)
    rw [Finset.sum_insert (by rw [Finset.mem_insert, Finset.mem_singleton]; exact fun h => h.elim (fun e => c2 e.symm) (fun e => d2 e.symm)),
      Finset.sum_pair hkw, hrf', e1] at this
    omega

/-- what is left is a Delaunay triangulation -/
theorem Ins.done (hF : Frame n p) (hO : DT n q p O) (hq : q < n) (hf : f < O.nt) (hh : Has p (O.t f) (p q))
    (h : Ins n q p O f s (fun _ => False)) : DT n (q + 1) p s where
  good := h.good
  cycle := h.cycle
  nt := by rw [h.nt, hO.nt]; ring
  ne := by rw [h.ne, hO.ne]; ring
  area := by
    intro k hk
    rcases h.kinds k hk with ⟨j, h1, h2⟩ | ⟨l, -, e⟩
    · obtain ⟨a1, a2, a3, a4⟩ := fin3_add j
      have hz := area_slot p s (k, j + 1)
      have hap : s.apex (k, j + 1) = q := by
        unfold St.apex
        dsimp only
        rw [a3]
        exact h1
      have hst : Star n q p (O.t f) (s.beg (k, j + 1)) (s.fin (k, j + 1)) := by
        unfold St.beg St.fin
        dsimp only
        rw [a1]
        exact h2
      rw [hz, hap]
      exact h.star_pos hF hO hq hf hk hst hap
    · rw [e]
      exact hO.area k l
  empty := by
    intro k v hk hv
    rcases h.kinds k hk with ⟨j, h1, h2⟩ | ⟨l, hkf, e⟩
    · by_cases hvq : v = q
      · rw [hvq, ← h1, circ_corner]
      have hv' : InUse n q v := by
        unfold InUse at *
        omega
      obtain ⟨a1, a2, a3, a4⟩ := fin3_add j
      have hap : s.apex (k, j + 1) = q := by
        unfold St.apex
        dsimp only
        rw [a3]
        exact h1
      have hst : Star n q p (O.t f) (s.beg (k, j + 1)) (s.fin (k, j + 1)) := by
        unfold St.beg St.fin
        dsimp only
        rw [a1]
        exact h2
      have hpos := h.star_pos hF hO hq hf hk hst hap
      rw [circ_slot p s (k, j + 1), hap]
      rcases le_or_gt 0 (orient (p (s.beg (k, j + 1))) (p (s.fin (k, j + 1))) (p v)) with h0 | h0
      · exact hst.empty v hv' h0
      cases hw : mate s (k, j + 1) with
      | none =>
        have := hF.outer hq.le hv' (h.good.mate_none hk hw)
        linarith
      | some w =>
        obtain ⟨lw, m1, m2, -⟩ := h.good.mate_some hk hw
        have hl := h.legal_mate hk hw
        rw [hap] at hl
        rcases h.kinds w.1 lw with hsw | ⟨l, -, e⟩
        · exfalso
          rcases hsw.at hq with ⟨w1, w2⟩ | ⟨w1, w2⟩ | ⟨w1, w2⟩
          · have := w2.nonneg
            rw [m1, m2, orient_swap] at this
            linarith
          · exact (hst.ne hq).2 (m1.symm.trans w1)
          · exact (hst.ne hq).1 (m2.symm.trans w1)
        · have aw := hO.area w.1 l
          rw [← e, area_slot p s w, m1, m2] at aw
          have ew := hO.empty w.1 v l hv'
          rw [← e, circ_slot p s w, m1, m2] at ew
          refine pencil_out aw hpos.le h0.le ?_ ew
          rw [circumDet_swap]
          exact hl
    · by_cases hvq : v = q
      · rw [hvq]
        exact h.none_left hF hO hq hf hh l hkf e
      · rw [e]
        refine hO.empty k v l ?_
        unfold InUse at *
        omega

end

theorem findTriangle_some {s : St} {f : Nat} (h : findTriangle p s q = some f) : f < s.nt ∧ Has p (s.t f) (p q) := by
  unfold findTriangle at h
  have h1 := List.mem_of_find?_eq_some h
  have h2 := List.find?_some h
  rw [List.mem_range] at h1
  refine ⟨h1, (has_iff _ _ _).mpr ?_⟩
  unfold inTriangleEdged at h2
  simp only [Bool.and_eq_true, decide_eq_true_eq, clockwise_eq] at h2
  obtain ⟨⟨a, b⟩, c⟩ := h2
  exact ⟨by linarith, by linarith, by linarith⟩

theorem findTriangle_none {s : St} (h : findTriangle p s q = none) (k : Nat) (hk : k < s.nt) : ¬ Has p (s.t k) (p q) := by
  unfold findTriangle at h
  rw [List.find?_eq_none] at h
  have := h k (List.mem_range.mpr hk)
  intro hh
  apply this
  obtain ⟨a, b, c⟩ := (has_iff _ _ _).mp hh
  unfold inTriangleEdged
  simp only [Bool.and_eq_true, decide_eq_true_eq, clockwise_eq]
  exact ⟨⟨by linarith, by linarith⟩, by linarith⟩

/-- inserting one more point succeeds -/
theorem insert_ok (hF : Frame n p) (hO : DT n q p O) (hq : q < n) {fuel : Nat} (hfuel : 3 * q + 6 < fuel) :
    ∃ s, insertPoint p fuel O q = .ok s ∧ DT n (q + 1) p s := by
  unfold insertPoint
  cases hf : findTriangle p O q with
  | none =>
    exfalso
    obtain ⟨k, hk, hh⟩ := covered hO.cycle (fun k l => (hO.area k l).le) hF.container.le (p q) (fun a b ho => hF.inside q a b hq ho)
    exact findTriangle_none hf k hk hh
  | some f =>
    obtain ⟨lf, hh⟩ := findTriangle_some hf
    dsimp only
    rw [split_eq hO.good lf, Box.ok_bind]
    have hu : unflipped (splitted O f q) < fuel := by
      refine lt_of_le_of_lt (Finset.card_filter_le _ _) ?_
      rw [Finset.card_range]
      show O.ne + 3 < fuel
      rw [hO.ne]
      omega
    obtain ⟨s1, r1, I1, u1⟩ := flip_ok hO hq fuel _ _ _ (ins_split hF hO hq lf hh) hu
    rw [r1, Box.ok_bind]
    obtain ⟨s2, r2, I2, u2⟩ := flip_ok hO hq fuel _ _ _ I1 (by omega)
    rw [r2, Box.ok_bind]
    obtain ⟨s3, r3, I3, u3⟩ := flip_ok hO hq fuel _ _ _ I2 (by omega)
    exact ⟨s3, r3, I3.done hF hO hq lf hh⟩

/-- and so does inserting all of them -/
theorem insertAll_ok (hF : Frame n p) {fuel : Nat} (hfuel : 3 * n + 6 ≤ fuel) : ∀ (j : Nat) (m : Nat) (O : St), m + j = n → DT n m p O →
    ∃ s, insertAll p fuel O (List.range' m j) = .ok s ∧ DT n n p s := by
  intro j
  induction j with
  | zero =>
    intro m O hm hO
    have : m = n := by omega
    subst this
    exact ⟨O, rfl, hO⟩
  | succ j ih =>
    intro m O hm hO
    obtain ⟨s, r, h⟩ := insert_ok hF hO (by omega : m < n) (fuel := fuel) (by omega)
    obtain ⟨s', r', h'⟩ := ih (m + 1) s (by omega) h
    refine ⟨s', ?_, h'⟩
    rw [List.range'_succ, insertAll, r, Box.ok_bind]
    exact r'

theorem initial_dt (hF : Frame n p) : DT n 0 p (initial n) where
  nt := rfl
  ne := rfl
  good := by
    have h0 : ∀ k, k < (initial n).nt → k = 0 := fun k hk => by
      have : k < 1 := hk
      omega
    have hte : (initial n).te 0 = ![0, 1, 2] := rfl
    have ht : (initial n).t 0 = ![n, n + 1, n + 2] := rfl
    have he : ∀ (x : Nat) (sd : Fin 2) (z : Slot), (initial n).e x sd = some z → ∃ j : Fin 3, x = j.val ∧ sd = 0 ∧ z = (0, j) := by
      intro x sd z hz
      unfold initial at hz
      dsimp only at hz
      split_ifs at hz with h0 h1 h2
      · subst h0
        fin_cases sd
        · exact ⟨0, rfl, rfl, (Option.some.inj hz).symm⟩
        · exact absurd hz (by simp)
      · subst h1
        fin_cases sd
        · exact ⟨1, rfl, rfl, (Option.some.inj hz).symm⟩
        · exact absurd hz (by simp)
      · subst h2
        fin_cases sd
        · exact ⟨2, rfl, rfl, (Option.some.inj hz).symm⟩
        · exact absurd hz (by simp)
    refine ⟨?_, ?_, ?_, ?_, ?_, ?_, ?_⟩
    · intro k j hk
      obtain rfl := h0 k hk
      rw [ht]
      fin_cases j
      · show n ≠ n + 1; omega
      · show n + 1 ≠ n + 2; omega
      · show n + 2 ≠ n; omega
    · intro k j hk
      obtain rfl := h0 k hk
      rw [hte]
      show _ < 3
      fin_cases j <;> decide
    · intro k j hk
      obtain rfl := h0 k hk
      rw [hte]
      fin_cases j <;> exact ⟨0, rfl⟩
    · intro x sd z hz
      obtain ⟨j, rfl, rfl, rfl⟩ := he x sd z hz
      refine ⟨j.isLt, by show 0 < 1; omega, ?_⟩
      dsimp only
      rw [hte]
      fin_cases j <;> rfl
    · intro x sd z w hz hw
      obtain ⟨j, -, rfl, -⟩ := he x sd z hz
      obtain ⟨j', -, e, -⟩ := he x _ w hw
      exact absurd e (by decide)
    · intro x sd hx hn
      have hx' : x < 3 := hx
      have hc : x = 0 ∨ x = 1 ∨ x = 2 := by omega
      have hsd : sd = 1 := by
        fin_cases sd
        · exfalso
          rcases hc with rfl | rfl | rfl <;> exact absurd hn (by simp [initial])
        · rfl
      subst hsd
      rcases hc with rfl | rfl | rfl
      · exact ⟨(0, 0), rfl, Or.inl ⟨rfl, rfl⟩⟩
      · exact ⟨(0, 1), rfl, Or.inr (Or.inl ⟨rfl, rfl⟩)⟩
      · exact ⟨(0, 2), rfl, Or.inr (Or.inr ⟨rfl, rfl⟩)⟩
    · intro k j hk
      obtain rfl := h0 k hk
      rw [ht]
      right
      fin_cases j
      · show n ≤ n ∧ n < n + 3; omega
      · show n ≤ n + 1 ∧ n + 1 < n + 3; omega
      · show n ≤ n + 2 ∧ n + 2 < n + 3; omega
  cycle := by
    intro g hg
    show ∑ k ∈ Finset.range 1, _ = _
    rw [Finset.sum_range_one]
    rfl
  area := by
    intro k hk
    have : k < 1 := hk
    obtain rfl : k = 0 := by omega
    exact hF.container
  empty := by
    intro k v hk hv
    have : k < 1 := hk
    obtain rfl : k = 0 := by omega
    unfold InUse at hv
    have hc : v = n ∨ v = n + 1 ∨ v = n + 2 := by omega
    rcases hc with rfl | rfl | rfl
    · exact (circ_corner p ((initial v).t 0) 0).le
    · exact (circ_corner p ((initial n).t 0) 1).le
    · exact (circ_corner p ((initial n).t 0) 2).le

end

end Verif.Delaunay
