import Verif.Refine.Spec
import Verif.FineCoarse.PropsProportions
import Mathlib.Tactic.Module

namespace Verif.Refine
open Verif.Py Verif.FineCoarse Verif.Box

/-- sums of the first values of a function -/
def B (R : Nat → Nat) : Nat → Nat
  | 0 => 0
  | n + 1 => B R n + R n

/-- the facts about a valid axis, in natural numbers -/
structure AxisData (a : Axis) (n : Nat) (R : Nat → Nat) (p : Nat → List ℚ) : Prop where
  coarse : a.coarse = n
  fine : a.fine = B R n
  pos : ∀ c, c < n → 0 < R c
  len : ∀ c, c < n → (p c).length = R c
  ratio : ∀ c, c < n → a.ratio c = .ok (R c : Int)
  base : ∀ c, c ≤ n → a.fineBase c = .ok (B R c : Int)
  prop : ∀ c, c < n → a.proportion c = .ok (p c)
  interp : ∀ c, c < n → a.interpolation c = .ok ((List.range (R c)).map fun l => ((p c).take l).sum)

theorem interp_ok (a : Axis) (c n : Int) (p : List Rat) (hn : 0 < n) (hr : a.ratio c = .ok n)
    (hp : a.proportion c = .ok p) (hlen : (p.length : Int) = n) :
    a.interpolation c = .ok ((List.range n.toNat).map fun k => (p.take k).sum) := by
  have loop : ∀ (p : List Rat) (m : Nat) (x : Rat), m ≤ p.length →
      interpLoop p m x = .ok ((List.range m).map fun k => x + (p.take (k + 1)).sum) := by
    intro p
    induction p with
    | nil => intro m x hm; have : m = 0 := by simpa using hm
             subst this; rfl
    | cons y ys ih =>
      intro m x hm
      cases m with
      | zero => rfl
      | succ m =>
        simp only [interpLoop, ih m (x + y) (by simpa using hm), ok_bind, pure, Except.pure,
          List.range_succ_eq_map, List.map_cons, List.map_map]
        congr 2
        · simp
        · apply List.map_congr_left
          intro k _
          simp [add_assoc]
  have hm : n.toNat - 1 ≤ p.length := by omega
  simp only [Axis.interpolation, hr, hp, ok_bind, if_neg (show ¬ n < 0 by omega),
    if_neg (show ¬ n = 0 by omega), loop p (n.toNat - 1) 0 hm]
  have : n.toNat = (n.toNat - 1) + 1 := by omega
  rw [this, List.range_succ_eq_map, List.map_cons, List.map_map]
  simp only [pure, Except.pure, List.take_zero, List.sum_nil, Nat.add_sub_cancel]
  congr 2
  apply List.map_congr_left
  intro k _
  simp

theorem axisData (a : Axis) (hv : a.ratiosValid = true) (hf : 0 < a.fine) (hp : a.propsValid = true) :
    ∃ n R p, AxisData a n R p := by
  obtain ⟨r, hr⟩ := axisOk_of_valid a hv hf
  have hpos : ∀ c (h : c < r.length), 0 < r[c] := fun c h => hr.pos _ (List.getElem_mem h)
  have hB : ∀ c, c ≤ r.length → (r.take c).sum = (B (fun c => (r[c]?.getD 0).toNat) c : Nat) := by
    intro c
    induction c with
    | zero => intro _; rfl
    | succ c ih =>
      intro h
      have hc : c < r.length := by omega
      rw [take_succ_sum r c hc, ih (by omega), B, List.getElem?_eq_getElem hc]
      have := hpos c hc
      simp only [Option.getD_some]
      push_cast
      omega
  have hprop : ∀ c (h : c < r.length), ∃ p, a.proportion c = .ok p ∧ (p.length : Int) = r[c] := by
    intro c hc
    have hp0 := hpos c hc
    cases he : a.equal with
    | true =>
      refine ⟨List.replicate (r[c]).toNat (1 / (r[c] : Rat)), ?_, by simp; omega⟩
      simp only [Axis.proportion, he, if_true, hr.ratio c hc, ok_bind, if_neg (show ¬ r[c] = 0 by omega),
        if_neg (show ¬ r[c] < 0 by omega)]
      rfl
    | false =>
      simp only [Axis.propsValid, he, Bool.false_eq_true, if_false] at hp
      cases hps : a.props with
      | none => rw [hps] at hp; simp at hp
      | some ps =>
        rw [hps] at hp
        simp only [Bool.and_eq_true, beq_iff_eq, List.all_eq_true, List.mem_range] at hp
        have hl := hr.len
        have h2 := hp.2 c (by omega)
        have hcl : c < ps.length := by omega
        rw [List.getElem?_eq_getElem hcl] at h2
        simp only [Bool.and_eq_true, beq_iff_eq] at h2
        refine ⟨ps[c], ?_, ?_⟩
        · simp only [Axis.proportion, he, Bool.false_eq_true, if_false, hps]
          exact pyGet_nat ps c hcl
        · have h3 := h2.1.1
          rw [hr.ratio c hc] at h3
          have := Except.ok.inj h3
          omega
  classical
  refine ⟨r.length, fun c => (r[c]?.getD 0).toNat, fun c => if h : c < r.length then (hprop c h).choose else [],
    hr.len.symm, ?_, ?_, ?_, ?_, ?_, ?_, ?_⟩
  · rw [← hB _ (Nat.le_refl _), List.take_length]
    exact hr.sum.symm
  · intro c hc
    rw [List.getElem?_eq_getElem hc]
    have := hpos c hc
    simp only [Option.getD_some]
    omega
  · intro c hc
    rw [dif_pos hc, List.getElem?_eq_getElem hc]
    have := (hprop c hc).choose_spec.2
    simp only [Option.getD_some]
    omega
  · intro c hc
    rw [hr.ratio c hc, List.getElem?_eq_getElem hc]
    have := hpos c hc
    simp only [Option.getD_some]
    congr 1
    omega
  · intro c hc
    rw [hr.base c hc, hB c hc]
  · intro c hc
    rw [dif_pos hc]
    exact (hprop c hc).choose_spec.1
  · intro c hc
    rw [dif_pos hc, interp_ok a c r[c] _ (hpos c hc) (hr.ratio c hc) (hprop c hc).choose_spec.1 (hprop c hc).choose_spec.2,
      List.getElem?_eq_getElem hc]
    rfl

theorem B_mono (R : Nat → Nat) {a b : Nat} (h : a ≤ b) : B R a ≤ B R b := by
  induction b with
  | zero => rw [Nat.le_zero.1 h]
  | succ b ih =>
    by_cases hb : a = b + 1
    · rw [hb]
    · have := ih (by omega)
      rw [B]
      omega

/-- the slice of an index -/
theorem B_find (R : Nat → Nat) (n f : Nat) (h : f < B R n) : ∃ c l, c < n ∧ l < R c ∧ f = B R c + l := by
  induction n with
  | zero => simp [B] at h
  | succ n ih =>
    by_cases hf : f < B R n
    · obtain ⟨c, l, h1, h2, h3⟩ := ih hf
      exact ⟨c, l, by omega, h2, h3⟩
    · rw [B] at h
      exact ⟨n, f - B R n, by omega, by omega, by omega⟩

theorem B_unique (R : Nat → Nat) {c l c' l' : Nat} (h1 : l < R c) (h2 : l' < R c') (h : B R c + l = B R c' + l') : c = c' ∧ l = l' := by
  rcases Nat.lt_trichotomy c c' with hc | hc | hc
  · have := B_mono R (a := c + 1) (b := c') (by omega)
    rw [B] at this
    omega
  · subst hc
    exact ⟨rfl, by omega⟩
  · have := B_mono R (a := c' + 1) (b := c) (by omega)
    rw [B] at this
    omega

/-- lists put one after the other -/
theorem getElem_flatMap_range {α : Type} (n : Nat) (L : Nat → List α) (R : Nat → Nat) (hlen : ∀ c, c < n → (L c).length = R c) :
    ((List.range n).flatMap L).length = B R n ∧
    ∀ c l, c < n → l < R c → ((List.range n).flatMap L)[B R c + l]? = (L c)[l]? := by
  induction n with
  | zero => exact ⟨rfl, fun c l h => by omega⟩
  | succ n ih =>
    obtain ⟨h1, h2⟩ := ih fun c hc => hlen c (by omega)
    rw [List.range_succ, List.flatMap_append, List.flatMap_singleton]
    refine ⟨by rw [List.length_append, h1, hlen n (by omega), B], ?_⟩
    intro c l hc hl
    by_cases hcn : c = n
    · subst hcn
      rw [List.getElem?_append_right (by omega), h1, Nat.add_sub_cancel_left]
    · rw [List.getElem?_append_left, h2 c l (by omega) hl]
      have := B_mono R (a := c + 1) (b := n) (by omega)
      rw [B] at this
      omega

theorem collect_ok {α : Type} (n : Nat) (f : Nat → Res (List α)) (L : Nat → List α) (h : ∀ c, c < n → f c = .ok (L c)) :
    collect ((List.range n).map f) = .ok ((List.range n).flatMap L) := by
  have gen : ∀ cs : List Nat, (∀ c ∈ cs, f c = .ok (L c)) → collect (cs.map f) = .ok (cs.flatMap L) := by
    intro cs
    induction cs with
    | nil => intro _; rfl
    | cons c cs ih =>
      intro hc
      rw [List.map_cons, hc c List.mem_cons_self, collect, ih fun c' h' => hc c' (List.mem_cons_of_mem _ h')]
      rfl
  exact gen _ fun c hc => h c (List.mem_range.1 hc)

theorem axisStops_ok {a : Axis} {n : Nat} {R : Nat → Nat} {p : Nat → List ℚ} (d : AxisData a n R p) :
    ∃ st, axisStops a = .ok st ∧ st.length = B R n + 1 ∧ st[B R n]? = some (n, none) ∧
      ∀ c l, c < n → l < R c → st[B R c + l]? = some (c, some ((p c).take l).sum) := by
  have hn : a.coarse.toNat = n := by rw [d.coarse]; rfl
  obtain ⟨h1, h2⟩ := getElem_flatMap_range n (fun c => (List.range (R c)).map fun l => ((c, some ((p c).take l).sum) : Stop)) R
    (fun c _ => by simp)
  refine ⟨(List.range n).flatMap (fun c => (List.range (R c)).map fun l => ((c, some ((p c).take l).sum) : Stop)) ++ [(n, none)],
    ?_, ?_, ?_, ?_⟩
  · unfold axisStops
    rw [hn, collect_ok n _ (fun c => (List.range (R c)).map fun l => ((c, some ((p c).take l).sum) : Stop))]
    intro c hc
    rw [d.interp c hc]
    dsimp only
    rw [List.map_map]
    rfl
  · rw [List.length_append, h1]
    rfl
  · rw [List.getElem?_append_right (by omega), h1, Nat.sub_self]
    rfl
  · intro c l hc hl
    have hlt : B R c + l < B R n := by
      have := B_mono R (a := c + 1) (b := n) (by omega)
      rw [B] at this
      omega
    rw [List.getElem?_append_left (by omega), h2 c l hc hl, List.getElem?_map, List.getElem?_range hl]
    rfl

variable {V : Type} [AddCommGroup V] [Module ℚ V]

/-- linear interpolation -/
def lin (x y : V) (t : ℚ) : V := (1 - t) • x + t • y

/-- the value at each fine line of a coarse slice, including the line at its end -/
theorem axisStops_value {a : Axis} {n : Nat} {R : Nat → Nat} {p : Nat → List ℚ} (d : AxisData a n R p) {st : List Stop}
    (hs : axisStops a = .ok st) (f : Nat → V) (c l : Nat) (hc : c < n) (hl : l ≤ R c) :
    ∃ s, st[B R c + l]? = some s ∧ atStop f s = lin (f c) (f (c + 1)) (cut (p c) l) := by
  obtain ⟨st', e, h1, h2, h3⟩ := axisStops_ok d
  rw [e] at hs
  cases hs
  have hlen := d.len c hc
  by_cases hlt : l < R c
  · refine ⟨_, h3 c l hc hlt, ?_⟩
    simp only [atStop, lin, cut, hlen, if_neg (show ¬ l = R c by omega)]
    rw [add_comm]
  · have hle : l = R c := by omega
    have hcut : cut (p c) l = 1 := by rw [cut, if_pos (by omega)]
    have hpos : B R c + l = B R (c + 1) := by rw [hle, B]
    rw [hcut, hpos]
    by_cases hn : c + 1 < n
    · have := h3 (c + 1) 0 hn (d.pos _ hn)
      rw [Nat.add_zero] at this
      refine ⟨_, this, ?_⟩
      simp only [atStop, lin, List.take_zero, List.sum_nil]
      simp
    · have hcn : c + 1 = n := by omega
      rw [hcn]
      refine ⟨_, h2, ?_⟩
      simp only [atStop, lin, hcn]
      simp

end Verif.Refine
