import Verif.FindFaults.Spec
import Mathlib.Tactic.Ring
import Mathlib.Tactic.Linarith

/-! # Lemmas for finding the faults of a grid -/

namespace Verif.FindFaults

theorem split_iff (p : Pillars) (f : Face) : split p f = true ↔ Split p f := by
  cases f <;> simp only [split, Split, decide_eq_true_eq] <;> tauto

/-- What holds after the faces of `D` have been visited. -/
structure Inv (nj ni : Nat) (p : Pillars) (D : Face → Prop) (st : Numbers) : Prop where
  pos : ∀ f, 0 < st.id f ↔ D f ∧ Split p f
  le : ∀ f, st.id f ≤ st.last
  conn : ∀ f g, 0 < st.id f → st.id f = st.id g → Joined nj ni p f g
  next : ∀ f g, Next f g → D f → D g → Split p f → Split p g → st.id f = st.id g

theorem Inv.congr {nj ni p D D' st} (h : Inv nj ni p D st) (e : ∀ f, D f ↔ D' f) : Inv nj ni p D' st := by
  have : D = D' := funext fun f => propext (e f)
  subst this; exact h

theorem step_inv {nj ni p D st} (h : Inv nj ni p D st) (hD : ∀ f, D f → Inside nj ni f) (f : Face) (pr : Option Face)
    (hf : ¬ D f) (hin : Inside nj ni f)
    (hp : ∀ g, Next g f → (pr = some g ∧ D g) ∨ ¬ D g) (hpr : ∀ g, pr = some g → Next g f ∧ D g) (hn : ∀ g, Next f g → ¬ D g) :
    Inv nj ni p (fun g => D g ∨ g = f) (numberStep p st (f, pr)) := by
  have hself : ¬ Next f f := by cases f <;> simp [Next]
  have id0 : st.id f = 0 := by
    by_contra hc
    exact hf ((h.pos f).1 (Nat.pos_of_ne_zero hc)).1
  unfold numberStep
  by_cases hs : Split p f
  · rw [if_pos ((split_iff p f).2 hs)]
    by_cases hany : (pr.any fun g => 0 < st.id g) = true
    · rw [if_pos hany]
      obtain ⟨g, rfl⟩ : ∃ g, pr = some g := by
        cases pr with
        | none => simp at hany
        | some g => exact ⟨g, rfl⟩
      have hg : 0 < st.id g := by simpa using hany
      obtain ⟨hng, hDg⟩ := hpr g rfl
      have hgs := ((h.pos g).1 hg).2
      have lnk : Joined nj ni p g f := .rel _ _ ⟨hD g hDg, hin, hgs, hs, Or.inl hng⟩
      refine ⟨fun x => ?_, fun x => ?_, fun x y hx hxy => ?_, fun x y hxy hx hy hsx hsy => ?_⟩
      · by_cases e : x = f
        · subst e; simp [setId, hg, hs]
        · simp [setId, e, h.pos x]
      · by_cases e : x = f
        · subst e; simpa [setId] using h.le g
        · simpa [setId, e] using h.le x
      · by_cases e : x = f <;> by_cases e' : y = f
        · subst e; subst e'; exact .refl _
        · subst e
          simp only [setId, if_true, if_neg e', Option.map_some, Option.getD_some] at hxy hx
          exact .trans _ _ _ (.symm _ _ lnk) (h.conn _ _ hx hxy)
        · subst e'
          simp only [setId, if_true, if_neg e, Option.map_some, Option.getD_some] at hxy hx
          exact .trans _ _ _ (h.conn _ _ hx hxy) lnk
        · simp only [setId, if_neg e', if_neg e] at hxy hx
          exact h.conn _ _ hx hxy
      · by_cases e : x = f <;> by_cases e' : y = f
        · subst e; subst e'; exact absurd hxy hself
        · subst e; exact absurd (hy.resolve_right e') (hn y hxy)
        · subst e'
          rcases hp x hxy with ⟨h1, _⟩ | h1
          · cases h1; simp [setId, e]
          · exact absurd (hx.resolve_right e) h1
        · simp only [setId, if_neg e', if_neg e]
          exact h.next x y hxy (hx.resolve_right e) (hy.resolve_right e') hsx hsy
    · rw [if_neg hany]
      refine ⟨fun x => ?_, fun x => ?_, fun x y hx hxy => ?_, fun x y hxy hx hy hsx hsy => ?_⟩
      · by_cases e : x = f
        · subst e; simp [setId, hs]
        · simp [setId, e, h.pos x]
      · by_cases e : x = f
        · subst e; simp [setId]
        · simpa [setId, e] using Nat.le_succ_of_le (h.le x)
      · by_cases e : x = f <;> by_cases e' : y = f
        · subst e; subst e'; exact .refl _
        · subst e
          simp only [setId, if_true, if_neg e'] at hxy hx
          have := h.le y; omega
        · subst e'
          simp only [setId, if_true, if_neg e] at hxy hx
          have := h.le x; omega
        · simp only [setId, if_neg e', if_neg e] at hxy hx
          exact h.conn _ _ hx hxy
      · by_cases e : x = f <;> by_cases e' : y = f
        · subst e; subst e'; exact absurd hxy hself
        · subst e; exact absurd (hy.resolve_right e') (hn y hxy)
        · subst e'
          rcases hp x hxy with ⟨h1, h2⟩ | h1
          · cases h1
            exact absurd (by simpa using (h.pos x).2 ⟨h2, hsx⟩) hany
          · exact absurd (hx.resolve_right e) h1
        · simp only [setId, if_neg e', if_neg e]
          exact h.next x y hxy (hx.resolve_right e) (hy.resolve_right e') hsx hsy
  · rw [if_neg (fun hc => hs ((split_iff p f).1 hc))]
    refine ⟨fun x => ?_, h.le, h.conn, fun x y hxy hx hy hsx hsy => ?_⟩
    · rw [h.pos x]
      constructor
      · exact fun ⟨a, b⟩ => ⟨Or.inl a, b⟩
      · rintro ⟨a | rfl, b⟩
        · exact ⟨a, b⟩
        · exact absurd b hs
    · have ex : x ≠ f := fun e => hs (e ▸ hsx)
      have ey : y ≠ f := fun e => hs (e ▸ hsy)
      exact h.next x y hxy (hx.resolve_right ex) (hy.resolve_right ey) hsx hsy

theorem row_inv {nj ni p D st} (h : Inv nj ni p D st) (hD : ∀ f, D f → Inside nj ni f) (mk : Nat → Face) (hinj : Function.Injective mk)
    (hnd : ∀ b, ¬ D (mk b)) (hnext : ∀ b g, Next (mk b) g ↔ g = mk (b + 1)) (hprev : ∀ b g, Next g (mk b) ↔ ∃ c, b = c + 1 ∧ g = mk c) (n : Nat)
    (hin : ∀ b, b < n → Inside nj ni (mk b)) :
    Inv nj ni p (fun f => D f ∨ ∃ b, b < n ∧ f = mk b) ((row mk n).foldl (numberStep p) st) := by
  induction n with
  | zero => simpa [row] using h
  | succ n ih =>
    have ih := ih fun b hb => hin b (by omega)
    have e : row mk (n + 1) = row mk n ++ [(mk n, if 0 < n then some (mk (n - 1)) else none)] := by simp [row, List.range_succ]
    rw [e, List.foldl_append, List.foldl_cons, List.foldl_nil]
    refine (step_inv ih ?_ (mk n) _ ?_ (hin n (by omega)) ?_ ?_ ?_).congr ?_
    · rintro f (hf | ⟨b, hb, rfl⟩)
      · exact hD f hf
      · exact hin b (by omega)
    · rintro (hf | ⟨b, hb, e⟩)
      · exact hnd n hf
      · have := hinj e; omega
    · intro g hg
      obtain ⟨c, rfl, rfl⟩ := (hprev n g).1 hg
      exact Or.inl ⟨by simp, Or.inr ⟨c, by omega, rfl⟩⟩
    · intro g hg
      split at hg
      · cases hg
        exact ⟨(hprev n _).2 ⟨n - 1, by omega, rfl⟩, Or.inr ⟨n - 1, by omega, rfl⟩⟩
      · cases hg
    · intro g hg
      rw [(hnext n g).1 hg]
      rintro (hf | ⟨b, hb, e⟩)
      · exact hnd _ hf
      · have := hinj e; omega
    · intro f
      constructor
      · rintro ((hf | ⟨b, hb, rfl⟩) | rfl)
        · exact Or.inl hf
        · exact Or.inr ⟨b, by omega, rfl⟩
        · exact Or.inr ⟨n, by omega, rfl⟩
      · rintro (hf | ⟨b, hb, rfl⟩)
        · exact Or.inl (Or.inl hf)
        · rcases Nat.lt_succ_iff_lt_or_eq.1 hb with hb | rfl
          · exact Or.inl (Or.inr ⟨b, hb, rfl⟩)
          · exact Or.inr rfl

theorem rows_inv {nj ni p D st} (h : Inv nj ni p D st) (hD : ∀ f, D f → Inside nj ni f) (mk : Nat → Nat → Face)
    (hinj : ∀ a b a' b', mk a b = mk a' b' → a = a' ∧ b = b')
    (hnd : ∀ a b, ¬ D (mk a b)) (hnext : ∀ a b g, Next (mk a b) g ↔ g = mk a (b + 1))
    (hprev : ∀ a b g, Next g (mk a b) ↔ ∃ c, b = c + 1 ∧ g = mk a c) (n m : Nat)
    (hin : ∀ a b, a < n → b < m → Inside nj ni (mk a b)) :
    Inv nj ni p (fun f => D f ∨ ∃ a b, a < n ∧ b < m ∧ f = mk a b) (((List.range n).flatMap fun a => row (mk a) m).foldl (numberStep p) st) := by
  induction n with
  | zero => simpa using h
  | succ n ih =>
    have ih := ih fun a b ha hb => hin a b (by omega) hb
    rw [List.range_succ, List.flatMap_append, List.foldl_append, List.flatMap_singleton]
    refine (row_inv ih ?_ (mk n) ?_ ?_ (hnext n) (hprev n) m fun b hb => hin n b (by omega) hb).congr ?_
    · rintro f (hf | ⟨a, b, ha, hb, rfl⟩)
      · exact hD f hf
      · exact hin a b (by omega) hb
    · intro b b' e; exact (hinj _ _ _ _ e).2
    · rintro b (hf | ⟨a, b', ha, hb, e⟩)
      · exact hnd _ _ hf
      · have := (hinj _ _ _ _ e).1; omega
    · intro f
      constructor
      · rintro ((hf | ⟨a, b, ha, hb, rfl⟩) | ⟨b, hb, rfl⟩)
        · exact Or.inl hf
        · exact Or.inr ⟨a, b, by omega, hb, rfl⟩
        · exact Or.inr ⟨n, b, by omega, hb, rfl⟩
      · rintro (hf | ⟨a, b, ha, hb, rfl⟩)
        · exact Or.inl (Or.inl hf)
        · rcases Nat.lt_succ_iff_lt_or_eq.1 ha with ha | rfl
          · exact Or.inl (Or.inr ⟨a, b, ha, hb, rfl⟩)
          · exact Or.inr ⟨b, hb, rfl⟩

theorem number_inv (p : Pillars) (nj ni : Nat) : Inv nj ni p (Inside nj ni) (number p nj ni) := by
  have h0 : Inv nj ni p (fun _ => False) ⟨fun _ => 0, 0⟩ :=
    ⟨fun f => by simp, fun f => by simp, fun f g h => by simp at h, fun f g _ h => h.elim⟩
  have h1 := rows_inv h0 (fun f h => h.elim) (fun a b => Face.j a b) (by intro a b a' b' e; cases e; exact ⟨rfl, rfl⟩) (fun _ _ h => h)
    (by intro a b g; cases g <;> simp [Next]) (by
      intro a b g
      cases g with
      | j x y => simp only [Next, Face.j.injEq]; constructor
                 · rintro ⟨rfl, rfl⟩; exact ⟨y, rfl, rfl, rfl⟩
                 · rintro ⟨c, rfl, rfl, rfl⟩; exact ⟨rfl, rfl⟩
      | i x y => simp [Next]) (nj - 1) ni (by intro a b ha hb; exact ⟨by omega, hb⟩)
  have h2 := rows_inv h1 (by
      rintro f (hf | ⟨a, b, ha, hb, rfl⟩)
      · exact hf.elim
      · exact ⟨by omega, hb⟩) (fun a b => Face.i b a) (by intro a b a' b' e; cases e; exact ⟨rfl, rfl⟩) (by
      rintro a b (hf | ⟨a, b, ha, hb, e⟩)
      · exact hf
      · cases e)
    (by intro a b g; cases g <;> simp [Next, and_comm]) (by
      intro a b g
      cases g with
      | i x y => simp only [Next, Face.i.injEq]; constructor
                 · rintro ⟨rfl, rfl⟩; exact ⟨x, rfl, rfl, rfl⟩
                 · rintro ⟨c, rfl, rfl, rfl⟩; exact ⟨rfl, rfl⟩
      | j x y => simp [Next]) (ni - 1) nj (by intro a b ha hb; exact ⟨hb, by omega⟩)
  refine h2.congr fun f => ?_
  cases f with
  | j a b =>
    simp only [Inside]
    constructor
    · rintro ((hf | ⟨a, b, ha, hb, e⟩) | ⟨a, b, ha, hb, e⟩)
      · exact hf.elim
      · cases e; exact ⟨by omega, hb⟩
      · cases e
    · rintro ⟨h1, h2⟩; exact Or.inl (Or.inr ⟨a, b, by omega, h2, rfl⟩)
  | i a b =>
    simp only [Inside]
    constructor
    · rintro ((hf | ⟨a, b, ha, hb, e⟩) | ⟨a, b, ha, hb, e⟩)
      · exact hf.elim
      · cases e
      · cases e; exact ⟨hb, by omega⟩
    · rintro ⟨h1, h2⟩; exact Or.inr ⟨b, a, by omega, h1, rfl⟩

/-- What holds while numbers are merged, after the pillars of `P`. -/
structure MInv (nj ni : Nat) (p : Pillars) (P : Nat → Nat → Prop) (id : Face → Nat) : Prop where
  pos : ∀ f, 0 < id f ↔ Inside nj ni f ∧ Split p f
  conn : ∀ f g, 0 < id f → id f = id g → Joined nj ni p f g
  next : ∀ f g, Next f g → Inside nj ni f → Inside nj ni g → Split p f → Split p g → id f = id g
  meet : ∀ j i, P j i → ∀ f g, Split p f → Split p g → (f = .j j i ∧ ¬ Split p (.j j (i + 1)) ∨ f = .j j (i + 1) ∧ ¬ Split p (.j j i)) →
    (g = .i j i ∧ ¬ Split p (.i (j + 1) i) ∨ g = .i (j + 1) i ∧ ¬ Split p (.i j i)) → id f = id g

theorem merge_step {nj ni p P id} (h : MInv nj ni p P id) (j i : Nat) (hj : j + 1 < nj) (hi : i + 1 < ni) :
    MInv nj ni p (fun a b => P a b ∨ (a = j ∧ b = i)) (mergeStep id (j, i)) := by
  have i1 : Inside nj ni (.j j i) := ⟨hj, by omega⟩
  have i2 : Inside nj ni (.j j (i + 1)) := ⟨hj, hi⟩
  have i3 : Inside nj ni (.i j i) := ⟨by omega, hi⟩
  have i4 : Inside nj ni (.i (j + 1) i) := ⟨hj, hi⟩
  have z : ∀ f, ¬ Split p f → id f = 0 := by
    intro f hf
    by_contra hc
    exact hf ((h.pos f).1 (Nat.pos_of_ne_zero hc)).2
  have nz : ∀ f, Inside nj ni f → Split p f → id f ≠ 0 := fun f a b => Nat.pos_iff_ne_zero.1 ((h.pos f).2 ⟨a, b⟩)
  unfold mergeStep
  by_cases hc : (decide (id (.j j i) ≠ 0) ≠ decide (id (.j j (i + 1)) ≠ 0)) ∧ (decide (id (.i j i) ≠ 0) ≠ decide (id (.i (j + 1) i) ≠ 0))
  · rw [if_pos hc]
    obtain ⟨F, hF1, hF2, hF3, hF4⟩ : ∃ F, id F = id (.j j i) + id (.j j (i + 1)) ∧ 0 < id F ∧ (F = .j j i ∧ ¬ Split p (.j j (i + 1)) ∨ F = .j j (i + 1) ∧ ¬ Split p (.j j i)) ∧
        ∀ f, Split p f → (f = .j j i ∧ ¬ Split p (.j j (i + 1)) ∨ f = .j j (i + 1) ∧ ¬ Split p (.j j i)) → f = F := by
      by_cases s1 : Split p (.j j i) <;> by_cases s2 : Split p (.j j (i + 1))
      · exact absurd hc.1 (by simp [nz _ i1 s1, nz _ i2 s2])
      · refine ⟨_, by rw [z _ s2, Nat.add_zero], Nat.pos_of_ne_zero (nz _ i1 s1), Or.inl ⟨rfl, s2⟩, ?_⟩
        rintro f hf (⟨rfl, _⟩ | ⟨rfl, h2⟩)
        · rfl
        · exact absurd hf s2
      · refine ⟨_, by rw [z _ s1, Nat.zero_add], Nat.pos_of_ne_zero (nz _ i2 s2), Or.inr ⟨rfl, s1⟩, ?_⟩
        rintro f hf (⟨rfl, _⟩ | ⟨rfl, h2⟩)
        · exact absurd hf s1
        · rfl
      · exact absurd hc.1 (by simp [z _ s1, z _ s2])
    obtain ⟨G, hG1, hG2, hG3, hG4⟩ : ∃ F, id F = id (.i j i) + id (.i (j + 1) i) ∧ 0 < id F ∧ (F = .i j i ∧ ¬ Split p (.i (j + 1) i) ∨ F = .i (j + 1) i ∧ ¬ Split p (.i j i)) ∧
        ∀ f, Split p f → (f = .i j i ∧ ¬ Split p (.i (j + 1) i) ∨ f = .i (j + 1) i ∧ ¬ Split p (.i j i)) → f = F := by
      by_cases s1 : Split p (.i j i) <;> by_cases s2 : Split p (.i (j + 1) i)
      · exact absurd hc.2 (by simp [nz _ i3 s1, nz _ i4 s2])
      · refine ⟨_, by rw [z _ s2, Nat.add_zero], Nat.pos_of_ne_zero (nz _ i3 s1), Or.inl ⟨rfl, s2⟩, ?_⟩
        rintro f hf (⟨rfl, _⟩ | ⟨rfl, h2⟩)
        · rfl
        · exact absurd hf s2
      · refine ⟨_, by rw [z _ s1, Nat.zero_add], Nat.pos_of_ne_zero (nz _ i4 s2), Or.inr ⟨rfl, s1⟩, ?_⟩
        rintro f hf (⟨rfl, _⟩ | ⟨rfl, h2⟩)
        · exact absurd hf s1
        · rfl
      · exact absurd hc.2 (by simp [z _ s1, z _ s2])
    have pF := (h.pos F).1 hF2
    have pG := (h.pos G).1 hG2
    have lnk : Joined nj ni p F G := .rel _ _ ⟨pF.1, pG.1, pF.2, pG.2, Or.inr ⟨j, i, hF3, hG3⟩⟩
    simp only
    rw [← hF1, ← hG1]
    by_cases e : id F = id G
    · rw [if_pos e]
      refine ⟨h.pos, h.conn, h.next, ?_⟩
      rintro a b (hP | ⟨rfl, rfl⟩) f g sf sg hf hg
      · exact h.meet a b hP f g sf sg hf hg
      · rw [hF4 f sf hf, hG4 g sg hg]; exact e
    · rw [if_neg e]
      refine ⟨fun f => ?_, fun f g hf hfg => ?_, fun f g hn a b c d => ?_, ?_⟩
      · rw [← h.pos f]
        by_cases e1 : id f = id G
        · simp only [if_pos e1]; exact ⟨fun _ => e1 ▸ hG2, fun _ => hF2⟩
        · simp only [if_neg e1]
      · by_cases e1 : id f = id G <;> by_cases e2 : id g = id G
        · exact h.conn f g (e1 ▸ hG2) (e1.trans e2.symm)
        · rw [if_pos e1, if_neg e2] at hfg
          exact .trans _ _ _ (h.conn f G (e1 ▸ hG2) e1) (.trans _ _ _ (.symm _ _ lnk) (h.conn F g hF2 hfg))
        · rw [if_neg e1, if_pos e2] at hfg
          exact .trans _ _ _ (h.conn f F (hfg ▸ hF2) hfg) (.trans _ _ _ lnk (h.conn G g hG2 e2.symm))
        · rw [if_neg e1] at hf
          rw [if_neg e1, if_neg e2] at hfg
          exact h.conn f g hf hfg
      · simp only [h.next f g hn a b c d]
      · rintro a b (hP | ⟨rfl, rfl⟩) f g sf sg hf hg
        · simp only [h.meet a b hP f g sf sg hf hg]
        · rw [hF4 f sf hf, hG4 g sg hg]; simp [e]
  · rw [if_neg hc]
    refine ⟨h.pos, h.conn, h.next, ?_⟩
    rintro a b (hP | ⟨rfl, rfl⟩) f g sf sg hf hg
    · exact h.meet a b hP f g sf sg hf hg
    · refine absurd ⟨?_, ?_⟩ hc
      · rcases hf with ⟨rfl, s⟩ | ⟨rfl, s⟩
        · simp [nz _ i1 sf, z _ s]
        · simp [nz _ i2 sf, z _ s]
      · rcases hg with ⟨rfl, s⟩ | ⟨rfl, s⟩
        · simp [nz _ i3 sg, z _ s]
        · simp [nz _ i4 sg, z _ s]

theorem merge_fold {nj ni p} (l : List (Nat × Nat)) : ∀ {P id}, MInv nj ni p P id → (∀ x ∈ l, x.1 + 1 < nj ∧ x.2 + 1 < ni) →
    MInv nj ni p (fun a b => P a b ∨ (a, b) ∈ l) (l.foldl mergeStep id) := by
  induction l with
  | nil => intro P id h _; simpa using h
  | cons x l ih =>
    intro P id h hl
    have h1 := merge_step h x.1 x.2 (hl x (by simp)).1 (hl x (by simp)).2
    have h2 := ih h1 fun y hy => hl y (by simp [hy])
    rw [List.foldl_cons]
    refine ⟨h2.pos, h2.conn, h2.next, fun a b hab => h2.meet a b ?_⟩
    rcases hab with hP | hm
    · exact Or.inl (Or.inl hP)
    · rcases List.mem_cons.1 hm with e | hm
      · exact Or.inl (Or.inr (by cases e; exact ⟨rfl, rfl⟩))
      · exact Or.inr hm

theorem merge_inv (p : Pillars) (nj ni : Nat) :
    MInv nj ni p (fun j i => j + 1 < nj ∧ i + 1 < ni) (merge nj ni (number p nj ni).id) := by
  have h := number_inv p nj ni
  have h0 : MInv nj ni p (fun _ _ => False) (number p nj ni).id := ⟨h.pos, h.conn, h.next, fun _ _ f => f.elim⟩
  have h1 := merge_fold ((List.range (nj - 1)).flatMap fun j => (List.range (ni - 1)).map fun i => (j, i)) h0 (by
    intro x hx
    simp only [List.mem_flatMap, List.mem_map, List.mem_range] at hx
    obtain ⟨a, ha, b, hb, rfl⟩ := hx
    exact ⟨by simp only; omega, by simp only; omega⟩)
  refine ⟨h1.pos, h1.conn, h1.next, fun a b hab => h1.meet a b (Or.inr ?_)⟩
  simp only [List.mem_flatMap, List.mem_map, List.mem_range]
  exact ⟨a, by omega, b, by omega, rfl⟩

theorem mem_faces (nj ni : Nat) (f : Face) : f ∈ faces nj ni ↔ Inside nj ni f := by
  unfold faces
  simp only [List.mem_append, List.mem_flatMap, List.mem_map, List.mem_range]
  cases f with
  | j a b =>
    simp only [Inside]
    constructor
    · rintro (⟨x, hx, y, hy, e⟩ | ⟨x, hx, y, hy, e⟩)
      · cases e; exact ⟨by omega, hy⟩
      · cases e
    · rintro ⟨h1, h2⟩; exact Or.inl ⟨a, by omega, b, h2, rfl⟩
  | i a b =>
    simp only [Inside]
    constructor
    · rintro (⟨x, hx, y, hy, e⟩ | ⟨x, hx, y, hy, e⟩)
      · cases e
      · cases e; exact ⟨hx, by omega⟩
    · rintro ⟨h1, h2⟩; exact Or.inr ⟨a, h1, b, by omega, rfl⟩

theorem mem_unique (l : List Nat) (x : Nat) : x ∈ unique l ↔ x ∈ l := by
  unfold unique; rw [List.mem_insertionSort, List.mem_dedup]

theorem unique_nodup (l : List Nat) : (unique l).Nodup :=
  (List.perm_insertionSort _ _).nodup_iff.2 (List.nodup_dedup l)

theorem unique_sorted (l : List Nat) : (unique l).Pairwise (· ≤ ·) := List.pairwise_insertionSort _ _

/-- The first element is dropped: all but the least are left. -/
theorem mem_drop (l : List Nat) (x : Nat) : x ∈ (unique l).drop 1 ↔ x ∈ l ∧ ∃ y ∈ l, y < x := by
  have hs := unique_sorted l
  have hn := unique_nodup l
  have hm := mem_unique l
  cases hu : unique l with
  | nil =>
    rw [hu] at hm
    constructor
    · intro h; simp at h
    · rintro ⟨h, _⟩; exact absurd ((hm x).2 h) (by simp)
  | cons a t =>
    rw [hu] at hs hn hm
    rw [List.pairwise_cons] at hs
    rw [List.nodup_cons] at hn
    simp only [List.drop_succ_cons, List.drop_zero]
    constructor
    · intro h
      refine ⟨(hm x).1 (by simp [h]), a, (hm a).1 (by simp), ?_⟩
      exact lt_of_le_of_ne (hs.1 x h) fun e => hn.1 (e ▸ h)
    · rintro ⟨h, y, hy, hlt⟩
      rcases List.mem_cons.1 ((hm x).2 h) with rfl | h
      · rcases List.mem_cons.1 ((hm y).2 hy) with rfl | h'
        · omega
        · have := hs.1 y h'; omega
      · exact h

end Verif.FindFaults
