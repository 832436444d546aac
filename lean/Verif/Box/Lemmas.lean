import Verif.Box.Spec

namespace Verif.Box
open Verif.Py

theorem ok_bind {α β : Type} (x : α) (f : α → Res β) : (Except.ok x >>= f) = f x := rfl
theorem err_bind {α β : Type} (e : PyErr) (f : α → Res β) : ((Except.error e : Res α) >>= f) = .error e := rfl

theorem assert_bind {β : Type} (c : Bool) (f : Unit → Res β) (r : β) :
    (pyAssert c >>= f) = .ok r ↔ c = true ∧ f () = .ok r := by
  cases c
  · simp [pyAssert, err_bind]
  · simp [pyAssert, ok_bind]

theorem mem_intRange (n x : Int) : x ∈ intRange n ↔ 0 ≤ x ∧ x < n := by
  simp only [intRange, List.mem_map, List.mem_range]
  constructor
  · rintro ⟨a, ha, rfl⟩; omega
  · intro h; exact ⟨x.toNat, by omega, by omega⟩

theorem words_of_spaced (b : Box) (sep : List Char) (hne : sep ≠ []) (hs : ∀ c ∈ sep, isWS c = true) :
    splitWS (spacedString b sep) =
      [showInt (b.lo.i + 1), showInt (b.hi.i + 1), showInt (b.lo.j + 1), showInt (b.hi.j + 1),
       showInt (b.lo.k + 1), showInt (b.hi.k + 1)] := by
  have skip : ∀ (s rest : List Char), (∀ c ∈ s, isWS c = true) → splitWS (s ++ rest) = splitWS rest := by
    intro s
    induction s with
    | nil => intro rest _; rfl
    | cons c cs ih =>
      intro rest h
      rw [List.cons_append, splitWS_ws _ _ (h c (by simp)), ih _ (fun d hd => h d (by simp [hd]))]
  have wordsep : ∀ (z : Int) (s rest : List Char), s ≠ [] → (∀ c ∈ s, isWS c = true) →
      splitWS (showInt z ++ (s ++ rest)) = showInt z :: splitWS rest := by
    intro z s rest hsn hs
    cases s with
    | nil => exact absurd rfl hsn
    | cons c cs =>
      rw [List.cons_append, splitWS_word_ws _ _ _ (showInt_no_ws z) (showInt_ne_nil z) (hs c (by simp)),
        skip _ _ (fun d hd => hs d (by simp [hd]))]
  have two : ∀ c ∈ [' ', ' '], isWS c = true := by decide
  unfold spacedString
  simp only [List.append_assoc]
  rw [wordsep _ _ _ hne hs, wordsep _ _ _ (by simp) two, wordsep _ _ _ hne hs,
    wordsep _ _ _ (by simp) two, wordsep _ _ _ hne hs,
    splitWS_word _ (showInt_no_ws _) (showInt_ne_nil _)]

theorem scan_inv (n : Int) (p : Int → Bool) (m : Nat) (hm : (m : Int) ≤ n) :
    let s := ((List.range m).map fun (x : Nat) => (x : Int)).foldl
      (fun s x => if p x then (if s.1 = n then x else s.1, x) else s) (n, -1)
    ((∀ x, 0 ≤ x → x < (m : Int) → p x = false) ∧ s = (n, -1)) ∨
    (0 ≤ s.1 ∧ s.1 ≤ s.2 ∧ s.2 < m ∧ p s.1 = true ∧ p s.2 = true ∧
      (∀ x, 0 ≤ x → x < (m : Int) → p x = true → s.1 ≤ x ∧ x ≤ s.2)) := by
  induction m with
  | zero => left; simp; intro x h1 h2; omega
  | succ m ih =>
    have ih := ih (by omega)
    simp only [List.range_succ, List.map_append, List.map_cons, List.map_nil, List.foldl_append,
      List.foldl_cons, List.foldl_nil]
    generalize ((List.range m).map fun (x : Nat) => (x : Int)).foldl
      (fun s x => if p x then (if s.1 = n then x else s.1, x) else s) (n, -1) = s at ih ⊢
    obtain ⟨a, b⟩ := s
    dsimp only at ih ⊢
    rcases ih with ⟨hnone, heq⟩ | ⟨h0, h1, h2, h3, h4, h5⟩
    · cases heq
      by_cases hp : p (m : Int) = true
      · right
        simp only [hp, if_true]
        refine ⟨by omega, by omega, by omega, trivial, trivial, ?_⟩
        intro x hx0 hx1 hpx
        by_cases hxm : x = m
        · omega
        · have := hnone x hx0 (by omega); rw [this] at hpx; exact absurd hpx (by simp)
      · left
        simp only [hp]
        refine ⟨?_, by simp⟩
        intro x hx0 hx1
        by_cases hxm : x = m
        · subst hxm; simpa using hp
        · exact hnone x hx0 (by omega)
    · right
      by_cases hp : p (m : Int) = true
      · have hne : ¬ a = n := by omega
        simp only [hp, if_true, hne, if_false]
        refine ⟨h0, by omega, by omega, h3, trivial, ?_⟩
        intro x hx0 hx1 hpx
        by_cases hxm : x = m
        · omega
        · have := h5 x hx0 (by omega) hpx; omega
      · simp only [hp]
        refine ⟨h0, h1, by simp; omega, h3, h4, ?_⟩
        intro x hx0 hx1 hpx
        by_cases hxm : x = m
        · subst hxm; exact absurd hpx hp
        · exact h5 x hx0 (by omega) hpx

/-- The axis scan finds the first and last flagged index whenever some index is flagged. -/
theorem axisScan_spec (n : Int) (p : Int → Bool) (hex : ∃ x, 0 ≤ x ∧ x < n ∧ p x = true) :
    0 ≤ (axisScan n p).1 ∧ (axisScan n p).1 ≤ (axisScan n p).2 ∧ (axisScan n p).2 < n ∧
    p (axisScan n p).1 = true ∧ p (axisScan n p).2 = true ∧
    ∀ x, 0 ≤ x → x < n → p x = true → (axisScan n p).1 ≤ x ∧ x ≤ (axisScan n p).2 := by
  obtain ⟨y, hy0, hy1, hpy⟩ := hex
  have hn : ((n.toNat : Nat) : Int) = n := by omega
  have h := scan_inv n p n.toNat (by omega)
  simp only [hn] at h
  rcases h with ⟨hnone, _⟩ | h
  · have := hnone y hy0 hy1; rw [this] at hpy; exact absurd hpy (by simp)
  · exact h

theorem any3 (a b c : Int) (f : Int → Int → Int → Bool) :
    ((intRange a).any fun x => (intRange b).any fun y => (intRange c).any fun z => f x y z) = true ↔
      ∃ x y z, (0 ≤ x ∧ x < a) ∧ (0 ≤ y ∧ y < b) ∧ (0 ≤ z ∧ z < c) ∧ f x y z = true := by
  simp only [List.any_eq_true, mem_intRange]
  constructor
  · rintro ⟨x, hx, y, hy, z, hz, h⟩; exact ⟨x, y, z, hx, hy, hz, h⟩
  · rintro ⟨x, y, z, hx, hy, hz, h⟩; exact ⟨x, hx, y, hy, z, hz, h⟩

theorem any2 (b c : Int) (f : Int → Int → Bool) :
    ((intRange b).any fun y => (intRange c).any fun z => f y z) = true ↔
      ∃ y z, (0 ≤ y ∧ y < b) ∧ (0 ≤ z ∧ z < c) ∧ f y z = true := by
  simp only [List.any_eq_true, mem_intRange]
  constructor
  · rintro ⟨y, hy, z, hz, h⟩; exact ⟨y, z, hy, hz, h⟩
  · rintro ⟨y, z, hy, hz, h⟩; exact ⟨y, hy, z, hz, h⟩

/-- enumeration of the cells of a box, for counting -/
def cells (b : Box) : List V3 :=
  (intRange (b.hi.k - b.lo.k + 1)).flatMap fun k =>
    (intRange (b.hi.j - b.lo.j + 1)).flatMap fun j =>
      (intRange (b.hi.i - b.lo.i + 1)).map fun i => ⟨b.lo.k + k, b.lo.j + j, b.lo.i + i⟩

theorem mem_cells (b : Box) (c : V3) : c ∈ cells b ↔ In c b := by
  simp only [cells, List.mem_flatMap, List.mem_map, mem_intRange]
  constructor
  · rintro ⟨k, hk, j, hj, i, hi, rfl⟩
    simp only [In]; omega
  · intro h
    obtain ⟨k, j, i⟩ := c
    simp only [In] at h
    refine ⟨k - b.lo.k, by omega, j - b.lo.j, by omega, i - b.lo.i, by omega, ?_⟩
    simp only [V3.mk.injEq]; omega

theorem nodup_intRange (n : Int) : (intRange n).Nodup := by
  unfold intRange
  rw [List.Nodup, List.pairwise_map]
  exact List.Pairwise.imp (fun h => by omega) List.nodup_range

theorem length_intRange (n : Int) (h : 0 ≤ n) : ((intRange n).length : Int) = n := by
  simp [intRange]; omega

theorem nodup_flatMap {α β : Type} (l : List α) (f : α → List β) (g : β → α)
    (hl : l.Nodup) (hf : ∀ a ∈ l, (f a).Nodup) (hg : ∀ a ∈ l, ∀ b ∈ f a, g b = a) :
    (l.flatMap f).Nodup := by
  induction l with
  | nil => simp
  | cons x xs ih =>
    rw [List.flatMap_cons, List.nodup_append]
    rw [List.nodup_cons] at hl
    refine ⟨hf x (by simp), ih hl.2 (fun a ha => hf a (by simp [ha])) (fun a ha => hg a (by simp [ha])), ?_⟩
    intro a ha b hb hab
    subst hab
    obtain ⟨y, hy, hay⟩ := List.mem_flatMap.1 hb
    have h1 := hg x (by simp) a ha
    have h2 := hg y (by simp [hy]) a hay
    rw [h1] at h2
    subst h2
    exact hl.1 hy

theorem nodup_cells (b : Box) : (cells b).Nodup := by
  unfold cells
  apply nodup_flatMap _ _ (fun c => c.k - b.lo.k) (nodup_intRange _)
  · intro k hk
    apply nodup_flatMap _ _ (fun c => c.j - b.lo.j) (nodup_intRange _)
    · intro j hj
      rw [List.Nodup, List.pairwise_map]
      refine List.Pairwise.imp ?_ (nodup_intRange _)
      intro a b' hab h
      simp only [V3.mk.injEq] at h
      omega
    · intro j hj c hc
      simp only [List.mem_map] at hc
      obtain ⟨i, hi, rfl⟩ := hc
      dsimp only; omega
  · intro k hk c hc
    simp only [List.mem_flatMap, List.mem_map] at hc
    obtain ⟨j, hj, i, hi, rfl⟩ := hc
    dsimp only; omega

theorem length_flatMap_const {α β : Type} (l : List α) (f : α → List β) (n : Nat)
    (h : ∀ a ∈ l, (f a).length = n) : (l.flatMap f).length = l.length * n := by
  induction l with
  | nil => simp
  | cons x xs ih =>
    rw [List.flatMap_cons, List.length_append, h x (by simp), ih (fun a ha => h a (by simp [ha])),
      List.length_cons, Nat.add_mul, Nat.one_mul, Nat.add_comm]

theorem length_cells (b : Box) (hv : Valid b) : ((cells b).length : Int) = volumeOfBox b := by
  unfold cells
  rw [length_flatMap_const _ _
    ((intRange (b.hi.j - b.lo.j + 1)).length * (intRange (b.hi.i - b.lo.i + 1)).length)]
  · obtain ⟨h1, h2, h3⟩ := hv
    rw [Int.natCast_mul, Int.natCast_mul, length_intRange _ (by omega), length_intRange _ (by omega),
      length_intRange _ (by omega)]
    unfold volumeOfBox
    rw [Int.mul_assoc]
  · intro k _
    rw [length_flatMap_const _ _ (intRange (b.hi.i - b.lo.i + 1)).length]
    intro j _
    simp

theorem get_set (a : V3) (d x : Nat) (v : Int) (hd : d < 3) (hx : x < 3) :
    (a.set d v).get x = if x = d then v else a.get x := by
  have : (d = 0 ∨ d = 1 ∨ d = 2) ∧ (x = 0 ∨ x = 1 ∨ x = 2) := by omega
  obtain ⟨hd | hd | hd, hx | hx | hx⟩ := this <;> subst hd <;> subst hx <;> simp [V3.set, V3.get]

end Verif.Box
