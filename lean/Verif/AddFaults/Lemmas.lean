import Verif.AddFaults.Spec
import Verif.CpGrid.Lemmas2
import Verif.Pillars.Props
import Verif.GridFns.Props

namespace Verif.AddFaults
open Verif.Py Verif.Pillars Verif.CpGrid

/-! ## Tables -/

theorem cum_range (n : Nat) (ls : List (List Nat)) :
    cumLengths n ls = (List.range ls.length).map fun k => n + ((ls.take (k + 1)).map List.length).sum := by
  apply List.ext_getElem?
  intro k
  by_cases h : k < ls.length
  · rw [cumLengths_get n ls k h, List.getElem?_map, List.getElem?_range h]
    rfl
  · rw [List.getElem?_eq_none (by rw [cumLengths_length]; omega), List.getElem?_eq_none (by simp; omega)]

theorem Tabulates.cum {t : Pillars.Grid} {ls : List (List Nat)} (h : Tabulates t ls) : t.cl = cumLengths 0 ls := by
  rw [h.cumulative, cum_range]
  simp

theorem cum_append (n : Nat) (a b : List (List Nat)) :
    cumLengths n (a ++ b) = cumLengths n a ++ cumLengths (n + a.flatten.length) b := by
  induction a generalizing n with
  | nil => simp [cumLengths]
  | cons l a ih =>
    rw [List.cons_append, cumLengths, ih, cumLengths, List.cons_append, List.flatten_cons, List.length_append, Nat.add_assoc]

theorem cum_pred (n : Nat) (ls : List (List Nat)) : (cumLengths (n + 1) ls).map (· - 1) = cumLengths n ls := by
  induction ls generalizing n with
  | nil => rfl
  | cons l ls ih =>
    rw [cumLengths, List.map_cons, cumLengths]
    have : n + 1 + l.length = n + l.length + 1 := by omega
    rw [this, ih]
    simp

theorem segment_of {t : Pillars.Grid} {ls : List (List Nat)} (h : Tabulates t ls) {k : Nat} {l : List Nat} (hk : ls[k]? = some l) :
    segment t k = .ok l := by
  have := segment_tables t.nj t.ni t.hasSplit t.spi ls k l hk
  rw [← h.cum, ← h.flat] at this
  exact this

theorem listed_of {t : Pillars.Grid} {ls : List (List Nat)} (h : Tabulates t ls) {k P : Nat} (hk : t.spi[k]? = some P) (c : Nat) :
    listed t k c = true ↔ c ∈ ls.getD k [] := by
  have hlt : k < ls.length := by
    have := (List.getElem?_eq_some_iff.mp hk).1
    rw [h.size] at this
    exact this
  rw [listed_iff]
  have e := segment_of h (List.getElem?_eq_getElem hlt)
  rw [List.getD_eq_getElem?_getD, List.getElem?_eq_getElem hlt, Option.getD_some, e]
  constructor
  · rintro ⟨cs, h1, h2⟩; cases h1; exact h2
  · intro h1; exact ⟨_, rfl, h1⟩

/-- the pillar used at the natural pillar `P` by column `c`, according to lists of columns -/
def Val (base : Nat) (spi : List Nat) (ls : List (List Nat)) (P c v : Nat) : Prop :=
  (∃ n, v = base + n ∧ spi[n]? = some P ∧ c ∈ ls.getD n [] ∧ ∀ n', n < n' → spi[n']? = some P → c ∉ ls.getD n' []) ∨
  (v = P ∧ ∀ n, spi[n]? = some P → c ∉ ls.getD n [])

theorem Val.unique {base : Nat} {spi : List Nat} {ls : List (List Nat)} {P c v w : Nat} (h1 : Val base spi ls P c v)
    (h2 : Val base spi ls P c w) : v = w := by
  rcases h1 with ⟨n, rfl, a1, a2, a3⟩ | ⟨rfl, a⟩ <;> rcases h2 with ⟨n', rfl, b1, b2, b3⟩ | ⟨rfl, b⟩
  · rcases Nat.lt_trichotomy n n' with h | h | h
    · exact absurd b2 (a3 n' h b1)
    · rw [h]
    · exact absurd a2 (b3 n h a1)
  · exact absurd a2 (b n a1)
  · exact absurd b2 (a n' b1)
  · rfl

theorem Val.lt {base : Nat} {spi : List Nat} {ls : List (List Nat)} {P c v : Nat} (h : Val base spi ls P c v) (hP : P < base) :
    v < base + spi.length := by
  rcases h with ⟨n, rfl, a1, -⟩ | ⟨rfl, -⟩
  · have := (List.getElem?_eq_some_iff.mp a1).1
    omega
  · omega

/-- pillars used for different natural pillars differ -/
theorem Val.ne {base : Nat} {spi : List Nat} {ls ls' : List (List Nat)} {P c v P' c' v' : Nat} (h : Val base spi ls P c v)
    (h' : Val base spi ls' P' c' v') (hP : P < base) (hP' : P' < base) (hne : P ≠ P') : v ≠ v' := by
  rcases h with ⟨n, rfl, a1, -⟩ | ⟨rfl, -⟩ <;> rcases h' with ⟨n', rfl, b1, -⟩ | ⟨rfl, -⟩
  · intro e
    have : n = n' := by omega
    subst this
    rw [a1] at b1
    exact hne (by cases b1; rfl)
  · omega
  · omega
  · exact hne

theorem Val.keep {base : Nat} {spi spi' : List Nat} {ls ls' : List (List Nat)} {P c v : Nat} (h : Val base spi ls P c v)
    (h1 : ∀ n : Nat, spi[n]? = some P → spi'[n]? = some P)
    (h2 : ∀ n : Nat, spi'[n]? = some P → (c ∈ ls'.getD n [] ↔ spi[n]? = some P ∧ c ∈ ls.getD n [])) : Val base spi' ls' P c v := by
  rcases h with ⟨n, rfl, a1, a2, a3⟩ | ⟨rfl, a⟩
  · refine Or.inl ⟨n, rfl, h1 n a1, (h2 n (h1 n a1)).mpr ⟨a1, a2⟩, ?_⟩
    intro n' hn hs hc
    obtain ⟨b1, b2⟩ := (h2 n' hs).mp hc
    exact a3 n' hn b1 b2
  · refine Or.inr ⟨rfl, ?_⟩
    intro n hs hc
    obtain ⟨b1, b2⟩ := (h2 n hs).mp hc
    exact a n b1 b2

/-- the value in the mapping -/
theorem mapping_Val {t : Pillars.Grid} {ls : List (List Nat)} (h : Tabulates t ls) {m : Mapping} (hm : columnPillarMapping t = .ok m)
    {j i jp ip : Nat} (hi : i < t.ni) (hip : ip ≤ 1) :
    Val ((t.nj + 1) * (t.ni + 1)) t.spi ls (naturalPillar t j i jp ip) (j * t.ni + i) (m j i jp ip) := by
  rw [mapping_val hm hi hip, if_pos h.split]
  have e1 : corner t j i jp ip = naturalPillar t j i jp ip := rfl
  have e2 : column t j i = j * t.ni + i := rfl
  rw [e1, e2]
  rcases scan_spec t (naturalPillar t j i jp ip) (j * t.ni + i) t.spi 0 (naturalPillar t j i jp ip) with ⟨a, b⟩ | ⟨k, a1, a2, a3, a4⟩
  · right
    refine ⟨b, fun n hn hc => ?_⟩
    have := a n hn
    rw [Nat.zero_add] at this
    rw [(listed_of h hn _).mpr hc] at this
    cases this
  · left
    rw [Nat.zero_add] at a2 a3
    refine ⟨k, a3, a1, (listed_of h a1 _).mp a2, ?_⟩
    intro n' hn hs hc
    have := a4 n' hn hs
    rw [Nat.zero_add, (listed_of h hs _).mpr hc] at this
    cases this

theorem natural_div_mod {t : Pillars.Grid} {j i jp ip : Nat} (hi : i < t.ni) (hip : ip ≤ 1) :
    naturalPillar t j i jp ip / (t.ni + 1) = j + jp ∧ naturalPillar t j i jp ip % (t.ni + 1) = i + ip := by
  unfold naturalPillar
  exact div_mod_of (by omega)

/-- tables in order give a mapping -/
theorem mapping_ok {t : Pillars.Grid} {ls : List (List Nat)} (h : Tabulates t ls) (hni : 0 < t.ni) :
    ∃ m, columnPillarMapping t = .ok m := by
  unfold columnPillarMapping
  rw [if_pos h.split]
  apply placeExtras_ok (by omega)
  intro k P hk
  rw [Nat.zero_add]
  have hlt : k < ls.length := by
    have := (List.getElem?_eq_some_iff.mp hk).1
    rw [h.size] at this
    exact this
  refine ⟨_, segment_of h (List.getElem?_eq_getElem hlt), ?_⟩
  intro c hc
  obtain ⟨j, i, jp, ip, hj, hi, hjp, hip, rfl, rfl⟩ := h.near k P _ c hk (List.getElem?_eq_getElem hlt) hc
  have e1 := natural_div_mod (t := t) (j := j) (jp := jp) hi hip
  have e2 := div_mod_of (n := t.ni) (a := i) (b := j) hi
  rw [e1.1, e1.2, e2.1, e2.2]
  refine ⟨?_, ?_, hj⟩ <;> omega

/-! ## Changes of the tables -/

/-- a new extra pillar for one column -/
theorem Tabulates.new {t : Pillars.Grid} {ls : List (List Nat)} (h : Tabulates t ls) {P c : Nat}
    (hc : ∃ j i jp ip, j < t.nj ∧ i < t.ni ∧ jp ≤ 1 ∧ ip ≤ 1 ∧ c = j * t.ni + i ∧ P = naturalPillar t j i jp ip) :
    Tabulates { t with spi := t.spi ++ [P], cols := t.cols ++ [c], cl := t.cl ++ [t.cols.length + 1] } (ls ++ [[c]]) where
  split := h.split
  size := by simp [h.size]
  flat := by simp [h.flat]
  cumulative := by
    have := cum_range 0 (ls ++ [[c]])
    simp only [Nat.zero_add] at this
    rw [← this, cum_append, h.cum, h.flat]
    simp [cumLengths]
  near := by
    intro n P' cs c' h1 h2 h3
    dsimp only at h1 ⊢
    by_cases hn : n < ls.length
    · rw [List.getElem?_append_left (by rw [h.size]; exact hn)] at h1
      rw [List.getElem?_append_left hn] at h2
      exact h.near n P' cs c' h1 h2 h3
    · obtain ⟨k, rfl⟩ : ∃ k, n = ls.length + k := ⟨n - ls.length, by omega⟩
      rw [List.getElem?_append_right (by rw [h.size]; omega), h.size, Nat.add_sub_cancel_left] at h1
      rw [List.getElem?_append_right (by omega), Nat.add_sub_cancel_left] at h2
      cases k with
      | zero =>
        cases h1; cases h2
        rw [List.mem_singleton] at h3
        subst h3
        exact hc
      | succ k => cases h1

/-- one more column for the last extra pillar -/
theorem Tabulates.more {t : Pillars.Grid} {ls : List (List Nat)} {l : List Nat} (h : Tabulates t (ls ++ [l])) {P c : Nat}
    (hP : t.spi[ls.length]? = some P)
    (hc : ∃ j i jp ip, j < t.nj ∧ i < t.ni ∧ jp ≤ 1 ∧ ip ≤ 1 ∧ c = j * t.ni + i ∧ P = naturalPillar t j i jp ip) :
    Tabulates { t with cols := t.cols ++ [c], cl := t.cl.dropLast ++ [t.cols.length + 1] } (ls ++ [l ++ [c]]) where
  split := h.split
  size := by simp [h.size]
  flat := by simp [h.flat]
  cumulative := by
    have := cum_range 0 (ls ++ [l ++ [c]])
    simp only [Nat.zero_add] at this
    rw [← this, cum_append, h.cum, h.flat, cum_append]
    simp [cumLengths]
    omega
  near := by
    intro n P' cs c' h1 h2 h3
    dsimp only at h1 ⊢
    by_cases hn : n < ls.length
    · rw [List.getElem?_append_left hn] at h2
      exact h.near n P' cs c' h1 (by rw [List.getElem?_append_left hn]; exact h2) h3
    · obtain ⟨k, rfl⟩ : ∃ k, n = ls.length + k := ⟨n - ls.length, by omega⟩
      rw [List.getElem?_append_right (by omega), Nat.add_sub_cancel_left] at h2
      cases k with
      | zero =>
        cases h2
        rw [Nat.add_zero] at h1
        rcases List.mem_append.mp h3 with h3 | h3
        · exact h.near ls.length P' l c' h1 (by simp) h3
        · rw [List.mem_singleton] at h3
          subst h3
          rw [hP] at h1
          cases h1
          exact hc
      | succ k => cases h2

theorem findFrom_mem (a l r : List Nat) (c len : Nat) (hc : c ∈ l) (hlen : l.length ≤ len) :
    ∃ ix, findFrom (a ++ l ++ r) c len a.length = .ok (some (a.length + ix)) ∧ ix < l.length ∧
      l.take ix ++ l.drop (ix + 1) = l.erase c := by
  induction l generalizing a len with
  | nil => cases hc
  | cons x l ih =>
    obtain ⟨n, rfl⟩ : ∃ n, len = n + 1 := ⟨len - 1, by simp at hlen; omega⟩
    have hat : at? (a ++ x :: l ++ r) a.length = .ok x := by
      rw [at?_ok]
      simp
    rw [findFrom, hat]
    dsimp only
    by_cases hx : x = c
    · rw [if_pos hx]
      exact ⟨0, rfl, by simp, by simp [hx]⟩
    · rw [if_neg hx]
      have hc' : c ∈ l := by
        rcases List.mem_cons.mp hc with h | h
        · exact absurd h.symm hx
        · exact h
      obtain ⟨ix, h1, h2, h3⟩ := ih (a ++ [x]) n hc' (by simpa using hlen)
      refine ⟨ix + 1, ?_, by simpa using h2, ?_⟩
      · rw [List.length_append, List.length_singleton] at h1
        have e : a ++ [x] ++ l ++ r = a ++ x :: l ++ r := by simp
        rw [e] at h1
        rw [h1]
        congr 2
        omega
      · rw [List.erase_cons_tail (by simpa using hx), List.take_succ_cons, List.drop_succ_cons, List.cons_append, h3]

/-- one column less for an extra pillar which keeps another -/
theorem removeCol_ok {t : Pillars.Grid} {ls : List (List Nat)} (h : Tabulates t ls) {P n c d : Nat} {l : List Nat}
    (hP : t.spi[n]? = some P) (hl : ls[n]? = some l) (hc : c ∈ l) (hd : d ∈ l) (hne : d ≠ c) :
    ∃ t', removeCol t P n c t.cols.length = .ok (t', t'.cols.length) ∧ Tabulates t' (ls.set n (l.erase c)) ∧ t'.spi = t.spi ∧
      t'.nj = t.nj ∧ t'.ni = t.ni := by
  obtain ⟨hn, hle⟩ := List.getElem?_eq_some_iff.mp hl
  obtain ⟨A, B, rfl, rfl⟩ : ∃ A B, ls = A ++ l :: B ∧ n = A.length := by
    refine ⟨ls.take n, ls.drop (n + 1), ?_, by simp; omega⟩
    rw [← hle, List.getElem_cons_drop, List.take_append_drop]
  have hcl := h.cum
  have hfl := h.flat
  rw [cum_append, cumLengths] at hcl
  rw [List.flatten_append, List.flatten_cons, ← List.append_assoc] at hfl
  obtain ⟨ix, f1, f2, f3⟩ := findFrom_mem A.flatten l B.flatten c (A.flatten.length + l.length) hc (by omega)
  rw [← hfl] at f1
  have hlp : 0 < l.length := List.length_pos_of_mem hc
  have her : (l.erase c).length = l.length - 1 := List.length_erase_of_mem hc
  have hdm : d ∈ l.erase c := (List.mem_erase_of_ne hne).mpr hd
  have hep : 0 < (l.erase c).length := List.length_pos_of_mem hdm
  have hstart : segStart t A.length = .ok A.flatten.length := by
    unfold segStart
    split
    · rename_i h0
      rw [List.length_eq_zero_iff.mp h0]
      rfl
    · rename_i h0
      rw [at?_ok, hcl, List.getElem?_append_left (by rw [cumLengths_length]; omega), cumLengths_get 0 A _ (by omega),
        show A.length - 1 + 1 = A.length by omega, List.take_length, Nat.zero_add, List.length_flatten]
  have hend : at? t.cl A.length = .ok (A.flatten.length + l.length) := by
    rw [at?_ok, hcl, List.getElem?_append_right (by rw [cumLengths_length]), cumLengths_length, Nat.sub_self]
    simp
  have hcols : t.cols.take (A.flatten.length + ix) ++ t.cols.drop (A.flatten.length + ix + 1) =
      A.flatten ++ l.erase c ++ B.flatten := by
    rw [hfl, ← f3, List.append_assoc, List.append_assoc, List.take_length_add_append, Nat.add_assoc, List.drop_length_add_append,
      List.take_append_of_le_length (by omega), List.drop_append_of_le_length (by omega)]
    simp
  have hcl' : t.cl.take A.length ++ (t.cl.drop A.length).map (· - 1) = cumLengths 0 (A ++ l.erase c :: B) := by
    have hA : (cumLengths 0 A).length = A.length := cumLengths_length _ _
    rw [hcl, cum_append, List.take_append_of_le_length (by omega), List.take_of_length_le (by omega), List.drop_append_of_le_length
      (by omega), List.drop_of_length_le (by omega), List.nil_append, List.map_cons, cumLengths]
    congr 2
    · omega
    · rw [her, ← cum_pred (0 + A.flatten.length + (l.length - 1)) B]
      congr 2
      omega
  have hset : (A ++ l :: B).set A.length (l.erase c) = A ++ l.erase c :: B := by simp
  refine ⟨{ t with cols := t.cols.take (A.flatten.length + ix) ++ t.cols.drop (A.flatten.length + ix + 1),
                   cl := t.cl.take A.length ++ (t.cl.drop A.length).map (· - 1) }, ?_, ?_, rfl, rfl, rfl⟩
  · unfold removeCol
    rw [at?_ok.mpr hP]
    dsimp only
    rw [if_neg (by simp), hstart]
    dsimp only
    rw [hend]
    dsimp only
    rw [f1]
    dsimp only
    have hat : at? (t.cl.take A.length ++ (t.cl.drop A.length).map (· - 1)) A.length =
        .ok (A.flatten.length + (l.erase c).length) := by
      rw [hcl', at?_ok, cum_append, List.getElem?_append_right (by rw [cumLengths_length]), cumLengths_length, Nat.sub_self,
        cumLengths]
      simp
    rw [hat]
    dsimp only
    rw [if_pos (by omega), hcols, hfl]
    congr 2
    simp only [List.length_append, her]
    omega
  · rw [hset]
    refine ⟨h.split, ?_, ?_, ?_, ?_⟩
    · have := h.size
      simp at this ⊢
      exact this
    · dsimp only
      rw [hcols]
      simp
    · dsimp only
      rw [hcl', cum_range]
      simp
    · intro k P' cs c' h1 h2 h3
      dsimp only at h1 ⊢
      by_cases hk : k = A.length
      · subst hk
        rw [List.getElem?_append_right (le_refl _), Nat.sub_self] at h2
        cases h2
        exact h.near A.length P' l c' h1 hl (List.mem_of_mem_erase h3)
      · refine h.near k P' cs c' h1 ?_ h3
        rw [← h2, ← hset, List.getElem?_set_ne (Ne.symm hk)]

end Verif.AddFaults
