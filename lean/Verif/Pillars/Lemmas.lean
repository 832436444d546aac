import Verif.Pillars.Spec
import Mathlib.Tactic.ByContra
import Mathlib.Tactic.Push

namespace Verif.Pillars
open Verif.Py

theorem div_mod_of {n a b : Nat} (h : a < n) : (b * n + a) / n = b ∧ (b * n + a) % n = a := by
  have hn : 0 < n := by omega
  constructor
  · rw [Nat.add_comm, Nat.add_mul_div_right _ _ hn, Nat.div_eq_of_lt h, Nat.zero_add]
  · rw [Nat.add_comm, Nat.add_mul_mod_self_right, Nat.mod_eq_of_lt h]

theorem eq_of_div_mod (x n : Nat) : x = x / n * n + x % n := by
  rw [Nat.mul_comm]; exact (Nat.div_add_mod x n).symm

theorem at?_ok {l : List Nat} {n x : Nat} : at? l n = .ok x ↔ l[n]? = some x := by
  unfold at?
  cases l[n]? with
  | none => simp
  | some y => simp

theorem readAll_range' {l : List Nat} (k a : Nat) (cs : List Nat) :
    readAll l (List.range' a k) = .ok cs ↔ cs.length = k ∧ ∀ t, t < k → cs[t]? = l[a + t]? := by
  induction k generalizing a cs with
  | zero =>
    rw [List.range'_zero, readAll]
    constructor
    · intro h
      cases h
      exact ⟨rfl, fun t ht => by omega⟩
    · rintro ⟨h, -⟩
      rw [List.length_eq_zero_iff.1 h]
  | succ k ih =>
    rw [List.range'_succ, readAll]
    cases h1 : at? l a with
    | error e =>
      constructor
      · intro h; cases h
      · rintro ⟨h, h2⟩
        have h3 := h2 0 (by omega)
        rw [Nat.add_zero, List.getElem?_eq_getElem (by omega)] at h3
        rw [at?_ok.2 h3.symm] at h1
        cases h1
    | ok x =>
      dsimp only
      cases h2 : readAll l (List.range' (a + 1) k) with
      | error e =>
        constructor
        · intro h; cases h
        · rintro ⟨h, h3⟩
          match cs, h with
          | c :: cs, h =>
            have := (ih (a + 1) cs).2 ⟨by simpa using h, fun t ht => by
              have := h3 (t + 1) (by omega)
              rw [List.getElem?_cons_succ] at this
              rw [this]
              congr 1
              omega⟩
            rw [this] at h2
            cases h2
      | ok ys =>
        obtain ⟨g1, g2⟩ := (ih (a + 1) ys).1 h2
        constructor
        · intro h
          cases h
          refine ⟨by simp [g1], fun t ht => ?_⟩
          match t with
          | 0 => rw [List.getElem?_cons_zero, Nat.add_zero]; exact (at?_ok.1 h1).symm
          | t + 1 =>
            rw [List.getElem?_cons_succ, g2 t (by omega)]
            congr 1
            omega
        · rintro ⟨h, h3⟩
          match cs, h with
          | c :: cs, h =>
            have h0 := h3 0 (by omega)
            rw [List.getElem?_cons_zero, Nat.add_zero, at?_ok.1 h1] at h0
            cases h0
            have := (ih (a + 1) cs).2 ⟨by simpa using h, fun t ht => by
              have := h3 (t + 1) (by omega)
              rw [List.getElem?_cons_succ] at this
              rw [this]
              congr 1
              omega⟩
            rw [this] at h2
            cases h2
            rfl

theorem segment_iff {g : Grid} {n : Nat} {cs : List Nat} : segment g n = .ok cs ↔ IsSegment g n cs := by
  have hstart : ∀ a, segStart g n = .ok a ↔ (n = 0 ∧ a = 0 ∨ ∃ m, n = m + 1 ∧ g.cl[m]? = some a) := by
    intro a
    unfold segStart
    cases n with
    | zero =>
      rw [if_pos rfl]
      constructor
      · intro h; cases h; exact Or.inl ⟨rfl, rfl⟩
      · rintro (⟨-, rfl⟩ | ⟨m, h, -⟩)
        · rfl
        · omega
    | succ n =>
      rw [if_neg (by omega), Nat.add_sub_cancel, at?_ok]
      constructor
      · intro h; exact Or.inr ⟨n, rfl, h⟩
      · rintro (⟨h, -⟩ | ⟨m, h, h2⟩)
        · omega
        · obtain rfl : n = m := by omega
          exact h2
  unfold segment IsSegment
  constructor
  · intro h
    cases h1 : segStart g n with
    | error e => rw [h1] at h; cases h
    | ok a =>
      rw [h1] at h
      dsimp only at h
      cases h2 : at? g.cl n with
      | error e => rw [h2] at h; cases h
      | ok b =>
        rw [h2] at h
        exact ⟨a, b, (hstart a).1 h1, at?_ok.1 h2, (readAll_range' _ _ _).1 h⟩
  · rintro ⟨a, b, h1, h2, h3⟩
    rw [(hstart a).2 h1]
    dsimp only
    rw [at?_ok.2 h2]
    exact (readAll_range' _ _ _).2 h3

/-- index of the primary pillar at a corner of a column -/
def corner (g : Grid) (j i jp ip : Nat) : Nat := (j + jp) * (g.ni + 1) + (i + ip)

/-- index of a column -/
def column (g : Grid) (j i : Nat) : Nat := j * g.ni + i

theorem placeCol_val {g : Grid} {p v c : Nat} {m m' : Mapping} (h : placeCol g p v m c = .ok m') {j i jp ip : Nat}
    (hi : i < g.ni) (hip : ip ≤ 1) :
    m' j i jp ip = if p = corner g j i jp ip ∧ c = column g j i then v else m j i jp ip := by
  unfold placeCol at h
  by_cases h0 : g.ni = 0
  · omega
  rw [if_neg h0] at h
  dsimp only at h
  split at h
  · rename_i hc
    split at h
    · cases h
      unfold Mapping.set corner column
      have e1 := div_mod_of (n := g.ni + 1) (a := i + ip) (b := j + jp) (by omega)
      have e2 := div_mod_of (n := g.ni) (a := i) (b := j) hi
      by_cases hh : p = (j + jp) * (g.ni + 1) + (i + ip) ∧ c = j * g.ni + i
      · rw [if_pos hh, if_pos]
        obtain ⟨rfl, rfl⟩ := hh
        rw [e1.1, e1.2, e2.1, e2.2]
        refine ⟨rfl, rfl, ?_, ?_⟩ <;> omega
      · rw [if_neg hh, if_neg]
        rintro ⟨a1, a2, a3, a4⟩
        apply hh
        have e3 := eq_of_div_mod p (g.ni + 1)
        have e4 := eq_of_div_mod c g.ni
        rw [← a1, ← a2] at e4
        have e5 : p / (g.ni + 1) = j + jp := by omega
        have e6 : p % (g.ni + 1) = i + ip := by omega
        rw [e5, e6] at e3
        exact ⟨e3, e4⟩
    · cases h
  · cases h

theorem placeCols_val {g : Grid} {p v : Nat} {cs : List Nat} {m m' : Mapping} (h : placeCols g p v cs m = .ok m')
    {j i jp ip : Nat} (hi : i < g.ni) (hip : ip ≤ 1) :
    m' j i jp ip = if p = corner g j i jp ip ∧ column g j i ∈ cs then v else m j i jp ip := by
  induction cs generalizing m with
  | nil =>
    cases h
    rw [if_neg]
    rintro ⟨_, h⟩
    cases h
  | cons c cs ih =>
    simp only [placeCols] at h
    split at h
    · cases h
    · rename_i m1 h1
      rw [ih h, placeCol_val h1 hi hip]
      have hd : (c = column g j i) = (column g j i = c) := propext eq_comm
      simp only [hd]
      by_cases a : p = corner g j i jp ip <;> by_cases b : column g j i ∈ cs <;> by_cases d : column g j i = c <;>
        simp [a, b, d]

/-- whether a column is among those of an extra pillar -/
def listed (g : Grid) (n c : Nat) : Bool :=
  match segment g n with
  | .ok cs => decide (c ∈ cs)
  | .error _ => false

/-- what the list of extra pillars says of a corner: the last extra pillar from the corner's primary listed for the column -/
def scan (g : Grid) (P c : Nat) : List Nat → Nat → Nat → Nat
  | [], _, v => v
  | p :: ps, n, v => scan g P c ps (n + 1)
      (if p = P ∧ listed g n c = true then (g.nj + 1) * (g.ni + 1) + n else v)

theorem placeExtras_val {g : Grid} {ps : List Nat} {n : Nat} {m m' : Mapping} (h : placeExtras g ps n m = .ok m')
    {j i jp ip : Nat} (hi : i < g.ni) (hip : ip ≤ 1) :
    m' j i jp ip = scan g (corner g j i jp ip) (column g j i) ps n (m j i jp ip) := by
  induction ps generalizing n m with
  | nil => cases h; rfl
  | cons p ps ih =>
    simp only [placeExtras] at h
    split at h
    · cases h
    · rename_i cs hcs
      split at h
      · cases h
      · rename_i m1 h1
        rw [ih h, scan, placeCols_val h1 hi hip]
        unfold listed
        rw [hcs]
        simp only [decide_eq_true_eq]

/-- the value scanned is the initial one or that of the last extra pillar applicable -/
theorem scan_spec (g : Grid) (P c : Nat) (ps : List Nat) (n v : Nat) :
    ((∀ k, ps[k]? = some P → listed g (n + k) c = false) ∧ scan g P c ps n v = v) ∨
    ∃ k, ps[k]? = some P ∧ listed g (n + k) c = true ∧ scan g P c ps n v = (g.nj + 1) * (g.ni + 1) + (n + k) ∧
      ∀ k', k < k' → ps[k']? = some P → listed g (n + k') c = false := by
  induction ps generalizing n v with
  | nil =>
    left
    refine ⟨fun k h => ?_, rfl⟩
    cases h
  | cons p ps ih =>
    rw [scan]
    rcases ih (n + 1) (if p = P ∧ listed g n c = true then (g.nj + 1) * (g.ni + 1) + n else v) with ⟨h1, h2⟩ | ⟨k, h1, h2, h3, h4⟩
    · rw [h2]
      by_cases hp : p = P ∧ listed g n c = true
      · right
        refine ⟨0, by simp [hp.1], by simpa using hp.2, by rw [if_pos hp]; rfl, ?_⟩
        intro k' hk' hg
        cases k' with
        | zero => omega
        | succ k' =>
          have := h1 k' (by simpa using hg)
          rw [← this]
          congr 1
          omega
      · left
        rw [if_neg hp]
        refine ⟨fun k h => ?_, rfl⟩
        cases k with
        | zero =>
          have hpP : p = P := by simpa using h
          by_cases hl : listed g n c = true
          · exact absurd ⟨hpP, hl⟩ hp
          · simpa using hl
        | succ k =>
          have := h1 k (by simpa using h)
          rw [← this]
          congr 1
          omega
    · right
      have e : n + 1 + k = n + (k + 1) := by omega
      refine ⟨k + 1, by simpa using h1, by rw [← e]; exact h2, by rw [← e]; exact h3, ?_⟩
      intro k' hk' hg
      cases k' with
      | zero => omega
      | succ k' =>
        have := h4 k' (by omega) (by simpa using hg)
        rw [← this]
        congr 1
        omega

theorem scan_congr_start (g : Grid) (P c : Nat) (ps : List Nat) (n v : Nat)
    (h : ∀ k : Nat, ps[k]? ≠ some P) : scan g P c ps n v = v := by
  rcases scan_spec g P c ps n v with ⟨_, h2⟩ | ⟨k, h1, _⟩
  · exact h2
  · exact absurd h1 (h k)

theorem mapping_val {g : Grid} {m : Mapping} (h : columnPillarMapping g = .ok m) {j i jp ip : Nat} (hi : i < g.ni)
    (hip : ip ≤ 1) : m j i jp ip =
      if g.hasSplit then scan g (corner g j i jp ip) (column g j i) g.spi 0 (corner g j i jp ip)
      else corner g j i jp ip := by
  unfold columnPillarMapping at h
  have hc : unsplitMapping g j i jp ip = corner g j i jp ip := by unfold unsplitMapping corner; omega
  split at h
  · rename_i hs
    rw [if_pos hs, placeExtras_val h hi hip, hc]
  · rename_i hs
    cases h
    rw [if_neg hs, hc]

theorem fourCol_val {g : Grid} {j0 i0 v c : Nat} {f f' : Foursome} (h : fourCol g j0 i0 v f c = .ok f') {jp ip : Nat}
    (hj1 : 1 ≤ j0 + jp) (hi1 : 1 ≤ i0 + ip) (hi2 : i0 + ip - 1 < g.ni) (hjp : jp ≤ 1) (hip : ip ≤ 1) :
    f' jp ip = if c = column g (j0 + jp - 1) (i0 + ip - 1) then v else f jp ip := by
  unfold fourCol at h
  by_cases h0 : g.ni = 0
  · omega
  rw [if_neg h0] at h
  dsimp only at h
  split at h
  · rename_i hc
    cases h
    unfold column
    show (if jp = c / g.ni + 1 - j0 ∧ ip = c % g.ni + 1 - i0 then v else f jp ip) = _
    have e2 := div_mod_of (n := g.ni) (a := i0 + ip - 1) (b := j0 + jp - 1) hi2
    by_cases hh : c = (j0 + jp - 1) * g.ni + (i0 + ip - 1)
    · rw [if_pos hh, if_pos]
      rw [hh, e2.1, e2.2]
      constructor <;> omega
    · rw [if_neg hh, if_neg]
      rintro ⟨a1, a2⟩
      apply hh
      have e4 := eq_of_div_mod c g.ni
      have e5 : c / g.ni = j0 + jp - 1 := by omega
      have e6 : c % g.ni = i0 + ip - 1 := by omega
      rw [e5, e6] at e4
      exact e4
  · cases h

theorem fourCols_val {g : Grid} {j0 i0 v : Nat} {cs : List Nat} {f f' : Foursome} (h : fourCols g j0 i0 v cs f = .ok f')
    {jp ip : Nat} (hj1 : 1 ≤ j0 + jp) (hi1 : 1 ≤ i0 + ip) (hi2 : i0 + ip - 1 < g.ni) (hjp : jp ≤ 1) (hip : ip ≤ 1) :
    f' jp ip = if column g (j0 + jp - 1) (i0 + ip - 1) ∈ cs then v else f jp ip := by
  induction cs generalizing f with
  | nil => cases h; simp
  | cons c cs ih =>
    simp only [fourCols] at h
    split at h
    · cases h
    · rename_i f1 h1
      rw [ih h, fourCol_val h1 hj1 hi1 hi2 hjp hip]
      have hd : (c = column g (j0 + jp - 1) (i0 + ip - 1)) = (column g (j0 + jp - 1) (i0 + ip - 1) = c) := propext eq_comm
      simp only [hd]
      by_cases b : column g (j0 + jp - 1) (i0 + ip - 1) ∈ cs <;> by_cases d : column g (j0 + jp - 1) (i0 + ip - 1) = c <;>
        simp [b, d]

theorem fourExtras_val {g : Grid} {j0 i0 : Nat} {ps : List Nat} {n : Nat} {f f' : Foursome}
    (h : fourExtras g j0 i0 ps n f = .ok f')
    {jp ip : Nat} (hj1 : 1 ≤ j0 + jp) (hi1 : 1 ≤ i0 + ip) (hi2 : i0 + ip - 1 < g.ni) (hjp : jp ≤ 1) (hip : ip ≤ 1) :
    f' jp ip = scan g ((g.ni + 1) * j0 + i0) (column g (j0 + jp - 1) (i0 + ip - 1)) ps n (f jp ip) := by
  induction ps generalizing n f with
  | nil => cases h; rfl
  | cons p ps ih =>
    simp only [fourExtras] at h
    rw [scan]
    split at h
    · rename_i hp
      split at h
      · cases h
      · rename_i cs hcs
        split at h
        · cases h
        · rename_i f1 h1
          rw [ih h, fourCols_val h1 hj1 hi1 hi2 hjp hip]
          unfold listed
          rw [hcs]
          simp only [decide_eq_true_eq, hp, true_and]
    · rename_i hp
      rw [ih h, if_neg (fun hc => hp hc.1)]

/-- the loop for a foursome goes through when that for the mapping does -/
theorem fourExtras_ok {g : Grid} {j0 i0 : Nat} (hi0 : i0 ≤ g.ni) {ps : List Nat} {n : Nat} {m m' : Mapping}
    (h : placeExtras g ps n m = .ok m') (f : Foursome) : ∃ f', fourExtras g j0 i0 ps n f = .ok f' := by
  induction ps generalizing n m f with
  | nil => exact ⟨f, rfl⟩
  | cons p ps ih =>
    simp only [placeExtras] at h
    split at h
    · cases h
    · rename_i cs hcs
      split at h
      · cases h
      · rename_i m1 h1
        simp only [fourExtras]
        split
        · rename_i hp
          rw [hcs]
          have aux : ∀ (cs : List Nat) (m m1 : Mapping) (f : Foursome) (v : Nat), placeCols g p v cs m = .ok m1 →
              ∃ f', fourCols g j0 i0 v cs f = .ok f' := by
            intro cs
            induction cs with
            | nil => intro m m1 f v _; exact ⟨f, rfl⟩
            | cons c cs ihc =>
              intro m m1 f v hh
              simp only [placeCols] at hh
              split at hh
              · cases hh
              · rename_i m2 h2
                have hc : ∃ f2, fourCol g j0 i0 v f c = .ok f2 := by
                  unfold placeCol at h2
                  unfold fourCol
                  split at h2
                  · cases h2
                  · rename_i h0
                    rw [if_neg h0]
                    dsimp only at h2 ⊢
                    have e1 := div_mod_of (n := g.ni + 1) (a := i0) (b := j0) (by omega)
                    have e2 : p / (g.ni + 1) = j0 ∧ p % (g.ni + 1) = i0 := by
                      rw [hp, Nat.mul_comm]; exact e1
                    rw [e2.1, e2.2] at h2
                    split at h2
                    · rename_i hcond
                      rw [if_pos]
                      · exact ⟨_, rfl⟩
                      · obtain ⟨a, b⟩ := hcond
                        constructor <;> omega
                    · cases h2
                obtain ⟨f2, hf2⟩ := hc
                simp only [fourCols, hf2]
                exact ihc _ _ _ _ hh
          obtain ⟨f2, hf2⟩ := aux cs m m1 f _ h1
          simp only [hf2]
          exact ih h f2
        · exact ih h f

/-! ## Split faces -/

/-- the answer for the face between a column and the next in J -/
def splitJ (m : Mapping) (j i : Nat) : Bool := m (j + 1) i 0 0 != m j i 1 0 || m (j + 1) i 0 1 != m j i 1 1

/-- the answer for the face between a column and the next in I -/
def splitI (m : Mapping) (j i : Nat) : Bool := m j (i + 1) 0 0 != m j i 0 1 || m j (i + 1) 1 0 != m j i 1 1

theorem isSplitFace_j {g : Grid} (m : Mapping) (hs : g.hasSplit = true) (j i : Nat) :
    isSplitFace g m (j + 1) i 1 false = .ok (splitJ m j i) := by
  unfold isSplitFace
  simp [hs, splitJ]

theorem isSplitFace_i {g : Grid} (m : Mapping) (hs : g.hasSplit = true) (j i : Nat) :
    isSplitFace g m j (i + 1) 2 false = .ok (splitI m j i) := by
  unfold isSplitFace
  simp [hs, splitI]

theorem markIf_iff (c b : Bool) (f : Flags) (j i j' i' : Nat) :
    markIf c (.ok b) f j i j' i' = true ↔ (c = true ∧ b = true ∧ j' = j ∧ i' = i) ∨ f j' i' = true := by
  unfold markIf Flags.setTrue
  by_cases hc : c = true <;> by_cases hb : b = true <;> by_cases hj : j' = j <;> by_cases hi : i' = i <;>
    simp [hc, hb, hj, hi]

/-- a face in the J array is marked for a split pillar at either end, save that the low end is ignored in the last column -/
def marksJ (g : Grid) (m : Mapping) (j i p : Nat) : Prop :=
  splitJ m j i = true ∧ j + 1 < g.nj ∧
    (p = (j + 1) * (g.ni + 1) + (i + 1) ∨ (i + 1 < g.ni ∧ p = (j + 1) * (g.ni + 1) + i))

def marksI (g : Grid) (m : Mapping) (j i p : Nat) : Prop :=
  splitI m j i = true ∧ i + 1 < g.ni ∧
    (p = (j + 1) * (g.ni + 1) + (i + 1) ∨ (j + 1 < g.nj ∧ p = j * (g.ni + 1) + (i + 1)))

theorem pillar_eq {n p a b : Nat} (hb : b < n) : p = a * n + b ↔ p / n = a ∧ p % n = b := by
  constructor
  · intro h
    subst h
    exact div_mod_of hb
  · rintro ⟨h1, h2⟩
    have := eq_of_div_mod p n
    rw [h1, h2] at this
    exact this

theorem faceStep_fst {g : Grid} {m : Mapping} (hs : g.hasSplit = true) (s : Flags × Flags) (p j i : Nat) (hi : i < g.ni) :
    (faceStep g m s p).1 j i = true ↔ marksJ g m j i p ∨ s.1 j i = true := by
  unfold faceStep marksJ
  dsimp only
  rw [pillar_eq (n := g.ni + 1) (p := p) (a := j + 1) (b := i + 1) (by omega),
    pillar_eq (n := g.ni + 1) (p := p) (a := j + 1) (b := i) (by omega)]
  generalize p / (g.ni + 1) = jp
  generalize p % (g.ni + 1) = ip
  by_cases hj : 0 < jp ∧ jp < g.nj
  · rw [if_pos hj]
    obtain ⟨jp, rfl⟩ : ∃ k, jp = k + 1 := ⟨jp - 1, by omega⟩
    rw [isSplitFace_j m hs, isSplitFace_j m hs, markIf_iff, markIf_iff]
    constructor
    · rintro (⟨h1, h2, h3, h4⟩ | ⟨h1, h2, h3, h4⟩ | h)
      · simp only [decide_eq_true_eq] at h1
        have h3' : j = jp := by omega
        subst h3' h4
        exact Or.inl ⟨h2, by omega, Or.inr ⟨h1, rfl, rfl⟩⟩
      · simp only [decide_eq_true_eq] at h1
        have h3' : j = jp := by omega
        subst h3' h4
        exact Or.inl ⟨h2, by omega, Or.inl ⟨rfl, by omega⟩⟩
      · exact Or.inr h
    · rintro (⟨h1, h2, (⟨h3, h4⟩ | ⟨h5, h3, h4⟩)⟩ | h)
      · refine Or.inr (Or.inl ⟨by simp [h4], ?_, by omega, by omega⟩)
        have e1 : jp = j := by omega
        have e2 : ip - 1 = i := by omega
        rw [e1, e2]; exact h1
      · refine Or.inl ⟨by simp only [decide_eq_true_eq]; omega, ?_, by omega, by omega⟩
        have e1 : jp = j := by omega
        rw [e1, h4]; exact h1
      · exact Or.inr (Or.inr h)
  · rw [if_neg hj]
    constructor
    · exact Or.inr
    · rintro (⟨_, h2, (⟨h3, _⟩ | ⟨_, h3, _⟩)⟩ | h)
      · omega
      · omega
      · exact h

theorem faceStep_snd {g : Grid} {m : Mapping} (hs : g.hasSplit = true) (s : Flags × Flags) (p j i : Nat) (hi : i + 1 < g.ni) :
    (faceStep g m s p).2 j i = true ↔ marksI g m j i p ∨ s.2 j i = true := by
  unfold faceStep marksI
  dsimp only
  rw [pillar_eq (n := g.ni + 1) (p := p) (a := j + 1) (b := i + 1) (by omega),
    pillar_eq (n := g.ni + 1) (p := p) (a := j) (b := i + 1) (by omega)]
  generalize p / (g.ni + 1) = jp
  generalize p % (g.ni + 1) = ip
  by_cases hj : 0 < ip ∧ ip < g.ni
  · rw [if_pos hj]
    obtain ⟨ip, rfl⟩ : ∃ k, ip = k + 1 := ⟨ip - 1, by omega⟩
    rw [isSplitFace_i m hs, isSplitFace_i m hs, markIf_iff, markIf_iff]
    constructor
    · rintro (⟨h1, h2, h3, h4⟩ | ⟨h1, h2, h3, h4⟩ | h)
      · simp only [decide_eq_true_eq] at h1
        have h4' : i = ip := by omega
        subst h3 h4'
        exact Or.inl ⟨h2, by omega, Or.inr ⟨h1, rfl, rfl⟩⟩
      · simp only [decide_eq_true_eq] at h1
        have h4' : i = ip := by omega
        subst h3 h4'
        exact Or.inl ⟨h2, by omega, Or.inl ⟨by omega, rfl⟩⟩
      · exact Or.inr h
    · rintro (⟨h1, h2, (⟨h3, h4⟩ | ⟨h5, h3, h4⟩)⟩ | h)
      · refine Or.inr (Or.inl ⟨by simp [h3], ?_, by omega, by omega⟩)
        have e1 : jp - 1 = j := by omega
        have e2 : ip = i := by omega
        rw [e1, e2]; exact h1
      · refine Or.inl ⟨by simp only [decide_eq_true_eq]; omega, ?_, by omega, by omega⟩
        have e1 : ip = i := by omega
        rw [e1, h3]; exact h1
      · exact Or.inr (Or.inr h)
  · rw [if_neg hj]
    constructor
    · exact Or.inr
    · rintro (⟨_, h2, (⟨_, h3⟩ | ⟨_, _, h3⟩)⟩ | h)
      · omega
      · omega
      · exact h

theorem fold_fst {g : Grid} {m : Mapping} (hs : g.hasSplit = true) (ps : List Nat) (s : Flags × Flags) (j i : Nat)
    (hi : i < g.ni) : (ps.foldl (faceStep g m) s).1 j i = true ↔ (∃ p ∈ ps, marksJ g m j i p) ∨ s.1 j i = true := by
  induction ps generalizing s with
  | nil => simp
  | cons p ps ih =>
    rw [List.foldl_cons, ih, faceStep_fst hs s p j i hi]
    simp only [List.mem_cons, exists_eq_or_imp]
    rw [or_left_comm, or_assoc]

theorem fold_snd {g : Grid} {m : Mapping} (hs : g.hasSplit = true) (ps : List Nat) (s : Flags × Flags) (j i : Nat)
    (hi : i + 1 < g.ni) : (ps.foldl (faceStep g m) s).2 j i = true ↔ (∃ p ∈ ps, marksI g m j i p) ∨ s.2 j i = true := by
  induction ps generalizing s with
  | nil => simp
  | cons p ps ih =>
    rw [List.foldl_cons, ih, faceStep_snd hs s p j i hi]
    simp only [List.mem_cons, exists_eq_or_imp]
    rw [or_left_comm, or_assoc]

/-- a corner using anything but its natural pillar is at a pillar that has been split -/
theorem corner_split {g : Grid} {m : Mapping} (h : columnPillarMapping g = .ok m) {j i jp ip : Nat} (hi : i < g.ni)
    (hip : ip ≤ 1) (hm : m j i jp ip ≠ corner g j i jp ip) : corner g j i jp ip ∈ g.spi := by
  by_contra hc
  apply hm
  rw [mapping_val h hi hip]
  split
  · apply scan_congr_start
    intro k hk
    exact hc (List.mem_of_getElem? hk)
  · rfl

theorem splitJ_pillar {g : Grid} {m : Mapping} (h : columnPillarMapping g = .ok m) {j i : Nat} (hi : i < g.ni)
    (hs : splitJ m j i = true) :
    (j + 1) * (g.ni + 1) + i ∈ g.spi ∨ (j + 1) * (g.ni + 1) + (i + 1) ∈ g.spi := by
  by_contra hc
  push Not at hc
  unfold splitJ at hs
  have key : ∀ j' jp ip, j' + jp = j + 1 → ip ≤ 1 → m j' i jp ip = (j + 1) * (g.ni + 1) + (i + ip) := by
    intro j' jp ip e hip
    by_contra hm
    have hcor : corner g j' i jp ip = (j + 1) * (g.ni + 1) + (i + ip) := by unfold corner; rw [e]
    have := corner_split h hi hip (jp := jp) (j := j') (by rw [hcor]; exact hm)
    rw [hcor] at this
    rcases Nat.le_one_iff_eq_zero_or_eq_one.mp hip with rfl | rfl
    · exact hc.1 this
    · exact hc.2 this
  rw [key (j + 1) 0 0 (by omega) (by omega), key j 1 0 (by omega) (by omega), key (j + 1) 0 1 (by omega) (by omega),
    key j 1 1 (by omega) (by omega)] at hs
  simp at hs

theorem splitI_pillar {g : Grid} {m : Mapping} (h : columnPillarMapping g = .ok m) {j i : Nat} (hi : i + 1 < g.ni)
    (hs : splitI m j i = true) :
    j * (g.ni + 1) + (i + 1) ∈ g.spi ∨ (j + 1) * (g.ni + 1) + (i + 1) ∈ g.spi := by
  by_contra hc
  push Not at hc
  unfold splitI at hs
  have key : ∀ i' jp ip, i' + ip = i + 1 → i' < g.ni → jp ≤ 1 → ip ≤ 1 → m j i' jp ip = (j + jp) * (g.ni + 1) + (i + 1) := by
    intro i' jp ip e hi' hjp hip
    by_contra hm
    have hcor : corner g j i' jp ip = (j + jp) * (g.ni + 1) + (i + 1) := by unfold corner; rw [e]
    have := corner_split h hi' hip (jp := jp) (j := j) (by rw [hcor]; exact hm)
    rw [hcor] at this
    rcases Nat.le_one_iff_eq_zero_or_eq_one.mp hjp with rfl | rfl
    · exact hc.1 this
    · exact hc.2 this
  rw [key (i + 1) 0 0 (by omega) (by omega) (by omega) (by omega), key i 0 1 (by omega) (by omega) (by omega) (by omega),
    key (i + 1) 1 0 (by omega) (by omega) (by omega) (by omega), key i 1 1 (by omega) (by omega) (by omega) (by omega)] at hs
  simp at hs

end Verif.Pillars
