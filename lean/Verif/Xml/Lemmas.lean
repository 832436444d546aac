import Verif.Xml.Model

namespace Verif.Xml
open Verif.Py

theorem hexChar_facts : ∀ d : Nat, d < 16 → hexVal? (hexChar d) = some d ∧ hexChar d ≠ '-' ∧ hexChar d ≠ '}' ∧
    hexChar d ≠ ':' ∧ hexChar d ≠ '/' ∧ hexChar d ≠ '_' := by decide

theorem hexFix_length (w u : Nat) : (hexFix w u).length = w := by
  induction w generalizing u with
  | zero => rfl
  | succ w ih => simp [hexFix, ih]

theorem hexFix_mem (w u : Nat) : ∀ c ∈ hexFix w u, ∃ d, d < 16 ∧ c = hexChar d := by
  induction w generalizing u with
  | zero => simp [hexFix]
  | succ w ih =>
    intro c hc
    simp only [hexFix, List.mem_append, List.mem_singleton] at hc
    rcases hc with hc | hc
    · exact ih _ c hc
    · exact ⟨u % 16, by omega, hc⟩

theorem readHex_append (acc : Nat) (a b : List Char) :
    readHex acc (a ++ b) = (readHex acc a).bind (readHex · b) := by
  induction a generalizing acc with
  | nil => rfl
  | cons c cs ih =>
    simp only [List.cons_append, readHex]
    cases hexVal? c with
    | none => rfl
    | some d => exact ih _

theorem readHex_hexFix (w u : Nat) : readHex 0 (hexFix w u) = some (u % 16 ^ w) := by
  induction w generalizing u with
  | zero => simp [hexFix, readHex, Nat.mod_one]
  | succ w ih =>
    rw [hexFix, readHex_append, ih]
    simp only [Option.bind_some, readHex, (hexChar_facts (u % 16) (by omega)).1]
    congr 1
    rw [Nat.pow_succ', Nat.mod_mul]
    omega

theorem uuidStr_length (u : Nat) : (uuidStr u).length = 36 := by
  have := hexFix_length 32 u
  simp [uuidStr, hyphenate, this]

theorem uuidStr_mem (u : Nat) : ∀ c ∈ uuidStr u, c = '-' ∨ ∃ d, d < 16 ∧ c = hexChar d := by
  intro c hc
  have key := hexFix_mem 32 u c
  simp only [uuidStr, hyphenate, List.mem_append, List.mem_cons] at hc
  rcases hc with h | h | h | h | h | h | h | h | h
  · exact .inr (key (List.mem_of_mem_take h))
  · exact .inl h
  · exact .inr (key (List.mem_of_mem_drop (List.mem_of_mem_take h)))
  · exact .inl h
  · exact .inr (key (List.mem_of_mem_drop (List.mem_of_mem_take h)))
  · exact .inl h
  · exact .inr (key (List.mem_of_mem_drop (List.mem_of_mem_take h)))
  · exact .inl h
  · exact .inr (key (List.mem_of_mem_drop h))

theorem uuidStr_not_mem (u : Nat) (c : Char) (h : c = '}' ∨ c = ':' ∨ c = '/' ∨ c = '_') : c ∉ uuidStr u := by
  intro hc
  rcases uuidStr_mem u c hc with rfl | ⟨d, hd, rfl⟩
  · revert h; decide
  · have := hexChar_facts d hd
    rcases h with h | h | h | h
    · exact this.2.2.1 h
    · exact this.2.2.2.1 h
    · exact this.2.2.2.2.1 h
    · exact this.2.2.2.2.2 h

theorem filter_hyphenate (h : List Char) (hm : ∀ c ∈ h, c ≠ '-') : (hyphenate h).filter (· ≠ '-') = h := by
  have hf : ∀ l : List Char, (∀ c ∈ l, c ∈ h) → l.filter (· ≠ '-') = l := by
    intro l hsub
    rw [List.filter_eq_self]
    intro c hc
    simpa using hm c (hsub c hc)
  simp only [hyphenate, List.filter_append, List.filter_cons]
  rw [hf _ (fun c hc => List.mem_of_mem_take hc),
    hf _ (fun c hc => List.mem_of_mem_drop (List.mem_of_mem_take hc)),
    hf _ (fun c hc => List.mem_of_mem_drop (List.mem_of_mem_take hc)),
    hf _ (fun c hc => List.mem_of_mem_drop (List.mem_of_mem_take hc)),
    hf _ (fun c hc => List.mem_of_mem_drop hc)]
  simp only [ne_eq, not_true_eq_false, decide_false]
  have h1 : h = h.take 8 ++ h.drop 8 := (List.take_append_drop 8 h).symm
  have h2 : h.drop 8 = (h.drop 8).take 4 ++ h.drop 12 := by
    have := (List.take_append_drop 4 (h.drop 8)).symm
    simpa [List.drop_drop] using this
  have h3 : h.drop 12 = (h.drop 12).take 4 ++ h.drop 16 := by
    have := (List.take_append_drop 4 (h.drop 12)).symm
    simpa [List.drop_drop] using this
  have h4 : h.drop 16 = (h.drop 16).take 4 ++ h.drop 20 := by
    have := (List.take_append_drop 4 (h.drop 16)).symm
    simpa [List.drop_drop] using this
  simp only [Bool.false_eq_true, if_false]
  rw [← h4, ← h3, ← h2, ← h1]

theorem uuidParse_hyphenate (h : List Char) (hl : h.length = 32) (hm : ∀ c ∈ h, c ≠ '-') :
    uuidParse (hyphenate h) = readHex 0 h := by
  unfold uuidParse
  rw [filter_hyphenate h hm]
  simp only [hl, if_true]

theorem pow_128 : (16 : Nat) ^ 32 = 2 ^ 128 := by decide

theorem uuidParse_uuidStr (u : Nat) (hu : u < 2 ^ 128) : uuidParse (uuidStr u) = some u := by
  rw [uuidStr, uuidParse_hyphenate _ (hexFix_length 32 u), readHex_hexFix, pow_128, Nat.mod_eq_of_lt hu]
  intro c hc
  obtain ⟨d, hd, rfl⟩ := hexFix_mem 32 u c hc
  exact (hexChar_facts d hd).2.1

theorem rfind_append_left (c : Char) (a b : List Char) (h : c ∉ b) : rfind c (a ++ b) = rfind c a := by
  induction a with
  | nil => rw [List.nil_append, (rfind_none c b).2 h]; rfl
  | cons x xs ih => simp [rfind, ih]

theorem rfind_lt {c : Char} {s : List Char} {n : Nat} (h : rfind c s = some n) : n < s.length := by
  obtain ⟨a, b, h1, h2, _⟩ := rfind_some h
  subst h1; simp; omega

theorem stripped_append (x b : List Char) (h1 : '}' ∉ b) (h2 : ':' ∉ b) :
    strippedOfPrefix (x ++ b) = strippedOfPrefix x ++ b := by
  unfold strippedOfPrefix
  rw [rfind_append_left _ _ _ h1, rfind_append_left _ _ _ h2]
  cases h : rfind '}' x with
  | some p =>
    have := rfind_lt h
    simp only [List.drop_append_of_le_length (by omega : p + 1 ≤ x.length)]
  | none =>
    cases h : rfind ':' x with
    | some p =>
      have := rfind_lt h
      simp only [List.drop_append_of_le_length (by omega : p + 1 ≤ x.length)]
    | none => rfl

theorem stripped_self (s : List Char) (h1 : '}' ∉ s) (h2 : ':' ∉ s) : strippedOfPrefix s = s := by
  unfold strippedOfPrefix
  rw [(rfind_none _ _).2 h1, (rfind_none _ _).2 h2]

/-- the relationships part name keeps the tail of the part name -/
theorem relsPartName_tail (x b : List Char) (h1 : '}' ∉ b) (h2 : ':' ∉ b) (h3 : '/' ∉ b) (hb : b ≠ []) :
    ∃ y, relsPartName (x ++ b) = some (y ++ (b ++ dotRels)) := by
  unfold relsPartName
  rw [stripped_append x b h1 h2]
  generalize strippedOfPrefix x = s
  have hbl : 0 < b.length := by cases b with | nil => exact absurd rfl hb | cons _ _ => simp
  have hl : ¬ (s ++ b).length = 0 := by rw [List.length_append]; omega
  simp only [hl, if_false]
  rw [rfind_append_left _ _ _ h3]
  cases h : rfind '/' s with
  | none => exact ⟨relsDir ++ '/' :: s, by simp⟩
  | some d =>
    have hd := rfind_lt h
    dsimp only
    by_cases hd0 : d = 0
    · simp only [hd0, if_true]; exact ⟨relsDir ++ s, by simp⟩
    · simp only [hd0, if_false]
      have : ¬ d = (s ++ b).length - 1 := by rw [List.length_append]; omega
      simp only [this, if_false]
      refine ⟨(s ++ b).take (d + 1) ++ (relsDir ++ s.drop d), ?_⟩
      rw [List.drop_append_of_le_length (by omega)]
      simp

/-- A name ending in a uuid and `.xml`. -/
theorem uuidInPartName_tail (x : List Char) (u : Nat) (hu : u < 2 ^ 128) :
    uuidInPartName (x ++ (uuidStr u ++ dotXml)) = .ok (some u) := by
  have hl := uuidStr_length u
  have e4 : lastN 4 (x ++ (uuidStr u ++ dotXml)) = dotXml := by
    rw [← List.append_assoc]; exact lastN_append _ dotXml
  have e40 : lastN 40 (x ++ (uuidStr u ++ dotXml)) = uuidStr u ++ dotXml := by
    have : (uuidStr u ++ dotXml).length = 40 := by simp [hl, dotXml]
    rw [← this]; exact lastN_append _ _
  have hlen : 40 ≤ (x ++ (uuidStr u ++ dotXml)).length := by simp [hl, dotXml]
  have et : (uuidStr u ++ dotXml).take 36 = uuidStr u := by
    rw [← hl]; exact List.take_left' rfl
  simp only [uuidInPartName, uuidStrInPartName, e4, hlen, and_self, if_true, e40, et,
    uuidParse_uuidStr u hu]

theorem uuidInPartName_rels_tail (x : List Char) (u : Nat) (hu : u < 2 ^ 128) :
    uuidInPartName (x ++ ((uuidStr u ++ dotXml) ++ dotRels)) = .ok (some u) := by
  have hl := uuidStr_length u
  have e4 : lastN 4 (x ++ ((uuidStr u ++ dotXml) ++ dotRels)) = ['r', 'e', 'l', 's'] := by
    have : x ++ ((uuidStr u ++ dotXml) ++ dotRels) = (x ++ (uuidStr u ++ dotXml) ++ ['.']) ++ ['r', 'e', 'l', 's'] := by
      simp [dotRels]
    rw [this]; exact lastN_append _ ['r', 'e', 'l', 's']
  have e9 : lastN 9 (x ++ ((uuidStr u ++ dotXml) ++ dotRels)) = dotXml ++ dotRels := by
    have : x ++ ((uuidStr u ++ dotXml) ++ dotRels) = (x ++ uuidStr u) ++ (dotXml ++ dotRels) := by simp
    rw [this]; exact lastN_append _ (dotXml ++ dotRels)
  have e45 : lastN 45 (x ++ ((uuidStr u ++ dotXml) ++ dotRels)) = (uuidStr u ++ dotXml) ++ dotRels := by
    have : ((uuidStr u ++ dotXml) ++ dotRels).length = 45 := by simp [hl, dotXml, dotRels]
    rw [← this]; exact lastN_append _ _
  have hlen : 45 ≤ (x ++ ((uuidStr u ++ dotXml) ++ dotRels)).length := by simp [hl, dotXml, dotRels]
  have hne : ¬ (['r', 'e', 'l', 's'] = dotXml) := by decide
  have et : ((uuidStr u ++ dotXml) ++ dotRels).take 36 = uuidStr u := by
    rw [List.append_assoc, ← hl]; exact List.take_left' rfl
  simp only [uuidInPartName, uuidStrInPartName, e4, hne, false_and, if_false, e9, hlen, and_self, if_true,
    e45, et, uuidParse_uuidStr u hu]

end Verif.Xml
