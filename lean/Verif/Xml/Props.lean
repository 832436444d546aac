import Verif.Xml.Lemmas
import Mathlib.Data.List.Forall2
import Verif.Box.Lemmas

/-!
# Properties C09 – C11, C39, C40: names, tags, text, uuids, ordered lookup
-/

namespace Verif.Xml
open Verif.Py Verif.Box

/-! ## C09 part names -/

private theorem partName_shape (t : List Char) (u : Nat) (pre : Bool) (sub p : List Char)
    (h : partNameForObject t u pre sub = .ok p) : ∃ x, p = x ++ (uuidStr u ++ dotXml) := by
  unfold partNameForObject at h
  have key : ∀ (b : List Char), (do
      let pre := if startsWith objPrefix t then b else b ++ objPrefix
      let pre := if sub = [] then pre
        else (if endsWith ['/'] sub then sub else sub ++ ['/']) ++ pre
      return pre ++ t ++ '_' :: (uuidStr u ++ dotXml) : Res (List Char)) = .ok p →
      ∃ x, p = x ++ (uuidStr u ++ dotXml) := by
    intro b hb
    simp only [pure, Except.pure, Except.ok.injEq] at hb
    subst hb
    exact ⟨_ ++ t ++ ['_'], by simp only [List.append_assoc, List.cons_append, List.nil_append]; rfl⟩
  cases pre with
  | false => exact key [] h
  | true =>
    cases t with
    | nil => exact absurd h (by simp [Functor.map, Except.map])
    | cons c cs => exact key _ h

/-- The uuid found in the part name generated for an object is the uuid of the object, whatever the
object type, prefixing and sub-directory. -/
theorem C09_part_name_gives_uuid (t : List Char) (u : Nat) (hu : u < 2 ^ 128) (pre : Bool) (sub p : List Char)
    (h : partNameForObject t u pre sub = .ok p) : uuidInPartName p = .ok (some u) := by
  obtain ⟨x, rfl⟩ := partName_shape t u pre sub p h
  exact uuidInPartName_tail x u hu

/-- Objects with different uuids have different part names. -/
theorem C09_part_names_distinct (t t' : List Char) (u u' : Nat) (hu : u < 2 ^ 128) (hu' : u' < 2 ^ 128)
    (pre pre' : Bool) (sub sub' p : List Char) (h : partNameForObject t u pre sub = .ok p)
    (h' : partNameForObject t' u' pre' sub' = .ok p) : u = u' := by
  have h1 := C09_part_name_gives_uuid t u hu pre sub p h
  have h2 := C09_part_name_gives_uuid t' u' hu' pre' sub' p h'
  rw [h1] at h2
  simpa using h2

/-- The relationships part of a part is named, and its name gives the same uuid. -/
theorem C09_rels_name_gives_uuid (t : List Char) (u : Nat) (hu : u < 2 ^ 128) (pre : Bool) (sub p : List Char)
    (h : partNameForObject t u pre sub = .ok p) :
    ∃ q, relsPartName p = some q ∧ uuidInPartName q = .ok (some u) := by
  obtain ⟨x, rfl⟩ := partName_shape t u pre sub p h
  have hn : ∀ c, (c = '}' ∨ c = ':' ∨ c = '/') → c ∉ uuidStr u ++ dotXml := by
    intro c hc hm
    rcases List.mem_append.1 hm with hm | hm
    · exact uuidStr_not_mem u c (by rcases hc with h | h | h <;> simp [h]) hm
    · rcases hc with rfl | rfl | rfl <;> revert hm <;> decide
  obtain ⟨y, hy⟩ := relsPartName_tail x (uuidStr u ++ dotXml) (hn _ (by simp)) (hn _ (by simp)) (hn _ (by simp))
    (by simp [dotXml])
  exact ⟨_, hy, uuidInPartName_rels_tail y u hu⟩

example : ∃ p, partNameForObject ['o', 'b', 'j', '_', 'X'] 5 false [] = .ok p ∧
    uuidInPartName p = .ok (some 5) ∧ p.length = 46 := by
  refine ⟨_, rfl, ?_, ?_⟩ <;> decide

private theorem split_at_last_slash (p : List Char) :
    ('/' ∉ p ∧ rfind '/' p = none) ∨ ∃ a b, p = a ++ '/' :: b ∧ '/' ∉ b ∧ rfind '/' p = some a.length := by
  by_cases h : '/' ∈ p
  · right
    cases hr : rfind '/' p with
    | none => exact absurd h ((rfind_none _ _).1 hr)
    | some n =>
      obtain ⟨a, b, h1, h2, h3⟩ := rfind_some hr
      exact ⟨a, b, h1, h3, by rw [h2]⟩
  · left; exact ⟨h, (rfind_none _ _).2 h⟩

private theorem relsPartName_cases (p q : List Char) (h1 : '}' ∉ p) (h2 : ':' ∉ p)
    (h : relsPartName p = some q) :
    ∃ dir base, '/' ∉ base ∧ q = dir ++ (relsDir ++ '/' :: (base ++ dotRels)) ∧
      ((dir = [] ∧ (p = base ∨ p = '/' :: base)) ∨ (dir ≠ [] ∧ p = dir ++ base ∧ ∃ a, a ≠ [] ∧ dir = a ++ ['/'])) := by
  unfold relsPartName at h
  rw [stripped_self p h1 h2] at h
  dsimp only at h
  by_cases hl : p.length = 0
  · simp [hl] at h
  · simp only [hl, if_false] at h
    rcases split_at_last_slash p with ⟨hn, hr⟩ | ⟨a, b, he, hb, hr⟩
    · rw [hr] at h
      simp only [Option.some.injEq] at h
      exact ⟨[], p, hn, by simp [← h], .inl ⟨rfl, .inl rfl⟩⟩
    · rw [hr] at h
      dsimp only at h
      by_cases ha : a.length = 0
      · have ha' : a = [] := List.eq_nil_of_length_eq_zero ha
        subst ha'
        simp only [List.nil_append] at he
        simp only [List.length_nil, if_true, Option.some.injEq] at h
        refine ⟨[], b, hb, ?_, .inl ⟨rfl, .inr he⟩⟩
        rw [← h, he]; simp
      · simp only [ha, if_false] at h
        by_cases hlast : a.length = p.length - 1
        · simp [hlast] at h
        · simp only [hlast, if_false, Option.some.injEq] at h
          have ha' : a ≠ [] := by rintro rfl; simp at ha
          refine ⟨a ++ ['/'], b, hb, ?_, .inr ⟨by simp, by simp [he], a, ha', rfl⟩⟩
          rw [← h, he]
          have t1 : (a ++ '/' :: b).take (a.length + 1) = a ++ ['/'] := by
            rw [show a ++ '/' :: b = (a ++ ['/']) ++ b by simp]
            exact List.take_left' (by simp)
          have t2 : (a ++ '/' :: b).drop a.length = '/' :: b := List.drop_left' rfl
          rw [t1, t2]; simp

/-- The relationships part name identifies the part, up to a single leading slash, among part names
that carry no namespace prefix. -/
theorem C09_rels_name_identifies_part (p p' q : List Char) (h1 : '}' ∉ p) (h2 : ':' ∉ p) (h1' : '}' ∉ p')
    (h2' : ':' ∉ p') (h : relsPartName p = some q) (h' : relsPartName p' = some q) :
    p = p' ∨ p = '/' :: p' ∨ p' = '/' :: p := by
  obtain ⟨d, b, hb, e, c⟩ := relsPartName_cases p q h1 h2 h
  obtain ⟨d', b', hb', e', c'⟩ := relsPartName_cases p' q h1' h2' h'
  have hne : ∀ x : List Char, '/' ∉ x → '/' ∉ x ++ dotRels := by
    intro x hx hm
    rcases List.mem_append.1 hm with hm | hm
    · exact hx hm
    · revert hm; decide
  have l1 : rfind '/' q = some (d ++ relsDir).length := by
    rw [e, ← List.append_assoc]; exact rfind_append _ _ _ (hne b hb)
  have l2 : rfind '/' q = some (d' ++ relsDir).length := by
    rw [e', ← List.append_assoc]; exact rfind_append _ _ _ (hne b' hb')
  have hlen : d.length = d'.length := by
    rw [l1] at l2
    simpa using l2
  rw [e] at e'
  obtain ⟨hd, hrest⟩ := List.append_inj e' hlen
  have hbb : b = b' := by
    have h3 := List.append_cancel_left hrest
    simp only [List.cons.injEq, true_and] at h3
    exact List.append_cancel_right h3
  subst hd; subst hbb
  rcases c with ⟨hd0, c⟩ | ⟨hd0, c, _⟩
  · rcases c' with ⟨_, c'⟩ | ⟨hd0', _⟩
    · rcases c with rfl | rfl <;> rcases c' with rfl | rfl <;> simp
    · exact absurd hd0 hd0'
  · rcases c' with ⟨hd0', _⟩ | ⟨_, c', _⟩
    · exact absurd hd0' hd0
    · left; rw [c, c']

example : relsPartName ['d', '/', 'p'] = some ['d', '/', '_', 'r', 'e', 'l', 's', '/', 'p', '.', 'r', 'e', 'l', 's'] := by
  decide

/-! ## C39 tag matching -/

/-- `xmlName` is a tag whose (prefix stripped) local name carries no further colon. -/
def WellFormedTag (xmlName : List Char) : Prop :=
  ':' ∉ strippedOfPrefix xmlName

private theorem stripped_decomp (s : List Char) :
    (strippedOfPrefix s = s ∧ '}' ∉ s ∧ ':' ∉ s) ∨
    (∃ a ch, (ch = '}' ∨ ch = ':') ∧ s = a ++ ch :: strippedOfPrefix s ∧ '}' ∉ strippedOfPrefix s) := by
  unfold strippedOfPrefix
  cases h : rfind '}' s with
  | some p =>
    right
    obtain ⟨a, b, h1, h2, h3⟩ := rfind_some h
    subst h1
    refine ⟨a, '}', .inl rfl, ?_, ?_⟩
    · dsimp only
      rw [← h2, show (a ++ '}' :: b).drop (a.length + 1) = b by
        rw [show a ++ '}' :: b = (a ++ ['}']) ++ b by simp]; exact List.drop_left' (by simp)]
    · dsimp only
      rw [← h2, show (a ++ '}' :: b).drop (a.length + 1) = b by
        rw [show a ++ '}' :: b = (a ++ ['}']) ++ b by simp]; exact List.drop_left' (by simp)]
      exact h3
  | none =>
    have hn := (rfind_none _ _).1 h
    cases h' : rfind ':' s with
    | some p =>
      right
      obtain ⟨a, b, h1, h2, h3⟩ := rfind_some h'
      subst h1
      have e : (a ++ ':' :: b).drop (p + 1) = b := by
        rw [← h2, show a ++ ':' :: b = (a ++ [':']) ++ b by simp]; exact List.drop_left' (by simp)
      refine ⟨a, ':', .inr rfl, ?_, ?_⟩
      · dsimp only; rw [e]
      · dsimp only; rw [e]; intro hm; exact hn (by simp [hm])
    | none => left; exact ⟨rfl, hn, (rfind_none _ _).1 h'⟩

/-- A tag matches a plain name exactly when the tag with its namespace prefix removed is that name. -/
theorem C39_tag_match_iff (xmlName name : List Char) (hw : WellFormedTag xmlName) (h1 : '}' ∉ name)
    (h2 : ':' ∉ name) : tagMatch xmlName name = true ↔ strippedOfPrefix xmlName = name := by
  have hlen : ∀ (a : List Char) (ch : Char) (n : List Char),
      tagMatch (a ++ ch :: n) n = decide (ch = '}' ∨ ch = ':') := by
    intro a ch n
    unfold tagMatch
    have l1 : n.length < (a ++ ch :: n).length := by simp; omega
    have l2 : (a ++ ch :: n).length - n.length = a.length + 1 := by simp; omega
    rw [if_pos l1]
    dsimp only
    rw [l2]
    have g : (a ++ ch :: n)[a.length + 1 - 1]? = some ch := by simp
    rw [g]
    dsimp only
    have d : (a ++ ch :: n).drop (a.length + 1) = n := by
      rw [show a ++ ch :: n = (a ++ [ch]) ++ n by simp]; exact List.drop_left' (by simp)
    rw [d]
    by_cases c1 : ch = '}'
    · simp [c1]
    · by_cases c2 : ch = ':'
      · simp [c2]
      · simp [c1, c2]
  constructor
  · intro h
    unfold tagMatch at h
    by_cases l1 : name.length < xmlName.length
    · rw [if_pos l1] at h
      dsimp only at h
      generalize hi : xmlName.length - name.length = i at h
      have hi0 : i - 1 < xmlName.length := by omega
      rw [List.getElem?_eq_getElem hi0] at h
      dsimp only at h
      by_cases hc : xmlName[i - 1] ≠ '}' ∧ xmlName[i - 1] ≠ ':'
      · rw [if_pos hc] at h; simp at h
      · rw [if_neg hc, beq_iff_eq] at h
        have hdec : xmlName = xmlName.take (i - 1) ++ xmlName[i - 1] :: name := by
          have e1 := (List.take_append_drop (i - 1) xmlName).symm
          rw [List.drop_eq_getElem_cons hi0, show i - 1 + 1 = i by omega, h] at e1
          exact e1
        have hc' : xmlName[i - 1] = '}' ∨ xmlName[i - 1] = ':' := by
          by_cases c1 : xmlName[i - 1] = '}'
          · exact .inl c1
          · right
            by_cases c2 : xmlName[i - 1] = ':'
            · exact c2
            · exact absurd ⟨c1, c2⟩ hc
        generalize xmlName.take (i - 1) = a at hdec
        generalize xmlName[i - 1] = ch at hdec hc'
        subst hdec
        rw [show a ++ ch :: name = (a ++ [ch]) ++ name by simp] at hw ⊢
        rw [WellFormedTag, stripped_append _ _ h1 h2] at hw
        rw [stripped_append _ _ h1 h2]
        have : strippedOfPrefix (a ++ [ch]) = [] := by
          unfold strippedOfPrefix at hw ⊢
          rcases hc' with rfl | rfl
          · rw [rfind_append '}' a [] (by simp)]
            dsimp only
            apply List.drop_eq_nil_of_le; simp
          · cases hr : rfind '}' (a ++ [':']) with
            | some p =>
              rw [hr] at hw
              dsimp only at hw ⊢
              rw [rfind_append_left _ _ _ (by decide)] at hr
              have := rfind_lt hr
              exfalso
              apply hw
              rw [List.drop_append_of_le_length (by omega)]
              simp
            | none =>
              dsimp only
              rw [rfind_append ':' a [] (by simp)]
              dsimp only
              apply List.drop_eq_nil_of_le; simp
        rw [this]; simp
    · rw [if_neg l1] at h
      by_cases l2 : name.length = xmlName.length
      · rw [if_pos l2, beq_iff_eq] at h
        subst h
        exact stripped_self _ h1 h2
      · rw [if_neg l2] at h; simp at h
  · intro h
    rcases stripped_decomp xmlName with ⟨e, _, _⟩ | ⟨a, ch, hc, e, _⟩
    · rw [e] at h; subst h
      simp [tagMatch]
    · rw [h] at e
      rw [e, hlen]
      simpa using hc

example : WellFormedTag ['{', 'h', ':', '}', 'N', 'a'] ∧
    tagMatch ['{', 'h', ':', '}', 'N', 'a'] ['N', 'a'] = true := by
  unfold WellFormedTag; decide

/-! ## C40 the forms of a uuid -/

/-- The text of a uuid, also with a leading underscore, and with anything following, is read as that
uuid. -/
theorem C40_uuid_text_round_trip (u : Nat) (hu : u < 2 ^ 128) (tail : List Char) :
    uuidFromString (uuidStr u ++ tail) = some u ∧ uuidFromString ('_' :: (uuidStr u ++ tail)) = some u := by
  have hl := uuidStr_length u
  have ht : (uuidStr u ++ tail).take 36 = uuidStr u := List.take_left' hl
  have hp := uuidParse_uuidStr u hu
  have hm := uuidStr_not_mem u '_' (by simp)
  constructor
  · generalize hs : uuidStr u ++ tail = s at ht
    have hlen : ¬ s.length < 36 := by rw [← hs]; simp; omega
    cases s with
    | nil => exfalso; apply hlen; simp
    | cons c cs =>
      have hc : c ≠ '_' := by
        rintro rfl
        apply hm
        rw [← ht]; simp
      unfold uuidFromString
      split
      · rename_i h; simp at h
      · rename_i h; simp only [List.cons.injEq] at h; exact absurd h.1 hc
      · rw [if_neg hlen, ht, hp]
  · have hlen : ¬ ('_' :: (uuidStr u ++ tail)).length < 37 := by simp; omega
    simp only [uuidFromString]
    rw [if_neg hlen, ht, hp]

/-- the same character, or the upper case and lower case form of a hexadecimal digit -/
def SameDigit (c d : Char) : Prop :=
  c = d ∨ (c, d) ∈ [('A', 'a'), ('B', 'b'), ('C', 'c'), ('D', 'd'), ('E', 'e'), ('F', 'f')]

theorem SameDigit.hexVal {c d : Char} (h : SameDigit c d) : hexVal? c = hexVal? d := by
  rcases h with rfl | h
  · rfl
  · simp only [List.mem_cons, Prod.mk.injEq, List.not_mem_nil, or_false] at h
    rcases h with ⟨rfl, rfl⟩ | ⟨rfl, rfl⟩ | ⟨rfl, rfl⟩ | ⟨rfl, rfl⟩ | ⟨rfl, rfl⟩ | ⟨rfl, rfl⟩ <;> decide

theorem SameDigit.eq_iff {c d x : Char} (h : SameDigit c d) (hx : x = '-' ∨ x = '_') : c = x ↔ d = x := by
  rcases h with rfl | h
  · exact Iff.rfl
  · simp only [List.mem_cons, Prod.mk.injEq, List.not_mem_nil, or_false] at h
    rcases hx with rfl | rfl <;>
    rcases h with ⟨rfl, rfl⟩ | ⟨rfl, rfl⟩ | ⟨rfl, rfl⟩ | ⟨rfl, rfl⟩ | ⟨rfl, rfl⟩ | ⟨rfl, rfl⟩ <;> decide

theorem readHex_same {s t : List Char} (h : List.Forall₂ SameDigit s t) (acc : Nat) : readHex acc s = readHex acc t := by
  induction h generalizing acc with
  | nil => rfl
  | cons h _ ih =>
    simp only [readHex, h.hexVal]
    split
    · rfl
    · exact ih _

theorem same_filter {s t : List Char} (h : List.Forall₂ SameDigit s t) :
    List.Forall₂ SameDigit (s.filter (· ≠ '-')) (t.filter (· ≠ '-')) := by
  induction h with
  | nil => exact .nil
  | @cons c d _ _ h _ ih =>
    have := h.eq_iff (x := '-') (.inl rfl)
    by_cases hc : c = '-'
    · rw [List.filter_cons_of_neg (by simpa using hc), List.filter_cons_of_neg (by simpa using this.mp hc)]
      exact ih
    · rw [List.filter_cons_of_pos (by simpa using hc),
        List.filter_cons_of_pos (by simpa using fun hd => hc (this.mpr hd))]
      exact .cons h ih

theorem same_length {s t : List Char} (h : List.Forall₂ SameDigit s t) : s.length = t.length := by
  induction h with
  | nil => rfl
  | cons _ _ ih => simp [ih]

theorem same_take {s t : List Char} (h : List.Forall₂ SameDigit s t) (n : Nat) :
    List.Forall₂ SameDigit (s.take n) (t.take n) := by
  induction h generalizing n with
  | nil => simp
  | cons h _ ih =>
    cases n with
    | zero => simp
    | succ n => simpa using ⟨h, ih n⟩

theorem uuidParse_same {s t : List Char} (h : List.Forall₂ SameDigit s t) : uuidParse s = uuidParse t := by
  have hf := same_filter h
  unfold uuidParse
  dsimp only
  rw [same_length hf, readHex_same hf]

/-- The case of hexadecimal digits makes no difference to how any text is read. -/
theorem C40_letter_case_ignored (s t : List Char) (h : List.Forall₂ SameDigit s t) :
    uuidFromString s = uuidFromString t := by
  have hl := same_length h
  cases h with
  | nil => rfl
  | @cons c d s t hc hs =>
    have he := hc.eq_iff (x := '_') (.inr rfl)
    by_cases h_ : c = '_'
    · have hd := he.mp h_
      subst h_ hd
      simp only [uuidFromString]
      rw [hl, uuidParse_same (same_take hs 36)]
    · have hd : d ≠ '_' := fun e => h_ (he.mpr e)
      have key : ∀ (x : Char) (l : List Char), x ≠ '_' →
          uuidFromString (x :: l) = if (x :: l).length < 36 then none else uuidParse ((x :: l).take 36) := by
        intro x l hx
        unfold uuidFromString
        split
        · rename_i h; cases h
        · rename_i h; simp only [List.cons.injEq] at h; exact absurd h.1 hx
        · rfl
      rw [key _ _ h_, key _ _ hd, hl, uuidParse_same (same_take (List.Forall₂.cons hc hs) 36)]

example : uuidFromString ("0000000A-0000-0000-0000-00000000bCdE".toList) =
    uuidFromString ("0000000a-0000-0000-0000-00000000BCDE".toList) ∧
    uuidFromString ("0000000A-0000-0000-0000-00000000bCdE".toList) = some (10 * 2 ^ 96 + 0xbcde) := by
  decide +kernel

/-- Different uuids have different texts. -/
theorem C40_uuid_text_injective (u v : Nat) (hu : u < 2 ^ 128) (hv : v < 2 ^ 128) (h : uuidStr u = uuidStr v) :
    u = v := by
  have h1 := uuidParse_uuidStr u hu
  rw [h, uuidParse_uuidStr v hv] at h1
  simpa using h1.symm

/-- an argument that stands for uuid `u` in one of the accepted forms -/
inductive StandsFor : UuidArg → Nat → Prop where
  | obj (u : Nat) : StandsFor (.obj u) u
  | int (u : Nat) : StandsFor (.int u) u
  | text (u : Nat) : StandsFor (.str (uuidStr u)) u
  | underscored (u : Nat) : StandsFor (.str ('_' :: uuidStr u)) u
  | cased (u : Nat) (s : List Char) (h : List.Forall₂ SameDigit s (uuidStr u)) : StandsFor (.str s) u

/-- Two uuids given in any of the accepted forms match exactly when they are the same uuid. -/
theorem C40_matching_uuids_iff (a b : UuidArg) (u v : Nat) (hu : u < 2 ^ 128) (hv : v < 2 ^ 128)
    (ha : StandsFor a u) (hb : StandsFor b v) : matchingUuids a b = true ↔ u = v := by
  have key : ∀ (a : UuidArg) (u : Nat), u < 2 ^ 128 → StandsFor a u → a.toInt? = some u := by
    intro a u hu ha
    have hr := C40_uuid_text_round_trip u hu []
    simp only [List.append_nil] at hr
    cases ha with
    | obj => rfl
    | int => rfl
    | text => exact hr.1
    | underscored => exact hr.2
    | cased _ _ h => exact (C40_letter_case_ignored _ _ h).trans hr.1
  simp only [matchingUuids, key a u hu ha, key b v hv hb, beq_iff_eq]

/-- Nothing matches an absent uuid. -/
theorem C40_none_never_matches (b : UuidArg) : matchingUuids .none b = false ∧ matchingUuids b .none = false := by
  constructor
  · rfl
  · unfold matchingUuids
    cases b.toInt? <;> rfl

/-- Searching a list finds a uuid exactly when some member matches. -/
theorem C40_uuid_in_list_iff (a : UuidArg) (l : List UuidArg) :
    uuidInList a l = true ↔ ∃ b ∈ l, matchingUuids a b = true := by
  induction l with
  | nil => simp [uuidInList]
  | cons b bs ih =>
    unfold uuidInList
    by_cases h : matchingUuids a b = true
    · simp [h]
    · simp [h, ih]

example : matchingUuids (.str ('_' :: uuidStr 77)) (.int 77) = true ∧ matchingUuids (.obj 3) (.int 4) = false := by
  decide

/-! ## C10 text -/

/-- The property: the text of a leaf node is read back as it was. -/
def TextSurvives (isTitle : Bool) (t : List Char) : Prop :=
  ∀ rest, readData '<' none (writtenText isTitle t ++ '<' :: rest) = some (t, rest)

private def esc1 (c : Char) : List Char :=
  if c = '&' then ['&', 'a', 'm', 'p', ';'] else if c = '<' then ['&', 'l', 't', ';']
  else if c = '>' then ['&', 'g', 't', ';'] else [c]

private theorem replaceChar_append (c : Char) (r a b : List Char) :
    replaceChar c r (a ++ b) = replaceChar c r a ++ replaceChar c r b := by
  simp [replaceChar]

private theorem escape_cons (c : Char) (t : List Char) : escape (c :: t) = esc1 c ++ escape t := by
  unfold escape
  rw [show c :: t = [c] ++ t by rfl, replaceChar_append, replaceChar_append, replaceChar_append]
  congr 1
  unfold esc1
  by_cases h1 : c = '&'
  · subst h1; decide
  · by_cases h2 : c = '<'
    · subst h2; decide
    · by_cases h3 : c = '>'
      · subst h3; decide
      · simp [replaceChar, h1, h2, h3]

private theorem read_escape (t rest : List Char) (hx : ∀ c ∈ t, xmlChar c = true) (hr : '\r' ∉ t) :
    readData '<' none (escape t ++ '<' :: rest) = some (t, rest) := by
  induction t with
  | nil => simp [escape, replaceChar, readData]
  | cons c t ih =>
    have ih := ih (fun d hd => hx d (by simp [hd])) (fun h => hr (by simp [h]))
    rw [escape_cons, List.append_assoc]
    unfold esc1
    by_cases h1 : c = '&'
    · subst h1
      simp [readData, entity?, ih]
    · by_cases h2 : c = '<'
      · subst h2
        simp [readData, entity?, ih]
      · by_cases h3 : c = '>'
        · subst h3
          simp [readData, entity?, ih]
        · have hc := hx c (by simp)
          have hcr : ¬ c = '\r' := by rintro rfl; exact hr (by simp)
          simp [readData, h1, h2, h3, hc, hcr, ih]

/-- Text that is not blank, holds only characters allowed in xml and no carriage return is read back
exactly, whatever markup characters it contains.  Missing: blank text, carriage returns. -/
theorem C10_text_round_trip_partial (isTitle : Bool) (t : List Char) (hx : ∀ c ∈ t, xmlChar c = true)
    (hr : '\r' ∉ t) (hb : ∃ c ∈ t, isWS c = false) : TextSurvives isTitle t := by
  intro rest
  have hne : t ≠ [] := by rintro rfl; obtain ⟨c, hc, _⟩ := hb; simp at hc
  have hs : isSpace t = false := by
    obtain ⟨c, hc, hw⟩ := hb
    unfold isSpace
    rw [Bool.and_eq_false_iff]
    right
    rw [List.all_eq_false]
    exact ⟨c, hc, by simp [hw]⟩
  have : writtenText isTitle t = escape t := by
    unfold writtenText
    simp [hne, hs]
  rw [this]
  exact read_escape t rest hx hr

example : TextSurvives false ['a', '<', '&', 'l', 't', ';', ' ', '"'] :=
  C10_text_round_trip_partial _ _ (by decide) (by decide) ⟨'a', by decide, by decide⟩

/-- Blank text is dropped. -/
theorem C10_blank_text_violated : ¬ TextSurvives false [' '] := by
  intro h; exact absurd (h []) (by decide)

/-- A carriage return comes back as a line feed. -/
theorem C10_carriage_return_violated : ¬ TextSurvives false ['a', '\r', 'b'] := by
  intro h; exact absurd (h []) (by decide)

/-- A blank title is written as `untitled`. -/
theorem C10_blank_title (t rest : List Char) (h : ∀ c ∈ t, isWS c = true) :
    readData '<' none (writtenText true t ++ '<' :: rest) =
      some (['u', 'n', 't', 'i', 't', 'l', 'e', 'd'], rest) := by
  have : writtenText true t = ['u', 'n', 't', 'i', 't', 'l', 'e', 'd'] := by
    unfold writtenText
    cases t with
    | nil => decide
    | cons c cs =>
      have : isSpace (c :: cs) = true := by
        unfold isSpace; simp only [Bool.and_eq_true, List.all_eq_true]; exact ⟨by simp, h⟩
      simp only [this, Bool.or_true, Bool.and_true, if_true]
      decide
  rw [this]
  simp [readData, xmlChar]

/-- Attribute values are written without escaping: a value holding `&` makes the document unreadable,
and one holding a quote is cut short. -/
theorem C10_attribute_violated :
    readData '"' none ((writtenAttr ['a'] ['R', '&', 'D']).drop 3) = none ∧
    readData '"' none ((writtenAttr ['a'] ['5', '"', 'x']).drop 3) = some (['5'], ['x', '"']) := by decide

/-! ## C11 ordered lookup -/

private theorem walkBack_spec (v : Int) (l : List Int) (m : Nat) (h : l[m]? = some v) :
    l[walkBack v l m]? = some v ∧ (walkBack v l m = 0 ∨ l[walkBack v l m - 1]? ≠ some v) ∧
      walkBack v l m ≤ m := by
  induction m with
  | zero => exact ⟨h, .inl rfl, Nat.le_refl _⟩
  | succ m ih =>
    unfold walkBack
    by_cases hm : l[m]? = some v
    · rw [if_pos hm]
      obtain ⟨a, b, c⟩ := ih hm
      exact ⟨a, b, by omega⟩
    · rw [if_neg hm]
      exact ⟨h, .inr hm, Nat.le_refl _⟩

private theorem findInSubset_spec (v : Int) (l : List Int) (hs : l.Pairwise (· ≤ ·)) : ∀ (fuel a b : Nat),
    b ≤ l.length → b - a < fuel →
    (∀ (n : Nat) (h : n < l.length), l[n] = v → a ≤ n ∧ n < b) →
    (v ∉ l ∧ findInSubset v l fuel a b = some (.ok none)) ∨
    ∃ m, m < l.length ∧ l[m]? = some v ∧ findInSubset v l fuel a b = some (.ok (some (walkBack v l m))) := by
  intro fuel
  induction fuel with
  | zero => intro a b _ h; omega
  | succ fuel ih =>
    intro a b hb hf hin
    unfold findInSubset
    by_cases hab : a ≥ b
    · rw [if_pos hab]
      left
      refine ⟨?_, rfl⟩
      intro hm
      obtain ⟨n, hn, e⟩ := List.getElem_of_mem hm
      have := hin n hn e
      omega
    · rw [if_neg hab]
      dsimp only
      generalize hmid : a + (b - a) / 2 = mid
      have hml : mid < l.length := by omega
      rw [List.getElem?_eq_getElem hml]
      dsimp only
      have mono : ∀ (i j : Nat) (hi : i < l.length) (hj : j < l.length), i ≤ j → l[i] ≤ l[j] := by
        intro i j hi hj hij
        by_cases he : i = j
        · subst he; exact Int.le_refl _
        · exact List.pairwise_iff_getElem.1 hs i j hi hj (by omega)
      by_cases h1 : l[mid] = v
      · rw [if_pos h1]
        right
        exact ⟨mid, hml, by rw [List.getElem?_eq_getElem hml, h1], rfl⟩
      · rw [if_neg h1]
        by_cases h2 : l[mid] > v
        · rw [if_pos h2]
          apply ih a mid (by omega) (by omega)
          intro n hn e
          refine ⟨(hin n hn e).1, ?_⟩
          by_cases hc : mid ≤ n
          · have := mono mid n hml hn hc; omega
          · omega
        · rw [if_neg h2]
          have below : ∀ (n : Nat) (h : n < l.length), l[n] = v → mid < n := by
            intro n hn e
            by_cases hc : n ≤ mid
            · have := mono n mid hn hml hc; omega
            · omega
          by_cases h3 : mid = a
          · rw [if_pos h3]
            apply ih (mid + 1) b hb (by omega)
            intro n hn e
            have := below n hn e
            have := (hin n hn e).2
            omega
          · rw [if_neg h3]
            apply ih mid b hb (by omega)
            intro n hn e
            have := below n hn e
            have := (hin n hn e).2
            omega

/-- In an ordered list the lookup terminates and returns the first position of the value when it is
present, and reports absence exactly when it is absent. -/
theorem C11_ordered_lookup (v : Int) (l : List Int) (hs : l.Pairwise (· ≤ ·)) :
    (v ∉ l ∧ findInOrderedData v l = some (.ok none)) ∨
    ∃ k, findInOrderedData v l = some (.ok (some k)) ∧ l[k]? = some v ∧
      ∀ n, n < k → l[n]? ≠ some v := by
  unfold findInOrderedData
  rcases findInSubset_spec v l hs (l.length + 1) 0 l.length (Nat.le_refl _) (by omega)
    (fun n h _ => ⟨by omega, h⟩) with h | ⟨m, hm, hv, h⟩
  · left; exact h
  · right
    obtain ⟨w1, w2, w3⟩ := walkBack_spec v l m hv
    refine ⟨_, h, w1, ?_⟩
    intro n hn hnv
    rcases w2 with w2 | w2
    · omega
    · apply w2
      have hk : walkBack v l m < l.length := by omega
      have hn' : n < l.length := by omega
      have hk1 : walkBack v l m - 1 < l.length := by omega
      rw [List.getElem?_eq_getElem hn'] at hnv
      rw [List.getElem?_eq_getElem hk] at w1
      rw [List.getElem?_eq_getElem hk1]
      have e1 : l[n] = v := by simpa using hnv
      have e2 : l[walkBack v l m] = v := by simpa using w1
      have le1 : l[n] ≤ l[walkBack v l m - 1] := by
        by_cases he : n = walkBack v l m - 1
        · simp [he]
        · exact List.pairwise_iff_getElem.1 hs n _ hn' hk1 (by omega)
      have le2 : l[walkBack v l m - 1] ≤ l[walkBack v l m] :=
        List.pairwise_iff_getElem.1 hs _ _ hk1 hk (by omega)
      congr 1
      omega

example : findInOrderedData 3 [1, 3, 3, 3, 8] = some (.ok (some 1)) ∧
    findInOrderedData 2 [1, 3, 3, 3, 8] = some (.ok none) := by decide

/-- Whatever the list, a position returned does hold the value. -/
theorem C11_found_is_found (v : Int) (l : List Int) (k : Nat) (h : findInOrderedData v l = some (.ok (some k))) :
    l[k]? = some v := by
  have key : ∀ (fuel a b : Nat), findInSubset v l fuel a b = some (.ok (some k)) → l[k]? = some v := by
    intro fuel
    induction fuel with
    | zero => intro a b h; simp [findInSubset] at h
    | succ fuel ih =>
      intro a b h
      unfold findInSubset at h
      by_cases hab : a ≥ b
      · rw [if_pos hab] at h; simp at h
      · rw [if_neg hab] at h
        dsimp only at h
        generalize a + (b - a) / 2 = mid at h
        cases hm : l[mid]? with
        | none => rw [hm] at h; simp at h
        | some s =>
          rw [hm] at h
          dsimp only at h
          by_cases h1 : s = v
          · subst h1
            rw [if_pos rfl] at h
            simp only [Option.some.injEq, Except.ok.injEq] at h
            rw [← h]
            exact (walkBack_spec s l mid hm).1
          · rw [if_neg h1] at h
            by_cases h2 : s > v
            · rw [if_pos h2] at h; exact ih _ _ h
            · rw [if_neg h2] at h
              by_cases h3 : mid = a
              · rw [if_pos h3] at h; exact ih _ _ h
              · rw [if_neg h3] at h; exact ih _ _ h
  exact key _ _ _ h

end Verif.Xml
