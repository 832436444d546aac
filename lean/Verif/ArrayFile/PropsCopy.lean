import Mathlib.Tactic.Ring
import Mathlib.Tactic.Positivity
import Verif.ArrayFile.Props

/-!
# C160: binary copies of arrays in text files
-/

namespace Verif.ArrayFile

open Verif.Py

variable {V : Type}

/-- What happens to a text file. -/
inductive Event
  | load
  | write (text : List Char)

/-- The files after an event at a time. -/
def happen (upper : List Char → List Char) (parse : List Char → Option V) (r : ReadArgs) (d : Disk (List Char) (List V)) :
    Nat × Event → Disk (List Char) (List V)
  | (now, .load) => (loadFile upper parse r now d).2
  | (now, .write text) => rewrite text now d

/-- A copy which is more recent than the text file holds what is read from it. -/
def Sound (upper : List Char → List Char) (parse : List Char → Option V) (r : ReadArgs) (now : Nat) (d : Disk (List Char) (List V)) : Prop :=
  d.ascii.time ≤ now ∧ ∀ c, d.copy = some c → c.time ≤ now ∧
    (d.ascii.time < c.time → loadAscii upper parse r d.ascii.content = .ok c.content)

theorem mapM_length {α β : Type} {f : α → Option β} {l : List α} {a : List β} (h : l.mapM f = some a) : a.length = l.length := by
  induction l generalizing a with
  | nil =>
    simp at h
    subst h
    rfl
  | cons x l ih =>
    simp only [List.mapM_cons, Option.bind_eq_bind, Option.bind_eq_some_iff, Option.pure_def, Option.some.injEq] at h
    obtain ⟨y, hy, ys, hys, rfl⟩ := h
    simp [ih hys]

theorem numbers_length {parse : List Char → Option V} {n : Nat} {words : List (List Char)} {vs : List V}
    (h : numbers parse (some n) words = .ok vs) : vs.length = n := by
  unfold numbers at h
  simp only at h
  split at h
  · exact absurd h (by simp)
  · cases hm : (words.take n).mapM parse with
    | none =>
      rw [hm] at h
      exact absurd h (by simp)
    | some a =>
      rw [hm] at h
      simp only [Except.ok.injEq] at h
      subst h
      rw [mapM_length hm, List.length_take]
      omega

theorem loadAscii_length {upper : List Char → List Char} {parse : List Char → Option V} {r : ReadArgs} {file : List Char} {vs : List V} {n : Nat}
    (h : loadAscii upper parse r file = .ok vs) (hc : r.count = some n) : vs.length = n := by
  unfold loadAscii at h
  simp only at h
  rw [hc] at h
  split at h
  · split at h
    · exact absurd h (by simp)
    · rename_i vs' hn
      split at h
      · simp only [Except.ok.injEq] at h
        subst h
        exact numbers_length hn
      · exact absurd h (by simp)
  · exact numbers_length h

theorem fromCopy_load {upper : List Char → List Char} {parse : List Char → Option V} {r : ReadArgs} {file : List Char} {vs : List V}
    (h : loadAscii upper parse r file = .ok vs) : fromCopy r.count vs = some vs := by
  cases hc : r.count with
  | none => rfl
  | some n =>
    have := loadAscii_length h hc
    unfold fromCopy
    simp only
    rw [if_neg (by omega), List.take_of_length_le (by omega)]

theorem load_sound {upper : List Char → List Char} {parse : List Char → Option V} {r : ReadArgs} {now : Nat} {d : Disk (List Char) (List V)}
    (h : Sound upper parse r now d) :
    (loadFile upper parse r now d).1 = loadAscii upper parse r d.ascii.content ∧ Sound upper parse r now (loadFile upper parse r now d).2 := by
  obtain ⟨h1, h2⟩ := h
  have hvia : ∀ x, x = (match loadAscii upper parse r d.ascii.content with
      | .error e => ((.error e, d) : Res (List V) × Disk (List Char) (List V))
      | .ok vs => (.ok vs, { d with copy := some ⟨vs, now⟩ })) →
      x.1 = loadAscii upper parse r d.ascii.content ∧ Sound upper parse r now x.2 := by
    rintro x rfl
    cases hl : loadAscii upper parse r d.ascii.content with
    | error e => exact ⟨rfl, h1, h2⟩
    | ok vs =>
      refine ⟨rfl, h1, ?_⟩
      intro c hc
      simp only [Option.some.injEq] at hc
      subst hc
      exact ⟨le_refl _, fun _ => hl⟩
  unfold loadFile
  simp only
  by_cases hu : copyUsable d = true
  · rw [if_pos hu]
    cases hc : d.copy with
    | none => exact hvia _ rfl
    | some c =>
      have hlt : d.ascii.time < c.time := by
        unfold copyUsable at hu
        rw [hc] at hu
        simpa using hu
      have hl := (h2 c hc).2 hlt
      simp only
      rw [fromCopy_load hl]
      exact ⟨hl.symm, h1, h2⟩
  · rw [if_neg hu]
    exact hvia _ rfl

/-- C160: loading by way of binary copies gives what is in the text file: after any history of loading it and writing it again, at times
which do not decrease (several events may have one time), starting without a copy. -/
theorem C160_as_text (upper : List Char → List Char) (parse : List Char → Option V) (r : ReadArgs) (text : List Char) (t0 : Nat)
    (history : List (Nat × Event)) (now : Nat) (hs : (t0 :: (history.map Prod.fst ++ [now])).Pairwise (· ≤ ·)) :
    let d := history.foldl (happen upper parse r) ⟨⟨text, t0⟩, none⟩
    (loadFile upper parse r now d).1 = loadAscii upper parse r d.ascii.content := by
  intro d
  suffices h : ∀ (d0 : Disk (List Char) (List V)) (t : Nat), Sound upper parse r t d0 → (t :: (history.map Prod.fst ++ [now])).Pairwise (· ≤ ·) →
      Sound upper parse r now (history.foldl (happen upper parse r) d0) from
    (load_sound (h _ t0 ⟨le_refl _, by simp⟩ hs)).1
  clear hs d
  have mono : ∀ {t t' : Nat} {d : Disk (List Char) (List V)}, t ≤ t' → Sound upper parse r t d → Sound upper parse r t' d := by
    rintro t t' d ht ⟨h1, h2⟩
    exact ⟨le_trans h1 ht, fun c hc => ⟨le_trans (h2 c hc).1 ht, (h2 c hc).2⟩⟩
  induction history with
  | nil =>
    intro d0 t h hs
    simp only [List.map_nil, List.nil_append, List.pairwise_cons, List.mem_singleton] at hs
    exact mono (hs.1 now rfl) h
  | cons e history ih =>
    intro d0 t h hs
    simp only [List.map_cons, List.cons_append, List.pairwise_cons] at hs
    obtain ⟨hs1, hs2, hs3⟩ := hs
    have hte : t ≤ e.1 := hs1 _ (by simp)
    rw [List.foldl_cons]
    apply ih _ e.1
    · obtain ⟨now', ev⟩ := e
      cases ev with
      | load => exact (load_sound (mono hte h)).2
      | write text =>
        refine ⟨le_refl _, ?_⟩
        intro c hc
        have hcopy := (mono hte h).2 c hc
        refine ⟨hcopy.1, ?_⟩
        intro hlt
        exact absurd hlt (by show ¬ now' < c.time; have := hcopy.1; dsimp only at this; omega)
    · rw [List.pairwise_cons]
      exact ⟨hs2, hs3⟩

/-- the content of the text file is what was written last, so that an earlier copy is not mistaken for it -/
example (upper : List Char → List Char) (r : ReadArgs) (old new : List Char) :
    ([((5 : Nat), Event.load), (5, Event.write new), (5, Event.load)].foldl (happen upper readInt? r) ⟨⟨old, 3⟩, none⟩).ascii.content = new := by
  have h : ∀ (d : Disk (List Char) (List Int)) (t : Nat), (loadFile upper readInt? r t d).2.ascii = d.ascii := by
    intro d t
    unfold loadFile
    simp only
    cases loadAscii upper readInt? r d.ascii.content <;> split <;> (try split) <;> (try split) <;> rfl
  simp only [List.foldl_cons, List.foldl_nil, happen]
  rw [h]
  rfl

/-- Two arrays in a file, each with its keyword: if one is loaded by way of binary copies, and then the other, the first one is given
again, whereas the text file gives the other. -/
theorem C160_keyword_violated :
    let file := "KX\n1 2\nKY\n3 4\n".toList
    let kx : ReadArgs := ⟨some 2, some ['K', 'X'], none, none, false, true⟩
    let ky : ReadArgs := ⟨some 2, some ['K', 'Y'], none, none, false, true⟩
    let d : Disk (List Char) (List Int) := ⟨⟨file, 0⟩, none⟩
    let first := loadFile id readInt? kx 1 d
    first.1 = .ok [1, 2] ∧ (loadFile id readInt? ky 2 first.2).1 = .ok [1, 2] ∧ loadAscii id readInt? ky file = .ok [3, 4] := by
  refine ⟨by decide +kernel, by decide +kernel, by decide +kernel⟩

/-- C160: a binary file written by `write_array_to_ascii_file` for booleans in one byte each holds those booleans. -/
theorem C160_bools_partial (bs : List Bool) : boolsFrom bs.length ((bs.map fun b => if b then (1 : Int) else 0).flatMap (bytes 1)) = bs := by
  have e : (bs.map fun b => if b then (1 : Int) else 0).flatMap (bytes 1) = bs.map fun b => if b then 1 else 0 := by
    induction bs with
    | nil => rfl
    | cons b bs ih =>
      rw [List.map_cons, List.flatMap_cons, ih]
      cases b <;> rfl
  rw [e]
  unfold boolsFrom
  rw [List.take_of_length_le (by simp), List.map_map]
  have : ((fun b : Nat => decide (b ≠ 0)) ∘ fun b : Bool => if b then 1 else 0) = id := by
    funext b
    cases b <;> rfl
  rw [this, List.map_id]

/-- With `data_type` for booleans the text is right for an array of integers, but the binary file has eight bytes for each of them: of two
which are true the second is read as false. -/
theorem C160_bools_violated : boolsFrom 2 ([(1 : Int), 1].flatMap (bytes 8)) = [true, false] := by
  decide

/-- an array among others -/
example : ∃ text vs, writeText exampleArgs 1 2 5 (fun _ j i => showInt ((i : Int) - 10 * j)) = .ok text ∧
    loadAscii id readInt? ⟨some 10, some ['K', 'X'], none, some ['!'], false, true⟩
      ((["KY".toList, "1 2 3".toList].flatMap fun l => l ++ ['\n']) ++ text ++ "KZ\n7 8 9\n".toList) = .ok vs ∧
    Holds vs 1 2 5 (fun _ j i => (i : Int) - 10 * j) := by
  obtain ⟨text, ht⟩ : ∃ text, writeText exampleArgs 1 2 5 (fun _ j i => showInt ((i : Int) - 10 * j)) = .ok text := ⟨_, rfl⟩
  have hL : ∀ l ∈ ["KY".toList, "1 2 3".toList], '\n' ∉ l := by decide +kernel
  have hno : ∀ l ∈ ["KY".toList, "1 2 3".toList], ¬ StartsWith id ['K', 'X'] l := by
    intro l hl
    simp only [List.mem_cons, List.not_mem_nil, or_false] at hl
    rintro ⟨w, ws, h1, h2⟩
    have e1 : splitWS "KY".toList = [['K', 'Y']] := by decide +kernel
    have e2 : splitWS "1 2 3".toList = [['1'], ['2'], ['3']] := by decide +kernel
    simp only [id] at h2
    rcases hl with rfl | rfl
    · rw [e1, h2] at h1
      exact absurd h1 (by simp)
    · rw [e2, h2] at h1
      exact absurd h1 (by simp)
  obtain ⟨vs, h1, h2⟩ := C158_among id _ hL "KZ\n7 8 9\n".toList (fun _ j i => (i : Int) - 10 * j) exampleArgs
    ⟨some 10, some ['K', 'X'], none, some ['!'], false, true⟩ 1 2 5 ht (s := "KX VALUE".toList) (w0 := ['K', 'X']) (kw := ['K', 'X'])
    (ws := [['V', 'A', 'L', 'U', 'E']]) rfl (by decide +kernel) (by decide +kernel) rfl rfl (by decide) hno (by simp) rfl rfl rfl
  exact ⟨text, vs, ht, h1, h2⟩

/-- What bytes stand for, the lowest first. -/
def ofBytes : List Nat → Nat
  | [] => 0
  | b :: bs => b + 256 * ofBytes bs

/-- C160: a whole number in binary is in so many bytes, which stand for it up to multiples of the number of values there are. -/
theorem C160_bytes (size : Nat) : ∀ n : Int, (bytes size n).length = size ∧ (∀ b ∈ bytes size n, b < 256) ∧ (ofBytes (bytes size n) : Int) = n % 256 ^ size := by
  induction size with
  | zero => intro n; simp [bytes, ofBytes, Int.emod_one]
  | succ size ih =>
    intro n
    obtain ⟨h1, h2, h3⟩ := ih (n / 256)
    have hm : 0 ≤ n % 256 := Int.emod_nonneg _ (by decide)
    have hl : n % 256 < 256 := Int.emod_lt_of_pos _ (by decide)
    refine ⟨by simp [bytes, h1], ?_, ?_⟩
    · intro b hb
      rw [bytes] at hb
      rcases List.mem_cons.1 hb with rfl | hb
      · omega
      · exact h2 b hb
    · rw [bytes, ofBytes]
      push_cast
      rw [h3, Int.toNat_of_nonneg hm, pow_succ, mul_comm (256 ^ size) 256]
      have hp : (0 : Int) < 256 ^ size := by positivity
      rw [Int.emod_def n (256 * 256 ^ size), Int.emod_def (n / 256) (256 ^ size), ← Int.ediv_ediv_of_nonneg (by decide), Int.emod_def n 256]
      ring

example : bytes 4 (-2) = [254, 255, 255, 255] ∧ bytes 2 513 = [1, 2] := by decide

/-- C159: with a mark of one character, what stands from the mark to the end of a line counts as spaces, and nothing else is changed. -/
theorem C159_comments {m : Char} (hm : m ≠ '\n') : ∀ (lines : List (List Char × Option (List Char))),
    (∀ l ∈ lines, m ∉ l.1 ∧ '\n' ∉ l.1 ∧ ∀ c, l.2 = some c → '\n' ∉ c) →
    stripComments [m] false (lines.flatMap fun l => l.1 ++ (match l.2 with | none => [] | some c => m :: c) ++ ['\n']) =
      lines.flatMap fun l => l.1 ++ (match l.2 with | none => [] | some c => List.replicate (c.length + 1) ' ') ++ ['\n'] := by
  have data : ∀ (d rest : List Char), m ∉ d → '\n' ∉ d → stripComments [m] false (d ++ rest) = d ++ stripComments [m] false rest := by
    intro d
    induction d with
    | nil => intro rest _ _; rfl
    | cons a d ih =>
      intro rest h1 h2
      rw [List.cons_append, stripComments, if_neg (fun e => h2 (by simp [e])), if_neg, ih _ (fun h => h1 (by simp [h])) (fun h => h2 (by simp [h]))]
      · rfl
      · have : ¬ m = a := fun e => h1 (by simp [e])
        simp [List.isPrefixOf, this]
  have comment : ∀ (c rest : List Char), '\n' ∉ c → stripComments [m] true (c ++ '\n' :: rest) = List.replicate c.length ' ' ++ '\n' :: stripComments [m] false rest := by
    intro c
    induction c with
    | nil => intro rest _; rw [List.nil_append, stripComments, if_pos rfl]; rfl
    | cons a c ih =>
      intro rest h
      rw [List.cons_append, stripComments, if_neg (fun e => h (by simp [e])), if_pos (by simp), ih _ (fun h' => h (by simp [h']))]
      rfl
  intro lines
  induction lines with
  | nil => intro _; rfl
  | cons l lines ih =>
    intro h
    obtain ⟨h1, h2, h3⟩ := h l (by simp)
    have ih' := ih (fun x hx => h x (by simp [hx]))
    obtain ⟨d, c⟩ := l
    rw [List.flatMap_cons, List.flatMap_cons, ← ih']
    generalize (lines.flatMap fun l => l.1 ++ (match l.2 with | none => [] | some c => m :: c) ++ ['\n']) = rest
    cases c with
    | none =>
      simp only [List.append_nil, List.append_assoc, List.singleton_append]
      rw [data _ _ h1 h2, stripComments, if_pos rfl]
    | some c =>
      simp only [List.append_assoc, List.singleton_append, List.cons_append]
      rw [data _ _ h1 h2, stripComments, if_neg hm, if_pos (by simp [List.isPrefixOf]), comment _ _ (h3 c rfl)]
      rfl

example : stripComments ['!'] false "1 2 ! x\n3\n".toList = "1 2    \n3\n".toList := by decide +kernel

end Verif.ArrayFile
