import Verif.Proofs.Load
import Mathlib.Data.List.Induction

/-! `Reader`: rows of a file, with and without separator. -/

namespace Gse
open Spec Segmenter

set_option linter.unusedSectionVars false
set_option linter.unusedSimpArgs false

section
variable {F D : Type} [F64 F] [F32 D] [Narrow F D] [U : Unicode]

/-! ### Scanning -/

theorem skip_blanks (b X : List Rune) (h : ∀ r ∈ b, r ≠ 10 ∧ U.isSpace r = true) : skipSpace (b ++ X) = skipSpace X := by
  induction b with
  | nil => rfl
  | cons r b ih =>
    have h1 := h r (by simp)
    simp [skipSpace, h1.1, h1.2, ih fun r hr => h r (by simp [hr])]

theorem scanEnd_blanks (b X : List Rune) (h : ∀ r ∈ b, r ≠ 10 ∧ U.isSpace r = true) : scanEnd (b ++ X) = scanEnd X := by
  induction b with
  | nil => rfl
  | cons r b ih =>
    have h1 := h r (by simp)
    simp [scanEnd, h1.1, h1.2, ih fun r hr => h r (by simp [hr])]

/-- The input is at its end or starts with a space character. -/
def AtSpace (X : List Rune) : Prop := ∀ r ∈ X.head?, U.isSpace r = true

theorem take_word (w X : List Rune) (h : ∀ r ∈ w, U.isSpace r = false) (hX : AtSpace X) :
    (w ++ X).takeWhile (fun r => !U.isSpace r) = w ∧ (w ++ X).dropWhile (fun r => !U.isSpace r) = X := by
  induction w with
  | nil =>
    cases X with
    | nil => simp
    | cons r X =>
      have := hX r (by simp)
      simp [this]
  | cons r w ih =>
    have := h r (by simp)
    have := ih fun r hr => h r (by simp [hr])
    simp_all

theorem skip_word (w X : List Rune) (hw : w ≠ []) (h : ∀ r ∈ w, r ≠ 10 ∧ U.isSpace r = false) : skipSpace (w ++ X) = .word (w ++ X) := by
  cases w with
  | nil => exact absurd rfl hw
  | cons r w =>
    have := h r (by simp)
    simp [skipSpace, this.1, this.2]

/-- One word. -/
theorem fscan_word (mid : ScanErr) (k : Nat) (acc : List Bytes) (b w X : List Rune) (hb : ∀ r ∈ b, r ≠ 10 ∧ U.isSpace r = true)
    (hw : w ≠ []) (hw' : ∀ r ∈ w, r ≠ 10 ∧ U.isSpace r = false) (hX : AtSpace X) :
    fscanln mid (k + 1) acc (b ++ (w ++ X)) = fscanln mid k (acc ++ [encode w]) X := by
  have h := take_word w X (fun r hr => (hw' r hr).2) hX
  rw [fscanln, skip_blanks b _ hb, skip_word w X hw hw']
  simp only [h.1, h.2]

theorem Spec.Line.Ok.tail_ok {p : List Rune × List Rune} {ps : List (List Rune × List Rune)} {t : List Rune} (h : Line.Ok ⟨p :: ps, t⟩) :
    Line.Ok ⟨ps, t⟩ :=
  ⟨fun q hq => h.blanks q (by simp [hq]), fun q hq => h.words q (by simp [hq]),
    fun q hq => h.sep q (by have := List.mem_of_mem_tail hq; simpa using this), h.tail⟩

/-- What follows a word of a line starts with a space, when the line is followed by one. -/
theorem Spec.Line.Ok.atSpace {p : List Rune × List Rune} {ps : List (List Rune × List Rune)} {t X : List Rune}
    (h : Line.Ok ⟨p :: ps, t⟩) (hX : AtSpace X) : AtSpace (Line.chars ⟨ps, t⟩ ++ X) := by
  intro r hr
  cases ps with
  | nil =>
    simp only [Line.chars, List.flatMap_nil, List.nil_append] at hr
    cases t with
    | nil => exact hX r (by simpa using hr)
    | cons a t => simp at hr; subst hr; exact (h.tail _ (by simp)).2
  | cons q ps =>
    have h1 := h.sep q (by simp)
    have h2 := h.blanks q (by simp)
    obtain ⟨b, w⟩ := q
    cases b with
    | nil => exact absurd rfl h1
    | cons a b =>
      simp [Line.chars] at hr
      subst hr
      exact (h2 _ (by simp)).2

/-- A line with at most `k` words, ended by a newline. -/
theorem fscan_line [UnicodeOK] (mid : ScanErr) (rest : List Rune) : ∀ (k : Nat) (acc : List Bytes) (l : Line), l.Ok → l.words.length ≤ k →
    fscanln mid k acc (l.chars ++ 10 :: rest) = (acc ++ l.cols, if l.words.length = k then .none else .other, rest) := by
  intro k
  induction k with
  | zero =>
    rintro acc ⟨ps, t⟩ h hk
    have : ps = [] := by simpa using hk
    subst this
    simp only [fscanln, Line.chars, List.flatMap_nil, List.nil_append, scanEnd_blanks t _ h.tail]
    simp [scanEnd, Line.cols]
  | succ k ih =>
    rintro acc ⟨ps, t⟩ h hk
    cases ps with
    | nil =>
      simp only [fscanln, Line.chars, List.flatMap_nil, List.nil_append, skip_blanks t _ h.tail]
      simp [skipSpace, Line.cols]
    | cons p ps =>
      have hX : AtSpace (Line.chars ⟨ps, t⟩ ++ 10 :: rest) :=
        h.atSpace (by intro r hr; simp at hr; subst hr; exact UnicodeOK.space_newline)
      have h1 := h.words p (by simp)
      have := fscan_word mid k acc p.1 p.2 _ (h.blanks p (by simp)) h1.1 h1.2 hX
      have e : Line.chars ⟨p :: ps, t⟩ ++ 10 :: rest = p.1 ++ (p.2 ++ (Line.chars ⟨ps, t⟩ ++ 10 :: rest)) := by
        simp [Line.chars]
      rw [e, this, ih _ ⟨ps, t⟩ h.tail_ok (by simpa using hk)]
      simp [Line.cols]

/-- A line with more than `k` words: the first `k` are taken, and one character of the next. -/
theorem fscan_long (mid : ScanErr) : ∀ (k : Nat) (acc : List Bytes) (l : Line) (b : List Rune) (r : Rune) (X : List Rune),
    Line.Ok l → l.words.length = k → b ≠ [] ∨ l.words = [] → (∀ r ∈ b, r ≠ 10 ∧ U.isSpace r = true) → l.tail = [] → r ≠ 10 → U.isSpace r = false →
    fscanln mid k acc (l.chars ++ (b ++ r :: X)) = (acc ++ l.cols, .other, X) := by
  intro k
  induction k with
  | zero =>
    rintro acc ⟨ps, t⟩ b r X h hk hb hb' ht hr hr'
    have : ps = [] := by simpa using hk
    subst this
    simp only at ht
    subst ht
    simp only [fscanln, Line.chars, List.flatMap_nil, List.nil_append, scanEnd_blanks b _ hb']
    simp [scanEnd, Line.cols, hr, hr']
  | succ k ih =>
    rintro acc ⟨ps, t⟩ b r X h hk hb hb' ht hr hr'
    cases ps with
    | nil => simp at hk
    | cons p ps =>
      have hbn : b ≠ [] := by simpa using hb
      have hX : AtSpace (Line.chars ⟨ps, t⟩ ++ (b ++ r :: X)) := by
        refine h.atSpace ?_
        intro c hc
        cases b with
        | nil => exact absurd rfl hbn
        | cons a b => simp at hc; subst hc; exact (hb' _ (by simp)).2
      have h1 := h.words p (by simp)
      have := fscan_word mid k acc p.1 p.2 _ (h.blanks p (by simp)) h1.1 h1.2 hX
      have e : Line.chars ⟨p :: ps, t⟩ ++ (b ++ r :: X) = p.1 ++ (p.2 ++ (Line.chars ⟨ps, t⟩ ++ (b ++ r :: X))) := by
        simp [Line.chars]
      rw [e, this, ih _ ⟨ps, t⟩ b r X h.tail_ok (by simpa using hk) (.inl hbn) hb' ht hr hr']
      simp [Line.cols]

/-- The last line, without newline. -/
theorem fscan_last (mid : ScanErr) : ∀ (k : Nat) (acc : List Bytes) (l : Line), l.Ok → l.words.length ≤ k →
    fscanln mid k acc l.chars = (acc ++ l.cols, if l.words.length = k then .none else if acc ++ l.cols = [] then .eof else mid, []) := by
  intro k
  induction k with
  | zero =>
    rintro acc ⟨ps, t⟩ h hk
    have : ps = [] := by simpa using hk
    subst this
    have := scanEnd_blanks t [] h.tail
    rw [List.append_nil] at this
    simp [fscanln, Line.chars, this, scanEnd, Line.cols]
  | succ k ih =>
    rintro acc ⟨ps, t⟩ h hk
    cases ps with
    | nil =>
      have := skip_blanks t [] h.tail
      rw [List.append_nil] at this
      simp [fscanln, Line.chars, this, skipSpace, Line.cols]
    | cons p ps =>
      have hX : AtSpace (Line.chars ⟨ps, t⟩ ++ []) := h.atSpace (by intro r hr; simp at hr)
      have h1 := h.words p (by simp)
      have := fscan_word mid k acc p.1 p.2 _ (h.blanks p (by simp)) h1.1 h1.2 hX
      have e : Line.chars ⟨p :: ps, t⟩ = p.1 ++ (p.2 ++ (Line.chars ⟨ps, t⟩ ++ [])) := by
        simp [Line.chars]
      rw [e, this, List.append_nil, ih _ ⟨ps, t⟩ h.tail_ok (by simpa using hk)]
      simp [Line.cols]

/-! ### Rows -/

theorem scanEnd_len (rs : List Rune) : (scanEnd rs).2.length ≤ rs.length := by
  induction rs with
  | nil => simp [scanEnd]
  | cons r rs ih =>
    simp only [scanEnd]
    split
    · simp
    · split
      · simp; omega
      · simp

theorem fscan_len (mid : ScanErr) : ∀ (k : Nat) (acc : List Bytes) (rs : List Rune),
    (fscanln mid k acc rs).2.2.length ≤ rs.length ∧
    (k ≠ 0 → acc = [] → (fscanln mid k acc rs).2.1 ≠ .eof → (fscanln mid k acc rs).2.2.length < rs.length) := by
  intro k
  induction k with
  | zero => intro acc rs; simpa [fscanln] using scanEnd_len rs
  | succ k ih =>
    intro acc rs
    rw [fscanln]
    have hs : match skipSpace rs with
        | .newline rest => rest.length < rs.length
        | .eof => True
        | .word ws => ws.length ≤ rs.length ∧ ∃ r t, ws = r :: t ∧ U.isSpace r = false := by
      induction rs with
      | nil => simp [skipSpace]
      | cons r rs ih' =>
        simp only [skipSpace]
        by_cases h1 : r = 10
        · simp [h1]
        · simp only [h1, if_false]
          cases h2 : U.isSpace r with
          | true =>
            simp only [if_true]
            revert ih'
            cases skipSpace rs with
            | newline rest => simp; omega
            | eof => simp
            | word ws => simp only [List.length_cons]; rintro ⟨h3, h4⟩; exact ⟨by omega, h4⟩
          | false => simp [h2]
    generalize skipSpace rs = sk at *
    cases sk with
    | newline rest => simp only at hs ⊢; exact ⟨by omega, fun _ _ _ => hs⟩
    | eof => simp; intro h1 h2; simp [h1] at h2
    | word ws =>
      obtain ⟨h, r, t, rfl, hr⟩ := hs
      simp only
      have h1 := (ih (acc ++ [encode ((r :: t).takeWhile fun r => !U.isSpace r)]) ((r :: t).dropWhile fun r => !U.isSpace r)).1
      have h2 : ((r :: t).dropWhile fun r => !U.isSpace r).length ≤ t.length := by
        simp only [List.dropWhile_cons, hr, Bool.not_false, if_true]
        exact (List.dropWhile_sublist _).length_le
      simp at h
      exact ⟨by omega, fun _ _ _ => by omega⟩

/-- Enough rounds. -/
theorem scanRows_total (mid : ScanErr) : ∀ (n : Nat) (rs : List Rune), rs.length < n → ∃ rows, scanRows mid n rs = some rows := by
  intro n
  induction n with
  | zero => intro rs h; omega
  | succ n ih =>
    intro rs h
    rw [scanRows]
    have := (fscan_len mid 3 [] rs).2 (by simp) rfl
    rcases hf : fscanln mid 3 [] rs with ⟨ws, e, rest⟩
    rw [hf] at this
    by_cases he : e = .eof
    · simp [he]
    · simp only [he, if_false]
      obtain ⟨rows, hr⟩ := ih rest (by have := this he; simp at this; omega)
      exact ⟨ws :: rows, by simp [hr]⟩

theorem fscan_cols (mid : ScanErr) : ∀ (k : Nat) (acc : List Bytes) (rs : List Rune), (fscanln mid k acc rs).1.length ≤ acc.length + k := by
  intro k
  induction k with
  | zero => intro acc rs; simp [fscanln]
  | succ k ih =>
    intro acc rs
    rw [fscanln]
    split
    · simp
    · simp
    · refine Nat.le_trans (ih _ _) ?_
      simp; omega

theorem readerRow_eq (s : Segmenter F D) (d : Dictionary F D) (ws : List Bytes) (hl : ws.length ≤ 3) (v : ReadVars) :
    ∃ v', readerRow (s.withDict d) ws.length
      { text := ws.getD 0 v.text, freqText := ws.getD 1 v.freqText, pos := ws.getD 2 v.pos } =
      some (s.withDict (addAll s.cfg d (rowsEntries s.lcfg v.pos [ws])), v') ∧
      ∀ rows, rowsEntries s.lcfg v.pos (ws :: rows) = rowsEntries s.lcfg v.pos [ws] ++ rowsEntries s.lcfg v'.pos rows := by
  have hsz : ∀ n w f, (s.withDict d).size n w f = s.size n w f := fun _ _ _ => rfl
  have hz := F64.zero_eq_zero (F := F)
  have hE : ∀ n w f p, n ≠ 0 → rowEntry s.lcfg w (if n < 2 then none else some f) p =
      if F64.eq (s.size n w f) (F64.ofNat 0) then none else some (w, s.size n w f, p) := by
    intro n w f p hn
    have h := size_eq s n w f
    simp only [hn, if_false] at h
    rw [rowEntry, ← h]
    split <;> simp
  have hA : ∀ n w f p, F64.eq (s.size n w f) (F64.ofNat 0) = false →
      (s.withDict d).addEntry w (s.size n w f) p = some (s.withDict (addAll s.cfg d [(w, s.size n w f, p)])) := by
    intro n w f p h
    simp [Segmenter.addEntry, h, addAll, Segmenter.withDict]
  unfold readerRow
  match ws, hl with
  | [], _ => simp [rowsEntries, addAll, hsz, Segmenter.size, hz]
  | [w], _ =>
    have h := hE 1 w v.freqText v.pos (by simp)
    have ha := hA 1 w v.freqText v.pos
    simp only [List.length_singleton, List.getD_cons_zero, List.getD_cons_succ, List.getD_nil, hsz] at *
    cases hq : F64.eq (s.size 1 w v.freqText) (F64.ofNat 0) with
    | true => exact ⟨{ v with text := w }, by simp_all [rowsEntries, addAll], by simp [rowsEntries]⟩
    | false => exact ⟨{ v with text := w }, by simp_all [rowsEntries], by simp [rowsEntries]⟩
  | [w, f], _ =>
    have h := hE 2 w f [] (by simp)
    have ha := hA 2 w f []
    simp only [List.length_cons, List.length_nil, List.getD_cons_zero, List.getD_cons_succ, List.getD_nil, hsz] at *
    cases hq : F64.eq (s.size 2 w f) (F64.ofNat 0) with
    | true => exact ⟨{ text := w, freqText := f, pos := v.pos }, by simp_all [rowsEntries, addAll], by simp_all [rowsEntries]⟩
    | false => exact ⟨{ text := w, freqText := f, pos := [] }, by simp_all [rowsEntries], by simp_all [rowsEntries]⟩
  | [w, f, p], _ =>
    have h := hE 3 w f p (by simp)
    have ha := hA 3 w f p
    simp only [List.length_cons, List.length_nil, List.getD_cons_zero, List.getD_cons_succ, List.getD_nil, hsz] at *
    cases hq : F64.eq (s.size 3 w f) (F64.ofNat 0) with
    | true => exact ⟨{ text := w, freqText := f, pos := p }, by simp_all [rowsEntries, addAll], by simp [rowsEntries]⟩
    | false => exact ⟨{ text := w, freqText := f, pos := p }, by simp_all [rowsEntries], by simp [rowsEntries]⟩

theorem readerScan_eq (mid : ScanErr) (s : Segmenter F D) : ∀ (n : Nat) (d : Dictionary F D) (v : ReadVars) (rs : List Rune),
    readerScan mid n (s.withDict d) v rs =
      (scanRows mid n rs).map fun rows => s.withDict (addAll s.cfg d (rowsEntries s.lcfg v.pos rows)) := by
  intro n
  induction n with
  | zero => intro d v rs; rfl
  | succ n ih =>
    intro d v rs
    rw [readerScan, scanRows]
    have hl := fscan_cols mid 3 [] rs
    rcases hf : fscanln mid 3 [] rs with ⟨ws, e, rest⟩
    rw [hf] at hl
    simp only at *
    by_cases he : e = .eof
    · simp [he, rowsEntries, addAll]
    · simp only [he, if_false]
      obtain ⟨v', h1, h2⟩ := readerRow_eq s d ws (by simpa using hl) v
      rw [h1]
      simp only
      rw [ih, Option.map_map]
      congr 1
      funext rows
      simp only [Function.comp]
      rw [h2 rows, addAll_append]

/-! ### With a separator -/

theorem readString_eq (b : Bytes) :
    (∃ l rest, 10 ∉ l ∧ b = l ++ 10 :: rest ∧ readString b = (l ++ [10], false, rest)) ∨ (10 ∉ b ∧ readString b = (b, true, [])) := by
  unfold readString
  have h := List.takeWhile_append_dropWhile (p := (· != (10 : UInt8))) (l := b)
  have hm : (10 : UInt8) ∉ b.takeWhile (· != 10) := by
    intro hm
    have h0 := List.all_takeWhile (p := (· != (10 : UInt8))) (l := b)
    rw [List.all_eq_true] at h0
    have := h0 10 hm
    simp at this
  cases hd : b.dropWhile (· != 10) with
  | nil => rw [hd, List.append_nil] at h; rw [h] at hm ⊢; exact .inr ⟨hm, rfl⟩
  | cons c rest =>
    have hc : c = 10 := by
      have := List.head?_dropWhile_not (p := (· != (10 : UInt8))) b
      rw [hd] at this
      simpa using this
    subst hc
    rw [hd] at h
    exact .inl ⟨_, rest, hm, h.symm, rfl⟩

theorem noNewline_split {l : Bytes} (h : 10 ∉ l) : splitStr l (str "\n") = [l] := by
  refine splitStr_single (by decide) fun i hp => h ?_
  have : (10 : UInt8) ∈ l.drop i := hp.subset (by decide)
  exact List.mem_of_mem_drop this

theorem fileLines_cons (sep l rest : Bytes) (h : 10 ∉ l) :
    fileLines sep (l ++ 10 :: rest) = (l ++ [10]) :: fileLines sep rest := by
  have e : splitStr (l ++ 10 :: rest) (str "\n") = l :: splitStr rest (str "\n") := by
    have := splitStr_byte 10 l rest
    rw [show ([10] : Bytes) = str "\n" by decide, noNewline_split h] at this
    simpa [show str "\n" = [10] by decide] using this
  unfold fileLines
  simp only [e]
  have hn := splitStr_ne_nil rest (sep := str "\n") (by decide)
  cases hs : splitStr rest (str "\n") with
  | nil => exact absurd hs hn
  | cons a t => simp [show str "\n" = [10] by decide]

theorem readN_row (s : Segmenter F D) (d : Dictionary F D) (txt : Bytes) :
    ∃ v', readerRow (s.withDict d) ((s.withDict d).readN txt).1 ((s.withDict d).readN txt).2 =
      some (s.withDict (addAll s.cfg d (sepEntry s.lcfg (splitStr txt (s.dictSep ++ str " "))).toList), v') := by
  have hsep : (s.withDict d).dictSep = s.dictSep := rfl
  have hsz : ∀ n w f, (s.withDict d).size n w f = s.size n w f := fun _ _ _ => rfl
  have hz := F64.zero_eq_zero (F := F)
  unfold readN
  simp only [hsep]
  generalize splitStr txt (s.dictSep ++ str " ") = cols
  have key : ∀ n w f p, n ≠ 0 → (n = 2 → p = []) → ∃ v', readerRow (s.withDict d) n ⟨w, f, p⟩ =
      some (s.withDict (addAll s.cfg d (rowEntry s.lcfg w (if n < 2 then none else some f) p).toList), v') := by
    intro n w f p hn hp
    have h := size_eq s n w f
    simp only [hn, if_false] at h
    have he := addEntry_eq s d n w f p
    simp only [hsz, hn, if_false] at he
    unfold readerRow
    rw [hsz]
    simp only
    cases hq : F64.eq (s.size n w f) (F64.ofNat 0) with
    | true =>
      rw [hq] at h
      simp only [if_true] at h ⊢
      rw [rowEntry, ← h]
      exact ⟨_, rfl⟩
    | false =>
      simp only [Bool.false_eq_true, if_false]
      by_cases h2 : n = 2
      · subst h2
        have := hp rfl
        subst this
        simp only [if_true, he]
        exact ⟨_, rfl⟩
      · simp only [h2, if_false, he]
        exact ⟨_, rfl⟩
  match cols with
  | [] => simp [readerRow, hsz, Segmenter.size, hz, sepEntry, addAll]
  | [w] => simpa [sepEntry] using key 1 w [] [] (by simp) (by simp)
  | [w, f] => simpa [sepEntry] using key 2 w (trimSpace f) [] (by simp) (by simp)
  | w :: f :: p :: t =>
    have : ¬ t.length + 1 + 1 + 1 < 2 := by omega
    simpa [sepEntry, this] using key (t.length + 1 + 1 + 1) w (trimSpace f) (trimSpace (trimNewlines p)) (by simp) (by simp)

theorem readerSep_eq (s : Segmenter F D) : ∀ (n : Nat) (d : Dictionary F D) (b : Bytes), b.length + 1 < n →
    readerSep n (s.withDict d) b = some (s.withDict (addAll s.cfg d
      ((fileLines s.dictSep b).filterMap fun l => sepEntry s.lcfg (splitStr l (s.dictSep ++ str " "))))) := by
  intro n
  induction n with
  | zero => intro d b h; omega
  | succ n ih =>
    intro d b h
    have hsep : (s.withDict d).dictSep = s.dictSep := rfl
    rw [readerSep]
    rcases readString_eq b with ⟨l, rest, h1, h2, h3⟩ | ⟨h1, h2⟩
    · rw [h3]
      simp only [Bool.false_and, Bool.false_eq_true, if_false]
      obtain ⟨v', hv⟩ := readN_row s d (l ++ [10])
      rw [hv]
      simp only
      rw [ih _ rest (by subst h2; simp at h; omega), ← addAll_append, h2, fileLines_cons _ _ _ h1]
      congr 3
      cases hx : sepEntry s.lcfg (splitStr (l ++ [10]) (s.dictSep ++ str " ")) <;> simp [hx]
    · rw [h2]
      have hfl : fileLines s.dictSep b = if (splitStr b (s.dictSep ++ str " ")).head? = some [] then [] else [b] := by
        unfold fileLines
        simp only [noNewline_split h1]
        by_cases hh : (splitStr b (s.dictSep ++ str " ")).head? = some [] <;> simp [hh]
      have hne := splitStr_ne_nil b (sep := s.dictSep ++ str " ") (by rw [show str " " = [32] by decide]; simp)
      have htext : ((s.withDict d).readN b).2.text = [] ↔ (splitStr b (s.dictSep ++ str " ")).head? = some [] := by
        simp only [readN, hsep]
        cases hs : splitStr b (s.dictSep ++ str " ") with
        | nil => exact absurd hs hne
        | cons a t => simp
      simp only [Bool.true_and, decide_eq_true_eq]
      by_cases ht : (splitStr b (s.dictSep ++ str " ")).head? = some []
      · rw [if_pos (htext.2 ht)]
        simp [hfl, ht, addAll]
      · rw [if_neg (fun hx => ht (htext.1 hx))]
        obtain ⟨v', hv⟩ := readN_row s d b
        rw [hv]
        simp only
        have hb : b ≠ [] := by
          rintro rfl
          apply ht
          rw [splitStr_single (by rw [show str " " = [32] by decide]; simp)]
          · rfl
          · intro i hp; simp [show str " " = [32] by decide] at hp
        have hlen : 0 < b.length := List.length_pos_iff.2 hb
        rw [ih _ [] (by simp; omega), ← addAll_append, hfl, if_neg ht]
        congr 3
        have : fileLines s.dictSep [] = [] := by
          unfold fileLines
          rw [noNewline_split (by simp)]
          have e := splitStr_single (s := []) (sep := s.dictSep ++ str " ") (by rw [show str " " = [32] by decide]; simp)
            (by intro i hp; simp [show str " " = [32] by decide] at hp)
          simp [e]
        rw [this]
        cases hx : sepEntry s.lcfg (splitStr b (s.dictSep ++ str " ")) <;> simp [hx]

end
end Gse
