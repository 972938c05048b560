import Verif.Proofs.Trim
import Verif.Props.Hmm
import Verif.Props.Output

namespace Gse

open Spec

set_option linter.unusedSectionVars false

/-! ## Character boundaries -/

theorem validText_step {p : Bytes} (h : ValidText p) (hp : p ≠ []) :
    encodeRune (decodeRune p).1 = p.take (decodeRune p).2 ∧ ValidText (p.drop (decodeRune p).2) := by
  have hv := decodeRune_valid p
  have e : p = encodeRune (decodeRune p).1 ++ encode (runes (p.drop (decodeRune p).2)) := by
    conv => lhs; rw [← h]
    rw [runes_cons p hp, encode_cons]
  have h2 := decodeRune_encodeRune _ hv (encode (runes (p.drop (decodeRune p).2)))
  rw [← e] at h2
  have hlen : (decodeRune p).2 = (encodeRune (decodeRune p).1).length := by rw [h2]
  have ht : p.take (decodeRune p).2 = encodeRune (decodeRune p).1 := by
    conv => lhs; arg 2; rw [e]
    rw [hlen, List.take_left]
  have hd : p.drop (decodeRune p).2 = encode (runes (p.drop (decodeRune p).2)) := by
    conv => lhs; arg 2; rw [e]
    rw [hlen, List.drop_left, ← hlen]
  exact ⟨ht.symm, hd.symm⟩

theorem validText_split {a b : Bytes} (hb : ∀ c, b.head? = some c → isCont c.toNat = false) (h : ValidText (a ++ b)) :
    ValidText a ∧ ValidText b := by
  induction a using chars_induction with
  | nil => exact ⟨rfl, by simpa using h⟩
  | step p hp ih =>
    have hs := validText_step h (by simp [hp])
    rw [decodeRune_append_start p b hp hb, List.take_append_of_le_length (decodeRune_size_le p),
      List.drop_append_of_le_length (decodeRune_size_le p)] at hs
    obtain ⟨i1, i2⟩ := ih hs.2
    refine ⟨?_, i2⟩
    rw [ValidText, runes_cons p hp, encode_cons, hs.1, i1, List.take_append_drop]

theorem head_encodeRune (r : Rune) (c : UInt8) (h : (encodeRune r).head? = some c) : isCont c.toNat = false := by
  unfold encodeRune at h
  have aux : ∀ n, n < 256 → ¬ (0x80 ≤ n ∧ n ≤ 0xBF) → isCont (UInt8.ofNat n).toNat = false := by
    intro n hn h
    rw [toNat_ofNat_lt hn]
    simp only [isCont, Bool.and_eq_false_iff, decide_eq_false_iff_not]
    omega
  split at h
  · obtain rfl := Option.some.inj h; exact aux _ (by omega) (by omega)
  split at h
  · obtain rfl := Option.some.inj h; exact aux _ (by omega) (by omega)
  split at h
  · obtain rfl := Option.some.inj h; rfl
  rename_i h3
  split at h
  · obtain rfl := Option.some.inj h; exact aux _ (by omega) (by omega)
  · obtain rfl := Option.some.inj h
    have : r ≤ 0x10FFFF := by
      simp only [validRune, Bool.not_eq_true, Bool.not_eq_false'] at h3
      simp at h3
      omega
    exact aux _ (by omega) (by omega)

theorem head_valid {b : Bytes} (h : ValidText b) (c : UInt8) (hc : b.head? = some c) : isCont c.toNat = false := by
  rcases e : runes b with _ | ⟨r, rs⟩
  · rw [ValidText, e] at h
    rw [← h] at hc
    simp [encode] at hc
  · rw [ValidText, e, encode_cons] at h
    rw [← h] at hc
    apply head_encodeRune r c
    obtain ⟨x, t, hx⟩ := List.exists_cons_of_ne_nil (encodeRune_ne_nil r)
    rw [hx] at hc ⊢
    simpa using hc

/-- Well-formed pieces are cut at character boundaries. -/
theorem runes_flatten_valid {out : List Bytes} (h : ∀ w ∈ out, ValidText w) : runes out.flatten = out.flatMap runes := by
  induction out with
  | nil => rfl
  | cons w out ih =>
    have h2 : ValidText out.flatten := by
      have h' : ∀ w ∈ out, ValidText w := fun w hw => h w (by simp [hw])
      clear ih h
      induction out with
      | nil => rfl
      | cons w out ih => exact validText_append (h' w (by simp)) (ih fun w hw => h' w (by simp [hw]))
    rw [List.flatten_cons, List.flatMap_cons, runes_append_start _ _ (head_valid h2), ih fun w hw => h w (by simp [hw])]

section
variable [U : Unicode]

theorem trimSymbol_flatten {out : List Bytes} (h : runes out.flatten = out.flatMap runes) :
    (trimSymbol out).flatten = filterSymbol out.flatten := by
  have e : ∀ l : List Bytes, (l.filter fun v => v ≠ []).flatten = l.flatten := by
    intro l
    induction l with
    | nil => rfl
    | cons v l ih =>
      rw [List.filter_cons]
      split
      · rw [List.flatten_cons, ih, List.flatten_cons]
      · next hv =>
        have : v = [] := by simpa using hv
        rw [ih, this]; rfl
  rw [trimSymbol_eq, e, filterSymbol_eq, h]
  clear h e
  induction out with
  | nil => rfl
  | cons w out ih => rw [List.map_cons, List.flatten_cons, ih, List.flatMap_cons, List.filter_append, encode_append, filterSymbol_eq]

/-- The words of a split are cut at character boundaries. -/
theorem split_chars [UnicodeOK] (cfg : SplitCfg) (t : Bytes) :
    chars (splitTextToWords cfg t).flatten = (splitTextToWords cfg t).flatMap chars := by
  rw [splitTextToWords_eq]
  have hcov := grpAll_flatten cfg (chars t)
  generalize grpAll cfg (chars t) = gs at hcov
  have key : ∀ (pre gs : List (List Bytes)), (pre ++ gs).flatten = chars t →
      chars (gs.map (emit cfg)).flatten = (gs.map (emit cfg)).flatMap chars := by
    intro pre gs
    induction gs generalizing pre with
    | nil => intro _; rfl
    | cons g gs ih =>
      intro h
      have hg : chars (emit cfg g) = g.map (normChar cfg) := by
        apply chars_norm
        apply chars_infix (p := t) (a := pre.flatten) (c := gs.flatten)
        rw [← h]; simp
      have hall : chars ((g :: gs).map (emit cfg)).flatten = (g :: gs).flatten.map (normChar cfg) := by
        have e : ((g :: gs).map (emit cfg)).flatten = (g :: gs).flatten.flatMap (normChar cfg) := by
          clear h ih hg
          induction (g :: gs) with
          | nil => rfl
          | cons g gs ih => simp [emit, ih]
        rw [e]
        apply chars_norm
        apply chars_append_right (p := t) (a := pre.flatten)
        rw [← h]; simp
      have htl : chars (gs.map (emit cfg)).flatten = gs.flatten.map (normChar cfg) := by
        have e : (gs.map (emit cfg)).flatten = gs.flatten.flatMap (normChar cfg) := by
          clear h ih hg hall
          induction gs with
          | nil => rfl
          | cons g gs ih => simp [emit, ih]
        rw [e]
        apply chars_norm
        apply chars_append_right (p := t) (a := pre.flatten ++ g)
        rw [← h]; simp
      have i := ih (pre ++ [g]) (by rw [← h]; simp)
      rw [hall, List.map_cons, List.flatMap_cons, hg, ← i, htl]
      simp
  exact key [] gs (by simpa using hcov)

theorem split_pieces_runes [UnicodeOK] (cfg : SplitCfg) (t : Bytes) (pieces : List (List Bytes))
    (h : splitTextToWords cfg t = pieces.flatten) :
    runes (pieces.map List.flatten).flatten = (pieces.map List.flatten).flatMap runes := by
  have one : ∀ ws l r, splitTextToWords cfg t = l ++ ws ++ r → chars ws.flatten = ws.flatMap chars := by
    intro ws l r e
    have := split_infix cfg t l ws r e
    have h2 := split_chars cfg ws.flatten
    rwa [this] at h2
  have main : chars (pieces.map List.flatten).flatten = (pieces.map List.flatten).flatMap chars := by
    rw [← List.flatten_flatten, one pieces.flatten [] [] (by simp [h])]
    rw [List.flatMap_map]
    have : ∀ (pre ps : List (List Bytes)), pieces = pre ++ ps → ps.flatten.flatMap chars = ps.flatMap fun p => chars p.flatten := by
      intro pre ps
      induction ps generalizing pre with
      | nil => intro _; rfl
      | cons p ps ih =>
        intro e
        rw [List.flatten_cons, List.flatMap_append, List.flatMap_cons, ih (pre ++ [p]) (by rw [e]; simp)]
        congr 1
        exact (one p pre.flatten ps.flatten (by rw [h, e]; simp)).symm
    exact this [] pieces rfl
  rw [runes_eq_chars, main]
  clear main h
  induction pieces with
  | nil => rfl
  | cons p ps ih => rw [List.map_cons, List.flatMap_cons, List.flatMap_cons, List.map_append, ih, ← runes_eq_chars]


/-! ## The pieces of the three modes of `Cut` -/

theorem head_alnum {b : UInt8} (h : alnumB b = true) : isCont b.toNat = false :=
  forall_byte (P := fun b => alnumB b = true → isCont b.toNat = false) (by decide +kernel) b h

theorem ascii_alnum {b : UInt8} (h : alnumB b = true) : b.toNat < 128 :=
  forall_byte (P := fun b => alnumB b = true → b.toNat < 128) (by decide +kernel) b h

theorem ascii_digit {b : UInt8} (h : digitB b = true) : b.toNat < 128 :=
  forall_byte (P := fun b => digitB b = true → b.toNat < 128) (by decide +kernel) b h

theorem runes_take_char {s : Bytes} (h : s ≠ []) : runes (s.take (decodeRune s).2) = [(decodeRune s).1] := by
  have hp := decodeRune_size_pos s h
  have hl := decodeRune_size_le s
  have hne : s.take (decodeRune s).2 ≠ [] := by
    intro e
    have := congrArg List.length e
    rw [List.length_take, List.length_nil] at this
    omega
  rw [runes_cons _ hne, decodeRune_of_take s h]
  simp [runes_nil]

theorem head_startsHan [UnicodeOK] {s : Bytes} (h : StartsHan s) (c : UInt8) (hc : s.head? = some c) : isCont c.toNat = false := by
  obtain ⟨hne, hh⟩ := h
  have hv : encodeRune (decodeRune s).1 = s.take (decodeRune s).2 := by
    have h1 : ∀ r ∈ runes (s.take (decodeRune s).2), U.isHan r = true := by
      rw [runes_take_char hne]
      simpa using hh
    have := encode_runes_han h1
    rw [ValidText, runes_take_char hne] at this
    simpa [encode] using this
  apply head_encodeRune _ c
  rw [hv]
  have := decodeRune_size_pos s hne
  rcases s with _ | ⟨b, t⟩
  · simp at hc
  · cases hn : (decodeRune (b :: t)).2 with
    | zero => omega
    | succ n => simpa using hc

theorem validText_ascii {s : Bytes} (h : ∀ b ∈ s, b.toNat < 128) : ValidText s := by
  induction s with
  | nil => rfl
  | cons b t ih =>
    have e : ValidText [b] := by
      have hb := h b (by simp)
      revert hb
      revert b
      intro b _
      exact (forall_byte (P := fun b => b.toNat < 128 → encode (runes [b]) = [b]) (by decide +kernel)) b
    exact validText_append e (ih fun b hb => h b (by simp [hb]))

omit U in
theorem validText_encode_any (t : List Rune) : ValidText (encode t) := by
  induction t with
  | nil => rfl
  | cons r t ih =>
    rw [encode_cons]
    refine validText_append ?_ ih
    by_cases hr : validRune r = true
    · have := validText_encode (rs := [r]) (by simpa using hr)
      simpa [encode] using this
    · have e : encodeRune r = encodeRune 0xFFFD := by
        unfold encodeRune
        have h1 : ¬ r < 0x80 := by intro h; apply hr; simp [validRune]; omega
        have h2 : ¬ r < 0x800 := by intro h; apply hr; simp [validRune]; omega
        rw [if_neg h1, if_neg h2, if_pos (by simpa using hr)]
        decide
      rw [e]
      show encode (runes _) = _
      decide

theorem validText_tail {a b : Bytes} (h : ValidText (a ++ b)) (ha : ValidText a) : ValidText b := by
  have := validText_drop (n := a.length) h (by simpa using ha)
  simpa using this

theorem hmmRuns_valid [UnicodeOK] {s : Bytes} {runs : List (RunKind × Bytes)} (h : HmmRuns s runs) (hv : ValidText s) :
    ∀ p ∈ runs, ValidText p.2 := by
  induction h with
  | nil => simp
  | @han s rest l _ h1 _ _ ih =>
    have hs := encode_runes_han h1
    simpa using ⟨hs, fun a b => ih (validText_tail hv hs) (a, b)⟩
  | @number x y rest l _ _ h1 h2 _ _ ih =>
    have hs : ValidText (x ++ str "." ++ y) := by
      apply validText_ascii
      intro b hb
      simp only [List.mem_append] at hb
      rcases hb with (hb | hb) | hb
      · exact ascii_digit (h1 b hb)
      · have : str "." = [46] := by decide
        rw [this] at hb
        obtain rfl := List.mem_singleton.1 hb
        decide
      · exact ascii_digit (h2 b hb)
    simpa using ⟨by simpa using hs, fun a b => ih (validText_tail hv hs) (a, b)⟩
  | @alnum s rest l _ h1 _ _ _ ih =>
    have hs : ValidText s := validText_ascii fun b hb => ascii_alnum (h1 b hb)
    simpa using ⟨hs, fun a b => ih (validText_tail hv hs) (a, b)⟩
  | @other s rest l _ _ _ h3 _ ih =>
    have hs := validText_split (a := s) (b := rest) (by
      intro c hc
      rcases h3 with rfl | h3 | ⟨b, t, rfl, h3⟩
      · simp at hc
      · exact head_startsHan h3 c hc
      · obtain rfl : b = c := by simpa using hc
        exact head_alnum h3) hv
    simpa using ⟨hs.1, fun a b => ih hs.2 (a, b)⟩

variable {F D : Type} [F64 F] [F32 D] [Narrow F D]

theorem hmmCut_valid [UnicodeOK] (c : HmmConst F) (em : EmitModel F) (s : Bytes) (hv : ValidText s) :
    ∃ out, hmmCut c em s [] = some out ∧ out.flatten = s ∧ ∀ w ∈ out, w ≠ [] ∧ ValidText w := by
  obtain ⟨out, h1, h2, h3⟩ := C30_lossless c em s
  refine ⟨out, h1, h2, fun w hw => ⟨h3 w hw, ?_⟩⟩
  obtain ⟨runs, outs, e1, e2, e3⟩ := C30_runs c em s
  rw [h1] at e1
  obtain rfl := Option.some.inj e1
  have hruns := hmmRuns_valid e2 hv
  obtain ⟨o, ho, hwo⟩ := List.mem_flatten.1 hw
  clear h1 h2 h3 e1 e2 hw
  induction e3 with
  | nil => simp at ho
  | @cons p o' runs outs hp _ ih =>
    rcases List.mem_cons.1 ho with rfl | ho
    · have hpv := hruns p (by simp)
      cases hp with
      | @han s v ts ws h1 h2 =>
        obtain ⟨t, ht, rfl⟩ := List.mem_map.1 hwo
        apply validText_encode
        intro r hr
        apply runes_valid s
        rw [← (tagWords_flatten h2).1]
        exact List.mem_flatten.2 ⟨t, ht, hr⟩
      | skip => obtain rfl := List.mem_singleton.1 hwo; exact hpv
      | other => obtain rfl := List.mem_singleton.1 hwo; exact hpv
    · exact ih (fun p hp => hruns p (by simp [hp])) ho

theorem segSlice_pieces [UnicodeOK] {cfg : SplitCfg} {ops : List (DictOp F)} {d : Dictionary F D}
    (hr : runOps cfg ops Dictionary.new = some d) (fuel : Nat) (s : Bytes) :
    ∃ ts, segSlice cfg d fuel s false = some (ts.map fun t => t.text.flatten) ∧ IsSegmentation d (splitTextToWords cfg s) ts := by
  obtain ⟨segs, ts, h1, h2, h3, h4⟩ := segment_tokens hr s false (by simp)
  refine ⟨ts, ?_, h3⟩
  rw [segSlice, h1, Option.bind_some, toSlice, if_neg (by simp)]
  clear h1 h3 h4
  induction h2 with
  | nil => rfl
  | @cons g t segs ts h _ ih =>
    rw [concatOpt, h.1]
    simp only [textSliceToString_eq, Option.map_some, Option.bind_some] at ih ⊢
    rw [ih]; rfl

/-- The pieces of every mode of `Cut` are whole characters. -/
theorem cut_runes [UnicodeOK] {cfg : SplitCfg} {ops : List (DictOp F)} {d : Dictionary F D}
    (hr : runOps cfg ops Dictionary.new = some d) (fuel : Nat) (c : HmmConst F) (em : EmitModel F) (s : Bytes) (mode : Option Bool) :
    ∃ out, cut cfg d fuel (fun t => hmmCut c em t []) s mode = some out ∧ runes out.flatten = out.flatMap runes ∧
      runes out.flatten = cutText cfg s mode := by
  rcases mode with _ | _ | _
  · obtain ⟨ts, h1, h2⟩ := segSlice_pieces hr fuel s
    refine ⟨_, h1, ?_, ?_⟩
    · have := split_pieces_runes cfg s (ts.map Token.text) h2.1.symm
      simpa [List.map_map, Function.comp_def] using this
    · have e : (ts.map fun t => t.text.flatten).flatten = normText cfg s := by
        have := congrArg List.flatten h2.1
        rw [C01_split_lossless cfg s] at this
        rw [← this, wordsOf, List.flatten_flatten, List.map_map]
        rfl
      rw [e]; rfl
  · obtain ⟨out, h1, h2, h3⟩ := C26_lossless cfg ops d hr s
    refine ⟨out, h1, runes_flatten_valid fun w hw => ?_, ?_⟩
    · obtain ⟨_, t, rfl, _⟩ := h3 w hw
      exact validText_encode_any t
    · rw [h2, runes_encode]
      · rfl
      · rw [← dagRunes_eq]; exact dagRunes_valid cfg s
  · obtain ⟨out, h1, h2, h3⟩ := cutDAG_items cfg ops d hr (fun t => hmmCut c em t []) (fun w => w ≠ [] ∧ ValidText w)
      (fun t ht hv => ⟨encode_ne_nil ht, validText_encode hv⟩) (fun t ht => hmmCut_valid c em t ht) s
    refine ⟨out, h1, runes_flatten_valid fun w hw => (h3 w hw).2, ?_⟩
    rw [h2, runes_encode]
    · rfl
    · rw [← dagRunes_eq]; exact dagRunes_valid cfg s

/-! ## Blanks between numbers and other text -/

omit U in
theorem chars_append_start (a b : Bytes) (hb : ∀ c, b.head? = some c → isCont c.toNat = false) : chars (a ++ b) = chars a ++ chars b := by
  induction a using chars_induction with
  | nil => rfl
  | step p hp ih =>
    rw [chars_cons (p ++ b) (by simp [hp]), chars_cons p hp, decodeRune_append_start p b hp hb,
      List.take_append_of_le_length (decodeRune_size_le p), List.drop_append_of_le_length (decodeRune_size_le p), ih]
    rfl

omit U in
theorem chars_append_ascii (a b : Bytes) (ha : ∀ c ∈ a, c.toNat < 128) : chars (a ++ b) = chars a ++ chars b := by
  induction a with
  | nil => rfl
  | cons c a ih =>
    have hc := ha c (by simp)
    have e : ∀ t, decodeRune (c :: t) = (c.toNat, 1) := by
      intro t; simp [decodeRune, hc]
    rw [List.cons_append, chars_cons _ (by simp), chars_cons (c :: a) (by simp), e, e]
    simpa using ih fun c hc => ha c (by simp [hc])

omit U in
theorem chars_numRuns {s : Bytes} {out : List Bytes} (h : NumRuns s out) :
    chars s = out.flatMap chars ∧ chars ((str " ").intercalate out) = [(str " ")].intercalate (out.map chars) := by
  obtain ⟨h1, h2, h3, h4⟩ := h
  rw [← h1]
  clear h1
  have sp : str " " = [32] := by decide
  have digit : ∀ b, IsDigit b → b.toNat < 128 := fun b hb => by
    have := (numByte_iff b).2 hb
    simp [numByte] at this; omega
  induction out with
  | nil => exact ⟨rfl, rfl⟩
  | cons x out ih =>
    obtain ⟨i1, i2⟩ := ih (fun w hw => h2 w (by simp [hw])) (fun w hw => h3 w (by simp [hw]))
      (fun a x' y b e => h4 (x :: a) x' y b (by rw [e]; rfl))
    rcases out with _ | ⟨y, out⟩
    · simp [List.intercalate, List.intersperse, sp]
    · have key : chars (x ++ (y :: out).flatten) = chars x ++ chars (y :: out).flatten := by
        rcases h3 x (by simp) with hx | hx
        · exact chars_append_ascii _ _ fun c hc => digit c (hx c hc)
        · have hy : ∀ b ∈ y, IsDigit b := by
            have := h4 [] x y out rfl
            by_contra hc
            have hx' := this.2 hc
            obtain ⟨c, t, e⟩ := List.exists_cons_of_ne_nil (h2 x (by simp))
            exact hx c (by simp [e]) (hx' c (by simp [e]))
          apply chars_append_start
          intro c hc
          obtain ⟨b, t, e⟩ := List.exists_cons_of_ne_nil (h2 y (by simp))
          have : b = c := by simpa [e] using hc
          have hd := digit c (hy c (by simp [e, this]))
          simp only [isCont, Bool.and_eq_false_iff, decide_eq_false_iff_not]
          omega
      refine ⟨by rw [List.flatten_cons, key, i1]; rfl, ?_⟩
      have e1 : ∀ {α : Type} (u x y : List α) l, u.intercalate (x :: y :: l) = x ++ (u ++ u.intercalate (y :: l)) := by
        intro α u x y l; simp [List.intercalate, List.intersperse]
      rw [e1, List.map_cons, List.map_cons, e1, ← List.map_cons, ← i2, sp]
      rw [chars_append_start x _ (by
        intro c hc
        obtain rfl : 32 = c := by simpa using hc
        decide),
        chars_append_ascii [32] _ (by simp)]
      rfl

omit U in
theorem splitNums_filter {s : Bytes} (φ : Bytes → Rune) (p : Rune → Bool) (h : p (φ (str " ")) = false) :
    ((chars (splitNums s)).map φ).filter p = ((chars s).map φ).filter p := by
  obtain ⟨h1, h2⟩ := chars_numRuns (splitNum_spec s)
  rw [h1, splitNums, h2]
  induction splitNum s with
  | nil => rfl
  | cons x out ih =>
    rcases out with _ | ⟨y, out⟩
    · simp [List.intercalate]
    · have e1 : ∀ {α : Type} (u x y : List α) l, u.intercalate (x :: y :: l) = x ++ (u ++ u.intercalate (y :: l)) := by
        intro α u x y l; simp [List.intercalate, List.intersperse]
      rw [List.map_cons, List.map_cons, e1, ← List.map_cons, List.map_append, List.filter_append, List.map_append, List.filter_append,
        ih, List.flatMap_cons, List.map_append, List.filter_append]
      simp [h]

theorem cutText_chars [UnicodeOK] (cfg : SplitCfg) (mode : Option Bool) : ∃ φ : Bytes → Rune, φ (str " ") = 32 ∧
    ∀ s, cutText cfg s mode = (chars s).map φ := by
  rcases mode with _ | b
  · refine ⟨fun u => charRune (normChar cfg u), ?_, ?_⟩
    · have : normChar cfg (str " ") = str " " := by
        unfold normChar; split <;> decide
      show charRune (normChar cfg (str " ")) = 32
      rw [this]; decide
    · intro s
      show runes (normText cfg s) = _
      rw [runes_eq_chars, normText, chars_norm cfg (chars s) (by rw [chars_flatten]), List.map_map]
      rfl
  · by_cases hl : cfg.toLower = true
    · refine ⟨fun u => U.toLower (charRune u), ?_, fun s => ?_⟩
      · have e : charRune (str " ") = 32 := by decide
        show U.toLower (charRune (str " ")) = 32
        rw [e, UnicodeOK.lower_ascii 32 (by decide)]
        decide
      · simp [cutText, dagText, hl, runes_eq_chars]
    · refine ⟨charRune, by decide, fun s => ?_⟩
      simp [cutText, dagText, hl, runes_eq_chars]

theorem cutText_splitNums [UnicodeOK] (cfg : SplitCfg) (mode : Option Bool) (s : Bytes) :
    (cutText cfg (splitNums s) mode).filter plainRune = (cutText cfg s mode).filter plainRune := by
  obtain ⟨φ, h1, h2⟩ := cutText_chars cfg mode
  rw [h2, h2]
  apply splitNums_filter
  rw [h1]
  have := UnicodeOK.space_blank (U := U)
  simp [plainRune, this]

end
end Gse
