import Verif.Spec.HmmModel
import Verif.Proofs.CostCut
import Verif.Props.Idf
import Verif.Props.SearchCut

/-!
# What of an HMM model acts on a text

C124: a cut with the HMM depends on the values of the Han characters of its text only, and without rounding neither on the base of the logarithms
nor on factors common to the four states of a character.
-/

namespace Gse
open Spec

set_option linter.unusedSectionVars false

section
variable {F D : Type} [F64 F] [F32 D] [Narrow F D] [Unicode]

theorem hmmRuns_han [UnicodeOK] {s : Bytes} {runs : List (RunKind × Bytes)} (h : HmmRuns s runs) :
    ∀ w, (RunKind.han, w) ∈ runs → (∀ r ∈ runes w, Unicode.isHan r = true) ∧ ∃ x y, s = x ++ w ++ y := by
  induction h with
  | nil => simp
  | @han s rest l h1 h2 _ _ ih =>
    intro w hw
    rcases List.mem_cons.1 hw with e | hw
    · cases e; exact ⟨h2, [], rest, rfl⟩
    · obtain ⟨g, x, y, e⟩ := ih w hw
      exact ⟨g, s ++ x, y, by rw [e]; simp⟩
  | @number x' y' rest l _ _ _ _ _ _ ih =>
    intro w hw
    rcases List.mem_cons.1 hw with e | hw
    · cases e
    · obtain ⟨g, x, y, e⟩ := ih w hw
      exact ⟨g, x' ++ str "." ++ y' ++ x, y, by rw [e]; simp⟩
  | @alnum s rest l _ _ _ _ _ ih =>
    intro w hw
    rcases List.mem_cons.1 hw with e | hw
    · cases e
    · obtain ⟨g, x, y, e⟩ := ih w hw
      exact ⟨g, s ++ x, y, by rw [e]; simp⟩
  | @other s rest l _ _ _ _ _ ih =>
    intro w hw
    rcases List.mem_cons.1 hw with e | hw
    · cases e
    · obtain ⟨g, x, y, e⟩ := ih w hw
      exact ⟨g, s ++ x, y, by rw [e]; simp⟩

/-- Two models whose Viterbi paths are the same on all runs of Han characters of a text cut it the same way. -/
theorem hmmCut_paths [UnicodeOK] {c c' : HmmConst F} {em em' : EmitModel F} {s : Bytes}
    (h : ∀ w, (∀ r ∈ runes w, Unicode.isHan r = true ∧ r ∈ runes s) → (viterbi c em (runes w)).map (·.2) = (viterbi c' em' (runes w)).map (·.2)) :
    hmmCut c em s [] = hmmCut c' em' s [] := by
  obtain ⟨rs, os, h1, h2, h3⟩ := C30_runs c em s
  obtain ⟨rs', os', h1', h2', h3'⟩ := C30_runs c' em' s
  have e := hmmRuns_unique h2 h2'
  subst e
  have key : ∀ k ∈ rs, ∀ o, RunWords c em k o → RunWords c' em' k o := by
    rintro ⟨k, w⟩ hk o ho
    cases ho with
    | skip => exact .skip
    | other => exact .other
    | @han _ v ts ws hv ht =>
      obtain ⟨g, x, y, e⟩ := hmmRuns_han h2 w hk
      have hm := h w fun r hr => ⟨g r hr, by
        have hw := encode_runes_han g
        by_cases hne : w = []
        · subst hne; simp [runes_nil] at hr
        · exact (runes_infix hw hne ⟨x, y, e.symm⟩).subset hr⟩
      rw [hv] at hm
      obtain ⟨⟨v', ts'⟩, e1, e2⟩ := Option.map_eq_some_iff.1 hm.symm
      cases e2
      exact .han e1 ht
  have h4 : List.Forall₂ (RunWords c' em') rs os := by
    clear h1 h2 h2' h3' h1'
    induction h3 with
    | nil => exact .nil
    | cons hx _ ih => exact .cons (key _ (List.mem_cons_self ..) _ hx) (ih fun k hk => key k (List.mem_cons_of_mem _ hk))
  rw [h1, h1', forall2_unique (R := RunWords c' em') (fun _ _ _ h h' => runWords_unique h h') h3' h4]

theorem flushBuf_congr {d : Dictionary F D} {f g : Bytes → Option (List Bytes)} {buf : List Rune} (h : f (encode buf) = g (encode buf)) :
    flushBuf d f buf = flushBuf d g buf := by
  unfold flushBuf hmmBuf
  rw [h]

theorem hmmLoop_congr {d : Dictionary F D} {f g : Bytes → Option (List Bytes)} {T : List Rune}
    (h : ∀ x : List Rune, (∀ r ∈ x, r ∈ T) → f (encode x) = g (encode x)) : ∀ (frags : List (List Rune)) (buf : List Rune),
    (∀ r ∈ buf, r ∈ T) → (∀ r ∈ frags.flatten, r ∈ T) → hmmLoop d f frags buf = hmmLoop d g frags buf
  | [], buf, hb, _ => flushBuf_congr (h buf hb)
  | frag :: rest, buf, hb, hf => by
    have hr : ∀ r ∈ rest.flatten, r ∈ T := fun r hr => hf r (by simp only [List.flatten_cons, List.mem_append]; exact .inr hr)
    unfold hmmLoop
    rw [flushBuf_congr (h buf hb), hmmLoop_congr h rest [] (by simp) hr, hmmLoop_congr h rest (buf ++ frag) (by
      intro r hx
      rcases List.mem_append.1 hx with hx | hx
      · exact hb r hx
      · exact hf r (by simp only [List.flatten_cons, List.mem_append]; exact .inl hx)) hr]

theorem cutDAG_congr [UnicodeOK] {cfg : SplitCfg} {d : Dictionary F D} {f g : Bytes → Option (List Bytes)} {s : Bytes}
    (h : ∀ x : List Rune, (∀ r ∈ x, r ∈ dagText cfg s) → f (encode x) = g (encode x)) : cutDAG cfg d f s = cutDAG cfg d g s := by
  rw [← dagRunes_eq] at h
  simp only [cutDAG]
  cases hR : calcRoutes d (dagRunes cfg s) with
  | none => rfl
  | some R =>
    simp only
    cases hw : walk (dagRunes cfg s) R (dagRunes cfg s).length 0 with
    | none => rfl
    | some frags =>
      have := walk_flatten _ _ _ _ _ hw
      simp only [Option.bind_some]
      exact hmmLoop_congr h frags [] (by simp) (by rw [this]; intro r hr; simpa using hr)

theorem sameWithHmm_of [UnicodeOK] {cfg : SplitCfg} {d : Dictionary F D} {c c' : HmmConst F} {em em' : EmitModel F} {s : Bytes}
    (h : ∀ x : List Rune, (∀ r ∈ x, Unicode.isHan r = true ∧ r ∈ runes s ++ dagText cfg s) → (viterbi c em x).map (·.2) = (viterbi c' em' x).map (·.2)) :
    SameWithHmm cfg d c c' em em' s := by
  have hc : ∀ fuel, cut cfg d fuel (fun t => hmmCut c em t []) s (some true) = cut cfg d fuel (fun t => hmmCut c' em' t []) s (some true) := by
    intro fuel
    show cutDAG cfg d _ s = cutDAG cfg d _ s
    refine cutDAG_congr fun x hx => hmmCut_paths fun w hw => h _ fun r hr => ⟨(hw r hr).1, ?_⟩
    have h2 := (hw r hr).2
    rw [runes_encode x fun r hr => dagText_valid cfg s r (hx r hr)] at h2
    exact List.mem_append_right _ (hx r h2)
  refine ⟨hmmCut_paths fun w hw => h _ fun r hr => ⟨(hw r hr).1, List.mem_append_left _ (hw r hr).2⟩, fun fuel => ⟨hc fuel, ?_⟩⟩
  show (cut cfg d fuel _ s (some true)).bind _ = (cut cfg d fuel _ s (some true)).bind _
  rw [hc fuel]

theorem viterbi_congr {c : HmmConst F} {em em' : EmitModel F} {rs : List Rune} (h : ∀ r ∈ rs, ∀ y, emitOf c em y r = emitOf c em' y r) :
    viterbi c em rs = viterbi c em' rs := by
  cases rs with
  | nil => rfl
  | cons r rs =>
    have h0 : vtbFirst c em r = vtbFirst c em' r := by simp only [vtbFirst, vtbStart, h r (List.mem_cons_self ..)]
    have hs : ∀ (l : List Rune) col, (∀ x ∈ l, ∀ y, emitOf c em y x = emitOf c em' y x) → l.foldl (vtbStep c em) col = l.foldl (vtbStep c em') col := by
      intro l
      induction l with
      | nil => intros; rfl
      | cons x l ih =>
        intro col hl
        have : vtbStep c em col x = vtbStep c em' col x := by simp only [vtbStep, vtbNext, vtbCand, hl x (List.mem_cons_self ..)]
        rw [List.foldl_cons, List.foldl_cons, this]
        exact ih _ fun z hz => hl z (List.mem_cons_of_mem _ hz)
    simp only [viterbi]
    rw [h0, hs rs _ fun x hx => h x (List.mem_cons_of_mem _ hx)]

/-- C124: only the values of the Han characters of the text matter, as it is and as a DAG cut reads it; a value that is missing is the least
number. -/
theorem C124_local [UnicodeOK] (cfg : SplitCfg) (d : Dictionary F D) (c : HmmConst F) (em em' : EmitModel F) (s : Bytes)
    (h : SameValues c em em' (runes s ++ dagText cfg s)) : SameWithHmm cfg d c c em em' s :=
  sameWithHmm_of fun _ hx => by rw [viterbi_congr fun r hr y => h r (hx r hr).2 (hx r hr).1 y]

/-- C124: so the model does not matter for a text without Han characters. -/
theorem C124_none [UnicodeOK] (cfg : SplitCfg) (d : Dictionary F D) (c : HmmConst F) (em em' : EmitModel F) (s : Bytes)
    (h : ∀ r ∈ runes s ++ dagText cfg s, Unicode.isHan r = false) : SameWithHmm cfg d c c em em' s :=
  C124_local cfg d c em em' s fun r hr hh => by rw [h r hr] at hh; cases hh

end

section exact
attribute [local instance] ratF64
variable {D : Type} [F32 D] [Narrow ℚ D] [Unicode]

theorem probTop_scale {l : ℚ} (hl : 0 < l) (k a b : ℚ) (s t : Tag) :
    probTop (l * a + k, s) (l * b + k, t) = (l * (probTop (a, s) (b, t)).1 + k, (probTop (a, s) (b, t)).2) := by
  have e1 : F64.eq (l * a + k) (l * b + k) = F64.eq a b := by
    show decide (l * a + k = l * b + k) = decide (a = b)
    rw [decide_eq_decide, add_left_inj, mul_right_inj' hl.ne']
  have e2 : F64.lt (l * a + k) (l * b + k) = F64.lt a b := by
    show decide (l * a + k < l * b + k) = decide (a < b)
    rw [decide_eq_decide, add_lt_add_iff_right, mul_lt_mul_iff_right₀ hl]
  have e3 : probLess (l * a + k, s) (l * b + k, t) = probLess (a, s) (b, t) := by
    unfold probLess
    rw [e1, e2]
  unfold probTop
  rw [e3]
  split <;> rfl

/-- The entries of one column are those of another, scaled. -/
def ColScaled (l k : ℚ) (p q : Column ℚ) : Prop := ∀ y, (q.get y).1 = l * (p.get y).1 + k ∧ (q.get y).2 = (p.get y).2

theorem viterbi_scale {c c' : HmmConst ℚ} {em em' : EmitModel ℚ} {rs : List Rune} {l a b : ℚ} {k : Rune → ℚ} (hl : 0 < l)
    (ha : ∀ y, c'.start y = l * c.start y + a) (hb : ∀ x y, c'.trans x y = l * c.trans x y + b)
    (hk : ∀ r ∈ rs, ∀ y, modelValue c' em' y r = l * modelValue c em y r + k r) :
    (viterbi c em rs).map (·.2) = (viterbi c' em' rs).map (·.2) := by
  cases rs with
  | nil => rfl
  | cons r rs =>
    have h0 : ColScaled l (k r + a) (vtbFirst c em r) (vtbFirst c' em' r) := by
      intro y
      have hv := hk r (List.mem_cons_self ..) y
      have hs := ha y
      have key : (vtbStart c' em' r y).1 = l * (vtbStart c em r y).1 + (k r + a) := by
        show modelValue c' em' y r + c'.start y = l * (modelValue c em y r + c.start y) + (k r + a)
        rw [hv, hs]; ring
      cases y <;> exact ⟨key, rfl⟩
    have step : ∀ (z : ℚ) (p q : Column ℚ) (x : Rune), (∀ y, modelValue c' em' y x = l * modelValue c em y x + k x) → ColScaled l z p q →
        ColScaled l (z + b + k x) (vtbStep c em p x) (vtbStep c' em' q x) := by
      intro z p q x hx hp y
      have cand : ∀ y0, vtbCand c' em' q x y y0 = (l * (vtbCand c em p x y y0).1 + (z + b + k x), y0) := by
        intro y0
        show ((q.get y0).1 + c'.trans y0 y + modelValue c' em' y x, y0) = (l * ((p.get y0).1 + c.trans y0 y + modelValue c em y x) + (z + b + k x), y0)
        rw [(hp y0).1, hb, hx]
        congr 1
        ring
      have key : (vtbNext c' em' q x y).1 = l * (vtbNext c em p x y).1 + (z + b + k x) ∧ (vtbNext c' em' q x y).2 = (vtbNext c em p x y).2 := by
        unfold vtbNext
        have hc : ∀ y0, vtbCand c em p x y y0 = ((vtbCand c em p x y y0).1, y0) := fun _ => rfl
        rw [cand, cand, hc (prevStatus y).1, hc (prevStatus y).2, probTop_scale hl]
        refine ⟨rfl, ?_⟩
        simp only
        rw [(hp _).2]
      cases y <;> exact key
    have all : ∀ (m : List Rune) (z : ℚ) (p q : Column ℚ), (∀ x ∈ m, ∀ y, modelValue c' em' y x = l * modelValue c em y x + k x) → ColScaled l z p q →
        ∃ z', ColScaled l z' (m.foldl (vtbStep c em) p) (m.foldl (vtbStep c' em') q) := by
      intro m
      induction m with
      | nil => intro z p q _ h; exact ⟨z, h⟩
      | cons x m ih => intro z p q hm h; exact ih _ _ _ (fun w hw => hm w (List.mem_cons_of_mem _ hw)) (step z p q x (hm x (List.mem_cons_self ..)) h)
    obtain ⟨z, hz⟩ := all rs _ _ _ (fun x hx => hk x (List.mem_cons_of_mem _ hx)) h0
    simp only [viterbi, Option.map_some, Option.some.injEq]
    have he := (hz .E).1
    have hs := (hz .S).1
    simp only [Column.get] at he hs
    rw [he, hs, probTop_scale hl, (hz _).2]

/-- C124: without rounding, neither the base of the logarithms of a model matters nor a factor common to the four states of a character, to all
start values or to all transitions. -/
theorem C124_scale [UnicodeOK] (cfg : SplitCfg) (d : Dictionary ℚ D) (c c' : HmmConst ℚ) (em em' : EmitModel ℚ) (s : Bytes)
    (h : Rescaled c em c' em' (runes s ++ dagText cfg s)) : SameWithHmm cfg d c c' em em' s := by
  obtain ⟨l, a, b, k, hl, ha, hb, hk⟩ := h
  exact sameWithHmm_of fun x hx => viterbi_scale hl ha hb fun r hr y => hk r (hx r hr).2 (hx r hr).1 y

end exact

section examples
attribute [local instance] sampleUnicode sampleUnicodeOK sampleF32 ratF64 ratNarrow

def wordConst : HmmConst ℚ := ⟨-100, fun | .B => -1 | .S => -2 | _ => -100, fun _ _ => -1⟩

/-- 中 begins words and 国 ends them. -/
def wordEmit : EmitModel ℚ
  | .B, 0x4E2D => some (-1)
  | .S, 0x4E2D => some (-3)
  | .E, 0x56FD => some (-1)
  | .S, 0x56FD => some (-3)
  | _, _ => none

/-- The other way round. -/
def loneEmit : EmitModel ℚ
  | .S, 0x4E2D => some (-1)
  | .S, 0x56FD => some (-1)
  | _, _ => none

def wordConst' : HmmConst ℚ := ⟨0, fun y => 2 * wordConst.start y + 3, fun x y => 2 * wordConst.trans x y + 4⟩
def wordEmit' : EmitModel ℚ := fun y r => some (2 * modelValue wordConst wordEmit y r + if r = 0x4E2D then 5 else 0)

/-- The conditions of `C124_scale`, for every text. -/
example (rs : List Rune) : Rescaled wordConst wordEmit wordConst' wordEmit' rs :=
  ⟨2, 3, 4, fun r => if r = 0x4E2D then 5 else 0, by norm_num, fun _ => rfl, fun _ _ => rfl, fun _ _ _ _ => rfl⟩

/-- The two models of `C124_scale` and one that differs on 中 and 国: the values of the characters of the text do matter. -/
example : hmmCut wordConst wordEmit (encode [0x4E2D, 0x56FD] ++ str "a") [] = some [encode [0x4E2D, 0x56FD], str "a"] ∧
    hmmCut wordConst' wordEmit' (encode [0x4E2D, 0x56FD] ++ str "a") [] = some [encode [0x4E2D, 0x56FD], str "a"] ∧
    hmmCut wordConst loneEmit (encode [0x4E2D, 0x56FD] ++ str "a") [] = some [encode [0x4E2D], encode [0x56FD], str "a"] := by
  refine ⟨?_, ?_, ?_⟩ <;> decide +kernel

/-- The conditions of `C124_local` and `C124_none`: the models differ on 中 and 国 only, 人 has no value in either. -/
example : SameValues wordConst wordEmit loneEmit (runes (encode [0x4EBA, 0x4EBA]) ++ dagText {} (encode [0x4EBA, 0x4EBA])) ∧
    (∀ r ∈ runes (str "3.5 a") ++ dagText {} (str "3.5 a"), Unicode.isHan r = false) := by
  refine ⟨?_, by decide +kernel⟩
  have : runes (encode [0x4EBA, 0x4EBA]) ++ dagText {} (encode [0x4EBA, 0x4EBA]) = [0x4EBA, 0x4EBA, 0x4EBA, 0x4EBA] := by decide +kernel
  rw [this]
  intro r hr _ y
  have : r = 0x4EBA := by simpa using hr
  subst this
  cases y <;> decide +kernel

end examples

end Gse
