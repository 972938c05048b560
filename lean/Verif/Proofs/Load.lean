import Verif.Spec.Load
import Verif.Proofs.Output
import Verif.Proofs.GoStr

/-! Loading is a sequence of additions followed by a recalculation. -/

namespace Gse
open Spec Trie

set_option linter.unusedSectionVars false

section nounicode
variable {F D : Type} [F64 F] [F32 D] [Narrow F D]

theorem mapOpt_congr {α β γ : Type} {R : α → β → Prop} {f : α → Option γ} {g : β → Option γ} (hf : ∀ a b, R a b → f a = g b) :
    ∀ {l : List α} {l' : List β}, List.Forall₂ R l l' → mapOpt f l = mapOpt g l' := by
  intro l l' h
  induction h with
  | nil => rfl
  | cons h _ ih => simp [mapOpt, hf _ _ h, ih]

/-- The configuration part of a segmenter. -/
def Segmenter.lcfg (s : Segmenter F D) : LoadCfg F := ⟨s.minTokenFreq, s.textFreq, s.loadNoFreq⟩

end nounicode

section
variable {F D : Type} [F64 F] [F32 D] [Narrow F D] [Unicode]

theorem SameCore.td {d d' : Dictionary F D} (h : SameCore d d') : SameTD (withDistances d) (withDistances d') := by
  refine ⟨h.trie, h.maxLen, fun i => ?_⟩
  have := h.get i
  simp only [withDistances, List.getElem?_map, h.total, Option.map_map]
  revert this
  cases d.tokens[i]? <;> cases d'.tokens[i]? <;> simp [Token.core]
  intro h1 h2 h3
  exact ⟨h1, by rw [h2]⟩

/-- Recalculation reads only texts, frequencies and tags. -/
theorem calcToken_congr {d d' : Dictionary F D} (h : SameCore d d') : calcToken d' = calcToken d := by
  have htd := h.td
  simp only [calcToken, Option.bind_eq_bind]
  rw [mapOpt_congr (R := fun (a b : Token F D) => a.core = b.core ∧ a.distance = b.distance)
    (l := (withDistances d').tokens) (l' := (withDistances d).tokens)
    (g := fun t => (segmentWords (some (withDistances d)) t.text true).bind fun segs =>
      (filterOpt (keepSub (withDistances d)) segs).bind fun kept => some { t with segments := kept })]
  · have : ∀ ts, ({ withDistances d' with tokens := ts } : Dictionary F D) = { withDistances d with tokens := ts } := by
      intro ts
      simp [withDistances, h.trie, h.maxLen, h.total]
    simp [this]
  · rintro ⟨_, _, _, _, _⟩ ⟨_, _, _, _, _⟩ ⟨h1, h2⟩
    simp only [Token.core, Prod.mk.injEq] at h1
    obtain ⟨rfl, rfl, rfl⟩ := h1
    simp only at h2
    subst h2
    simp only [htd.segmentWords, htd.keepSub]
  · have hl := h.tokens
    simp only [withDistances, h.total]
    generalize d.tokens = l at *
    generalize d'.tokens = l' at *
    induction l' generalizing l with
    | nil => cases l <;> simp_all
    | cons a l' ih =>
      cases l with
      | nil => simp at hl
      | cons b l =>
        simp only [List.map_cons, List.cons.injEq] at hl
        refine .cons ⟨hl.1, ?_⟩ (ih l hl.2)
        have := hl.1
        simp only [Token.core, Prod.mk.injEq] at this
        simp [this]

theorem addToken_same {d d' : Dictionary F D} (h : SameCore d d') (t : Token F D) : SameCore (d.addToken t).1 (d'.addToken t).1 := by
  have hl := h.length
  unfold Dictionary.addToken
  simp only [h.trie, Dictionary.numTokens, hl]
  generalize d.trie.get (textSliceToBytes t.text) = g
  generalize d.trie.insert (textSliceToBytes t.text) d.tokens.length = ins
  cases g with
  | some v => exact h
  | none =>
    cases ins with
    | some tr => exact ⟨rfl, by simp [h.maxLen], by simp [h.total], by simp [h.tokens]⟩
    | none => exact h

/-- Storing entries in order. -/
def addAll (cfg : SplitCfg) (d : Dictionary F D) (es : List (Entry F)) : Dictionary F D :=
  es.foldl (fun d e => (segAddToken cfg d e.1 e.2.1 e.2.2).1) d

theorem addAll_append (cfg : SplitCfg) (d : Dictionary F D) (a b : List (Entry F)) :
    addAll cfg d (a ++ b) = addAll cfg (addAll cfg d a) b := by simp [addAll]

theorem addAll_same (cfg : SplitCfg) {d d' : Dictionary F D} (h : SameCore d d') (es : List (Entry F)) :
    SameCore (addAll cfg d es) (addAll cfg d' es) := by
  induction es generalizing d d' with
  | nil => exact h
  | cons e es ih => exact ih (addToken_same h _)

theorem runOps_append (cfg : SplitCfg) (a b : List (DictOp F)) (d : Dictionary F D) :
    runOps cfg (a ++ b) d = (runOps cfg a d).bind (runOps cfg b) := by
  induction a generalizing d with
  | nil => rfl
  | cons op a ih =>
    simp only [List.cons_append, runOps, Option.bind_assoc]
    congr 1; funext d'; exact ih d'

theorem runOps_adds (cfg : SplitCfg) (es : List (Entry F)) (d : Dictionary F D) :
    runOps cfg (es.map fun e => .add e.1 e.2.1 e.2.2) d = some (addAll cfg d es) := by
  induction es generalizing d with
  | nil => rfl
  | cons e es ih => simp [runOps, DictOp.step, addAll]; exact ih _

theorem runOps_load (cfg : SplitCfg) (es : List (Entry F)) (d : Dictionary F D) :
    runOps cfg (loadOps es) d = calcToken (addAll cfg d es) := by
  rw [loadOps, runOps_append, runOps_adds]
  simp [runOps, DictOp.step]

/-! ### The loops -/

theorem size_eq (s : Segmenter F D) (n : Nat) (w f : Bytes) :
    (if F64.eq (s.size n w f) (F64.ofNat 0) then none else some (s.size n w f)) =
      if n = 0 then none else rowFreq s.lcfg w (if n < 2 then none else some f) := by
  have hz := F64.zero_eq_zero (F := F)
  obtain ⟨_, _, _, mn, tf, nf, _⟩ := s
  simp only [Segmenter.size, Segmenter.lcfg]
  by_cases h0 : n = 0
  · simp [h0, hz]
  simp only [h0, if_false]
  by_cases h2 : n < 2
  · cases nf with
    | false => simp [rowFreq, h2, hz]
    | true =>
      rcases hp : (F64.parse tf : F × Bool) with ⟨v, e⟩
      cases e
      · simp only [rowFreq, h2]
        by_cases h3 : F64.lt v mn = true
        · simp [h3, hz, hp]
        · by_cases h4 : (runes w).length < 2 <;> simp [h3, h4, hp]
      · simp [rowFreq, h2, hp]
  · rcases hp : (F64.parse f : F × Bool) with ⟨v, e⟩
    cases e
    · simp only [rowFreq, h2]
      by_cases h3 : F64.lt v mn = true
      · simp [h3, hz, hp]
      · by_cases h4 : (runes w).length < 2 <;> simp [h3, h4, hp]
    · simp [rowFreq, h2, hp]

/-- Replace the dictionary of a segmenter. -/
def Segmenter.withDict (s : Segmenter F D) (d : Dictionary F D) : Segmenter F D := { s with dict := some d }

theorem addEntry_eq (s : Segmenter F D) (d : Dictionary F D) (n : Nat) (w f p : Bytes) :
    (s.withDict d).addEntry w ((s.withDict d).size n w f) p = some (s.withDict (addAll s.cfg d
      (if n = 0 then [] else (rowEntry s.lcfg w (if n < 2 then none else some f) p).toList))) := by
  have h := size_eq s n w f
  have hsz : (s.withDict d).size n w f = s.size n w f := rfl
  unfold Segmenter.addEntry
  rw [hsz]
  by_cases hq : F64.eq (s.size n w f) (F64.ofNat 0) = true
  · simp only [hq, if_true] at h ⊢
    by_cases h0 : n = 0
    · simp [h0, addAll]
    · simp only [h0, if_false] at h ⊢
      simp [rowEntry, ← h, addAll]
  · simp only [hq, Bool.false_eq_true, if_false] at h ⊢
    by_cases h0 : n = 0
    · simp [h0] at h
    · simp only [h0, if_false] at h ⊢
      simp [rowEntry, ← h, addAll, Segmenter.withDict]

theorem loop_adds {α : Type} (s : Segmenter F D) (f : Segmenter F D → α → Option (Segmenter F D)) (g : α → List (Entry F))
    (hf : ∀ d a, f (s.withDict d) a = some (s.withDict (addAll s.cfg d (g a)))) (l : List α) (d : Dictionary F D) :
    Segmenter.loop f l (s.withDict d) = some (s.withDict (addAll s.cfg d (l.flatMap g))) := by
  induction l generalizing d with
  | nil => rfl
  | cons a l ih => simp [Segmenter.loop, hf, ih, addAll_append]

theorem strLine_eq (s : Segmenter F D) (d : Dictionary F D) (line : Bytes) :
    Segmenter.strLine (s.withDict d) line =
      some (s.withDict (addAll s.cfg d (lineEntry s.lcfg (splitStr line (s.dictSep ++ str " "))).toList)) := by
  have hsep : (s.withDict d).dictSep = s.dictSep := rfl
  unfold Segmenter.strLine
  simp only [hsep]
  generalize splitStr line (s.dictSep ++ str " ") = cols
  match cols with
  | [] => simp [lineEntry, addAll]
  | [w] => simp [lineEntry, addEntry_eq]
  | [w, f] => simp [lineEntry, addEntry_eq]
  | w :: f :: p :: t =>
    have : ¬ t.length + 1 + 1 + 1 < 2 := by omega
    simp [lineEntry, addEntry_eq, this]

theorem withDict_self {s : Segmenter F D} {d : Dictionary F D} (h : s.dict = some d) : s.withDict d = s := by
  cases s; simp_all [Segmenter.withDict]

theorem prepare_dict (s : Segmenter F D) : s.prepare.dict = some (s.dict.getD Dictionary.new) := by
  unfold Segmenter.prepare
  cases h : s.dict <;> simp [h, Segmenter.init]

theorem prepare_some {s : Segmenter F D} {d : Dictionary F D} (h : s.dict = some d) : s.prepare = s := by
  unfold Segmenter.prepare; simp [h]

theorem prepare_cfg (s : Segmenter F D) : s.prepare.cfg = s.cfg := by
  unfold Segmenter.prepare
  cases h : s.dict <;> simp [Segmenter.init]

theorem prepare_sep (s : Segmenter F D) : s.prepare.dictSep = s.dictSep := by
  unfold Segmenter.prepare
  cases h : s.dict <;> simp [Segmenter.init]

/-- The entries of a dictionary text. -/
def strEntries (s : Segmenter F D) (dict : Bytes) : List (Entry F) :=
  (splitStr dict (str "\n")).filterMap fun line => lineEntry s.lcfg (splitStr line (s.dictSep ++ str " "))

theorem flatMap_toList {α β : Type} (f : α → Option β) (l : List α) : l.flatMap (fun a => (f a).toList) = l.filterMap f := by
  induction l with
  | nil => rfl
  | cons a l ih => cases h : f a <;> simp [h, ih]

theorem loop_str (s : Segmenter F D) (d : Dictionary F D) (lines : List Bytes) :
    Segmenter.loop Segmenter.strLine lines (s.withDict d) = some (s.withDict (addAll s.cfg d
      (lines.filterMap fun line => lineEntry s.lcfg (splitStr line (s.dictSep ++ str " "))))) := by
  rw [loop_adds s _ _ (fun d a => strLine_eq s d a), flatMap_toList]

theorem loadDictStr_eq (s : Segmenter F D) (dict : Bytes) :
    s.loadDictStr dict = (runOps s.cfg (loadOps (strEntries s.prepare dict)) (s.dict.getD Dictionary.new)).map s.prepare.withDict := by
  unfold Segmenter.loadDictStr
  have h := withDict_self (prepare_dict s)
  rw [← h, loop_str, Option.bind_some, h]
  rw [runOps_load, prepare_cfg]
  rfl

/-- Content after additions. -/
theorem content_adds (cfg : SplitCfg) (es : List (Entry F)) (m : AbsDict F) (w : Bytes) :
    ((es.map fun e => DictOp.add e.1 e.2.1 e.2.2).foldl (AbsDict.step cfg) m).content w =
      (m.content w).or (firstEntry cfg es w) := by
  induction es generalizing m with
  | nil => simp [firstEntry]
  | cons e es ih =>
    simp only [List.map_cons, List.foldl_cons, ih]
    simp only [AbsDict.step, AbsDict.add]
    cases hc : m.content (normText cfg e.1) with
    | some x =>
      simp only
      by_cases hw : normText cfg e.1 = w
      · subst hw; simp [hc]
      · simp [firstEntry, hw]
    | none =>
      simp only
      by_cases hw : normText cfg e.1 = w
      · subst hw; simp [hc, firstEntry]
      · have : w ≠ normText cfg e.1 := fun h => hw h.symm
        simp [firstEntry, hw, this]

theorem absRun_loadOps (cfg : SplitCfg) (es : List (Entry F)) (w : Bytes) :
    (absRun cfg (loadOps es)).content w = firstEntry cfg es w := by
  have := content_adds cfg es {} w
  simp only [absRun, loadOps, List.foldl_append, List.foldl_cons, List.foldl_nil, AbsDict.step]
  simpa using this

end
end Gse
