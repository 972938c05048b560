import Verif.Spec.Priority
import Verif.Props.Load
import Verif.Proofs.CostCut

/-!
# C108: the dictionary named first has priority
-/

namespace Gse
open Spec Segmenter

set_option linter.unusedSectionVars false

section
variable {F D : Type} [F64 F] [F32 D] [Narrow F D] [U : Unicode]

/-! ### How many entries a file has -/

theorem splitStrAux_length (sep : Bytes) : ∀ (n : Nat) (cur s : Bytes), (splitStrAux sep n cur s).length ≤ n + 1 := by
  intro n
  induction n with
  | zero => intro cur s; simp [splitStrAux]
  | succ n ih =>
    intro cur s
    unfold splitStrAux
    split
    · have := ih [] (s.drop sep.length); simp; omega
    · cases s with
      | nil => simp
      | cons b t => have := ih (cur ++ [b]) t; simp only; omega

theorem splitStr_length (s sep : Bytes) : (splitStr s sep).length ≤ s.length + 2 := by
  have := splitStrAux_length sep (s.length + 1) [] s
  unfold splitStr; omega

theorem scanRows_length (mid : ScanErr) : ∀ (n : Nat) (rs : List Rune) rows, scanRows mid n rs = some rows → rows.length ≤ n := by
  intro n
  induction n with
  | zero => intro rs rows h; simp [scanRows] at h
  | succ n ih =>
    intro rs rows h
    unfold scanRows at h
    split at h
    split at h
    · cases h; simp
    · obtain ⟨r, hr, rfl⟩ := Option.map_eq_some_iff.1 h
      have := ih _ _ hr
      simp; omega

theorem rowsEntries_length (c : LoadCfg F) (rows : List (List Bytes)) : ∀ tag, (rowsEntries c tag rows).length ≤ rows.length := by
  induction rows with
  | nil => intro tag; simp [rowsEntries]
  | cons r rows ih =>
    intro tag
    rcases r with _ | ⟨w, _ | ⟨f, _ | ⟨p, r⟩⟩⟩
    · have := ih tag; simp [rowsEntries]; omega
    · have := ih tag
      rw [rowsEntries]
      cases rowEntry c w none tag <;> simp <;> omega
    · have h1 := ih tag
      have h2 := ih []
      rw [rowsEntries]
      cases rowEntry c w (some f) [] <;> simp <;> omega
    · have := ih p
      rw [rowsEntries]
      cases rowEntry c w (some f) p <;> simp <;> omega

theorem fileEntries_length (mid : ScanErr) (s : Segmenter F D) (b : Bytes) : (fileEntries mid s b).length ≤ b.length + 2 := by
  unfold fileEntries
  split
  · have h1 := rowsEntries_length s.lcfg ((scanRows mid ((runes b).length + 2) (runes b)).getD []) []
    have h3 := runes_le_bytes b
    cases h : scanRows mid ((runes b).length + 2) (runes b) with
    | none => rw [h] at h1; simp at h1 ⊢; simp [h1]
    | some rows =>
      have h2 := scanRows_length mid _ _ _ h
      rw [h] at h1
      simp only [Option.getD_some] at h1 ⊢
      omega
  · refine le_trans (List.length_filterMap_le ..) ?_
    have := splitStr_length b (str "\n")
    have hn := List.length_pos_iff.2 (splitStr_ne_nil b (sep := str "\n") (by decide))
    unfold fileLines
    simp only [List.length_append, List.length_map, List.length_dropLast]
    have : (List.filter (fun l => (splitStr l (s.dictSep ++ str " ")).head? != some []) (splitStr b (str "\n")).getLast?.toList).length ≤ 1 :=
      le_trans (List.length_filter_le ..) (by cases (splitStr b (str "\n")).getLast? <;> simp)
    omega

/-! ### Entries have a frequency -/

theorem rowEntry_freq {c : LoadCfg F} {w : Bytes} {f : Option Bytes} {p : Bytes} {e : Entry F} (h : rowEntry c w f p = some e) :
    F64.eq e.2.1 (F64.ofNat 0) = false := by
  obtain ⟨v, hv, rfl⟩ := Option.map_eq_some_iff.1 h
  unfold rowFreq at hv
  simp only
  split at hv
  · cases hv
  · split at hv
    · split at hv
      · cases hv
      · next h0 => cases hv; simpa using h0
    · split at hv
      · cases hv
      · split at hv
        · split at hv
          · cases hv
          · next h0 => cases hv; simpa using h0
        · split at hv
          · cases hv
          · next h0 => cases hv; simpa using h0

theorem rowsEntries_freq (c : LoadCfg F) (rows : List (List Bytes)) : ∀ tag, ∀ e ∈ rowsEntries c tag rows, F64.eq e.2.1 (F64.ofNat 0) = false := by
  induction rows with
  | nil => intro tag; simp [rowsEntries]
  | cons r rows ih =>
    intro tag e he
    rcases r with _ | ⟨w, _ | ⟨f, _ | ⟨p, r⟩⟩⟩
    · exact ih tag e he
    · rw [rowsEntries, List.mem_append] at he
      rcases he with he | he
      · exact rowEntry_freq (Option.mem_toList.1 he)
      · exact ih tag e he
    · rw [rowsEntries] at he
      cases h : rowEntry c w (some f) [] with
      | none => rw [h] at he; exact ih tag e he
      | some e' =>
        rw [h] at he
        rcases List.mem_cons.1 he with rfl | he
        · exact rowEntry_freq h
        · exact ih [] e he
    · rw [rowsEntries, List.mem_append] at he
      rcases he with he | he
      · exact rowEntry_freq (Option.mem_toList.1 he)
      · exact ih p e he

theorem lineEntry_freq {c : LoadCfg F} {cols : List Bytes} {e : Entry F} (h : lineEntry c cols = some e) : F64.eq e.2.1 (F64.ofNat 0) = false := by
  unfold lineEntry at h
  split at h
  · cases h
  all_goals exact rowEntry_freq h

theorem sepEntry_freq {c : LoadCfg F} {cols : List Bytes} {e : Entry F} (h : sepEntry c cols = some e) : F64.eq e.2.1 (F64.ofNat 0) = false := by
  unfold sepEntry at h
  split at h
  · cases h
  all_goals exact rowEntry_freq h

theorem fileEntries_freq (mid : ScanErr) (s : Segmenter F D) (b : Bytes) : ∀ e ∈ fileEntries mid s b, F64.eq e.2.1 (F64.ofNat 0) = false := by
  intro e he
  unfold fileEntries at he
  split at he
  · exact rowsEntries_freq _ _ _ e he
  · obtain ⟨l, _, h⟩ := List.mem_filterMap.1 he
    exact sepEntry_freq h

theorem firstEntry_append (cfg : SplitCfg) (a b : List (Entry F)) (w : Bytes) : firstEntry cfg (a ++ b) w = (firstEntry cfg a w).or (firstEntry cfg b w) := by
  unfold firstEntry
  rw [List.find?_append]
  cases List.find? (fun e => decide (normText cfg e.1 = w)) a <;> simp

theorem firstEntry_mem {cfg : SplitCfg} {es : List (Entry F)} {w : Bytes} {v : F} {p : Bytes} (h : firstEntry cfg es w = some (v, p)) : ∃ x, (x, v, p) ∈ es := by
  obtain ⟨e, he, h2⟩ := Option.map_eq_some_iff.1 h
  have := List.mem_of_find?_eq_some he
  obtain ⟨x, v', p'⟩ := e
  cases h2
  exact ⟨x, this⟩

/-- What `Find` answers about a word that was not stored, after a load of entries with frequencies. -/
theorem find_load [UnicodeOK] (cfg : SplitCfg) (ops : List (DictOp F)) (d0 : Dictionary F D) (hr0 : runOps cfg ops Dictionary.new = some d0) (w : Bytes)
    (hw : (absRun cfg ops).content w = none) (es : List (Entry F)) (hl : ops.length + es.length < Trie.valueLimit) (hz : ∀ e ∈ es, F64.eq e.2.1 (F64.ofNat 0) = false) :
    ∃ d : Dictionary F D, runOps cfg (loadOps es) d0 = some d ∧
      (∀ v p, firstEntry cfg es w = some (v, p) ↔ d.find w = some (v, p, true) ∧ F64.eq v (F64.ofNat 0) = false) ∧
      (firstEntry cfg es w = none ↔ ∃ b, d.find w = some (F64.ofNat 0, [], b)) := by
  have hwf : d0.WF cfg := (show Reachable cfg d0 from ⟨ops, hr0⟩).wf
  obtain ⟨d, hd⟩ := calcToken_total (wf_addAll hwf es)
  have hr : runOps cfg (loadOps es) d0 = some d := by rw [runOps_load, hd]
  refine ⟨d, hr, ?_⟩
  have h := C04_find_history cfg (ops ++ loadOps es) (by simp [loadOps]; omega) d (by rw [runOps_append, hr0]; exact hr) w
  have hc : (absRun cfg (ops ++ loadOps es)).content w = firstEntry cfg es w := by
    have e : (absRun cfg (ops ++ loadOps es)).content w = ((es.map fun e => DictOp.add e.1 e.2.1 e.2.2).foldl (AbsDict.step cfg) (absRun cfg ops)).content w := by
      simp [absRun, loadOps, List.foldl_append, AbsDict.step]
    rw [e, content_adds, hw, Option.none_or]
  rw [hc] at h
  cases hf : firstEntry cfg es w with
  | none =>
    obtain ⟨b, hb⟩ := h.2 hf
    refine ⟨fun v p => ⟨fun h => (by cases h), fun h => ?_⟩, ⟨fun _ => ⟨b, hb⟩, fun _ => rfl⟩⟩
    rw [hb] at h
    obtain ⟨h1, h2⟩ := h
    cases h1
    rw [F64.zero_eq_zero] at h2; cases h2
  | some e =>
    have h1 := h.1 e.1 e.2 hf
    obtain ⟨x, hx⟩ := firstEntry_mem hf
    have hv := hz _ hx
    refine ⟨fun v p => ⟨fun he => ?_, fun he => ?_⟩, ⟨fun hc => (by cases hc), fun ⟨b, hb⟩ => ?_⟩⟩
    · cases he; exact ⟨h1, hv⟩
    · rw [h1] at he; cases he.1; rfl
    · rw [h1] at hb
      simp only [Option.some.injEq, Prod.mk.injEq] at hb
      simp only at hv
      rw [hb.1, F64.zero_eq_zero] at hv; cases hv

/-- The sum of the sizes of the files, two more for each. -/
def filesSize (fs : Bytes → Option Bytes) (paths : List Bytes) : Nat := (paths.map fun f => ((fs f).getD []).length + 2).sum

/-- The segmenter never called `LoadDict`, or it has the dictionary that `ops` made, and `w` is not stored there. -/
def LoadsAnew (s : Segmenter F D) (ops : List (DictOp F)) (w : Bytes) : Prop :=
  s.load = false ∨ s.load = true ∧ (∃ d, s.dict = some d ∧ runOps s.cfg ops Dictionary.new = some d) ∧ (absRun s.cfg ops).content w = none

theorem load_anew [UnicodeOK] (mid : ScanErr) (join : Bytes → Bytes) (fs : Bytes → Option Bytes) (s : Segmenter F D) (ops : List (DictOp F)) (w : Bytes) (hl : LoadsAnew s ops w)
    (files : Option Bytes) (hall : ∀ f ∈ askedPaths join files, (fs f).isSome) (hsize : ops.length + filesSize fs (askedPaths join files) < Trie.valueLimit) :
    ∃ s', s.loadDict mid join fs files = some (s', false) ∧
      (∀ v p, firstEntry s.cfg ((askedPaths join files).flatMap fun f => fileEntries mid (startLoad s) ((fs f).getD [])) w = some (v, p) ↔ Stores s' w v p) ∧
      (firstEntry s.cfg ((askedPaths join files).flatMap fun f => fileEntries mid (startLoad s) ((fs f).getD [])) w = none ↔ Lacks s' w) := by
  obtain ⟨ops', d0, hd, hr0, hw, hlen'⟩ : ∃ (ops' : List (DictOp F)) (d0 : Dictionary F D), (startLoad s).dict = some d0 ∧ runOps s.cfg ops' Dictionary.new = some d0 ∧
      (absRun s.cfg ops').content w = none ∧ ops'.length ≤ ops.length := by
    rcases hl with hl | ⟨hl, ⟨d, h1, h2⟩, h3⟩
    · exact ⟨[], Dictionary.new, by simp [startLoad, hl, Segmenter.init], rfl, rfl, by simp⟩
    · exact ⟨ops, d, by simp [startLoad, hl, h1], h2, h3, le_refl _⟩
  have e := C57_load_dict mid join fs s files d0 hd _ rfl hall
  have hlen : ∀ ps : List Bytes, (ps.flatMap fun f => fileEntries mid (startLoad s) ((fs f).getD [])).length ≤ filesSize fs ps := by
    intro ps
    induction ps with
    | nil => simp [filesSize]
    | cons f ps ih =>
      have := fileEntries_length mid (startLoad s) ((fs f).getD [])
      simp only [filesSize, List.map_cons, List.sum_cons, List.flatMap_cons, List.length_append] at ih ⊢
      omega
  have hle := hlen (askedPaths join files)
  obtain ⟨d, h1, h2⟩ := find_load (D := D) s.cfg ops' d0 hr0 w hw ((askedPaths join files).flatMap fun f => fileEntries mid (startLoad s) ((fs f).getD []))
    (by omega) (by
      intro x hx
      obtain ⟨f, _, hf⟩ := List.mem_flatMap.1 hx
      exact fileEntries_freq mid _ _ x hf)
  rw [h1] at e
  refine ⟨_, e, fun v p => ?_, ?_⟩
  · rw [h2.1 v p]
    constructor
    · intro h; exact ⟨d, rfl, h⟩
    · rintro ⟨d', hd', h⟩; cases hd'; exact h
  · rw [h2.2]
    constructor
    · rintro ⟨b, h⟩; exact ⟨d, b, rfl, h⟩
    · rintro ⟨d', b, hd', h⟩; cases hd'; exact ⟨b, h⟩

theorem firstEntry_front (cfg : SplitCfg) (g : Bytes → List (Entry F)) (w : Bytes) (pre : List Bytes) (h : ∀ f ∈ pre, firstEntry cfg (g f) w = none) (es : List (Entry F)) :
    firstEntry cfg (pre.flatMap g ++ es) w = firstEntry cfg es w := by
  induction pre with
  | nil => rfl
  | cons f pre ih =>
    rw [List.flatMap_cons, List.append_assoc, firstEntry_append, h f (by simp), Option.none_or]
    exact ih fun f hf => h f (by simp [hf])

/-- C108: of several dictionary files given to one call of `LoadDict`, the first that has a word of its own (as loading that file alone would
show) decides about frequency and tag; the others do not matter for it. This holds for the first call of `LoadDict`, and for a later one if the word is not stored yet. -/
theorem C108_front [UnicodeOK] (mid : ScanErr) (join : Bytes → Bytes) (fs : Bytes → Option Bytes) (s : Segmenter F D) (ops : List (DictOp F)) (w : Bytes)
    (hl : LoadsAnew s ops w) (names : Bytes) (pre post : List Bytes) (f : Bytes) (hp : dictPaths join names = pre ++ f :: post)
    (hone : ∀ g ∈ pre ++ f :: post, dictPaths join g = [g]) (hall : ∀ g ∈ pre ++ f :: post, (fs g).isSome)
    (hsize : ops.length + filesSize fs (pre ++ f :: post) < Trie.valueLimit) (v : F) (p : Bytes)
    (hpre : ∀ g ∈ pre, Alone mid join fs s g fun s' => Lacks s' w) (hf : Alone mid join fs s f fun s' => Stores s' w v p) :
    Alone mid join fs s names fun s' => Stores s' w v p := by
  have hsub : ∀ g ∈ pre ++ f :: post, ops.length + filesSize fs [g] < Trie.valueLimit := by
    intro g hg
    refine lt_of_le_of_lt (Nat.add_le_add_left ?_ _) hsize
    have : [g].Sublist (pre ++ f :: post) := List.singleton_sublist.2 hg
    exact (this.map _).sum_le_sum fun _ _ => Nat.zero_le _
  have key : ∀ g ∈ pre ++ f :: post, ∃ s', s.loadDict mid join fs (some g) = some (s', false) ∧
      (∀ v p, firstEntry s.cfg (fileEntries mid (startLoad s) ((fs g).getD [])) w = some (v, p) ↔ Stores s' w v p) ∧
      (firstEntry s.cfg (fileEntries mid (startLoad s) ((fs g).getD [])) w = none ↔ Lacks s' w) := by
    intro g hg
    have ha : askedPaths join (some g) = [g] := hone g hg
    obtain ⟨s', h1, h2⟩ := load_anew mid join fs s ops w hl (some g) (by rw [ha]; simpa using hall g hg) (by rw [ha]; exact hsub g hg)
    rw [ha] at h2
    simp only [List.flatMap_cons, List.flatMap_nil, List.append_nil] at h2
    exact ⟨s', h1, h2⟩
  have ha : askedPaths join (some names) = pre ++ f :: post := hp
  obtain ⟨s', h1, h2⟩ := load_anew mid join fs s ops w hl (some names) (by rw [ha]; exact hall) (by rw [ha]; exact hsize)
  refine ⟨s', h1, (h2.1 v p).1 ?_⟩
  rw [ha, List.flatMap_append, List.flatMap_cons, firstEntry_front, firstEntry_append]
  · obtain ⟨s1, k1, k2, _⟩ := key f (by simp)
    obtain ⟨s2, g1, g2⟩ := hf
    rw [k1] at g1
    cases g1
    rw [(k2 v p).2 g2]
    rfl
  · intro g hg
    obtain ⟨s1, k1, _, k3⟩ := key g (by simp [hg])
    obtain ⟨s2, g1, g2⟩ := hpre g hg
    rw [k1] at g1
    cases g1
    exact k3.2 g2

/-- C108: a word that no file has of its own is not stored. -/
theorem C108_none [UnicodeOK] (mid : ScanErr) (join : Bytes → Bytes) (fs : Bytes → Option Bytes) (s : Segmenter F D) (ops : List (DictOp F)) (w : Bytes)
    (hl : LoadsAnew s ops w) (names : Bytes) (paths : List Bytes) (hp : dictPaths join names = paths) (hone : ∀ g ∈ paths, dictPaths join g = [g]) (hall : ∀ g ∈ paths, (fs g).isSome)
    (hsize : ops.length + filesSize fs paths < Trie.valueLimit) (hno : ∀ g ∈ paths, Alone mid join fs s g fun s' => Lacks s' w) :
    Alone mid join fs s names fun s' => Lacks s' w := by
  have ha : askedPaths join (some names) = paths := hp
  obtain ⟨s', h1, h2⟩ := load_anew mid join fs s ops w hl (some names) (by rw [ha]; exact hall) (by rw [ha]; exact hsize)
  refine ⟨s', h1, h2.2.1 ?_⟩
  rw [ha]
  have := firstEntry_front s.cfg (fun f => fileEntries mid (startLoad s) ((fs f).getD [])) w paths (fun g hg => ?_) []
  · rw [List.append_nil] at this
    rw [this]; rfl
  · have hag : askedPaths join (some g) = [g] := hone g hg
    have hsub : ops.length + filesSize fs [g] < Trie.valueLimit := by
      refine lt_of_le_of_lt (Nat.add_le_add_left ?_ _) hsize
      have : [g].Sublist paths := List.singleton_sublist.2 hg
      exact (this.map _).sum_le_sum fun _ _ => Nat.zero_le _
    obtain ⟨s1, k1, k2⟩ := load_anew mid join fs s ops w hl (some g) (by rw [hag]; simpa using hall g hg) (by rw [hag]; exact hsub)
    rw [hag] at k2
    simp only [List.flatMap_cons, List.flatMap_nil, List.append_nil] at k2
    obtain ⟨s2, g1, g2⟩ := hno g hg
    rw [k1] at g1
    cases g1
    exact k2.2.2 g2

/-! ### Later loads -/

/-- A word that a dictionary stores keeps its frequency and tag through additions and recalculations. -/
theorem stored_kept [UnicodeOK] (cfg : SplitCfg) (ops : List (DictOp F)) (d : Dictionary F D) (hr : runOps cfg ops Dictionary.new = some d) (es : List (Entry F)) (rc : Bool)
    (hl : ops.length + es.length < Trie.valueLimit) (d' : Dictionary F D)
    (hr' : runOps cfg ((es.map fun e => .add e.1 e.2.1 e.2.2) ++ if rc then [.recalc] else []) d = some d') (w : Bytes) (v : F) (p : Bytes)
    (h : d.find w = some (v, p, true)) (hv : F64.eq v (F64.ofNat 0) = false) : d'.find w = some (v, p, true) := by
  have hc : (absRun cfg ops).content w = some (v, p) := by
    have h0 := C04_find_history cfg ops (by omega) d hr w
    cases he : (absRun cfg ops).content w with
    | none =>
      obtain ⟨b, hb⟩ := h0.2 he
      rw [h] at hb
      simp only [Option.some.injEq, Prod.mk.injEq] at hb
      rw [hb.1, F64.zero_eq_zero] at hv; cases hv
    | some e =>
      have := h0.1 e.1 e.2 he
      rw [h] at this
      simp only [Option.some.injEq, Prod.mk.injEq] at this
      rw [this.1, this.2.1]
  have hrr : runOps cfg (ops ++ ((es.map fun e => .add e.1 e.2.1 e.2.2) ++ if rc then [.recalc] else [])) Dictionary.new = some d' := by
    rw [runOps_append, hr]; exact hr'
  refine (C04_find_history cfg _ (by cases rc <;> simp <;> omega) d' hrr w).1 v p ?_
  have e : (absRun cfg (ops ++ ((es.map fun e => .add e.1 e.2.1 e.2.2) ++ if rc then [.recalc] else []))).content w =
      ((es.map fun e => DictOp.add e.1 e.2.1 e.2.2).foldl (AbsDict.step cfg) (absRun cfg ops)).content w := by
    cases rc <;> simp [absRun, List.foldl_append, AbsDict.step]
  rw [e, content_adds, hc]
  rfl

/-- C108: a segmenter that stores a word keeps its frequency and tag, whatever `LoadDict` loads later, also when a file is missing. -/
theorem C108_later [UnicodeOK] (mid : ScanErr) (join : Bytes → Bytes) (fs : Bytes → Option Bytes) (s : Segmenter F D) (hl : s.load = true) (ops : List (DictOp F))
    (d : Dictionary F D) (hd : s.dict = some d) (hr : runOps s.cfg ops Dictionary.new = some d) (files : Option Bytes)
    (hsize : ops.length + filesSize fs (askedPaths join files) < Trie.valueLimit) (w : Bytes) (v : F) (p : Bytes) (h : Stores s w v p) :
    ∃ s' e, s.loadDict mid join fs files = some (s', e) ∧ Stores s' w v p := by
  have hq : startLoad s = s := by simp [startLoad, hl]
  obtain ⟨d0, hd0, hfd, hv⟩ := h
  rw [hd] at hd0
  cases hd0
  rw [loadDict_eq, hq, ← withDict_self hd, readFiles_eq, Option.bind_some]
  generalize hes : ((askedPaths join files).takeWhile fun f => (fs f).isSome).flatMap (fun f => fileEntries mid s ((fs f).getD [])) = es
  have hlen : es.length ≤ filesSize fs (askedPaths join files) := by
    rw [← hes]
    have : ∀ ps : List Bytes, (ps.flatMap fun f => fileEntries mid s ((fs f).getD [])).length ≤ filesSize fs ps := by
      intro ps
      induction ps with
      | nil => simp [filesSize]
      | cons f ps ih =>
        have := fileEntries_length mid s ((fs f).getD [])
        simp only [filesSize, List.map_cons, List.sum_cons, List.flatMap_cons, List.length_append] at ih ⊢
        omega
    refine le_trans (this _) ?_
    exact ((List.takeWhile_sublist _).map _).sum_le_sum fun _ _ => Nat.zero_le _
  have hwf : d.WF s.cfg := (show Reachable s.cfg d from ⟨ops, hr⟩).wf
  cases (askedPaths join files).any fun f => (fs f).isNone with
  | true =>
    refine ⟨_, true, rfl, _, rfl, ?_, hv⟩
    exact stored_kept s.cfg ops d hr es false (by omega) _ (by simpa using runOps_adds s.cfg es d) w v p hfd hv
  | false =>
    obtain ⟨d2, hd2⟩ := calcToken_total (wf_addAll hwf es)
    refine ⟨s.withDict d2, false, ?_, d2, rfl, ?_, hv⟩
    · simp [recalc, Segmenter.withDict, hd2]
    · refine stored_kept s.cfg ops d hr es true (by omega) _ ?_ w v p hfd hv
      have := runOps_load s.cfg es d
      rw [hd2] at this
      exact this

/-- C108: nor does `LoadDictStr` change it. -/
theorem C108_later_str [UnicodeOK] (s : Segmenter F D) (ops : List (DictOp F)) (d : Dictionary F D) (hd : s.dict = some d)
    (hr : runOps s.cfg ops Dictionary.new = some d) (dict : Bytes) (hsize : ops.length + dict.length + 2 < Trie.valueLimit) (w : Bytes) (v : F) (p : Bytes)
    (h : Stores s w v p) : ∃ s', s.loadDictStr dict = some s' ∧ Stores s' w v p := by
  obtain ⟨d0, hd0, hfd, hv⟩ := h
  rw [hd] at hd0
  cases hd0
  have hlen : (strEntries s dict).length ≤ dict.length + 2 := le_trans (List.length_filterMap_le ..) (splitStr_length _ _)
  have hwf : d.WF s.cfg := (show Reachable s.cfg d from ⟨ops, hr⟩).wf
  obtain ⟨d2, hd2⟩ := calcToken_total (wf_addAll hwf (strEntries s dict))
  rw [loadDictStr_eq, prepare_some hd, hd, Option.getD_some, runOps_load, hd2]
  refine ⟨_, rfl, d2, rfl, ?_, hv⟩
  refine stored_kept s.cfg ops d hr (strEntries s dict) true (by omega) _ ?_ w v p hfd hv
  have := runOps_load s.cfg (strEntries s dict) d
  rw [hd2] at this
  exact this

/-- C108: but a segmenter that never called `LoadDict` forgets with the first call whatever `LoadDictStr`, `LoadDictMap` or `AddToken` stored:
the result is the same for every dictionary it had. -/
theorem C108_forgets (mid : ScanErr) (join : Bytes → Bytes) (fs : Bytes → Option Bytes) (s : Segmenter F D) (hl : s.load = false) (o : Option (Dictionary F D))
    (files : Option Bytes) : ({ s with dict := o } : Segmenter F D).loadDict mid join fs files = s.loadDict mid join fs files := by
  have : startLoad { s with dict := o } = startLoad s := by simp [startLoad, hl, Segmenter.init]
  rw [loadDict_eq, loadDict_eq, this]

end

/-! ### Examples -/

section examples
attribute [local instance] sampleUnicode sampleUnicodeOK sampleF64 sampleF32 sampleNarrow

/-- A user dictionary and a common one. The user's line for `cd` has too small a frequency. -/
def userFs (p : Bytes) : Option Bytes :=
  if p = str "u" then some (str "ab 5 n\ncd 1 x\n") else if p = str "v" then some (str "ab 9 v\ncd 3 v\nef 4\n") else none

def aloneFind (name w : String) : Option (Int × Bytes × Bool) :=
  (freshSeg.loadDict .other sampleJoin userFs (some (str name))).bind fun r => findIn (some r.1) w

theorem alone_stores {sg : Segmenter Int Int} {name : Bytes} {w : Bytes} {v : Int} {p : Bytes} (h : (sg.loadDict .other sampleJoin userFs (some name)).bind (fun r => r.1.dict.bind fun d => d.find w) = some (v, p, true))
    (he : (sg.loadDict .other sampleJoin userFs (some name)).map (·.2) = some false) (hv : v ≠ 0) :
    Alone .other sampleJoin userFs sg name fun s' => Stores s' w v p := by
  obtain ⟨⟨s', e⟩, h1, h2⟩ := Option.bind_eq_some_iff.1 h
  obtain ⟨d, h3, h4⟩ := Option.bind_eq_some_iff.1 h2
  rw [h1] at he
  simp at he
  subst he
  exact ⟨s', h1, d, h3, h4, by simpa [F64.eq, F64.ofNat] using hv⟩

theorem alone_lacks {sg : Segmenter Int Int} {name : Bytes} {w : Bytes} {b : Bool} (h : (sg.loadDict .other sampleJoin userFs (some name)).bind (fun r => r.1.dict.bind fun d => d.find w) = some (0, [], b))
    (he : (sg.loadDict .other sampleJoin userFs (some name)).map (·.2) = some false) :
    Alone .other sampleJoin userFs sg name fun s' => Lacks s' w := by
  obtain ⟨⟨s', e⟩, h1, h2⟩ := Option.bind_eq_some_iff.1 h
  obtain ⟨d, h3, h4⟩ := Option.bind_eq_some_iff.1 h2
  rw [h1] at he
  simp at he
  subst he
  exact ⟨s', h1, d, b, h3, h4⟩

/-- The user's `ab`. -/
example : Alone .other sampleJoin userFs freshSeg (str "u,v") fun s' => Stores s' (str "ab") 5 (str "n") :=
  C108_front .other sampleJoin userFs freshSeg [] (str "ab") (.inl rfl) (str "u,v") [] [str "v"] (str "u") (by decide +kernel) (by decide +kernel) (by decide +kernel) (by decide +kernel)
    5 (str "n") (by simp) (alone_stores (by decide +kernel) (by decide +kernel) (by decide))

/-- The common `cd`, since the user's line was rejected. -/
example : Alone .other sampleJoin userFs freshSeg (str "u,v") fun s' => Stores s' (str "cd") 3 (str "v") :=
  C108_front .other sampleJoin userFs freshSeg [] (str "cd") (.inl rfl) (str "u,v") [str "u"] [] (str "v") (by decide +kernel) (by decide +kernel) (by decide +kernel) (by decide +kernel)
    3 (str "v") (fun g hg => by obtain rfl := List.mem_singleton.1 hg; exact alone_lacks (b := false) (by decide +kernel) (by decide +kernel))
    (alone_stores (by decide +kernel) (by decide +kernel) (by decide))

/-- Nobody's `zz`. -/
example : Alone .other sampleJoin userFs freshSeg (str "u,v") fun s' => Lacks s' (str "zz") :=
  C108_none .other sampleJoin userFs freshSeg [] (str "zz") (.inl rfl) (str "u,v") [str "u", str "v"] (by decide +kernel) (by decide +kernel) (by decide +kernel) (by decide +kernel)
    (fun g hg => by
      rcases List.mem_cons.1 hg with rfl | hg
      · exact alone_lacks (b := false) (by decide +kernel) (by decide +kernel)
      · obtain rfl := List.mem_singleton.1 hg
        exact alone_lacks (b := false) (by decide +kernel) (by decide +kernel))

/-- A segmenter with a word of its own that has loaded files before. -/
def ownSeg (load : Bool) : Segmenter Int Int := { freshSeg with dict := some (segAddToken {} Dictionary.new (str "ef") 7 (str "n")).1, load := load }

theorem ownSeg_stores (b : Bool) : Stores (ownSeg b) (str "ef") 7 (str "n") := ⟨_, rfl, by decide +kernel, by decide⟩

/-- The user's `ab` beside the word that was there. -/
example : Alone .other sampleJoin userFs (ownSeg true) (str "u,v") fun s' => Stores s' (str "ab") 5 (str "n") :=
  C108_front .other sampleJoin userFs (ownSeg true) [.add (str "ef") 7 (str "n")] (str "ab") (.inr ⟨rfl, ⟨_, rfl, rfl⟩, by decide +kernel⟩) (str "u,v") [] [str "v"] (str "u")
    (by decide +kernel) (by decide +kernel) (by decide +kernel) (by decide +kernel) 5 (str "n") (by simp) (alone_stores (by decide +kernel) (by decide +kernel) (by decide))

example : ∃ s' e, (ownSeg true).loadDict .other sampleJoin userFs (some (str "v,missing")) = some (s', e) ∧ Stores s' (str "ef") 7 (str "n") :=
  C108_later .other sampleJoin userFs (ownSeg true) rfl [.add (str "ef") 7 (str "n")] _ rfl rfl (some (str "v,missing")) (by decide +kernel) _ _ _ (ownSeg_stores true)

example : ∃ s', (ownSeg false).loadDictStr (str "ef 4 v\ngh 5") = some s' ∧ Stores s' (str "ef") 7 (str "n") :=
  C108_later_str (ownSeg false) [.add (str "ef") 7 (str "n")] _ rfl rfl _ (by decide +kernel) _ _ _ (ownSeg_stores false)

/-- The first `LoadDict` forgets it. -/
example : ((ownSeg false).loadDict .other sampleJoin userFs (some (str "u"))).bind (fun r => findIn (some r.1) "ef") = some (0, [], false) := by decide +kernel

end examples
end Gse
