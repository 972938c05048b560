import Verif.Spec.Joined
import Verif.Props.Size
import Verif.Props.PosSeam

/-!
# C111: what the HMM can change in a result of `Cut`
-/

set_option linter.unusedSectionVars false

namespace Gse
open Spec

section
variable {F D : Type} [F64 F] [F32 D] [Narrow F D] [Unicode]

/-- Both cuts follow one route. -/
theorem both_route [UnicodeOK] {cfg : SplitCfg} {d : Dictionary F D} (hi : IdxOK d) (cut : Bytes → Option (List Bytes))
    (hc : ∀ t, ValidText t → ∃ o, cut t = some o) (s : Bytes) :
    ∃ ps gs hs outs, IsRoute d (dagText cfg s) ps ∧ IsRuns EngPiece ps gs ∧
      cutDAGNoHMM cfg d s = some (gs.map fun g => encode g.flatten) ∧
      IsRuns (fun t : List Rune => t.length = 1) ps hs ∧ List.Forall₂ (RunOut d cut) hs outs ∧
      cutDAG cfg d cut s = some outs.flatten := by
  obtain ⟨R, h1, h2⟩ := calcRoutes_eq hi (dagRunes cfg s)
  obtain ⟨ps, e1, e2, _⟩ := walk_eq h2 (dagRunes cfg s).length 0 (by omega) (by omega)
  rw [List.drop_zero] at e2
  obtain ⟨gs, g1, g2⟩ := noHmmLoop_runs ps [] (by simp)
  obtain ⟨hs, outs, k1, k2, k3⟩ := hmmLoop_runs hi cut ps [] (by simp) (fun t ht => (isRoute_pieces e2 t ht).1)
    (fun g _ _ _ => hc _ (validText_encode_any _))
  refine ⟨ps, gs, hs, outs, by rw [← dagRunes_eq]; exact e2, by simpa using g1, ?_, by simpa using k1, k2, ?_⟩
  · unfold cutDAGNoHMM
    simp only [h1, e1, Option.map_some]
    rw [← g2]; rfl
  · unfold cutDAG
    simp only [h1, e1, Option.bind_some]
    rw [← k3]; rfl

/-- A piece not satisfying `p` is a group of its own. -/
theorem runs_at {α : Type} {p : α → Prop} {P Q : List α} {x : α} (hx : ¬ p x) : ∀ {hs : List (List α)},
    (∀ g ∈ hs, (∃ y, g = [y] ∧ ¬ p y) ∨ (g ≠ [] ∧ ∀ y ∈ g, p y)) → hs.flatten = P ++ x :: Q →
    ∃ G H, hs = G ++ [x] :: H ∧ G.flatten = P ∧ H.flatten = Q := by
  intro hs
  induction hs generalizing P with
  | nil => intro _ h; simp at h
  | cons g hs ih =>
    intro hk h
    rw [List.flatten_cons] at h
    rcases hk g (by simp) with ⟨y, rfl, hy⟩ | ⟨hne, hall⟩
    · cases P with
      | nil =>
        simp only [List.nil_append, List.singleton_append, List.cons.injEq] at h
        obtain ⟨rfl, rfl⟩ := h
        exact ⟨[], hs, rfl, rfl, rfl⟩
      | cons a P =>
        simp only [List.cons_append, List.nil_append, List.cons.injEq] at h
        obtain ⟨rfl, h⟩ := h
        obtain ⟨G, H, rfl, rfl, rfl⟩ := ih (fun g hg => hk g (by simp [hg])) h
        exact ⟨[y] :: G, H, rfl, rfl, rfl⟩
    · rcases List.append_eq_append_iff.1 h with ⟨a, rfl, ha⟩ | ⟨a, ha, hb⟩
      · obtain ⟨G, H, rfl, rfl, rfl⟩ := ih (fun g hg => hk g (by simp [hg])) ha
        exact ⟨g :: G, H, rfl, rfl, rfl⟩
      · cases a with
        | nil =>
          rw [List.append_nil] at ha
          obtain ⟨G, H, rfl, hG, rfl⟩ := ih (P := []) (fun g hg => hk g (by simp [hg])) (by simpa using hb.symm)
          exact ⟨g :: G, H, rfl, by simp [hG, ha], rfl⟩
        | cons b a =>
          simp only [List.cons_append, List.cons.injEq] at hb
          obtain ⟨rfl, _⟩ := hb
          exact absurd (hall x (by rw [ha]; simp)) hx

theorem forall₂_split_left {α β : Type} {R : α → β → Prop} : ∀ (a : List α) {b : List α} {l : List β}, List.Forall₂ R (a ++ b) l →
    ∃ x y, List.Forall₂ R a x ∧ List.Forall₂ R b y ∧ l = x ++ y
  | [], _, l, h => ⟨[], l, .nil, h, rfl⟩
  | _ :: a, _, _, .cons h hs =>
    let ⟨x, y, h1, h2, e⟩ := forall₂_split_left a hs
    ⟨_ :: x, y, .cons h h1, h2, by rw [e]; rfl⟩

theorem forall₂_split_right {α β : Type} {R : α → β → Prop} : ∀ (x : List β) {y : List β} {l : List α}, List.Forall₂ R l (x ++ y) →
    ∃ a b, List.Forall₂ R a x ∧ List.Forall₂ R b y ∧ l = a ++ b
  | [], _, l, h => ⟨[], l, .nil, h, rfl⟩
  | _ :: x, _, _, .cons h hs =>
    let ⟨a, b, h1, h2, e⟩ := forall₂_split_right x hs
    ⟨_ :: a, b, .cons h h1, h2, by rw [e]; rfl⟩

theorem runOut_flat {d : Dictionary F D} {cut : Bytes → Option (List Bytes)}
    (hc : ∀ t, ValidText t → ∃ o, cut t = some o ∧ o.flatten = t) {g : List (List Rune)} {o : List Bytes} (h : RunOut d cut g o) :
    o.flatten = encode g.flatten := by
  cases h with
  | word _ => simp
  | one _ => simp
  | known _ _ _ _ => exact flatten_map_encode g
  | hmm _ _ _ ho =>
    obtain ⟨o', ho', h3⟩ := hc _ (validText_encode_any g.flatten)
    rw [ho] at ho'; cases ho'; exact h3

theorem runOuts_flat {d : Dictionary F D} {cut : Bytes → Option (List Bytes)}
    (hc : ∀ t, ValidText t → ∃ o, cut t = some o ∧ o.flatten = t) {gs : List (List (List Rune))} {os : List (List Bytes)}
    (h : List.Forall₂ (RunOut d cut) gs os) : os.flatten.flatten = encode gs.flatten.flatten := by
  induction h with
  | nil => rfl
  | cons h _ ih => simp [runOut_flat hc h, ih, encode_append]

/-- The items that are neither one character nor a run of letters and digits are common to both cuts. -/
theorem words_kept [UnicodeOK] {cfg : SplitCfg} {d : Dictionary F D} (hi : IdxOK d) (cut : Bytes → Option (List Bytes))
    (hc : ∀ t, ValidText t → ∃ o, cut t = some o ∧ o.flatten = t) (s : Bytes) (out out' : List Bytes)
    (h : cutDAGNoHMM cfg d s = some out) (h' : cutDAG cfg d cut s = some out') (A B : List Bytes) (w : Bytes)
    (hw : out = A ++ w :: B) (h1 : ¬ OneChar w) (h2 : ¬ AlnumText w) :
    ∃ A' B', out' = A' ++ w :: B' ∧ A'.flatten = A.flatten ∧ B'.flatten = B.flatten := by
  obtain ⟨ps, gs, hs, outs, r1, r2, r3, r4, r5, r6⟩ := both_route (cfg := cfg) hi cut (fun t ht => (hc t ht).imp fun _ h => h.1) s
  rw [h] at r3; rw [h'] at r6
  obtain rfl := Option.some.inj r6
  rw [Option.some.inj r3] at hw
  obtain ⟨gA, gB, rfl, rfl, hB⟩ := List.map_eq_append_iff.1 hw
  obtain ⟨g, gB, rfl, rfl, rfl⟩ := List.map_eq_cons_iff.1 hB
  obtain ⟨x, rfl⟩ : ∃ x, g = [x] := by
    rcases r2.kind g (by simp) with ⟨x, rfl, _⟩ | ⟨_, hall⟩
    · exact ⟨x, rfl⟩
    · refine absurd ⟨g.flatten, rfl, ?_⟩ h2
      intro r hr
      obtain ⟨t, ht, hrt⟩ := List.mem_flatten.1 hr
      obtain ⟨r', rfl, h⟩ := hall t ht
      simp at hrt
      subst hrt; exact h
  have hx : ¬ x.length = 1 := by
    intro e
    obtain ⟨r, rfl⟩ := List.length_eq_one_iff.1 e
    exact h1 ⟨r, by simp⟩
  have e : hs.flatten = gA.flatten ++ x :: gB.flatten := by rw [r4.flat, ← r2.flat]; simp
  obtain ⟨G, H, rfl, e1, e2⟩ := runs_at (p := fun t : List Rune => t.length = 1) hx r4.kind e
  obtain ⟨oG, oR, k1, k2, rfl⟩ := forall₂_split_left G r5
  cases k2 with
  | @cons _ o _ oH k k2 =>
    have ho : o = [encode x] := by
      cases k with
      | word _ => rfl
      | one h => exact absurd h hx
      | known h _ _ _ => simp at h
      | hmm h _ _ _ => simp at h
    subst ho
    refine ⟨oG.flatten, oH.flatten, by simp, ?_, ?_⟩
    · rw [runOuts_flat hc k1, e1, ← flatten_encode]
    · rw [runOuts_flat hc k2, e2, ← flatten_encode]

/-- Items that make up a list of characters join neighbouring characters. -/
theorem joins_of_items {o : List Bytes} (h : ∀ w ∈ o, w ≠ [] ∧ ValidText w) :
    JoinsChars ((runes o.flatten).map encodeRune) o := by
  refine ⟨o.map fun w => (runes w).map encodeRune, ?_, ?_, ?_⟩
  · rw [runes_flatten_valid fun w hw => (h w hw).2, List.map_flatMap, List.flatMap_def]
  · rw [List.map_map]
    conv_rhs => rw [← List.map_id o]
    refine List.map_congr_left fun w hw => ?_
    exact (h w hw).2
  · intro g hg
    obtain ⟨w, hw, rfl⟩ := List.mem_map.1 hg
    have hall : ∀ v ∈ (runes w).map encodeRune, OneChar v := by
      intro v hv
      obtain ⟨r, _, rfl⟩ := List.mem_map.1 hv
      exact ⟨r, by simp [encode]⟩
    match hrs : runes w with
    | [] =>
      have := (h w hw).2
      unfold ValidText at this
      rw [hrs] at this
      exact absurd this.symm (h w hw).1
    | [r] => exact .inl ⟨encodeRune r, rfl⟩
    | r :: r' :: rs => exact .inr ⟨by simp, by rw [← hrs]; exact hall⟩

theorem joins_refl (o : List Bytes) : JoinsChars o o :=
  ⟨o.map fun w => [w], by induction o <;> simp_all, by simp [Function.comp_def], by simp⟩

theorem joins_append {a b a' b' : List Bytes} (h : JoinsChars a b) (h' : JoinsChars a' b') : JoinsChars (a ++ a') (b ++ b') := by
  obtain ⟨g, rfl, rfl, h3⟩ := h
  obtain ⟨g', rfl, rfl, h3'⟩ := h'
  refine ⟨g ++ g', by simp, by simp, ?_⟩
  intro x hx
  rcases List.mem_append.1 hx with hx | hx
  · exact h3 x hx
  · exact h3' x hx

/-- Without letters and digits the cut with HMM joins characters of the cut without. -/
theorem chars_joined [UnicodeOK] {cfg : SplitCfg} {d : Dictionary F D} (hi : IdxOK d) (cut : Bytes → Option (List Bytes))
    (hc : ∀ t, ValidText t → ∃ o, cut t = some o ∧ o.flatten = t ∧ ∀ w ∈ o, w ≠ [] ∧ ValidText w) (s : Bytes)
    (hs : ∀ r ∈ dagText cfg s, asciiAlnum r = false) (out out' : List Bytes)
    (h : cutDAGNoHMM cfg d s = some out) (h' : cutDAG cfg d cut s = some out') : JoinsChars out out' := by
  obtain ⟨ps, gs, hss, outs, r1, r2, r3, r4, r5, r6⟩ := both_route (cfg := cfg) hi cut (fun t ht => (hc t ht).imp fun _ h => h.1) s
  rw [h] at r3; rw [h'] at r6
  obtain rfl := Option.some.inj r6
  obtain rfl := Option.some.inj r3
  have hval : ∀ r ∈ ps.flatten, validRune r = true := by
    rw [isRoute_flatten r1, ← dagRunes_eq]; exact dagRunes_valid cfg s
  have hgs : (gs.map fun g => encode g.flatten) = ps.map encode := by
    have : ∀ g ∈ gs, ∃ x, g = [x] := by
      intro g hg
      rcases r2.kind g hg with ⟨x, rfl, _⟩ | ⟨hne, hall⟩
      · exact ⟨x, rfl⟩
      · cases g with
        | nil => exact absurd rfl hne
        | cons x g =>
          obtain ⟨r, rfl, hr⟩ := hall x (by simp)
          have : r ∈ dagText cfg s := by
            rw [← isRoute_flatten r1, ← r2.flat]
            exact List.mem_flatten.2 ⟨[r], List.mem_flatten.2 ⟨_, hg, by simp⟩, by simp⟩
          rw [hs r this] at hr; simp at hr
    rw [← r2.flat]
    clear * - this
    induction gs with
    | nil => rfl
    | cons g gs ih =>
      obtain ⟨x, rfl⟩ := this g (by simp)
      simpa using ih fun g hg => this g (by simp [hg])
  rw [hgs, ← r4.flat]
  rw [← r4.flat] at hval
  clear * - r5 hval hc
  induction r5 with
  | nil => exact joins_refl []
  | @cons g o gs os k _ ih =>
    rw [List.flatten_cons, List.map_append, List.flatten_cons]
    refine joins_append ?_ (ih fun r hr => hval r ?_)
    · cases k with
      | word _ => exact joins_refl _
      | one _ => exact joins_refl _
      | known _ _ _ _ => exact joins_refl _
      | hmm _ hall _ ho =>
        obtain ⟨o', ho', h3, h4⟩ := hc _ (validText_encode_any g.flatten)
        rw [ho] at ho'; cases ho'
        have := joins_of_items h4
        rwa [h3, runes_encode _ (fun r hr => hval r (by rw [List.flatten_cons, List.flatten_append]; exact List.mem_append_left _ hr)),
          (flatten_singles g hall).2] at this
    · rw [List.flatten_cons, List.flatten_append]; exact List.mem_append_right _ hr

/-- Nothing is joined where no two characters stand side by side. -/
theorem joins_nothing {fine coarse : List Bytes} (h : JoinsChars fine coarse) (hn : ¬ TwoChars fine) : coarse = fine := by
  obtain ⟨gs, rfl, rfl, h3⟩ := h
  have : ∀ g ∈ gs, ∃ w, g = [w] := by
    intro g hg
    rcases h3 g hg with h | ⟨h1, h2⟩
    · exact h
    · exfalso
      match g, h1, h2 with
      | w :: w' :: g, _, h2 =>
        obtain ⟨A, B, rfl⟩ := List.append_of_mem hg
        exact hn ⟨A.flatten, w, w', g ++ B.flatten, by simp, h2 w (by simp), h2 w' (by simp)⟩
  clear * - this
  induction gs with
  | nil => rfl
  | cons g gs ih =>
    obtain ⟨w, rfl⟩ := this g (by simp)
    simpa using ih fun g hg => this g (by simp [hg])

/-- C111: an item of `Cut(str, false)` that is neither one character nor a run of ASCII letters and digits is an item of
`Cut(str, true)` at the same place, whatever the model. -/
theorem C111_words [UnicodeOK] (cfg : SplitCfg) (ops : List (DictOp F)) (d : Dictionary F D) (hr : runOps cfg ops Dictionary.new = some d)
    (c : HmmConst F) (em : EmitModel F) (fuel : Nat) (s : Bytes) :
    ∃ out out', cut cfg d fuel (fun t => hmmCut c em t []) s (some false) = some out ∧
      cut cfg d fuel (fun t => hmmCut c em t []) s (some true) = some out' ∧
      ∀ A w B, out = A ++ w :: B → ¬ OneChar w → ¬ AlnumText w →
        ∃ A' B', out' = A' ++ w :: B' ∧ A'.flatten = A.flatten ∧ B'.flatten = B.flatten := by
  obtain ⟨out, h, _⟩ := C26_lossless cfg ops d hr s
  obtain ⟨out', h', _⟩ := C28_lossless cfg ops d hr c em fuel s
  exact ⟨out, out', h, h', fun A w B e h1 h2 => words_kept (idxOK_of_run hr) _
    (fun t _ => (C30_lossless c em t).imp fun _ h => ⟨h.1, h.2.1⟩) s out out' h h' A B w e h1 h2⟩

/-- C111: for a text without ASCII letters and digits `Cut(str, true)` is `Cut(str, false)` with some neighbouring items of
one character joined, whatever the model. -/
theorem C111_joins [UnicodeOK] (cfg : SplitCfg) (ops : List (DictOp F)) (d : Dictionary F D) (hr : runOps cfg ops Dictionary.new = some d)
    (c : HmmConst F) (em : EmitModel F) (fuel : Nat) (s : Bytes) (hs : ∀ r ∈ dagText cfg s, asciiAlnum r = false) :
    ∃ out out', cut cfg d fuel (fun t => hmmCut c em t []) s (some false) = some out ∧
      cut cfg d fuel (fun t => hmmCut c em t []) s (some true) = some out' ∧ JoinsChars out out' := by
  obtain ⟨out, h, _⟩ := C26_lossless cfg ops d hr s
  obtain ⟨out', h', _⟩ := C28_lossless cfg ops d hr c em fuel s
  exact ⟨out, out', h, h', chars_joined (idxOK_of_run hr) _ (fun t ht => hmmCut_valid c em t ht) s hs out out' h h'⟩

/-- C111: if `Cut(str, false)` has no two neighbouring items of one character, the HMM changes nothing. -/
theorem C111_same [UnicodeOK] (cfg : SplitCfg) (ops : List (DictOp F)) (d : Dictionary F D) (hr : runOps cfg ops Dictionary.new = some d)
    (c : HmmConst F) (em : EmitModel F) (fuel : Nat) (s : Bytes) (hs : ∀ r ∈ dagText cfg s, asciiAlnum r = false) (out : List Bytes)
    (h : cut cfg d fuel (fun t => hmmCut c em t []) s (some false) = some out) (hn : ¬ TwoChars out) :
    cut cfg d fuel (fun t => hmmCut c em t []) s (some true) = some out := by
  obtain ⟨o, o', h1, h2, h3⟩ := C111_joins cfg ops d hr c em fuel s hs
  rw [h] at h1
  obtain rfl := Option.some.inj h1
  rw [h2, joins_nothing h3 hn]

/-! ### Package pos -/

def joinText (l : List SegPos) : Bytes := (l.map SegPos.text).flatten

theorem joinText_append (a b : List SegPos) : joinText (a ++ b) = joinText a ++ joinText b := by simp [joinText]

theorem tagsKept_append {a b a' b' : List SegPos} (h : TagsKept a b) (e : joinText b = joinText a) (h' : TagsKept a' b')
    (e' : joinText b' = joinText a') : TagsKept (a ++ a') (b ++ b') := by
  intro A x B hx h1 h2
  have two : ∀ l l' : List SegPos, ((l ++ l').map SegPos.text).flatten = joinText l ++ joinText l' := fun l l' => joinText_append l l'
  rcases List.append_eq_append_iff.1 hx with ⟨m, rfl, hm⟩ | ⟨m, rfl, hm⟩
  · obtain ⟨A', B', rfl, e1, e2⟩ := h' m x B hm h1 h2
    refine ⟨b ++ A', B', by simp, ?_, e2⟩
    rw [two, two, e]; congr 1
  · cases m with
    | nil =>
      obtain ⟨A', B', rfl, e1, e2⟩ := h' [] x B (by simpa using hm.symm) h1 h2
      refine ⟨b ++ A', B', by simp, ?_, e2⟩
      rw [two, show joinText b = joinText A by simpa using e, show joinText A' = [] by simpa [joinText] using e1, List.append_nil]; rfl
    | cons y m =>
      simp only [List.cons_append, List.cons.injEq] at hm
      obtain ⟨rfl, rfl⟩ := hm
      obtain ⟨A', B', rfl, e1, e2⟩ := h A x m rfl h1 h2
      refine ⟨A', B' ++ b', by simp, e1, ?_⟩
      rw [two, two, e']; congr 1

theorem tagsKept_refl (a : List SegPos) : TagsKept a a := fun A _ B h _ _ => ⟨A, B, h, rfl, rfl⟩

/-- Tagging without and with the state model on a run of dictionary characters. -/
theorem tags_run [UnicodeOK] {d : Dictionary F D} (hi : IdxOK d) (detail : Bytes → Option (List SegPos)) (s : Bytes)
    (hd : ∀ t : List Rune, t <:+: runes s → ∃ o, detail (encode t) = some o ∧ joinText o = encode t) :
    ∃ a b, posCutNoHMM d s = some a ∧ posCutDAG d detail s = some b ∧ joinText b = joinText a ∧ TagsKept a b := by
  obtain ⟨R, h1, h2⟩ := posRoutes_eq hi (runes s)
  obtain ⟨ps, e1, e2, _⟩ := walk_eq h2 (runes s).length 0 (by omega) (by omega)
  have e2 : IsRoute d (runes s) ps := by simpa using e2
  obtain ⟨gs, out, g1, g2, g3⟩ := posNoHmmLoop_runs hi ps [] (by simp)
  rw [List.nil_append] at g1
  have hin : ∀ g : List (List Rune), g <:+: ps → g.flatten <:+: runes s := by
    rintro g ⟨a, b, e⟩
    rw [← isRoute_flatten e2, ← e]
    exact ⟨a.flatten, b.flatten, by simp⟩
  obtain ⟨hs, outs, k1, k2, k3⟩ := posHmmLoop_runs hi detail ps [] (by simp) (fun t ht => (isRoute_pieces e2 t ht).1)
    (fun g _ h _ => (hd _ (hin g (by simpa using h))).imp fun _ h => h.1)
  rw [List.nil_append] at k1
  have hjo : ∀ {G : List (List (List Rune))} {o : List (List SegPos)}, G <:+: hs → List.Forall₂ (PosRun d detail) G o →
      joinText o.flatten = encode G.flatten.flatten := by
    intro G o hG h
    refine posRun_join h ?_
    intro g hg o ho
    obtain ⟨x, y, e⟩ := (List.append_of_mem hg : ∃ _ _, _)
    obtain ⟨o', ho', hj⟩ := hd g.flatten (hin g (by
      rw [← k1.flat]
      obtain ⟨p, q, e'⟩ := hG
      rw [← e', e]
      exact ⟨(p ++ x).flatten, (y ++ q).flatten, by simp⟩))
    rw [ho'] at ho; cases ho; exact hj
  refine ⟨out, outs.flatten, ?_, ?_, ?_, ?_⟩
  · unfold posCutNoHMM
    simp only [h1, e1, Option.bind_some]
    exact g3
  · unfold posCutDAG
    simp only [h1, e1, Option.bind_some]
    exact k3
  · rw [hjo (List.infix_refl _) k2, joinText, posNoHmm_join g2, g1.flat, k1.flat]
  · intro A w B hw n1 n2
    subst hw
    obtain ⟨gA, gR, q1, q2, rfl⟩ := forall₂_split_right A g2
    cases q2 with
    | @cons g _ gB _ q q2 =>
      cases q with
      | eng hall =>
        refine absurd ⟨g.flatten, rfl, ?_⟩ n2
        intro r hr
        obtain ⟨t, ht, hrt⟩ := List.mem_flatten.1 hr
        obtain ⟨r', rfl, h⟩ := hall t ht
        simp at hrt
        subst hrt; exact h
      | @word x hne =>
        have hx : ¬ x.length = 1 := by
          intro e
          obtain ⟨r, rfl⟩ := List.length_eq_one_iff.1 e
          exact n1 ⟨r, by simp⟩
        have e : hs.flatten = gA.flatten ++ x :: gB.flatten := by rw [k1.flat, ← g1.flat]; simp
        obtain ⟨G, H, rfl, e1, e2⟩ := runs_at (p := fun t : List Rune => t.length = 1) hx k1.kind e
        obtain ⟨oG, oR, m1, m2, rfl⟩ := forall₂_split_left G k2
        cases m2 with
        | @cons _ o _ oH k m2 =>
          have ho : o = [⟨encode x, tagOf d (encode x)⟩] := by
            cases k with
            | word _ => rfl
            | one h => exact absurd h hx
            | known h _ _ _ => simp at h
            | hmm h _ _ _ => simp at h
          subst ho
          refine ⟨oG.flatten, oH.flatten, by simp, ?_, ?_⟩
          · rw [posNoHmm_join q1, ← e1]
            exact hjo (List.prefix_append _ _).isInfix m1
          · rw [posNoHmm_join q2, ← e2]
            exact hjo ((List.suffix_cons [x] H).isInfix.trans (List.suffix_append G _).isInfix) m2

theorem posOut_kept [UnicodeOK] {c c' : Bytes → Option (List SegPos)} {s : Bytes}
    (hc : ∀ vs : List Bytes, vs <:+: chars s → (∀ u ∈ vs, posChar u = true) →
      ∃ a b, c vs.flatten = some a ∧ c' vs.flatten = some b ∧ joinText b = joinText a ∧ TagsKept a b) {us : List Bytes} {o : List SegPos}
    (h : PosOut c us o) : us <:+: chars s → ∃ o', PosOut c' us o' ∧ joinText o' = joinText o ∧ TagsKept o o' := by
  induction h with
  | nil => exact fun _ => ⟨[], .nil, rfl, tagsKept_refl _⟩
  | @run vs rest o l h1 h2 h3 h4 _ ih =>
    intro hin
    obtain ⟨l', i1, i2, i3⟩ := ih ((List.suffix_append _ _).isInfix.trans hin)
    obtain ⟨a, b, j1, j2, j3, j4⟩ := hc vs ((List.prefix_append _ _).isInfix.trans hin) h2
    rw [h4] at j1; cases j1
    exact ⟨b ++ l', .run h1 h2 h3 j2 i1, by rw [joinText_append, joinText_append, j3, i2], tagsKept_append j4 j3 i3 i2⟩
  | @«break» rest l _ ih =>
    intro hin
    obtain ⟨l', i1, i2, i3⟩ := ih ((List.suffix_append [str "\r", str "\n"] rest).isInfix.trans hin)
    exact ⟨_ :: l', .break i1, by simpa [joinText] using i2, tagsKept_append (tagsKept_refl [_]) rfl i3 i2⟩
  | @char u rest l h1 h2 _ ih =>
    intro hin
    obtain ⟨l', i1, i2, i3⟩ := ih ((List.suffix_cons u rest).isInfix.trans hin)
    exact ⟨_ :: l', .char h1 h2 i1, by simpa [joinText] using i2, tagsKept_append (tagsKept_refl [_]) rfl i3 i2⟩

/-- C111: an item of `pos.Cut(text, false)` that is neither one character nor a run of ASCII letters and digits is an item
of `pos.Cut(text, true)` with the same tag at the same place. -/
theorem C111_pos [UnicodeOK] (cfg : SplitCfg) (ops : List (DictOp F)) (d : Dictionary F D)
    (hr : runOps cfg ops Dictionary.new = some d) (ch : Choice) (T : PosTables F) (hT : PosTablesOK T) (bound : Nat)
    (size : Nat → F → Prop) (hf : PosFinite T bound size) (s : Bytes) (hb : 2 * (runes s).length ≤ bound) :
    ∃ out out', posCut ch T d s false = some out ∧ posCut ch T d s true = some out' ∧ TagsKept out out' := by
  obtain ⟨out, h, _, _, h1⟩ := C50_no_hmm cfg ops d hr ch T s
  obtain ⟨out', h', _, _, h1'⟩ := C50_hmm cfg ops d hr ch T hT bound size hf s hb
  refine ⟨out, out', h, h', ?_⟩
  obtain ⟨o, k1, _, k2⟩ := posOut_kept (s := s) (c := posCutNoHMM d) (c' := posCutDAG d (cutDetail ch T)) (by
    intro vs hv hp
    have hcv : chars vs.flatten = vs := chars_of_infix hv
    refine tags_run (idxOK_of_run hr) _ _ fun t ht => ?_
    obtain ⟨o, o1, _, o2⟩ := detail_piece (T := T) ch hT hf vs.flatten (by rw [hcv]; exact hp) (by
      rw [runes_eq_chars, List.length_map, hcv]
      rw [runes_eq_chars, List.length_map] at hb
      have := hv.length_le
      omega) t ht
    exact ⟨o, o1, o2⟩) h1 (List.infix_refl _)
  rw [posOut_unique h1' k1 rfl]
  exact k2

end

section examples
attribute [local instance] sampleUnicode sampleUnicodeOK sampleF64 sampleF32 sampleNarrow sampleLaws64

/-- "人民", and letters that are likelier than the word they make. -/
def joinOps : List (DictOp Int) := [.add (encode [0x4EBA, 0x6C11]) 64 (str "n"), .add (str "a") 64 [], .add (str "b") 64 [], .add (str "ab") 1 []]

def joinDict : Dictionary Int Int := (runOps {} joinOps Dictionary.new).getD Dictionary.new
theorem joinDict_run : runOps {} joinOps (Dictionary.new : Dictionary Int Int) = some joinDict := by
  have : (runOps {} joinOps (Dictionary.new : Dictionary Int Int)).isSome = true := by decide +kernel
  obtain ⟨d, hd⟩ := Option.isSome_iff_exists.1 this
  rw [joinDict, hd]; rfl

/-- The HMM joins 中 and 国; 人民 is in both results. -/
example : ∃ d : Dictionary Int Int, runOps {} joinOps Dictionary.new = some d ∧
    cut {} d 9 (fun t => hmmCut hmmConst hmmEmit t []) (encode [0x4E2D, 0x56FD, 0x4EBA, 0x6C11]) (some false) =
      some [encode [0x4E2D], encode [0x56FD], encode [0x4EBA, 0x6C11]] ∧
    cut {} d 9 (fun t => hmmCut hmmConst hmmEmit t []) (encode [0x4E2D, 0x56FD, 0x4EBA, 0x6C11]) (some true) =
      some [encode [0x4E2D, 0x56FD], encode [0x4EBA, 0x6C11]] := by
  refine ⟨joinDict, joinDict_run, ?_, ?_⟩ <;> decide +kernel

/-- C111: with letters and digits neither result need be finer: "1.5c" is 1|.|5c without the HMM and 1.5|c with it, and a
stored word that the best route cuts into letters is joined without the HMM but not with it. -/
theorem C111_letters : ∃ d : Dictionary Int Int, runOps {} joinOps Dictionary.new = some d ∧
    cut {} d 9 (fun t => hmmCut hmmConst hmmEmit t []) (str "1.5c") (some false) = some [str "1", str ".", str "5c"] ∧
    cut {} d 9 (fun t => hmmCut hmmConst hmmEmit t []) (str "1.5c") (some true) = some [str "1.5", str "c"] ∧
    cut {} d 9 (fun t => hmmCut hmmConst hmmEmit t []) (str "ab") (some false) = some [str "ab"] ∧
    cut {} d 9 (fun t => hmmCut hmmConst hmmEmit t []) (str "ab") (some true) = some [str "a", str "b"] := by
  refine ⟨joinDict, joinDict_run, ?_, ?_, ?_, ?_⟩ <;> decide +kernel

end examples
end Gse
