import Verif.Model.PosMem
import Verif.Proofs.CutMemCrash
import Verif.Proofs.PosSplit

/-!
# The programs of Model/PosMem.lean compute what the functions of Model/Pos.lean compute
-/

namespace Gse
open Spec
open Prog

set_option linter.unusedSectionVars false

variable {F D α β : Type} [F64 F] [F32 D] [Narrow F D]

section
variable {m : Mem F D} {cfg : SplitCfg} {d : Dictionary F D}

theorem yields_value (h : HoldsDict m cfg d) (w : Bytes) : Yields m (valueP w) (d.valueOf w) := by
  have hS := h.segmenter
  refine yields_bind (yields_bool hS.segDict) ?_
  refine yields_bind (yields_trie (hS.trie d rfl)) ?_
  unfold Dictionary.valueOf
  cases hj : d.trie.jump w [] with
  | none => rfl
  | some id =>
    refine yields_bind (yields_trie (hS.trie d rfl)) ?_
    cases hv : d.trie.value id <;> simp [Yields, hv]

theorem yields_posOf (h : HoldsDict m cfg d) (w : Bytes) (p : Option Bytes) (hp : posOf d w = some p) : Yields m (posOfP w) p := by
  refine yields_bind (yields_value h w) ?_
  unfold posOf at hp
  split at hp
  · next h0 => rw [if_pos h0]; simpa [Yields] using hp
  · next h0 =>
    rw [if_neg h0]
    refine yields_bind (yields_bool h.segmenter.segDict) ?_
    refine yields_bind (yields_nat (h.segmenter.tokHdr d rfl)) ?_
    split at hp
    · cases hp
    · next t ht =>
      rw [if_pos (List.getElem?_eq_some_iff.mp ht).1]
      refine yields_bind (yields_tok (h.segmenter.tok d rfl _ t ht)) ?_
      simpa [Yields] using hp

theorem yields_posItem (h : HoldsDict m cfg d) (w : Bytes) (p : SegPos) (hp : posItem d w = some p) : Yields m (posItemP w) p := by
  obtain ⟨t, ht, rfl⟩ := Option.map_eq_some_iff.mp hp
  exact yields_bind (yields_posOf h w t ht) rfl

theorem yields_posRoutes (h : HoldsDict m cfg d) (rs : List Rune) (r : List (Nat × Route F)) (hr : posRoutes d rs = some r) :
    Yields m (posRoutesP (F := F) (D := D) rs) r := by
  unfold posRoutes at hr
  split at hr
  · cases hr
  · next dag hd => exact yields_bind (yields_getDag h rs dag hd) (yields_calcLoop h rs _ dag _ _ r hr)

theorem yields_posFlush (h : HoldsDict m cfg d) (detail : Bytes → Option (List SegPos)) (buf : List Rune) (o : List SegPos)
    (ho : posFlush d detail buf = some o) : Yields m (posFlushP (F := F) (D := D) detail buf) o := by
  unfold posFlush at ho
  unfold posFlushP
  split at ho
  · next h0 => rw [if_pos h0]; simpa [Yields] using ho
  · next h0 =>
    rw [if_neg h0]
    split at ho
    · next h1 =>
      rw [if_pos h1]
      obtain ⟨p, hp, rfl⟩ := Option.map_eq_some_iff.mp ho
      exact yields_bind (yields_posItem h _ p hp) rfl
    · next h1 =>
      rw [if_neg h1]
      simp only [findRunes] at ho
      split at ho
      · cases ho
      · next v pos ok hf =>
        refine yields_bind (yields_find h hf) ?_
        simp only
        split at ho
        · next h3 => rw [if_pos h3]; exact yields_lift ho
        · next h3 => rw [if_neg h3]; exact yields_map (fun w p hp => yields_posItem h w p hp) _ _ ho

theorem yields_posHmmLoop (h : HoldsDict m cfg d) (detail : Bytes → Option (List SegPos)) : ∀ (frags : List (List Rune)) (buf : List Rune) (o : List SegPos),
    posHmmLoop d detail frags buf = some o → Yields m (posHmmLoopP (F := F) (D := D) detail frags buf) o
  | [], buf, o, ho => yields_posFlush h detail buf o ho
  | frag :: rest, buf, o, ho => by
    simp only [posHmmLoop] at ho
    simp only [posHmmLoopP]
    split at ho
    · next h1 => rw [if_pos h1]; exact yields_posHmmLoop h detail rest _ o ho
    · next h1 =>
      rw [if_neg h1]
      split at ho
      · next a p ha hp =>
        obtain ⟨r, hr, rfl⟩ := Option.map_eq_some_iff.mp ho
        exact yields_bind (yields_posFlush h detail buf a ha) (yields_bind (yields_posItem h _ p hp) (yields_bind (yields_posHmmLoop h detail rest [] r hr) rfl))
      · cases ho

theorem yields_posCutDAG (h : HoldsDict m cfg d) (detail : Bytes → Option (List SegPos)) (text : Bytes) (o : List SegPos)
    (ho : posCutDAG d detail text = some o) : Yields m (posCutDAGP (F := F) (D := D) detail text) o := by
  unfold posCutDAG at ho
  split at ho
  · cases ho
  · next routes hc =>
    obtain ⟨frags, hf, hl⟩ := Option.bind_eq_some_iff.mp ho
    exact yields_bind (yields_posRoutes h _ routes hc) (yields_bind (yields_lift hf) (yields_posHmmLoop h detail frags [] o hl))

theorem yields_posNoHmmLoop (h : HoldsDict m cfg d) : ∀ (frags : List (List Rune)) (buf : List Rune) (o : List SegPos),
    posNoHmmLoop d frags buf = some o → Yields m (posNoHmmLoopP (F := F) (D := D) frags buf) o
  | [], buf, o, ho => by simpa [posNoHmmLoop, posNoHmmLoopP, Yields] using ho
  | frag :: rest, buf, o, ho => by
    simp only [posNoHmmLoop] at ho
    simp only [posNoHmmLoopP]
    split at ho
    · next h1 => rw [if_pos h1]; exact yields_posNoHmmLoop h rest _ o ho
    · next h1 =>
      rw [if_neg h1]
      split at ho
      · cases ho
      · next p hp =>
        obtain ⟨r, hr, rfl⟩ := Option.map_eq_some_iff.mp ho
        exact yields_bind (yields_posItem h _ p hp) (yields_bind (yields_posNoHmmLoop h rest [] r hr) rfl)

theorem yields_posCutNoHMM (h : HoldsDict m cfg d) (text : Bytes) (o : List SegPos) (ho : posCutNoHMM d text = some o) :
    Yields m (posCutNoHMMP (F := F) (D := D) text) o := by
  unfold posCutNoHMM at ho
  split at ho
  · cases ho
  · next routes hc =>
    obtain ⟨frags, hf, hl⟩ := Option.bind_eq_some_iff.mp ho
    exact yields_bind (yields_posRoutes h _ routes hc) (yields_bind (yields_lift hf) (yields_posNoHmmLoop h frags [] o hl))

theorem yields_posCut [Unicode] (h : HoldsDict m cfg d) (ch : Choice) (T : PosTables F) (text : Bytes) (hmm : Bool) (o : List SegPos)
    (ho : posCut ch T d text hmm = some o) : Yields m (posCutP (F := F) (D := D) ch T text hmm) o := by
  obtain ⟨blks, hb, ho'⟩ := Option.bind_eq_some_iff.mp ho
  obtain ⟨os, ho2, rfl⟩ := Option.map_eq_some_iff.mp ho'
  refine yields_bind (yields_lift hb) (yields_bind (yields_map (fun blk r hr => ?_) _ _ ho2) rfl)
  unfold posBlock at hr
  unfold posBlockP
  split at hr
  · next h1 =>
    rw [if_pos h1]
    cases hmm with
    | true => exact yields_posCutDAG h _ blk r hr
    | false => exact yields_posCutNoHMM h blk r hr
  · next h1 =>
    rw [if_neg h1]
    obtain ⟨xs, hx, rfl⟩ := Option.map_eq_some_iff.mp hr
    exact yields_bind (yields_lift hx) rfl

theorem yields_textRank [Unicode] (h : HoldsDict m cfg d) (ch' ch : Choice) (K : RankConst F) (T : PosTables F) (text : Bytes) (topK : Int) (allow : List Bytes)
    (o : List (WordWeight F)) (ho : textRankWithPOS ch' ch K T d text topK allow = some o) : Yields m (textRankP (F := F) (D := D) ch' ch K T text topK allow) o := by
  obtain ⟨pairs, hp, rfl⟩ := Option.map_eq_some_iff.mp ho
  exact yields_bind (yields_posCut h ch' T text true pairs hp) rfl

end

/-! ## They only read -/

theorem reads_value (w : Bytes) : Reads (valueP w : Prog F D (Nat × Bool)) := by
  refine (reads_bool _).bind fun b => ?_
  split
  · trivial
  · refine reads_trie.bind fun t => ?_
    split
    · trivial
    · refine reads_trie.bind fun t => ?_
      split <;> trivial

theorem reads_posItem (w : Bytes) : Reads (posItemP w : Prog F D SegPos) := by
  refine Reads.bind ?_ fun _ => reads_ret _
  refine (reads_value w).bind fun x => ?_
  split
  · trivial
  · refine (reads_bool _).bind fun b => ?_
    split
    · trivial
    · refine (reads_nat _).bind fun n => ?_
      split
      · exact (reads_tok _).bind fun _ => reads_ret _
      · trivial

theorem reads_posRoutes (rs : List Rune) : Reads (posRoutesP rs : Prog F D (List (Nat × Route F))) :=
  (reads_getDag rs).bind fun _ => reads_calcLoop ..

theorem reads_posFlush (detail : Bytes → Option (List SegPos)) (buf : List Rune) : Reads (posFlushP detail buf : Prog F D (List SegPos)) := by
  unfold posFlushP
  split
  · trivial
  · split
    · exact (reads_posItem _).bind fun _ => reads_ret _
    · refine (reads_find _).bind fun x => ?_
      split
      · exact reads_lift _
      · exact reads_map reads_posItem _

theorem reads_posHmmLoop (detail : Bytes → Option (List SegPos)) : ∀ frags buf, Reads (posHmmLoopP detail frags buf : Prog F D (List SegPos))
  | [], buf => reads_posFlush detail buf
  | frag :: rest, buf => by
    simp only [posHmmLoopP]
    split
    · exact reads_posHmmLoop detail rest _
    · exact (reads_posFlush _ _).bind fun _ => (reads_posItem _).bind fun _ => (reads_posHmmLoop detail rest []).bind fun _ => reads_ret _

theorem reads_posNoHmmLoop : ∀ frags buf, Reads (posNoHmmLoopP frags buf : Prog F D (List SegPos))
  | [], _ => trivial
  | frag :: rest, buf => by
    simp only [posNoHmmLoopP]
    split
    · exact reads_posNoHmmLoop rest _
    · exact (reads_posItem _).bind fun _ => (reads_posNoHmmLoop rest []).bind fun _ => reads_ret _

theorem reads_posCutFun [Unicode] (ch : Choice) (T : PosTables F) (hmm : Bool) (blk : Bytes) :
    Reads ((if hmm then posCutDAGP (cutDetail ch T) else posCutNoHMMP) blk : Prog F D (List SegPos)) := by
  cases hmm with
  | true => exact (reads_posRoutes _).bind fun _ => (reads_lift _).bind fun _ => reads_posHmmLoop ..
  | false => exact (reads_posRoutes _).bind fun _ => (reads_lift _).bind fun _ => reads_posNoHmmLoop ..

theorem reads_posBlock [Unicode] (ch : Choice) (T : PosTables F) (hmm : Bool) (blk : Bytes) :
    Reads (posBlockP (if hmm then posCutDAGP (cutDetail ch T) else posCutNoHMMP) blk : Prog F D (List SegPos)) := by
  unfold posBlockP
  split
  · exact reads_posCutFun ch T hmm blk
  · exact (reads_lift _).bind fun _ => reads_ret _

theorem reads_posCut [Unicode] (ch : Choice) (T : PosTables F) (text : Bytes) (hmm : Bool) : Reads (posCutP ch T text hmm : Prog F D (List SegPos)) :=
  (reads_lift _).bind fun _ => (reads_map (reads_posBlock ch T hmm) _).bind fun _ => reads_ret _

/-! ## They ask the trie -/

section
variable {m : Mem F D}

theorem asks_map {l : Loc} {f : α → Prog F D β} (hf : ∀ a, Reads (f a)) : ∀ (pre : List α) (x : α) (post : List α), (∀ a ∈ pre, ∃ b, Yields m (f a) b) →
    Asks m l (f x) → Asks m l (mapP f (pre ++ x :: post))
  | [], _, _, _, hx => asks_left hx fun _ => (reads_map hf _).bind fun _ => reads_ret _
  | a :: pre, x, post, hp, hx => by
    obtain ⟨b, hb⟩ := hp a (by simp)
    exact asks_right hb (hf a) (fun _ => (reads_map hf _).bind fun _ => reads_ret _)
      (asks_left (asks_map hf pre x post (fun a ha => hp a (by simp [ha])) hx) fun _ => reads_ret _)

theorem asks_posRoutes [Unicode] (h1 : m .segDict = some (.bool false)) {rs : List Rune} (h : rs ≠ []) : Asks m .trie (posRoutesP (F := F) (D := D) rs) :=
  asks_left (asks_getDag h1 h) fun _ => reads_calcLoop ..

theorem asks_posCut [Unicode] (h1 : m .segDict = some (.bool false)) (ch : Choice) (T : PosTables F) (text : Bytes) (hmm : Bool)
    (h : (runes text).any hanInternalClass = true) : Asks m .trie (posCutP (F := F) (D := D) ch T text hmm) := by
  obtain ⟨blks, hb, hB⟩ := splitBy_blocks (m := reHanInternal) (classRun_range hanInternalClass) text
  unfold posCutP
  refine asks_right (yields_lift hb) (reads_lift _) (fun _ => (reads_map (reads_posBlock ch T hmm) _).bind fun _ => reads_ret _)
    (asks_left ?_ fun _ => reads_ret _)
  have hany : (classRun hanInternalClass text).isSome = true := by
    rw [classRun_isSome, ← h, runes_eq_chars, List.any_map]; rfl
  rcases classRun_spec hanInternalClass text with ⟨e, _⟩ | ⟨a, b, us, e, _, _, _, hus, hpre, hne, hall, _⟩
  · rw [e] at hany; cases hany
  cases hB with
  | last hn => rw [show classRun hanInternalClass text = none from hn] at hany; cases hany
  | @next _ a' b' l hm hl =>
    have e' : some (a', b') = some (a, b) := by rw [← hm, ← e]; rfl
    cases e'
    have h1' : reHanInternal (text.take a) = none := by
      have := classRun_isSome hanInternalClass (text.take a)
      rw [show ((chars (text.take a)).any fun u => hanInternalClass (charRune u)) = false by
        rw [List.any_eq_false]; intro u hu; rw [hpre u hu]; simp] at this
      exact Option.isSome_eq_false_iff.mp this |> Option.isNone_iff_eq_none.mp
    have h2' : (reHanInternal (slice text a b)).isSome = true := by
      show (classRun hanInternalClass (slice text a b)).isSome = true
      rw [classRun_isSome, ← hus]
      obtain ⟨u, us', rfl⟩ := List.exists_cons_of_ne_nil hne
      rw [List.any_eq_true]
      exact ⟨u, by simp, hall u (by simp)⟩
    have hrs : runes (slice text a b) ≠ [] := by
      rw [runes_eq_chars, ← hus]; simpa using hne
    refine asks_map (reads_posBlock ch T hmm) [text.take a] (slice text a b) l ?_ ?_
    · intro x hx
      rw [List.mem_singleton] at hx
      subst hx
      obtain ⟨xs, hxs, _⟩ := splitBy_blocks reSkipInternal_range (text.take a)
      refine ⟨xs.flatMap spaceItems, ?_⟩
      unfold posBlockP
      rw [if_neg (by rw [h1']; simp)]
      exact yields_bind (yields_lift hxs) rfl
    · unfold posBlockP
      rw [if_pos h2']
      cases hmm with
      | true => exact asks_left (asks_posRoutes h1 hrs) fun _ => (reads_lift _).bind fun _ => reads_posHmmLoop ..
      | false => exact asks_left (asks_posRoutes h1 hrs) fun _ => (reads_lift _).bind fun _ => reads_posNoHmmLoop ..

end
end Gse
