import Verif.Model.StopMem
import Verif.Spec.StopConc
import Verif.Proofs.CutMem

/-!
# Stop words in memory: the programs of Model/StopMem.lean alone and beside others
-/

namespace Gse
open Prog

set_option linter.unusedSectionVars false

variable {F D α β : Type}

/-! ## Alone -/

theorem yields_isStop {m : Mem F D} {a : Nat} {map : StopMap} (h : HoldsStop m a map) (s : Bytes) : Yields m (isStopP s) (map.isStop s) := by
  cases map with
  | none => exact ⟨_, h, rfl⟩
  | some ks => exact ⟨_, h.1, ⟨_, h.2, rfl⟩⟩

theorem yields_stop {m : Mem F D} {a : Nat} {map : StopMap} (h : HoldsStop m a map) : ∀ ws : List Bytes, Yields m (stopP ws) (stop map ws)
  | [] => rfl
  | v :: rest => yields_bind (yields_isStop h v) (yields_bind (yields_stop h rest) rfl)

theorem yields_stopTest {m : Mem F D} {a : Nat} {map : StopMap} (h : HoldsStop m a map) (notStop : Bool) (s : Bytes) :
    Yields m (stopTestP notStop s) (!notStop && map.isStop s) := by
  cases notStop with
  | true => rfl
  | false => exact yields_isStop h s

theorem yields_trim [Unicode] {m : Mem F D} {a : Nat} {map : StopMap} (h : HoldsStop m a map) (notStop : Bool) : ∀ ws : List Bytes,
    Yields m (trimP notStop ws) (trim notStop map ws)
  | [] => rfl
  | v :: rest => by
    refine yields_bind (yields_stopTest h notStop _) (yields_bind (yields_trim h notStop rest) ?_)
    show _ = _
    simp only [trim]
    cases (!notStop && map.isStop (filterSymbol v)) <;> simp

theorem yields_trimPos [Unicode] {m : Mem F D} {a : Nat} {map : StopMap} (h : HoldsStop m a map) (notStop : Bool) : ∀ ws : List SegPos,
    Yields m (trimPosP notStop ws) (trimPos notStop map ws)
  | [] => rfl
  | v :: rest => by
    refine yields_bind (yields_stopTest h notStop _) (yields_bind (yields_trimPos h notStop rest) ?_)
    show _ = _
    simp only [trimPos]
    cases (!notStop && map.isStop (filterSymbol v.text)) <;> simp

section
variable [F64 F] [F32 D] [Narrow F D] [Unicode]

/-- The stop words of package idf, as a test. -/
def idfTest (stop : Bool) (ks : List Bytes) : Option (Bytes → Bool) := if stop then some fun w => decide (w ∈ ks) else none

theorem yields_countWords {m : Mem F D} {ks : List Bytes} (h : m .idfStop = some (.keys ks)) (stop : Bool) : ∀ (ws : List Bytes) (g g' : GoMap Bytes F),
    ws.foldlM (countWord (idfTest stop ks)) g = some g' → Yields m (countWordsP stop ws g) g'
  | [], g, g', e => by simpa [Yields, countWordsP] using e
  | w :: ws, g, g', e => by
    rw [List.foldlM_cons] at e
    obtain ⟨g1, e1, e2⟩ := Option.bind_eq_some_iff.mp e
    refine yields_bind (a := g1) ?_ (yields_countWords h stop ws g1 g' e2)
    unfold countWord at e1
    unfold countWordP
    simp only at e1
    split at e1
    · next hl => rw [if_pos hl]; exact Option.some.inj e1
    · next hl =>
      rw [if_neg hl]
      cases stop with
      | false => cases e1
      | true =>
        simp only [idfTest, if_true, decide_eq_true_eq] at e1
        simp only [if_true]
        refine yields_bind ⟨_, h, rfl⟩ ?_
        split at e1
        · next hk => rw [if_pos hk]; exact Option.some.inj e1
        · next hk =>
          rw [if_neg hk]
          split at e1
          · next f hf => rw [hf]; exact Option.some.inj e1
          · next hf => rw [hf]; exact Option.some.inj e1

theorem yields_extract {m : Mem F D} {cfg : SplitCfg} {d : Dictionary F D} {c : HmmConst F} {em : EmitModel F} (hd : HoldsDict m cfg d)
    (he : m .emit = some (.emit em)) {ks : List Bytes} (h : m .idfStop = some (.keys ks)) (ch : Choice) (stop : Bool) (idf : Option (Idf F D)) (text : Bytes)
    (topK : Int) (tags : List (WordWeight F)) (ht : extractTags ch cfg d c em (idfTest stop ks) idf text topK = some tags) :
    Yields m (extractTagsP ch c stop idf text topK) tags := by
  obtain ⟨ws, h1, h2⟩ := Option.bind_eq_some_iff.mp ht
  refine yields_bind (yields_cut c hd he 0 text true ws h1) ?_
  unfold extractWords at h2
  split at h2
  · cases h2
  · next g hg =>
    refine yields_bind (yields_countWords h stop ws [] g hg) ?_
    exact yields_lift h2

end

section
variable [F64 F] [F32 D] [Narrow F D] [Unicode]

theorem countWord_total (f : Bytes → Bool) (g : GoMap Bytes F) (w : Bytes) : ∃ g', countWord (some f) g w = some g' := by
  unfold countWord
  simp only
  split
  · exact ⟨_, rfl⟩
  · split
    · exact ⟨_, rfl⟩
    · cases g.get (trimSpace w) <;> exact ⟨_, rfl⟩

theorem countWords_total (f : Bytes → Bool) : ∀ (ws : List Bytes) (g : GoMap Bytes F), ∃ g', ws.foldlM (countWord (some f)) g = some g'
  | [], g => ⟨g, rfl⟩
  | w :: ws, g => by
    obtain ⟨g1, h1⟩ := countWord_total f g w
    obtain ⟨g2, h2⟩ := countWords_total f ws g1
    exact ⟨g2, by rw [List.foldlM_cons, h1]; exact h2⟩

theorem weigh_total {i : Idf F D} {di : Dictionary F D} (hdi : i.dict = some di) (hf : ∀ w, di.find w ≠ none) : ∀ l : List (Bytes × F),
    ∃ r, mapOpt (weighWord (some i)) l = some r
  | [] => ⟨[], rfl⟩
  | p :: l => by
    obtain ⟨r, hr⟩ := weigh_total hdi hf l
    obtain ⟨⟨f, q, b⟩, hv⟩ := Option.ne_none_iff_exists'.mp (hf p.1)
    have h1 : ∃ y, weighWord (some i) p = some y := by
      simp only [weighWord, Idf.freq, hdi, Option.bind_some, hv]
      cases b <;> exact ⟨_, rfl⟩
    obtain ⟨y, hy⟩ := h1
    exact ⟨y :: r, by simp [mapOpt, hy, hr]⟩

/-- With weights and a `topK` that is not negative, `ExtractTags` ends for all words. -/
theorem extractWords_total (ch : Choice) (f : Bytes → Bool) {i : Idf F D} {di : Dictionary F D} (hdi : i.dict = some di) (hf : ∀ w, di.find w ≠ none)
    (ws : List Bytes) {topK : Int} (hk : 0 ≤ topK) : extractWords ch (some f) (some i) ws topK ≠ none := by
  obtain ⟨g, hg⟩ := countWords_total f ws ([] : GoMap Bytes F)
  obtain ⟨r, hr⟩ := weigh_total hdi hf (ch.iter 2 (normFreq ch (sumFreq ch g) g))
  simp only [extractWords, hg, hr, topTags]
  split
  · rw [if_neg (by omega)]; simp
  · simp

end

/-! ## Beside changes -/

/-- Whatever values allowed by `R` the program reads, it does not panic, allocates nothing, writes only allowed values, and ends
with `Q`. -/
def Within (R : Rely F D) : Prog F D α → (α → Prop) → Prop
  | .ret a, Q => Q a
  | .panic, _ => False
  | .read l k, Q => R.loc l ∧ ∀ c, R.val l c → Within R (k c) Q
  | .write l c k, Q => R.loc l ∧ R.val l c ∧ Within R k Q
  | .alloc _ _, _ => False

theorem stops_mono {R : Rely F D} {Q Q' : α → Prop} (h : ∀ a, Q a → Q' a) : ∀ p : Prog F D α, Within R p Q → Within R p Q'
  | .ret _, hp => h _ hp
  | .panic, hp => hp
  | .read _ k, hp => ⟨hp.1, fun c hc => stops_mono h (k c) (hp.2 c hc)⟩
  | .write _ _ k, hp => ⟨hp.1, hp.2.1, stops_mono h k hp.2.2⟩
  | .alloc _ _, hp => hp

theorem stops_bind' {R : Rely F D} {f : α → Prog F D β} {Q : β → Prop} : ∀ p : Prog F D α, Within R p (fun a => Within R (f a) Q) → Within R (p.bind f) Q
  | .ret _, hp => hp
  | .panic, hp => hp
  | .read _ k, hp => ⟨hp.1, fun c hc => stops_bind' (k c) (hp.2 c hc)⟩
  | .write _ _ k, hp => ⟨hp.1, hp.2.1, stops_bind' k hp.2.2⟩
  | .alloc _ _, hp => hp

theorem stops_bind {R : Rely F D} {f : α → Prog F D β} {Q : β → Prop} {P : α → Prop} {p : Prog F D α} (h : Within R p P)
    (hf : ∀ a, P a → Within R (f a) Q) : Within R (p >>= f) Q := stops_bind' p (stops_mono hf p h)

/-- Reading what nobody changes. -/
theorem within_yields {R : Rely F D} {m : Mem F D} (hR : ∀ l x, m l = some x → R.loc l ∧ ∀ y, R.val l y → y = x) {v : α} :
    ∀ p : Prog F D α, Yields m p v → Within R p (· = v)
  | .ret _, h => h
  | .read l k, ⟨x, hx, h⟩ => ⟨(hR l x hx).1, fun y hy => by rw [(hR l x hx).2 y hy]; exact within_yields hR (k x) h⟩
  | .panic, h => h.elim
  | .write .., h => h.elim
  | .alloc .., h => h.elim

/-- Every shared location holds an allowed value, and every goroutine goes on as `Within` says. -/
structure AllWithin (R : Rely F D) (c : Config F D α) (Q : Nat → α → Prop) : Prop where
  shared : ∀ l, R.loc l → ∃ x, c.mem l = some x ∧ R.val l x
  goes : ∀ i p, c.threads[i]? = some p → Within R p (Q i)

theorem within_step {R : Rely F D} {c c' : Config F D α} {Q : Nat → α → Prop} {i : Nat} {e : Access} (h : AllWithin R c Q) (hs : Step c i e c') :
    AllWithin R c' Q := by
  have hset : ∀ {p q : Prog F D α}, c.threads[i]? = some p → Within R q (Q i) → ∀ j r, (c.threads.set i q)[j]? = some r → Within R r (Q j) := by
    intro p q hp hq j r hr
    rw [List.getElem?_set] at hr
    split at hr
    · next hij =>
      subst hij
      split at hr
      · cases hr; exact hq
      · cases hr
    · exact h.goes j r hr
  cases hs with
  | @read l k x ht hm =>
    have hw := h.goes i _ ht
    obtain ⟨y, hy, hv⟩ := h.shared l hw.1
    rw [hm] at hy; cases hy
    exact ⟨h.shared, hset ht (hw.2 _ hv)⟩
  | @readBad l k ht hm =>
    have hw := h.goes i _ ht
    obtain ⟨y, hy, hv⟩ := h.shared l hw.1
    rw [hm] at hy; cases hy
  | @write l x k ht hm =>
    have hw := h.goes i _ ht
    refine ⟨fun l' hl' => ?_, hset ht hw.2.2⟩
    by_cases hl : l' = l
    · subst hl; exact ⟨x, put_same _ _ _, hw.2.1⟩
    · obtain ⟨y, hy, hv⟩ := h.shared l' hl'
      exact ⟨y, by show c.mem.put l x l' = _; rw [put_other _ _ hl]; exact hy, hv⟩
  | @writeBad l x k ht hm =>
    have hw := h.goes i _ ht
    obtain ⟨y, hy, hv⟩ := h.shared l hw.1
    rw [hm] at hy; cases hy
  | @alloc cs k a ht hu => exact (h.goes i _ ht).elim

theorem within_exec {R : Rely F D} {c c' : Config F D α} {Q : Nat → α → Prop} {tr : List (Nat × Access)} (h : AllWithin R c Q) (hx : Exec c tr c') :
    AllWithin R c' Q := by
  induction hx with
  | refl => exact h
  | step _ hs ih => exact within_step ih hs

/-! ## The stop words within bounds -/

/-- A map between the bounds. -/
def Between (start added removed ks : List Bytes) : Prop := (∀ w ∈ ks, MayStop start added w) ∧ ∀ w, w ∉ ks → MayPass start removed w

/-- What is added to and removed from the segmenter's map and that of package idf, with the words in them at the start. -/
structure StopBounds where
  start : List Bytes
  added : List Bytes
  removed : List Bytes
  idfStart : List Bytes
  idfAdded : List Bytes
  idfRemoved : List Bytes

/-- The two maps stay within the bounds, and all the rest stays as it is. The segmenter's map is at the address `a`. -/
def stopsWithin (m : Mem F D) (a : Nat) (B : StopBounds) : Rely F D where
  loc l := (m l).isSome
  val l c := if l = .cell a 0 then ∃ ks, c = .keys ks ∧ Between B.start B.added B.removed ks
    else if l = .idfStop then ∃ ks, c = .keys ks ∧ Between B.idfStart B.idfAdded B.idfRemoved ks
    else m l = some c

/-- Memory without the two maps. -/
def withoutStops (m : Mem F D) (a : Nat) : Mem F D := fun l => if l = .cell a 0 ∨ l = .idfStop then none else m l

theorem withoutStops_stable (m : Mem F D) (a : Nat) (B : StopBounds) (l : Loc) (x : Cell F D) (h : withoutStops m a l = some x) :
    (stopsWithin m a B).loc l ∧ ∀ y, (stopsWithin m a B).val l y → y = x := by
  unfold withoutStops at h
  split at h
  · cases h
  · next hl =>
    simp only [not_or] at hl
    refine ⟨by simp [stopsWithin, h], fun y hy => ?_⟩
    simp only [stopsWithin, if_neg hl.1, if_neg hl.2, h] at hy
    exact (Option.some.inj hy).symm

theorem withoutStops_dict {m : Mem F D} {cfg : SplitCfg} {d : Dictionary F D} (h : HoldsDict m cfg d) (a : Nat) : HoldsDict (withoutStops m a) cfg d := by
  refine ⟨⟨?_, ?_, fun d h => ?_, fun d h => ?_, fun d h => ?_, fun d h i t ht => ?_⟩, ?_⟩
  · simpa [withoutStops] using h.segmenter.flags
  · simpa [withoutStops] using h.segmenter.segDict
  · next g => simpa [withoutStops] using g.segmenter.maxLen d h
  · next g => simpa [withoutStops] using g.segmenter.trie d h
  · next g => simpa [withoutStops] using g.segmenter.tokHdr d h
  · next g => simpa [withoutStops] using g.segmenter.tok d h i t ht
  · simpa [withoutStops] using h.totalFreq

section
variable {m : Mem F D} {a : Nat} {B : StopBounds}

theorem within_stopVar (h : m .stopVar = some (.stops (some a))) : Within (stopsWithin m a B) rdStopVar (· = some a) := by
  refine ⟨by simp [stopsWithin, h], fun c hc => ?_⟩
  simp only [stopsWithin, reduceCtorEq, if_false, h] at hc
  cases hc
  rfl

theorem within_keys (h : (m (.cell a 0)).isSome) : Within (stopsWithin m a B) (rdKeys (.cell a 0)) (Between B.start B.added B.removed) := by
  refine ⟨h, fun c hc => ?_⟩
  simp only [stopsWithin, if_true] at hc
  obtain ⟨ks, rfl, hk⟩ := hc
  exact hk

theorem within_idfKeys (h : (m .idfStop).isSome) : Within (stopsWithin m a B) (rdKeys .idfStop) (Between B.idfStart B.idfAdded B.idfRemoved) := by
  refine ⟨h, fun c hc => ?_⟩
  simp only [stopsWithin, reduceCtorEq, if_false, if_true] at hc
  obtain ⟨ks, rfl, hk⟩ := hc
  exact hk

theorem within_isStop (hv : m .stopVar = some (.stops (some a))) (h : (m (.cell a 0)).isSome) (s : Bytes) :
    Within (stopsWithin m a B) (isStopP s) fun b => (b = true → MayStop B.start B.added s) ∧ (b = false → MayPass B.start B.removed s) := by
  refine stops_bind (within_stopVar hv) ?_
  rintro _ rfl
  refine stops_bind (within_keys h) fun ks hk => ?_
  exact ⟨fun e => hk.1 s (by simpa using e), fun e => hk.2 s (by simpa using e)⟩

theorem within_stop (hv : m .stopVar = some (.stops (some a))) (h : (m (.cell a 0)).isSome) : ∀ ws : List Bytes,
    Within (stopsWithin m a B) (stopP ws)
      (Sifted (fun w => MayStop B.start B.added w ∨ w = []) (fun w => MayPass B.start B.removed w ∧ w ≠ []) ws)
  | [] => .nil
  | v :: rest => by
    refine stops_bind (within_isStop hv h v) fun b hb => ?_
    refine stops_bind (within_stop hv h rest) fun r hr => ?_
    show Sifted _ _ _ _
    split
    · next hc =>
      simp only [Bool.and_eq_true, Bool.not_eq_true', ne_eq, decide_eq_true_eq] at hc
      exact .keep ⟨hb.2 hc.1, hc.2⟩ hr
    · next hc =>
      refine .out ?_ hr
      cases b with
      | true => exact .inl (hb.1 rfl)
      | false => right; by_contra hne; exact hc (by simp [hne])

theorem within_stopTest (hv : m .stopVar = some (.stops (some a))) (h : (m (.cell a 0)).isSome) (notStop : Bool) (s : Bytes) :
    Within (stopsWithin m a B) (stopTestP notStop s) fun b =>
      (b = true → notStop = false ∧ MayStop B.start B.added s) ∧ (b = false → notStop = true ∨ MayPass B.start B.removed s) := by
  cases notStop with
  | true => exact ⟨(fun e => by cases e), fun _ => .inl rfl⟩
  | false =>
    refine stops_mono ?_ _ (within_isStop (B := B) hv h s)
    exact fun b hb => ⟨fun e => ⟨rfl, hb.1 e⟩, fun e => .inr (hb.2 e)⟩

theorem within_trim [Unicode] (hv : m .stopVar = some (.stops (some a))) (h : (m (.cell a 0)).isSome) (notStop : Bool) : ∀ ws : List Bytes,
    Within (stopsWithin m a B) (trimP notStop ws)
      (Sifted (fun w => (notStop = false ∧ MayStop B.start B.added w) ∨ w = []) (fun w => (notStop = true ∨ MayPass B.start B.removed w) ∧ w ≠ []) (ws.map filterSymbol))
  | [] => .nil
  | v :: rest => by
    refine stops_bind (within_stopTest hv h notStop _) fun b hb => ?_
    refine stops_bind (within_trim hv h notStop rest) fun r hr => ?_
    show Sifted _ _ _ _
    rw [List.map_cons]
    split
    · next hc => exact .out (.inl (hb.1 hc)) hr
    · next hc =>
      split
      · next hne => exact .keep ⟨hb.2 (by simpa using hc), hne⟩ hr
      · next hne => exact .out (.inr (by simpa using hne)) hr

theorem within_trimPos [Unicode] (hv : m .stopVar = some (.stops (some a))) (h : (m (.cell a 0)).isSome) (notStop : Bool) : ∀ ws : List SegPos,
    Within (stopsWithin m a B) (trimPosP notStop ws)
      (Sifted (fun p => (notStop = false ∧ MayStop B.start B.added (filterSymbol p.text)) ∨ filterSymbol p.text = [])
        (fun p => (notStop = true ∨ MayPass B.start B.removed (filterSymbol p.text)) ∧ filterSymbol p.text ≠ []) ws)
  | [] => .nil
  | v :: rest => by
    refine stops_bind (within_stopTest hv h notStop _) fun b hb => ?_
    refine stops_bind (within_trimPos hv h notStop rest) fun r hr => ?_
    show Sifted _ _ _ _
    split
    · next hc => exact .out (.inl (hb.1 hc)) hr
    · next hc =>
      split
      · next hne => exact .keep ⟨hb.2 (by simpa using hc), hne⟩ hr
      · next hne => exact .out (.inr (by simpa using hne)) hr

theorem within_countWords [F64 F] [Unicode] (h : (m .idfStop).isSome) : ∀ (ws : List Bytes) (g : GoMap Bytes F),
    Within (stopsWithin m a B) (countWordsP true ws g) fun g' => ∃ r,
      Sifted (fun w => 2 ≤ (runes (trimSpace w)).length ∧ MayStop B.idfStart B.idfAdded (trimSpace w))
        (fun w => (runes (trimSpace w)).length < 2 ∨ MayPass B.idfStart B.idfRemoved (trimSpace w)) ws r ∧
      r.foldlM (countWord (some fun _ => false)) g = some g'
  | [], g => ⟨[], .nil, rfl⟩
  | w :: ws, g => by
    have key : Within (stopsWithin m a B) (countWordP true g w) fun g' =>
        ((2 ≤ (runes (trimSpace w)).length ∧ MayStop B.idfStart B.idfAdded (trimSpace w)) ∧ g' = g) ∨
        (((runes (trimSpace w)).length < 2 ∨ MayPass B.idfStart B.idfRemoved (trimSpace w)) ∧ countWord (some fun _ => false) g w = some g') := by
      unfold countWordP countWord
      simp only
      split
      · next hl => exact .inr ⟨.inl hl, rfl⟩
      · next hl =>
        simp only [if_true]
        refine stops_bind (within_idfKeys h) fun ks hk => ?_
        split
        · next hw => exact .inl ⟨⟨by omega, hk.1 _ hw⟩, rfl⟩
        · next hw =>
          simp only [Bool.false_eq_true, if_false]
          cases hg : g.get (trimSpace w) <;> exact .inr ⟨.inr (hk.2 _ hw), rfl⟩
    refine stops_bind key fun g1 h1 => ?_
    refine stops_mono ?_ _ (within_countWords h ws g1)
    rintro g' ⟨r, hr, hf⟩
    rcases h1 with ⟨ho, rfl⟩ | ⟨hk, hg⟩
    · exact ⟨r, .out ho hr, hf⟩
    · exact ⟨w :: r, .keep hk hr, by rw [List.foldlM_cons, hg]; exact hf⟩

/-! Writing -/

theorem between_put {start added removed ks : List Bytes} {w : Bytes} (h : Between start added removed ks) (hw : w ∈ added) :
    Between start added removed (StopMap.put ks w) := by
  unfold StopMap.put
  split
  · exact h
  · refine ⟨fun x hx => ?_, fun x hx => h.2 x fun hm => hx (by simp [hm])⟩
    rcases List.mem_cons.mp hx with rfl | hx
    · exact .inr hw
    · exact h.1 x hx

theorem between_remove {start added removed ks : List Bytes} {w : Bytes} (h : Between start added removed ks) (hw : w ∈ removed) :
    Between start added removed (ks.filter fun x => x != w) := by
  refine ⟨fun x hx => h.1 x (List.mem_filter.mp hx).1, fun x hx => ?_⟩
  by_cases hx' : x ∈ ks
  · have : x = w := by
      by_contra hne
      exact hx (List.mem_filter.mpr ⟨hx', by simpa using hne⟩)
    exact .inr (this ▸ hw)
  · exact h.2 x hx'

theorem within_putKeys (h : (m (.cell a 0)).isSome) {ks : List Bytes} (hk : Between B.start B.added B.removed ks) :
    Within (stopsWithin m a B) (put (.cell a 0) (.keys ks)) fun _ => True :=
  ⟨h, by simp only [stopsWithin, if_true]; exact ⟨ks, rfl, hk⟩, trivial⟩

theorem within_putIdf (h : (m .idfStop).isSome) {ks : List Bytes} (hk : Between B.idfStart B.idfAdded B.idfRemoved ks) :
    Within (stopsWithin m a B) (put .idfStop (.keys ks)) fun _ => True :=
  ⟨h, by simp only [stopsWithin, reduceCtorEq, if_false, if_true]; exact ⟨ks, rfl, hk⟩, trivial⟩

theorem within_addStop (hv : m .stopVar = some (.stops (some a))) (h : (m (.cell a 0)).isSome) {w : Bytes} (hw : w ∈ B.added) :
    Within (stopsWithin m a B) (addStopP w) fun _ => True := by
  refine stops_bind (within_stopVar hv) ?_
  rintro _ rfl
  exact stops_bind (within_keys h) fun ks hk => within_putKeys h (between_put hk hw)

theorem within_removeStop (hv : m .stopVar = some (.stops (some a))) (h : (m (.cell a 0)).isSome) {w : Bytes} (hw : w ∈ B.removed) :
    Within (stopsWithin m a B) (removeStopP w) fun _ => True := by
  refine stops_bind (within_stopVar hv) ?_
  rintro _ rfl
  exact stops_bind (within_keys h) fun ks hk => within_putKeys h (between_remove hk hw)

theorem within_addStops (hv : m .stopVar = some (.stops (some a))) (h : (m (.cell a 0)).isSome) : ∀ ws : List Bytes, (∀ w ∈ ws, w ∈ B.added) →
    Within (stopsWithin m a B) (addStopsP ws) fun _ => True
  | [], _ => trivial
  | w :: ws, hw => stops_bind (within_addStop hv h (hw w (by simp))) fun _ _ => within_addStops hv h ws fun x hx => hw x (by simp [hx])

theorem within_loadStopArr (hv : m .stopVar = some (.stops (some a))) (h : (m (.cell a 0)).isSome) {ws : List Bytes} (hw : ∀ w ∈ ws, w ∈ B.added) :
    Within (stopsWithin m a B) (loadStopArrP ws) fun _ => True := by
  refine stops_bind (within_stopVar hv) ?_
  rintro _ rfl
  exact within_addStops hv h ws hw

theorem within_idfAdd (h : (m .idfStop).isSome) {w : Bytes} (hw : w ∈ B.idfAdded) : Within (stopsWithin m a B) (idfAddStopP w) fun _ => True :=
  stops_bind (within_idfKeys h) fun _ hk => within_putIdf h (between_put hk hw)

theorem within_idfRemove (h : (m .idfStop).isSome) {w : Bytes} (hw : w ∈ B.idfRemoved) : Within (stopsWithin m a B) (idfRemoveStopP w) fun _ => True :=
  stops_bind (within_idfKeys h) fun _ hk => within_putIdf h (between_remove hk hw)

theorem within_idfCopy (h : (m .idfStop).isSome) : ∀ ws : List Bytes, (∀ w ∈ ws, w ∈ B.idfAdded) → Within (stopsWithin m a B) (idfCopyStopP ws) fun _ => True
  | [], _ => trivial
  | w :: ws, hw => stops_bind (within_idfAdd h (hw w (by simp))) fun _ _ => within_idfCopy h ws fun x hx => hw x (by simp [hx])

end

end Gse
