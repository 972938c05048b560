import Verif.Proofs.SegMemLoop
import Verif.Spec.Alias

/-!
# Where the words of the splitter lie
-/

namespace Gse
open Spec

variable {F D α β : Type}

section split
variable [Unicode] {sh : Mem F D} {cfg : SplitCfg}

/-- The slice `x` for the word `w` of `s` (the bytes of `text`) that begins at byte `p`: part of `text`, or a fresh array. -/
def LiesAt (sh : Mem F D) (cfg : SplitCfg) (text : Slice) (s : Bytes) (p : Nat) (x : Slice) (w : Bytes) : Prop :=
  if Copied cfg s p then sh.Unused x.arr else x = text.sub p (p + w.length)

/-- The slices `out` hold the words `ws`, and lie where they should. -/
def HeadersAt (sh o : Mem F D) (cfg : SplitCfg) (text : Slice) (s : Bytes) (out : List Slice) (ws : List Bytes) : Prop :=
  out.length = ws.length ∧ ∀ k x w, out[k]? = some x → ws[k]? = some w →
    HoldsBytes (view sh o) x w ∧ LiesAt sh cfg text s (ws.take k).flatten.length x w

theorem HeadersAt.grow {o o' : Mem F D} (ha : Apart sh o') (hg : Grows o o') {text : Slice} {s : Bytes} {out : List Slice} {ws : List Bytes}
    (h : HeadersAt sh o cfg text s out ws) : HeadersAt sh o' cfg text s out ws :=
  ⟨h.1, fun k x w hx hw => ⟨(h.2 k x w hx hw).1.keep (view_grows ha hg).bytes, (h.2 k x w hx hw).2⟩⟩

theorem HeadersAt.snoc {o : Mem F D} {text : Slice} {s : Bytes} {out : List Slice} {ws : List Bytes} (h : HeadersAt sh o cfg text s out ws)
    {x : Slice} {w : Bytes} (hx : HoldsBytes (view sh o) x w) (hl : LiesAt sh cfg text s ws.flatten.length x w) :
    HeadersAt sh o cfg text s (out ++ [x]) (ws ++ [w]) := by
  refine ⟨by simp [h.1], fun k y v hy hv => ?_⟩
  have h1 := h.1
  rcases Nat.lt_trichotomy k out.length with hk | hk | hk
  · rw [List.getElem?_append_left hk] at hy
    rw [List.getElem?_append_left (by omega)] at hv
    rw [List.take_append_of_le_length (by omega)]
    exact h.2 k y v hy hv
  · subst hk
    simp at hy; subst hy
    rw [h1] at hv ⊢
    simp at hv; subst hv
    exact ⟨hx, by simpa using hl⟩
  · rw [List.getElem?_eq_none (by simp; omega)] at hy; cases hy

omit [Unicode] in
theorem wp_toLow_lies {o : Mem F D} (hf : sh .flags = some (.flags cfg)) (ha : Apart sh o) {x : Slice} {w : Bytes} (hw : HoldsBytes (view sh o) x w) :
    wp sh (toLowP x) o (fun x' o' => Apart sh o' ∧ Grows o o' ∧ HoldsBytes (view sh o') x' (toLow cfg w) ∧
      if cfg.toLower then sh.Unused x'.arr else x' = x) := by
  refine wp_bind (wp_flags hf ha ?_)
  unfold toLow
  split
  · refine wp_bind (wp_make fun a ho hsu => ?_)
    have hlen := hw.1
    refine wp_bind (wp_mono ?_ _ _ (wp_lowLoop (w := w) ho x.len 0 _ (by omega) hw (ha.extend _ hsu) (grows_extend _ ho) ?_ ?_))
    · rintro _ o' ⟨h1, h2, h3⟩
      refine ⟨h1, h2, ⟨by simpa [toLowerBytes] using hlen, fun k b hb => ?_⟩, hsu⟩
      simp only [toLowerBytes, List.getElem?_map, Option.map_eq_some_iff] at hb
      obtain ⟨b0, hb0, rfl⟩ := hb
      simpa using view_own (h3 k b0 hb0)
    · intro k hk
      rw [extend_cell, List.getElem?_replicate]; simp; omega
    · intro k b hk; omega
  · exact ⟨ha, Grows.refl o, hw, rfl⟩

omit [Unicode] in
theorem length_toLow (w : Bytes) : (toLow cfg w).length = w.length := by
  unfold toLow toLowerBytes; split <;> simp

omit [Unicode] in
theorem length_slice {s : Bytes} {i j : Nat} (hj : j ≤ s.length) : (slice s i j).length = j - i := by
  simp [slice]; omega

theorem copied_eq {s : Bytes} {p : Nat} :
    Copied cfg s p = (cfg.toLower && alnumAt cfg (decodeRune (s.drop p)).1 (decodeRune (s.drop p)).2) := by
  simp [Copied, alnumAt, Bool.and_assoc]

/-- What the splitter's loop knows: how many bytes have been put out, and where a pending word begins. -/
def SplitState (cfg : SplitCfg) (s : Bytes) (current start : Nat) (inAl : Bool) (ws : List Bytes) : Prop :=
  ws.flatten.length = (if inAl && !cfg.alphaNum then start else current) ∧
  ((inAl && !cfg.alphaNum) = true → (current = 0 ∧ start = 0) ∨
    (start < current ∧ alnumAt cfg (decodeRune (s.drop start)).1 (decodeRune (s.drop start)).2 = true))

/-- What the splitter's loop leaves behind. -/
def SplitLies (sh o : Mem F D) (cfg : SplitCfg) (text : Slice) (s : Bytes) (ws : List Bytes) (out : List Slice) (o' : Mem F D) : Prop :=
  Apart sh o' ∧ Grows o o' ∧ HeadersAt sh o' cfg text s out ws

theorem liesAt_low {text : Slice} {s : Bytes} {p q : Nat} {x : Slice} (hq : q ≤ s.length) (hpq : p ≤ q)
    (hal : alnumAt cfg (decodeRune (s.drop p)).1 (decodeRune (s.drop p)).2 = true)
    (hx : if cfg.toLower then sh.Unused x.arr else x = text.sub p q) : LiesAt sh cfg text s p x (toLow cfg (slice s p q)) := by
  unfold LiesAt
  rw [copied_eq, hal, Bool.and_true, length_toLow, length_slice hq, Nat.add_sub_cancel' hpq]
  exact hx

theorem wp_splitLoop_lies (hf : sh .flags = some (.flags cfg)) {text : Slice} {s : Bytes} (ht : HoldsBytes sh text s) :
    ∀ (fuel : Nat) (current start : Nat) (inAl : Bool) (out : List Slice) (ws : List Bytes) (o : Mem F D),
      current ≤ s.length → Apart sh o → HeadersAt sh o cfg text s out ws → SplitState cfg s current start inAl ws →
      wp sh (splitLoopP text fuel current start inAl out) o (SplitLies sh o cfg text s (splitLoop cfg s fuel current start inAl ws)) := by
  intro fuel
  have htv : ∀ {o : Mem F D}, Apart sh o → HoldsBytes (view sh o) text s := fun ha => ht.keep fun _ _ h => view_shared ha h
  have base : ∀ (current start : Nat) (inAl : Bool) (out : List Slice) (ws : List Bytes) (o : Mem F D),
      current ≤ s.length → Apart sh o → HeadersAt sh o cfg text s out ws → SplitState cfg s current start inAl ws →
      wp sh (splitLoopP text 0 current start inAl out) o (SplitLies sh o cfg text s (splitLoop cfg s 0 current start inAl ws)) := by
    intro current start inAl out ws o hc ha hout hat
    unfold splitLoopP splitLoop
    refine wp_bind (wp_flags hf ha ?_)
    split
    · next hin =>
      split
      · next h0 =>
        refine wp_bind (wp_mono ?_ _ _ (wp_toLow_lies hf ha ((htv ha).sub hc)))
        rintro w o' ⟨h1, h2, h3, h4⟩
        have hat1 := hat.1
        rw [if_pos hin] at hat1
        obtain ⟨hlt, hal⟩ := (hat.2 hin).resolve_left (fun h => h0 h.1)
        exact ⟨h1, h2, (hout.grow h1 h2).snoc h3 (by rw [hat1]; exact liesAt_low hc hlt.le hal h4)⟩
      · exact ⟨ha, Grows.refl o, hout⟩
    · exact ⟨ha, Grows.refl o, hout⟩
  induction fuel with
  | zero => exact base
  | succ fuel ih =>
    intro current start inAl out ws o hc ha hout hat
    unfold splitLoopP splitLoop
    rw [ht.1.symm]
    split
    · next hcur =>
      have hlen : ((s.drop current).take 4).length = min 4 (s.length - current) := by simp
      rw [← hlen]
      refine wp_bind (wp_rdBytes _ _ _ ?_ ?_)
      · intro k b hb
        rw [List.getElem?_take] at hb
        split at hb
        · rw [List.getElem?_drop] at hb
          have := (htv ha).2 _ _ hb
          rwa [← Nat.add_assoc] at this
        · cases hb
      rw [decodeRune_take4]
      have hsz : current + (decodeRune (s.drop current)).2 ≤ s.length := by
        have := decodeRune_size_le (s.drop current)
        rw [List.length_drop] at this; omega
      have hpos : 1 ≤ (decodeRune (s.drop current)).2 := decodeRune_size_pos _ (by
        intro h; have := congrArg List.length h; rw [List.length_drop] at this; simp at this; omega)
      refine wp_bind (wp_flags hf ha ?_)
      have step : ∀ (start' : Nat) (inAl' : Bool) (out' : List Slice) (ws' : List Bytes) (o' : Mem F D), Apart sh o' → Grows o o' →
          HeadersAt sh o' cfg text s out' ws' → SplitState cfg s (current + (decodeRune (s.drop current)).2) start' inAl' ws' →
          wp sh (splitLoopP text fuel (current + (decodeRune (s.drop current)).2) start' inAl' out') o'
            (SplitLies sh o cfg text s (splitLoop cfg s fuel (current + (decodeRune (s.drop current)).2) start' inAl' ws')) := by
        intro start' inAl' out' ws' o' ha' hg' hout' hat'
        refine wp_mono ?_ _ _ (ih _ _ _ _ _ _ hsz ha' hout' hat')
        rintro r o'' ⟨h1, h2, h3⟩
        exact ⟨h1, hg'.trans h2, h3⟩
      have hl1 : (slice s current (current + (decodeRune (s.drop current)).2)).length = (decodeRune (s.drop current)).2 := by
        rw [length_slice hsz]; omega
      simp only
      split
      · next hal =>
        split
        · next hAN =>
          have hat1 : ws.flatten.length = current := by simpa [hAN] using hat.1
          refine wp_bind (wp_mono ?_ _ _ (wp_toLow_lies hf ha ((htv ha).sub hsz)))
          rintro w o' ⟨h1, h2, h3, h4⟩
          refine step _ _ _ _ _ h1 h2 ((hout.grow h1 h2).snoc h3 (by rw [hat1]; exact liesAt_low hsz (by omega) hal h4)) ⟨?_, by simp [hAN]⟩
          simp [hAN, length_toLow, hl1, hat1]
        · next hAN =>
          refine step _ _ _ _ _ ha (Grows.refl o) hout ⟨?_, fun _ => .inr ?_⟩
          · have hat1 := hat.1
            cases inAl with
            | true => simpa [hAN] using hat1
            | false => simpa [hAN] using hat1
          · cases hin : inAl with
            | false => simp only [Bool.not_false, if_true]; exact ⟨by omega, hal⟩
            | true =>
              simp only [Bool.not_true, Bool.false_eq_true, if_false]
              rcases hat.2 (by simp [hin, hAN]) with ⟨h1, h2⟩ | ⟨h1, h2⟩
              · subst h1 h2; exact ⟨by omega, hal⟩
              · exact ⟨by omega, h2⟩
      · next hal =>
        have lies : ∀ {ws' : List Bytes}, ws'.flatten.length = current →
            LiesAt sh cfg text s ws'.flatten.length (text.sub current (current + (decodeRune (s.drop current)).2))
              (slice s current (current + (decodeRune (s.drop current)).2)) := by
          intro ws' h
          unfold LiesAt
          rw [h, copied_eq, Bool.eq_false_iff.mpr hal, Bool.and_false, hl1]
          simp
        cases hin : inAl with
        | false =>
          simp only [Bool.false_and, Bool.false_eq_true, if_false]
          have hat1 : ws.flatten.length = current := by simpa [hin] using hat.1
          exact step _ _ _ _ _ ha (Grows.refl o) (hout.snoc ((htv ha).sub hsz) (lies hat1)) ⟨by simp [hat1, hl1], by simp⟩
        | true =>
          simp only [Bool.true_and, if_true]
          split
          · next hcond =>
            simp only [Bool.and_eq_true, decide_eq_true_eq, Bool.not_eq_true'] at hcond
            have hat1 : ws.flatten.length = start := by simpa [hin, hcond.2] using hat.1
            obtain ⟨hlt, hal'⟩ := (hat.2 (by simp [hin, hcond.2])).resolve_left (fun h => hcond.1 h.1)
            refine wp_bind (wp_mono ?_ _ _ (wp_toLow_lies hf ha ((htv ha).sub hc)))
            rintro w o' ⟨h1, h2, h3, h4⟩
            have hs1 := (hout.grow h1 h2).snoc h3 (by rw [hat1]; exact liesAt_low hc hlt.le hal' h4)
            have hl2 : (ws ++ [toLow cfg (slice s start current)]).flatten.length = current := by
              simp [length_toLow, length_slice hc]; simp at hat1; omega
            refine step _ _ _ _ _ h1 h2 (hs1.snoc ((htv h1).sub hsz) (lies hl2)) ⟨?_, by simp⟩
            rw [List.flatten_append, List.length_append, hl2]; simp [hl1]
          · next hcond =>
            have hat1 : ws.flatten.length = current := by
              by_cases hAN : cfg.alphaNum = true
              · simpa [hin, hAN] using hat.1
              · have h0 : current = 0 := by
                  by_contra h0
                  exact hcond (by simp [h0, hAN])
                rcases hat.2 (by simp [hin, hAN]) with ⟨h1, h2⟩ | ⟨h1, _⟩
                · have := hat.1
                  simp only [hin, hAN] at this
                  rw [h1]; simpa [h2] using this
                · omega
            exact step _ _ _ _ _ ha (Grows.refl o) (hout.snoc ((htv ha).sub hsz) (lies hat1)) ⟨by simp [hat1, hl1], by simp⟩
    · exact base _ _ _ _ _ _ hc ha hout hat

/-- The array `a` holds the headers of these words, which lie where they should. -/
def WordsLie (sh o : Mem F D) (cfg : SplitCfg) (text : Slice) (s : Bytes) (a : Nat) (ws : List Bytes) : Prop :=
  ∀ k w, ws[k]? = some w → ∃ x, o (.cell a k) = some (.word x) ∧ HoldsBytes (view sh o) x w ∧
    LiesAt sh cfg text s (ws.take k).flatten.length x w

theorem wp_split_lies (hf : sh .flags = some (.flags cfg)) {text : Slice} {s : Bytes} (ht : HoldsBytes sh text s) {o : Mem F D} (ha : Apart sh o) :
    wp sh (splitP text) o (fun r o' => Apart sh o' ∧ r.len = (splitTextToWords cfg s).length ∧ r.off = 0 ∧ sh.Unused r.arr ∧
      WordsLie sh o' cfg text s r.arr (splitTextToWords cfg s)) := by
  refine wp_bind ?_
  have := wp_splitLoop_lies hf ht text.len 0 0 true [] [] o (by omega) ha ⟨rfl, by intro k x w h; simp at h⟩
    ⟨by simp, fun _ => .inl ⟨rfl, rfl⟩⟩
  rw [← ht.1] at this ⊢
  refine wp_mono ?_ _ _ this
  rintro out o' ⟨h1, h2, h3⟩
  refine wp_bind (wp_make fun a ho hsu => ?_)
  have h1' := h1.extend (out.map Cell.word) hsu
  refine ⟨h1', h3.1, rfl, hsu, fun k w hk => ?_⟩
  have hk' : k < out.length := by rw [h3.1]; exact (List.getElem?_eq_some_iff.mp hk).1
  obtain ⟨h4, h5⟩ := h3.2 k out[k] w (List.getElem?_eq_getElem hk') hk
  refine ⟨out[k], ?_, h4.keep (view_grows h1' (grows_extend _ ho)).bytes, h5⟩
  rw [extend_cell]; simp [hk']

end split

end Gse
