import Verif.Spec.Copy
import Verif.Proofs.GoStr
import Mathlib.Tactic.SplitIfs

/-! # References and owners -/

set_option linter.unusedSectionVars false

namespace Gse
open Spec

/-- References `ps` and makers `qs` of the same things. -/
structure Agree (ps qs : List (Option Nat)) (lim n : Nat) : Prop where
  len : ps.length = qs.length
  nil : ∀ i : Nat, ps[i]? = some none ↔ qs[i]? = some none
  ltp : ∀ k, some k ∈ ps → k < lim
  ltq : ∀ k, some k ∈ qs → k < n
  same : ∀ i j : Nat, i < ps.length → j < ps.length → (ps[i]? = ps[j]? ↔ qs[i]? = qs[j]?)

namespace Agree
variable {ps qs : List (Option Nat)} {lim n : Nat}

theorem next (h : Agree ps qs lim n) : Agree ps qs lim (n + 1) :=
  ⟨h.len, h.nil, h.ltp, fun k hk => Nat.lt_succ_of_lt (h.ltq k hk), h.same⟩

/-- A new pair in place `i` that fits the others. -/
theorem set (h : Agree ps qs lim n) (i : Nat) (p q : Option Nat) {lim' n' : Nat} (hl : lim ≤ lim') (hn : n ≤ n')
    (h0 : p = none ↔ q = none) (hp : ∀ k, p = some k → k < lim') (hq : ∀ k, q = some k → k < n')
    (hs : ∀ j : Nat, j < ps.length → j ≠ i → (some p = ps[j]? ↔ some q = qs[j]?)) : Agree (ps.set i p) (qs.set i q) lim' n' := by
  refine ⟨by simp [h.len], fun j => ?_, fun k hk => ?_, fun k hk => ?_, fun a b ha hb => ?_⟩
  · simp only [List.getElem?_set, h.len]
    split
    · split
      · simpa using h0
      · simp
    · exact h.nil j
  · rcases List.mem_or_eq_of_mem_set hk with hk | hk
    · exact Nat.lt_of_lt_of_le (h.ltp k hk) hl
    · exact hp k hk.symm
  · rcases List.mem_or_eq_of_mem_set hk with hk | hk
    · exact Nat.lt_of_lt_of_le (h.ltq k hk) hn
    · exact hq k hk.symm
  · rw [List.length_set] at ha hb
    have ha' := h.len ▸ ha
    have hb' := h.len ▸ hb
    simp only [List.getElem?_set]
    by_cases e1 : i = a <;> by_cases e2 : i = b
    · subst e1; subst e2; simp
    · subst e1
      simp only [if_true, if_neg e2, if_pos ha, if_pos ha']
      exact hs b hb (Ne.symm e2)
    · subst e2
      simp only [if_true, if_neg e1, if_pos hb, if_pos hb']
      exact eq_comm.trans ((hs a ha (Ne.symm e1)).trans eq_comm)
    · simp only [if_neg e1, if_neg e2]
      exact h.same a b ha hb

theorem fresh (h : Agree ps qs lim n) (i : Nat) : Agree (ps.set i (some lim)) (qs.set i (some n)) (lim + 1) (n + 1) := by
  refine h.set i _ _ (by omega) (by omega) (by simp) (by simp) (by simp) fun j hj _ => ?_
  constructor
  · intro e
    have := h.ltp lim (List.mem_of_getElem? e.symm)
    omega
  · intro e
    have := h.ltq n (List.mem_of_getElem? e.symm)
    omega

theorem drop (h : Agree ps qs lim n) (i : Nat) : Agree (ps.set i none) (qs.set i none) lim (n + 1) :=
  h.set i _ _ (by omega) (by omega) (by simp) (by simp) (by simp) fun j _ _ => eq_comm.trans ((h.nil j).trans eq_comm)

theorem copy (h : Agree ps qs lim n) (i j : Nat) (p q : Option Nat) (hp : ps[i]? = some p) (hq : qs[i]? = some q) :
    Agree (ps.set j p) (qs.set j q) lim (n + 1) := by
  have h0 := h.nil i
  rw [hp, hq] at h0
  refine h.set j _ _ (by omega) (by omega) (by simpa using h0) (fun k e => ?_) (fun k e => ?_) fun a ha _ => ?_
  · subst e; exact h.ltp k (List.mem_of_getElem? hp)
  · subst e; exact Nat.lt_succ_of_lt (h.ltq k (List.mem_of_getElem? hq))
  · rw [← hp, ← hq]
    exact h.same i a (List.getElem?_eq_some_iff.mp hp).1 ha

theorem append (h : Agree ps qs lim n) : Agree (ps ++ [none]) (qs ++ [none]) lim (n + 1) := by
  have key : ∀ i : Nat, (i < ps.length ∧ (ps ++ [none])[i]? = ps[i]? ∧ (qs ++ [none])[i]? = qs[i]?) ∨
      (i = ps.length ∧ (ps ++ [none])[i]? = some none ∧ (qs ++ [none])[i]? = some none) ∨
      ((ps ++ [none])[i]? = none ∧ (qs ++ [none])[i]? = none ∧ ps.length < i) := by
    intro i
    rcases Nat.lt_trichotomy i ps.length with hi | hi | hi
    · exact .inl ⟨hi, List.getElem?_append_left hi, List.getElem?_append_left (h.len ▸ hi)⟩
    · refine .inr (.inl ⟨hi, ?_, ?_⟩)
      · rw [hi]; simp
      · rw [hi, h.len]; simp
    · refine .inr (.inr ⟨?_, ?_, hi⟩) <;> rw [List.getElem?_eq_none] <;> simp <;> have := h.len <;> omega
  refine ⟨by simp [h.len], fun i => ?_, fun k hk => ?_, fun k hk => ?_, fun a b ha hb => ?_⟩
  · rcases key i with ⟨_, e1, e2⟩ | ⟨_, e1, e2⟩ | ⟨e1, e2, _⟩ <;> rw [e1, e2]
    exact h.nil i
  · simp only [List.mem_append, List.mem_singleton, reduceCtorEq, or_false] at hk
    exact h.ltp k hk
  · simp only [List.mem_append, List.mem_singleton, reduceCtorEq, or_false] at hk
    exact Nat.lt_succ_of_lt (h.ltq k hk)
  · simp only [List.length_append, List.length_singleton] at ha hb
    rcases key a with ⟨h1, e1, e2⟩ | ⟨h1, e1, e2⟩ | ⟨_, _, h1⟩ <;> rcases key b with ⟨h3, e3, e4⟩ | ⟨h3, e3, e4⟩ | ⟨_, _, h3⟩ <;>
      first | omega | rw [e1, e2, e3, e4]
    · exact h.same a b h1 h3
    · exact h.nil a
    · exact eq_comm.trans ((h.nil b).trans eq_comm)

end Agree

section keeps
variable {F D : Type} [F64 F] [F32 D] [Narrow F D] [Unicode]
namespace Segmenter

/-- A part of loading: it changes what is in the dictionary and nothing else. -/
def Keeps (s s' : Segmenter F D) : Prop := s'.load = s.load ∧ s'.cfg = s.cfg ∧ s'.dict.isSome = s.dict.isSome

theorem Keeps.refl (s : Segmenter F D) : s.Keeps s := ⟨rfl, rfl, rfl⟩

theorem Keeps.trans {a b c : Segmenter F D} (h : a.Keeps b) (h' : b.Keeps c) : a.Keeps c :=
  ⟨h'.1.trans h.1, h'.2.1.trans h.2.1, h'.2.2.trans h.2.2⟩

theorem keeps_addEntry {s s' : Segmenter F D} {t p : Bytes} {f : F} (h : s.addEntry t f p = some s') : s.Keeps s' := by
  unfold addEntry at h
  split at h
  · cases h; exact .refl _
  · split at h
    · cases h
    · next d hd => cases h; exact ⟨rfl, rfl, by simp [hd]⟩

theorem keeps_recalc {s s' : Segmenter F D} (h : s.recalc = some s') : s.Keeps s' ∧ s.dict.isSome := by
  unfold recalc at h
  split at h
  · cases h
  · next d hd =>
    simp only [Option.map_eq_some_iff] at h
    obtain ⟨d', _, rfl⟩ := h
    exact ⟨⟨rfl, rfl, by simp [hd]⟩, by simp [hd]⟩

theorem keeps_loop {α : Type} {f : Segmenter F D → α → Option (Segmenter F D)} (hf : ∀ s a s', f s a = some s' → s.Keeps s') :
    ∀ (l : List α) (s s' : Segmenter F D), loop f l s = some s' → s.Keeps s'
  | [], s, s', h => by cases h; exact .refl _
  | a :: l, s, s', h => by
    simp only [loop, Option.bind_eq_some_iff] at h
    obtain ⟨s1, h1, h2⟩ := h
    exact (hf s a s1 h1).trans (keeps_loop hf l s1 s' h2)

theorem keeps_strLine {s s' : Segmenter F D} {line : Bytes} (h : s.strLine line = some s') : s.Keeps s' := by
  unfold strLine at h
  simp only at h
  split at h
  · cases h; exact .refl _
  · exact keeps_addEntry h

/-- After a load that makes a dictionary when there is none. -/
def Made (s s' : Segmenter F D) : Prop := s'.load = s.load ∧ s'.cfg = s.cfg ∧ s'.dict.isSome = true

theorem Made.trans {a b c : Segmenter F D} (h : a.Made b) (h' : b.Made c) : a.Made c := ⟨h'.1.trans h.1, h'.2.1.trans h.2.1, h'.2.2⟩

theorem made_prepare (s : Segmenter F D) : s.Made s.prepare := by
  unfold prepare
  split
  · next d hd => exact ⟨rfl, rfl, by simp [hd]⟩
  · exact ⟨rfl, rfl, rfl⟩

theorem Made.keeps {a b c : Segmenter F D} (h : a.Made b) (h' : b.Keeps c) : a.Made c := ⟨h'.1.trans h.1, h'.2.1.trans h.2.1, h'.2.2.trans h.2.2⟩

theorem made_loadDictStr {s s' : Segmenter F D} {t : Bytes} (h : s.loadDictStr t = some s') : s.Made s' := by
  unfold loadDictStr at h
  simp only [Option.bind_eq_some_iff] at h
  obtain ⟨s1, h1, h2⟩ := h
  exact (made_prepare s).keeps ((keeps_loop (fun _ _ _ => keeps_strLine) _ _ _ h1).trans (keeps_recalc h2).1)

theorem made_loadDictMap {s s' : Segmenter F D} {l : List (List (Bytes × Bytes))} (h : s.loadDictMap l = some s') : s.Made s' := by
  unfold loadDictMap at h
  simp only [Option.bind_eq_some_iff] at h
  obtain ⟨s1, h1, h2⟩ := h
  exact (made_prepare s).keeps ((keeps_loop (fun _ _ _ => keeps_addEntry) _ _ _ h1).trans (keeps_recalc h2).1)

theorem keeps_readerRow {s s' : Segmenter F D} {n : Nat} {v v' : ReadVars} (h : s.readerRow n v = some (s', v')) : s.Keeps s' := by
  unfold readerRow at h
  simp only at h
  split at h
  · cases h; exact .refl _
  · simp only [Option.map_eq_some_iff, Prod.mk.injEq] at h
    obtain ⟨s1, h1, rfl, _⟩ := h
    exact keeps_addEntry h1

theorem keeps_readerScan {mid : ScanErr} : ∀ (n : Nat) {s s' : Segmenter F D} {v : ReadVars} {rs : List Rune},
    readerScan mid n s v rs = some s' → s.Keeps s'
  | 0, _, _, _, _, h => by cases h
  | n + 1, s, s', v, rs, h => by
    simp only [readerScan] at h
    split at h
    · cases h; exact .refl _
    · split at h
      · cases h
      · next h1 => exact (keeps_readerRow h1).trans (keeps_readerScan n h)

theorem keeps_readerSep : ∀ (n : Nat) {s s' : Segmenter F D} {b : Bytes}, readerSep n s b = some s' → s.Keeps s'
  | 0, _, _, _, h => by cases h
  | n + 1, s, s', b, h => by
    simp only [readerSep] at h
    split at h
    · cases h; exact .refl _
    · split at h
      · cases h
      · next h1 => exact (keeps_readerRow h1).trans (keeps_readerSep n h)

theorem keeps_reader {mid : ScanErr} {s s' : Segmenter F D} {b : Bytes} (h : s.reader mid b = some s') : s.Keeps s' := by
  unfold reader at h
  split at h
  · exact keeps_readerScan _ h
  · exact keeps_readerSep _ h

theorem keeps_readFiles {mid : ScanErr} {fs : Bytes → Option Bytes} : ∀ (files : List Bytes) {s s' : Segmenter F D} {e : Bool},
    readFiles mid fs files s = some (s', e) → s.Keeps s'
  | [], _, _, _, h => by cases h; exact .refl _
  | f :: files, s, s', e, h => by
    simp only [readFiles] at h
    split at h
    · cases h; exact .refl _
    · simp only [Option.bind_eq_some_iff] at h
      obtain ⟨s1, h1, h2⟩ := h
      exact (keeps_reader h1).trans (keeps_readFiles files h2)

/-- `LoadDict` sets `Load`; it makes a dictionary exactly when `Load` was not set. -/
theorem loadDict_kept {mid : ScanErr} {join : Bytes → Bytes} {fs : Bytes → Option Bytes} {s s' : Segmenter F D} {files : Option Bytes} {e : Bool}
    (h : s.loadDict mid join fs files = some (s', e)) : s'.load = true ∧ s'.cfg = s.cfg ∧ s'.dict.isSome = (!s.load || s.dict.isSome) := by
  have key : ∀ s0 : Segmenter F D, ∀ paths, (readFiles mid fs paths s0).bind (fun r => if r.2 then some r else r.1.recalc.map fun s => (s, false)) = some (s', e) →
      s0.Keeps s' := by
    intro s0 paths h
    simp only [Option.bind_eq_some_iff] at h
    obtain ⟨⟨s1, e1⟩, h1, h2⟩ := h
    split at h2
    · cases h2; exact keeps_readFiles _ h1
    · simp only [Option.map_eq_some_iff, Prod.mk.injEq] at h2
      obtain ⟨s2, h2, rfl, _⟩ := h2
      exact (keeps_readFiles _ h1).trans (keeps_recalc h2).1
  unfold loadDict at h
  simp only at h
  obtain ⟨h1, h2, h3⟩ := key _ _ h
  cases hl : s.load with
  | false => rw [hl] at h1 h2 h3; exact ⟨h1, h2, h3⟩
  | true => rw [hl] at h1 h2 h3; exact ⟨h1.trans hl, h2, h3⟩

theorem made_loop {α : Type} {f : Segmenter F D → α → Option (Segmenter F D)} (hf : ∀ s a s', f s a = some s' → s.Made s') :
    ∀ (l : List α) (s s' : Segmenter F D), l ≠ [] ∨ s.dict.isSome = true → loop f l s = some s' → s.Made s'
  | [], s, s', hl, h => by cases h; exact ⟨rfl, rfl, by simpa using hl⟩
  | a :: l, s, s', _, h => by
    simp only [loop, Option.bind_eq_some_iff] at h
    obtain ⟨s1, h1, h2⟩ := h
    exact (hf s a s1 h1).trans (made_loop hf l s1 s' (.inr (hf s a s1 h1).2.2) h2)

/-- Nothing happens, or a load. -/
theorem made_ite {b : Bool} {s s' : Segmenter F D} {r : Option (Segmenter F D)} (hr : r = some s' → s.Made s')
    (h : (if b = true then r else some s) = some s') : s'.load = s.load ∧ s'.cfg = s.cfg ∧ s'.dict.isSome = (b || s.dict.isSome) := by
  cases b with
  | true => obtain ⟨h1, h2, h3⟩ := hr h; exact ⟨h1, h2, by simp [h3]⟩
  | false => cases h; simp

theorem loadZhST_kept {E : Embedded} {s s' : Segmenter F D} {d : Bytes} {b : Nat} (h : s.loadZhST E d = some (s', b)) :
    s'.load = s.load ∧ s'.cfg = s.cfg ∧ (b = 0 ∨ s'.dict.isSome = true) := by
  unfold loadZhST at h
  simp only [Option.bind_eq_some_iff, Option.some.injEq, Prod.mk.injEq] at h
  obtain ⟨s1, h1, s2, h2, s3, h3, rfl, rfl⟩ := h
  obtain ⟨a1, a2, a3⟩ := made_ite made_loadDictStr h1
  obtain ⟨b1, b2, b3⟩ := made_ite made_loadDictStr h2
  obtain ⟨c1, c2, c3⟩ := made_ite made_loadDictStr h3
  refine ⟨by rw [c1, b1, a1], by rw [c2, b2, a2], ?_⟩
  rw [c3, b3, a3]
  cases containsStr d (str "zh,") <;> cases containsStr d (str "zh_s,") <;> cases containsStr d (str "zh_t,") <;> simp

theorem made_loadDictEmbed {E : Embedded} {s s' : Segmenter F D} {n : Option Bytes} (h : s.loadDictEmbed E n = some s') : s.Made s' := by
  unfold loadDictEmbed at h
  split at h
  · exact made_loadDictStr h
  · next d =>
    split_ifs at h
    · exact made_loadDictStr h
    · exact made_loadDictStr h
    · exact made_loadDictStr h
    · exact made_loadDictStr h
    · simp only [Option.bind_eq_some_iff] at h
      obtain ⟨⟨s1, b⟩, h1, h2⟩ := h
      obtain ⟨a1, a2, a3⟩ := loadZhST_kept h1
      have h2' := made_loop (fun _ _ _ => made_loadDictStr) _ _ _ (a3.imp_left fun e => by
        subst e; exact splitStr_ne_nil d (by decide)) h2
      exact ⟨h2'.1.trans a1, h2'.2.1.trans a2, h2'.2.2⟩
    · exact made_loadDictStr h

end Segmenter

/-- Which calls on the stop words make a map, which drop it, and which keep it as it is. -/
theorem StopOp.run_isSome {E : StopEnv} {m m' : StopMap} {op : StopOp} {n : Nat} {o : Owner} (h : op.run E m = some m')
    (ho : m.isSome = o.stop.isSome) : m'.isSome = (ownStop n o op).stop.isSome := by
  have mk : ∀ {r : StopMap}, r.isSome = true → r.isSome = (if o.stop = none then { o with stop := some n } else o).stop.isSome := by
    intro r hr
    rw [hr]
    split
    · rfl
    · next h => exact (Option.isSome_iff_ne_none.mpr h).symm
  have fold : ∀ (l : List Bytes) (m : StopMap), l ≠ [] ∨ m.isSome = true → (l.foldl StopMap.loadStopStr m).isSome = true := by
    intro l
    induction l with
    | nil => intro m h; simpa using h
    | cons a l ih => intro m _; exact ih _ (.inr rfl)
  cases op with
  | loadArr ws => cases h; exact mk rfl
  | addArr ws => cases h; exact mk rfl
  | add w =>
    cases m with
    | none => cases h
    | some l => cases h; exact ho
  | remove w => cases h; cases m <;> exact ho
  | empty => cases h; rfl
  | loadStr d => cases h; exact mk rfl
  | loadEmbed d =>
    cases h
    refine mk ?_
    unfold StopMap.loadStopEmbed
    split
    · rfl
    · next d =>
      simp only
      split
      · cases containsStr d (str "zh,") with
        | true => exact fold _ _ (.inr rfl)
        | false => exact fold _ _ (.inl (splitStr_ne_nil d (by decide)))
      · rfl
  | load fs files => cases h; exact mk rfl


/-- What a call that is not about the stop words does to the ownership. -/
theorem SegOp.run_own {E : CallEnv} {s s' : Segmenter F D} {c : SegOp F} {n : Nat} {o : Owner} (hc : ∀ op, c ≠ .stop op)
    (h : c.run E s = some s') (hl : s.load = o.load) (hd : s.dict.isSome = o.dict.isSome) :
    s'.load = (ownCall n o c).load ∧ s'.dict.isSome = (ownCall n o c).dict.isSome ∧ (ownCall n o c).stop = o.stop ∧
    (c.fresh s = true → (ownCall n o c).dict = some n) ∧
    (c.fresh s = false → (ownCall n o c).dict = o.dict ∨ (ownCall n o c).dict = none) := by
  have mk : s.Made s' → s'.load = (if o.dict = none then { o with dict := some n } else o).load ∧
      s'.dict.isSome = (if o.dict = none then { o with dict := some n } else o).dict.isSome ∧
      (if o.dict = none then { o with dict := some n } else o).stop = o.stop ∧
      (s.dict.isNone = true → (if o.dict = none then { o with dict := some n } else o).dict = some n) ∧
      (s.dict.isNone = false → (if o.dict = none then { o with dict := some n } else o).dict = o.dict ∨
        (if o.dict = none then { o with dict := some n } else o).dict = none) := by
    rintro ⟨h1, _, h3⟩
    have e : s.dict.isNone = !o.dict.isSome := by rw [← hd]; cases s.dict <;> rfl
    rw [h1, h3, e]
    cases ho : o.dict <;> simp [ho, hl]
  cases c with
  | dict op =>
    simp only [SegOp.run, Option.bind_eq_some_iff, Option.map_eq_some_iff] at h
    obtain ⟨d, hd', d', _, rfl⟩ := h
    refine ⟨hl, ?_, rfl, fun h => (nomatch h), fun _ => .inl rfl⟩
    rw [hd'] at hd; exact hd
  | loadStr t => exact mk (Segmenter.made_loadDictStr h)
  | loadMap l => exact mk (Segmenter.made_loadDictMap h)
  | loadEmbed l => exact mk (Segmenter.made_loadDictEmbed h)
  | loadDict fs files =>
    simp only [SegOp.run, Option.map_eq_some_iff] at h
    obtain ⟨⟨s1, e⟩, h1, rfl⟩ := h
    obtain ⟨h1, _, h3⟩ := Segmenter.loadDict_kept h1
    simp only [ownCall, SegOp.fresh]
    rw [h1, h3, hl]
    cases ho : o.load with
    | true => simp [hd, ho]
    | false => simp
  | empty => cases h; exact ⟨hl, rfl, rfl, fun h => (nomatch h), fun _ => .inr rfl⟩
  | flags a b c => cases h; exact ⟨hl, hd, rfl, fun h => (nomatch h), fun _ => .inl rfl⟩
  | settings sep f t n => cases h; exact ⟨hl, hd, rfl, fun h => (nomatch h), fun _ => .inl rfl⟩
  | stop op => exact absurd rfl (hc op)

/-- The references of the world and the owners of the specification say the same. -/
structure Inv (w : World F D) (os : List Owner) (n : Nat) : Prop where
  dict : Agree (w.vars.map (·.dict)) (os.map (·.dict)) w.dicts.length n
  stop : Agree (w.vars.map (·.stop)) (os.map (·.stop)) w.stops.length n
  load : w.vars.map (·.load) = os.map (·.load)

theorem map_set_self {α β : Type} {f : α → β} {l : List α} {i : Nat} {a b : α} (h : l[i]? = some a) (hf : f b = f a) :
    (l.set i b).map f = l.map f := by
  apply List.ext_getElem?
  intro j
  simp only [List.getElem?_map, List.getElem?_set]
  split
  · next e =>
    subst e
    obtain ⟨hi, rfl⟩ := List.getElem?_eq_some_iff.mp h
    simp [hi, hf]
  · rfl

theorem modify_eq_set' {α : Type} {f : α → α} {l : List α} {i : Nat} {a : α} (h : l[i]? = some a) : l.modify i f = l.set i (f a) := by
  apply List.ext_getElem?
  intro j
  simp only [List.getElem?_modify, List.getElem?_set]
  obtain ⟨hi, rfl⟩ := List.getElem?_eq_some_iff.mp h
  by_cases e : i = j
  · subst e; simp [hi]
  · simp [e]

namespace Inv
variable {w : World F D} {os : List Owner} {n : Nat}

theorem length (h : Inv w os n) : w.vars.length = os.length := by simpa using h.dict.len

theorem owner (h : Inv w os n) {i : Nat} {v : SegVar F} (hv : w.vars[i]? = some v) : ∃ o, os[i]? = some o := by
  have := (List.getElem?_eq_some_iff.mp hv).1
  exact ⟨_, List.getElem?_eq_getElem (h.length ▸ this)⟩

theorem load_eq (h : Inv w os n) {i : Nat} {v : SegVar F} {o : Owner} (hv : w.vars[i]? = some v) (ho : os[i]? = some o) : v.load = o.load := by
  have := congrArg (·[i]?) h.load
  simpa [hv, ho] using this

theorem seg_dict (h : Inv w os n) {i : Nat} {v : SegVar F} (hv : w.vars[i]? = some v) : (w.seg v).dict.isSome = v.dict.isSome := by
  cases hd : v.dict with
  | none => simp [World.seg, hd]
  | some k =>
    have := h.dict.ltp k (by rw [← hd]; exact List.mem_map_of_mem (List.mem_of_getElem? hv))
    simp [World.seg, hd, this]

theorem stopMap_isSome (h : Inv w os n) {i : Nat} {v : SegVar F} (hv : w.vars[i]? = some v) : (w.stopMap v).isSome = v.stop.isSome := by
  cases hd : v.stop with
  | none => simp [World.stopMap, hd]
  | some k =>
    have := h.stop.ltp k (by rw [← hd]; exact List.mem_map_of_mem (List.mem_of_getElem? hv))
    simp [World.stopMap, hd, this]

theorem agree_isSome {ps qs : List (Option Nat)} {lim n i : Nat} {p q : Option Nat} (h : Agree ps qs lim n) (hp : ps[i]? = some p) (hq : qs[i]? = some q) :
    p.isSome = q.isSome := by
  have := h.nil i
  rw [hp, hq] at this
  cases p <;> cases q <;> simp_all

theorem dict_isSome (h : Inv w os n) {i : Nat} {v : SegVar F} {o : Owner} (hv : w.vars[i]? = some v) (ho : os[i]? = some o) :
    v.dict.isSome = o.dict.isSome := agree_isSome (i := i) h.dict (by simp [hv]) (by simp [ho])

theorem stop_isSome (h : Inv w os n) {i : Nat} {v : SegVar F} {o : Owner} (hv : w.vars[i]? = some v) (ho : os[i]? = some o) :
    v.stop.isSome = o.stop.isSome := agree_isSome (i := i) h.stop (by simp [hv]) (by simp [ho])

theorem call {E : CallEnv} {w' : World F D} {i : Nat} {c : SegOp F} (h : Inv w os n) (hw : w.call E i c = some w') :
    Inv w' (ownStep n os (WorldOp.call i c)) (n + 1) := by
  unfold World.call at hw
  simp only [Option.bind_eq_some_iff] at hw
  obtain ⟨v, hv, hw⟩ := hw
  obtain ⟨o, ho⟩ := h.owner hv
  have hlen := h.length
  simp only [ownStep, modify_eq_set' ho]
  by_cases hc : ∃ op, c = .stop op
  · obtain ⟨op, rfl⟩ := hc
    simp only [Option.map_eq_some_iff] at hw
    obtain ⟨m, hm, rfl⟩ := hw
    have hs := StopOp.run_isSome (n := n) hm ((h.stopMap_isSome hv).trans (h.stop_isSome hv ho))
    have hod : (ownStop n o op).dict = o.dict := by cases op <;> simp only [ownStop] <;> (try split) <;> rfl
    have hol : (ownStop n o op).load = o.load := by cases op <;> simp only [ownStop] <;> (try split) <;> rfl
    have hos : o.stop = none ∨ (ownStop n o op).stop = o.stop ∨ (ownStop n o op).stop = none := by
      cases op <;> simp only [ownStop] <;> (try split) <;> simp_all
    have hon : o.stop = none → (ownStop n o op).stop = none ∨ (ownStop n o op).stop = some n := by
      intro e; cases op <;> simp [ownStop, e]
    simp only [ownCall]
    have eo : (os.set i (ownStop n o op)).map (·.dict) = os.map (·.dict) := map_set_self ho hod
    have el : (os.set i (ownStop n o op)).map (·.load) = os.map (·.load) := map_set_self ho hol
    have hso := h.stop_isSome hv ho
    have vd : ∀ r, (w.vars.set i { v with stop := r }).map (·.dict) = w.vars.map (·.dict) := fun r => map_set_self hv rfl
    have vl : ∀ r, (w.vars.set i { v with stop := r }).map (·.load) = w.vars.map (·.load) := fun r => map_set_self hv rfl
    unfold World.storeStop
    split
    · refine ⟨?_, ?_, ?_⟩
      · rw [eo]; simp only [vd]; exact h.dict.next
      · simp only [List.map_set]
        have : (ownStop n o op).stop = none := by simpa using hs
        rw [this]; exact h.stop.drop i
      · rw [el]; simp only [vl]; exact h.load
    · next l =>
      split
      · next k hk =>
        refine ⟨?_, ?_, ?_⟩
        · rw [eo]; exact h.dict.next
        · rw [hk] at hso
          have e : (ownStop n o op).stop = o.stop := by
            rcases hos with e | e | e
            · rw [e] at hso; cases hso
            · exact e
            · rw [e] at hs; cases hs
          rw [map_set_self ho e, List.length_set]
          exact h.stop.next
        · rw [el]; exact h.load
      · next hk =>
        refine ⟨?_, ?_, ?_⟩
        · rw [eo]; simp only [vd]; exact h.dict.next
        · rw [hk] at hso
          have e : o.stop = none := by simpa using hso
          have e : (ownStop n o op).stop = some n := by
            rcases hon e with e | e
            · rw [e] at hs; cases hs
            · exact e
          simp only [List.map_set, List.length_append, List.length_singleton]
          rw [e]; exact h.stop.fresh i
        · rw [el]; simp only [vl]; exact h.load
  · have hc : ∀ op, c ≠ .stop op := fun op e => hc ⟨op, e⟩
    have hw : (c.run E (w.seg v)).map (w.storeDict i v (c.fresh (w.seg v))) = some w' := by
      cases c with
      | stop op => exact absurd rfl (hc op)
      | _ => exact hw
    simp only [Option.map_eq_some_iff] at hw
    obtain ⟨s', hs', rfl⟩ := hw
    have hdo := h.dict_isSome hv ho
    obtain ⟨h1, h2, h3, h4, h5⟩ := SegOp.run_own (n := n) hc hs' (show (w.seg v).load = o.load from h.load_eq hv ho) ((h.seg_dict hv).trans hdo)
    have hst : ∀ r, (os.set i (ownCall n o c)).map (·.stop) = os.map (·.stop) ∧ (w.vars.set i (v.update r s')).map (·.stop) = w.vars.map (·.stop) :=
      fun r => ⟨map_set_self ho h3, map_set_self hv rfl⟩
    have hld : ∀ r, (w.vars.set i (v.update r s')).map (·.load) = (os.set i (ownCall n o c)).map (·.load) := by
      intro r
      simp only [List.map_set, h.load]
      rw [← h1]; rfl
    unfold World.storeDict
    split
    · next hd =>
      refine ⟨?_, ?_, hld _⟩
      · rw [hd] at h2
        have : (ownCall n o c).dict = none := by simpa using h2.symm
        simp only [List.map_set]
        rw [this]; exact h.dict.drop i
      · rw [(hst none).1, (hst none).2]; exact h.stop.next
    · next d hd =>
      rw [hd] at h2
      split
      · next k hf hk =>
        refine ⟨?_, ?_, hld _⟩
        · rcases h5 hf with e | e
          · simp only [List.length_set]
            rw [map_set_self ho e, map_set_self hv (by rw [hk]; rfl)]
            exact h.dict.next
          · rw [e] at h2; cases h2
        · rw [(hst none).1, (hst _).2]; exact h.stop.next
      · next hn =>
        refine ⟨?_, ?_, hld _⟩
        · have e : (ownCall n o c).dict = some n := by
            cases hf : c.fresh (w.seg v) with
            | true => exact h4 hf
            | false =>
              rcases h5 hf with e | e
              · cases hk : v.dict with
                | none => rw [hk] at hdo; rw [e, ← hdo] at h2; cases h2
                | some k => exact absurd hk (hn k hf)
              · rw [e] at h2; cases h2
          simp only [List.map_set, List.length_append, List.length_singleton]
          rw [e]; exact h.dict.fresh i
        · rw [(hst none).1, (hst _).2]; exact h.stop.next

theorem step {E : CallEnv} {w' : World F D} {op : WorldOp F} (h : Inv w os n) (hw : op.step E w = some w') : Inv w' (ownStep n os op) (n + 1) := by
  cases op with
  | new =>
    cases hw
    refine ⟨?_, ?_, ?_⟩
    · simpa [ownStep] using h.dict.append
    · simpa [ownStep] using h.stop.append
    · simpa [ownStep] using h.load
  | assign j i =>
    simp only [WorldOp.step] at hw
    split at hw
    · simp only [Option.map_eq_some_iff] at hw
      obtain ⟨v, hv, rfl⟩ := hw
      obtain ⟨o, ho⟩ := h.owner hv
      simp only [ownStep, ho, Option.getD_some]
      refine ⟨?_, ?_, ?_⟩
      · simp only [List.map_set]; exact h.dict.copy i j _ _ (by simp [hv]) (by simp [ho])
      · simp only [List.map_set]; exact h.stop.copy i j _ _ (by simp [hv]) (by simp [ho])
      · simp only [List.map_set, h.load, h.load_eq hv ho]
    · cases hw
  | call i c => exact h.call hw
  | toLower b => cases hw; exact ⟨h.dict.next, h.stop.next, h.load⟩

theorem run {E : CallEnv} {w' : World F D} : ∀ {ops : List (WorldOp F)} {w : World F D} {os : List Owner} {n : Nat}, Inv w os n → w.run E ops = some w' →
    Inv w' (ownersFrom n ops os) (n + ops.length)
  | [], w, os, n, h, hw => by cases hw; exact h
  | op :: ops, w, os, n, h, hw => by
    simp only [World.run, Option.bind_eq_some_iff] at hw
    obtain ⟨w1, h1, h2⟩ := hw
    have := run (h.step h1) h2
    simpa [ownersFrom, Nat.add_assoc, Nat.add_comm 1] using this

theorem start {E : CallEnv} {w' : World F D} {ops : List (WorldOp F)} (hw : ({} : World F D).run E ops = some w') : Inv w' (owners ops) ops.length := by
  have : Inv ({} : World F D) [] 0 := by
    refine ⟨?_, ?_, rfl⟩ <;> exact ⟨rfl, by simp, by simp, by simp, by simp⟩
  have := this.run hw
  rwa [Nat.zero_add] at this

end Inv

/-- No call changes the letter flag. -/
theorem SegOp.run_lower {E : CallEnv} {s s' : Segmenter F D} {c : SegOp F} (h : c.run E s = some s') : s'.cfg.toLower = s.cfg.toLower := by
  cases c with
  | dict op =>
    simp only [SegOp.run, Option.bind_eq_some_iff, Option.map_eq_some_iff] at h
    obtain ⟨d, _, d', _, rfl⟩ := h
    rfl
  | loadStr t => rw [(Segmenter.made_loadDictStr h).2.1]
  | loadMap l => rw [(Segmenter.made_loadDictMap h).2.1]
  | loadEmbed l => rw [(Segmenter.made_loadDictEmbed h).2.1]
  | loadDict fs files =>
    simp only [SegOp.run, Option.map_eq_some_iff] at h
    obtain ⟨⟨s1, e⟩, h1, rfl⟩ := h
    rw [(Segmenter.loadDict_kept h1).2.1]
  | empty => cases h; rfl
  | flags a b c => cases h; rfl
  | settings sep f t n => cases h; rfl
  | stop op => cases h; rfl

theorem World.run_append {E : CallEnv} : ∀ (a b : List (WorldOp F)) (w : World F D), w.run E (a ++ b) = (w.run E a).bind fun w => w.run E b
  | [], _, _ => rfl
  | op :: a, b, w => by
    simp only [List.cons_append, World.run]
    cases op.step E w with
    | none => rfl
    | some w1 => exact World.run_append a b w1

theorem ownersFrom_append : ∀ (a b : List (WorldOp F)) (n : Nat) (os : List Owner),
    ownersFrom n (a ++ b) os = ownersFrom (n + a.length) b (ownersFrom n a os)
  | [], _, _, _ => rfl
  | op :: a, b, n, os => by
    simp only [List.cons_append, ownersFrom, List.length_cons]
    rw [ownersFrom_append a b, Nat.add_assoc, Nat.add_comm 1]

theorem owners_snoc (ops : List (WorldOp F)) (op : WorldOp F) : owners (ops ++ [op]) = ownStep ops.length (owners ops) op := by
  simp [owners, ownersFrom_append, ownersFrom]

theorem ownStop_dict (n : Nat) (o : Owner) (op : StopOp) : (ownStop n o op).dict = o.dict ∧ (ownStop n o op).load = o.load := by
  cases op <;> simp only [ownStop] <;> (try split) <;> simp

theorem ownStop_stop (n : Nat) (o : Owner) (op : StopOp) :
    (ownStop n o op).stop = o.stop ∨ (ownStop n o op).stop = none ∨ (ownStop n o op).stop = some n := by
  cases op <;> simp only [ownStop] <;> (try split) <;> simp

theorem ownCall_dict (n : Nat) (o : Owner) (c : SegOp F) :
    (ownCall n o c).dict = o.dict ∨ (ownCall n o c).dict = none ∨ (ownCall n o c).dict = some n := by
  cases c with
  | stop op => exact .inl (ownStop_dict n o op).1
  | _ => simp only [ownCall] <;> (try split) <;> simp

theorem ownCall_stop (n : Nat) (o : Owner) (c : SegOp F) :
    (ownCall n o c).stop = o.stop ∨ (ownCall n o c).stop = none ∨ (ownCall n o c).stop = some n := by
  cases c with
  | stop op => exact ownStop_stop n o op
  | _ => simp only [ownCall] <;> (try split) <;> simp

/-- Names given so far are smaller than the number of the next step. -/
def Below (os : List Owner) (n : Nat) : Prop := ∀ o ∈ os, (∀ k, o.dict = some k → k < n) ∧ ∀ k, o.stop = some k → k < n

theorem ownStep_get {n : Nat} {os : List Owner} {op : WorldOp F} {i : Nat} {o' : Owner} (h : (ownStep n os op)[i]? = some o') :
    o' = {} ∨ o' ∈ os ∨ ∃ o c, os[i]? = some o ∧ op = .call i c ∧ o' = ownCall n o c := by
  cases op with
  | new =>
    simp only [ownStep] at h
    have := List.mem_of_getElem? h
    simp only [List.mem_append, List.mem_singleton] at this
    exact this.elim (fun h => .inr (.inl h)) .inl
  | assign j k =>
    simp only [ownStep] at h
    rcases List.mem_or_eq_of_mem_set (List.mem_of_getElem? h) with e | e
    · exact .inr (.inl e)
    · cases hk : os[k]? with
      | none => rw [hk] at e; exact .inl e
      | some o => rw [hk] at e; subst e; exact .inr (.inl (List.mem_of_getElem? hk))
  | call j c =>
    simp only [ownStep, List.getElem?_modify] at h
    obtain ⟨o, ho, e⟩ := Option.map_eq_some_iff.mp h
    split at e
    · next hj => subst hj; exact .inr (.inr ⟨o, c, ho, rfl, e.symm⟩)
    · subst e; exact .inr (.inl (List.mem_of_getElem? ho))
  | toLower b => exact .inr (.inl (List.mem_of_getElem? h))

theorem Below.step {n : Nat} {os : List Owner} (h : Below os n) (op : WorldOp F) : Below (ownStep n os op) (n + 1) := by
  intro o' ho'
  obtain ⟨i, hi⟩ := List.getElem?_of_mem ho'
  rcases ownStep_get hi with rfl | hm | ⟨o, c, ho, _, rfl⟩
  · exact ⟨fun k e => (nomatch e), fun k e => (nomatch e)⟩
  · exact ⟨fun k e => Nat.lt_succ_of_lt ((h _ hm).1 k e), fun k e => Nat.lt_succ_of_lt ((h _ hm).2 k e)⟩
  · have := h o (List.mem_of_getElem? ho)
    refine ⟨fun k e => ?_, fun k e => ?_⟩
    · rcases ownCall_dict n o c with e' | e' | e' <;> rw [e'] at e
      · exact Nat.lt_succ_of_lt (this.1 k e)
      · cases e
      · cases e; exact Nat.lt_succ_self _
    · rcases ownCall_stop n o c with e' | e' | e' <;> rw [e'] at e
      · exact Nat.lt_succ_of_lt (this.2 k e)
      · cases e
      · cases e; exact Nat.lt_succ_self _

theorem Below.run : ∀ {ops : List (WorldOp F)} {n : Nat} {os : List Owner}, Below os n → Below (ownersFrom n ops os) (n + ops.length)
  | [], _, _, h => h
  | op :: ops, n, os, h => by
    have := Below.run (ops := ops) (h.step op)
    simpa [ownersFrom, Nat.add_assoc, Nat.add_comm 1] using this

theorem below_owners (ops : List (WorldOp F)) : Below (owners ops) ops.length := by
  have := Below.run (ops := ops) (n := 0) (os := []) (fun o h => by cases h)
  rwa [Nat.zero_add] at this

/-- What the world looks like after a call that is not about the stop words. -/
theorem World.storeDict_spec {w w' : World F D} {i : Nat} {v : SegVar F} {fresh : Bool} {s : Segmenter F D}
    (hlt : ∀ k, v.dict = some k → k < w.dicts.length) (h : w.storeDict i v fresh s = w') :
    ∃ r, w'.vars = w.vars.set i (v.update r s) ∧ w'.stops = w.stops ∧ w'.toLower = w.toLower ∧ r.bind (w'.dicts[·]?) = s.dict ∧
      ∀ k, k < w.dicts.length → r ≠ some k → w'.dicts[k]? = w.dicts[k]? := by
  subst h
  unfold World.storeDict
  split
  · next hd => exact ⟨none, rfl, rfl, rfl, hd.symm, fun _ _ _ => rfl⟩
  · next d hd =>
    split
    · next k hk =>
      refine ⟨some k, rfl, rfl, rfl, ?_, fun l hl hne => ?_⟩
      · simp [hd, hlt k hk]
      · have : k ≠ l := fun e => hne (by rw [e])
        simp [this]
    · refine ⟨some w.dicts.length, rfl, rfl, rfl, ?_, fun l hl hne => ?_⟩
      · simp [hd]
      · simp [List.getElem?_append_left hl]

/-- What the world looks like after a call on the stop words. -/
theorem World.storeStop_spec {w w' : World F D} {i : Nat} {v : SegVar F} {m : StopMap} (hv : w.vars[i]? = some v)
    (hlt : ∀ k, v.stop = some k → k < w.stops.length) (h : w.storeStop i v m = w') :
    ∃ r, w'.vars = w.vars.set i { v with stop := r } ∧ w'.dicts = w.dicts ∧ w'.toLower = w.toLower ∧ r.bind (w'.stops[·]?) = m ∧
      ∀ k, k < w.stops.length → r ≠ some k → w'.stops[k]? = w.stops[k]? := by
  subst h
  unfold World.storeStop
  split
  · exact ⟨none, rfl, rfl, rfl, rfl, fun _ _ _ => rfl⟩
  · next l =>
    split
    · next k hk =>
      refine ⟨some k, ?_, rfl, rfl, ?_, fun l hl hne => ?_⟩
      · obtain ⟨hi, e⟩ := List.getElem?_eq_some_iff.mp hv
        have : ({ v with stop := some k } : SegVar F) = w.vars[i] := by rw [e]; cases v; cases hk; rfl
        rw [this, List.set_getElem_self]
      · simp [hlt k hk]
      · have : k ≠ l := fun e => hne (by rw [e])
        simp [this]
    · refine ⟨some w.stops.length, rfl, rfl, rfl, ?_, fun l hl hne => ?_⟩
      · simp
      · simp [List.getElem?_append_left hl]

/-- What a step does to the owner of variable `i` when it is not assigned to. -/
def ownOne (n i : Nat) (o : Owner) : WorldOp F → Owner
  | .call k c => if k = i then ownCall n o c else o
  | _ => o

theorem ownStep_own {n : Nat} {os : List Owner} {op : WorldOp F} {i : Nat} {o : Owner} (h : os[i]? = some o) (hop : NoAssign i op) :
    (ownStep n os op)[i]? = some (ownOne n i o op) := by
  have hi := (List.getElem?_eq_some_iff.mp h).1
  cases op with
  | new => simp only [ownStep]; rw [List.getElem?_append_left hi]; exact h
  | assign k l => simp only [ownStep]; rw [List.getElem?_set_ne hop]; exact h
  | call k c =>
    simp only [ownStep, List.getElem?_modify, h]
    rfl
  | toLower b => exact h

theorem ownersFrom_keeps {i j k : Nat} {b : Bool} : ∀ {ops : List (WorldOp F)} {n : Nat} {os : List Owner} {oi oj : Owner}, os[i]? = some oi → os[j]? = some oj →
    oi.dict = some k → oj.dict = some k → oi.load = b → oj.load = b → (∀ op ∈ ops, KeepsBoth i j b op) →
    ∃ oi' oj', (ownersFrom n ops os)[i]? = some oi' ∧ (ownersFrom n ops os)[j]? = some oj' ∧ oi'.dict = some k ∧ oj'.dict = some k
  | [], _, _, oi, oj, h1, h2, h3, h4, _, _, _ => ⟨oi, oj, h1, h2, h3, h4⟩
  | op :: ops, n, os, oi, oj, h1, h2, h3, h4, h5, h6, h => by
    have hop := h op (by simp)
    have hni : NoAssign i op := by cases op <;> first | trivial | exact hop.1
    have hnj : NoAssign j op := by cases op <;> first | trivial | exact hop.2
    have step : ∀ m o, (m = i ∨ m = j) → o.dict = some k → o.load = b →
        (ownOne n m o op).dict = some k ∧
        (ownOne n m o op).load = b := by
      intro m o hm hd hl
      cases op with
      | call a c =>
        simp only [ownOne]
        split
        · next e =>
          subst e
          cases c with
          | empty => exact absurd hm (by simpa [KeepsBoth] using hop)
          | loadDict fs files =>
            have : b = true := by
              simp only [KeepsBoth] at hop
              rcases hop with e | e
              · exact e
              · exact absurd hm (by simpa using e)
            simp [ownCall, hl, this, hd]
          | stop op => simp only [ownCall]; exact ⟨(ownStop_dict n o op).1.trans hd, (ownStop_dict n o op).2.trans hl⟩
          | _ => simp [ownCall, hd, hl]
        · exact ⟨hd, hl⟩
      | _ => exact ⟨hd, hl⟩
    exact ownersFrom_keeps (ops := ops) (n := n + 1) (ownStep_own h1 hni) (ownStep_own h2 hnj) (step i oi (.inl rfl) h3 h5).1 (step j oj (.inr rfl) h4 h6).1
      (step i oi (.inl rfl) h3 h5).2 (step j oj (.inr rfl) h4 h6).2 fun op hop => h op (by simp [hop])

theorem ownersFrom_keepsStop {i j k : Nat} : ∀ {ops : List (WorldOp F)} {n : Nat} {os : List Owner} {oi oj : Owner}, os[i]? = some oi → os[j]? = some oj →
    oi.stop = some k → oj.stop = some k → (∀ op ∈ ops, KeepsStop i j op) →
    ∃ oi' oj', (ownersFrom n ops os)[i]? = some oi' ∧ (ownersFrom n ops os)[j]? = some oj' ∧ oi'.stop = some k ∧ oj'.stop = some k
  | [], _, _, oi, oj, h1, h2, h3, h4, _ => ⟨oi, oj, h1, h2, h3, h4⟩
  | op :: ops, n, os, oi, oj, h1, h2, h3, h4, h => by
    have hop := h op (by simp)
    have hni : NoAssign i op := by cases op <;> first | trivial | exact hop.1
    have hnj : NoAssign j op := by cases op <;> first | trivial | exact hop.2
    have step : ∀ m o, (m = i ∨ m = j) → o.stop = some k →
        (ownOne n m o op).stop = some k := by
      intro m o hm hd
      cases op with
      | call a c =>
        simp only [ownOne]
        split
        · next e =>
          subst e
          cases c with
          | stop op =>
            cases op with
            | empty => exact absurd hm (by simpa [KeepsStop] using hop)
            | _ => simp [ownCall, ownStop, hd]
          | _ => simp only [ownCall] <;> (try split) <;> exact hd
        · exact hd
      | _ => exact hd
    exact ownersFrom_keepsStop (ops := ops) (n := n + 1) (ownStep_own h1 hni) (ownStep_own h2 hnj) (step i oi (.inl rfl) h3) (step j oj (.inr rfl) h4)
      fun op hop => h op (by simp [hop])

/-- Two variables do not have the same dictionary. -/
def ApartDict (a b : Option Nat) : Prop := a = none ∨ b = none ∨ a ≠ b

theorem ApartDict.move {a b a' b' : Option Nat} {n : Nat} (h : ApartDict a b) (ha : ∀ k, a = some k → k < n) (hb : ∀ k, b = some k → k < n)
    (ha' : a' = a ∨ a' = none ∨ a' = some n) (hb' : b' = b ∨ b' = none ∨ b' = some n) (hone : a' = a ∨ b' = b) : ApartDict a' b' := by
  unfold ApartDict at *
  rcases ha' with rfl | rfl | rfl
  · rcases hb' with rfl | rfl | rfl
    · exact h
    · exact .inr (.inl rfl)
    · exact .inr (.inr fun e => by have := ha n e; omega)
  · exact .inl rfl
  · rcases hone with e | rfl
    · exact absurd (ha n e.symm) (by omega)
    · exact .inr (.inr fun e => by have := hb n e.symm; omega)

theorem ownersFrom_apart {i j : Nat} (hij : i ≠ j) : ∀ {ops : List (WorldOp F)} {n : Nat} {os : List Owner} {oi oj : Owner}, Below os n → os[i]? = some oi →
    os[j]? = some oj → (∀ op ∈ ops, NoAssign i op ∧ NoAssign j op) →
    ∃ oi' oj', (ownersFrom n ops os)[i]? = some oi' ∧ (ownersFrom n ops os)[j]? = some oj' ∧
      (ApartDict oi.dict oj.dict → ApartDict oi'.dict oj'.dict) ∧ (ApartDict oi.stop oj.stop → ApartDict oi'.stop oj'.stop)
  | [], _, _, oi, oj, _, h1, h2, _ => ⟨oi, oj, h1, h2, id, id⟩
  | op :: ops, n, os, oi, oj, hb, h1, h2, h => by
    obtain ⟨hni, hnj⟩ := h op (by simp)
    obtain ⟨oi', oj', e1, e2, e3, e4⟩ := ownersFrom_apart hij (ops := ops) (hb.step op) (ownStep_own h1 hni) (ownStep_own h2 hnj)
      (fun op hop => h op (by simp [hop]))
    refine ⟨oi', oj', e1, e2, fun ha => e3 ?_, fun ha => e4 ?_⟩
    · have bi := (hb oi (List.mem_of_getElem? h1)).1
      have bj := (hb oj (List.mem_of_getElem? h2)).1
      cases op with
      | call a c =>
        simp only [ownOne]
        refine ha.move bi bj ?_ ?_ ?_
        · split
          · exact ownCall_dict n oi c
          · exact .inl rfl
        · split
          · exact ownCall_dict n oj c
          · exact .inl rfl
        · by_cases e : a = i
          · have : ¬ a = j := fun e' => hij (e.symm.trans e')
            simp [this]
          · simp [e]
      | _ => exact ha
    · have bi := (hb oi (List.mem_of_getElem? h1)).2
      have bj := (hb oj (List.mem_of_getElem? h2)).2
      cases op with
      | call a c =>
        simp only [ownOne]
        refine ha.move bi bj ?_ ?_ ?_
        · split
          · exact ownCall_stop n oi c
          · exact .inl rfl
        · split
          · exact ownCall_stop n oj c
          · exact .inl rfl
        · by_cases e : a = i
          · have : ¬ a = j := fun e' => hij (e.symm.trans e')
            simp [this]
          · simp [e]
      | _ => exact ha

theorem owners_copy (ops ops' : List (WorldOp F)) (op : WorldOp F) :
    owners (ops ++ op :: ops') = ownersFrom (ops.length + 1) ops' (ownStep ops.length (owners ops) op) := by
  simp [owners, ownersFrom_append, ownersFrom]

/-- After an assignment both variables have what the original had. -/
theorem ownStep_assign {n i j : Nat} {os : List Owner} {o : Owner} (hi : os[i]? = some o) (hj : j < os.length) :
    (ownStep n os (WorldOp.assign j i : WorldOp F))[i]? = some o ∧ (ownStep n os (WorldOp.assign j i : WorldOp F))[j]? = some o := by
  simp only [ownStep, hi, Option.getD_some]
  refine ⟨?_, by simp [hj]⟩
  by_cases e : j = i
  · subst e; simp [hj]
  · rw [List.getElem?_set_ne e]; exact hi

theorem assign_lt {E : CallEnv} {ops ops' : List (WorldOp F)} {i j : Nat} {w : World F D}
    (hw : ({} : World F D).run E (ops ++ WorldOp.assign j i :: ops') = some w) : j < (owners ops).length := by
  rw [World.run_append] at hw
  obtain ⟨w1, hw1, hw2⟩ := Option.bind_eq_some_iff.mp hw
  rw [← (Inv.start hw1).length]
  simp only [World.run, WorldOp.step] at hw2
  split at hw2
  · assumption
  · cases hw2

end keeps
end Gse
