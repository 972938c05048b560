import Verif.Proofs.Solo
import Verif.Props.StopConc

/-! # C95: changing stop words in one goroutine -/

namespace Gse
open Spec Prog

set_option linter.unusedSectionVars false

variable {F D : Type} [F64 F] [F32 D]

/-- What a change does to the stop words of the segmenter and to those of package idf; `none` is a panic. -/
def StopChange.apply : StopChange → StopMap × List Bytes → Option (StopMap × List Bytes)
  | .add w, (map, ks) => (map.addStop w).map (·, ks)
  | .remove w, (map, ks) => some (map.removeStop w, ks)
  | .load ws, (map, ks) => some (map.loadStopArr ws, ks)
  | .empty, (_, ks) => some (none, ks)
  | .idfAdd w, (map, ks) => some (map, StopMap.put ks w)
  | .idfRemove w, (map, ks) => some (map, ks.filter fun x => x != w)
  | .idfCopy ws, (map, ks) => some (map, ws.foldl StopMap.put ks)

/-- Changes one after the other. -/
def applyAll : List StopChange → StopMap × List Bytes → Option (StopMap × List Bytes)
  | [], s => some s
  | x :: xs, s => (x.apply s).bind (applyAll xs)

/-- The same as a program of one goroutine. -/
def changesP : List StopChange → Prog F D Unit
  | [] => .ret ()
  | x :: xs => x.prog.bind fun _ => changesP xs

/-- Memory holds the stop words, at the address `a` or at one that was not used in `m0`; the rest of `m0` is as it was. -/
structure StopState (m0 : Mem F D) (a : Nat) (map : StopMap) (ks : List Bytes) (m : Mem F D) : Prop where
  stops : ∃ a', (a' = a ∨ m0 (.cell a' 0) = none) ∧ HoldsStop m a' map
  idf : m .idfStop = some (.keys ks)
  rest : ∀ l, l ≠ .stopVar → l ≠ .idfStop → l ≠ .cell a 0 → (m0 l).isSome → m l = m0 l
  used : ∀ l, (m0 l).isSome → (m l).isSome

variable {m0 m : Mem F D} {a : Nat} {map : StopMap} {ks : List Bytes}

theorem StopState.var (h : StopState m0 a map ks m) : ∃ p, m .stopVar = some (.stops p) ∧ (p = none ↔ map = none) := by
  obtain ⟨a', _, h⟩ := h.stops
  cases map with
  | none => exact ⟨none, h, by simp⟩
  | some l => exact ⟨some a', h.1, by simp⟩

/-- The end of a program that leaves the stop words like this. -/
def Leaves (m0 : Mem F D) (a : Nat) (s : Option (StopMap × List Bytes)) (r : Option Unit) (m : Mem F D) : Prop :=
  match s with
  | none => r = none
  | some (map, ks) => r = some () ∧ StopState m0 a map ks m

theorem solo_idf (h : StopState m0 a map ks m) (ks' : List Bytes) : StopState m0 a map ks' (m.put .idfStop (.keys ks')) := by
  obtain ⟨a', h1, h2⟩ := h.stops
  refine ⟨⟨a', h1, ?_⟩, by simp [Mem.put], ?_, ?_⟩
  · cases map with
    | none => simpa [HoldsStop, Mem.put] using h2
    | some l => simpa [HoldsStop, Mem.put] using h2
  · intro l h3 h4 h5 h6
    simp only [Mem.put, if_neg h4]
    exact h.rest l h3 h4 h5 h6
  · intro l hl
    have := h.used l hl
    simp only [Mem.put]; split <;> simp_all

theorem solo_cell {l : List Bytes} {a' : Nat} (h : StopState m0 a (some l) ks m) (ha : a' = a ∨ m0 (.cell a' 0) = none) (h2 : HoldsStop m a' (some l))
    (l' : List Bytes) : StopState m0 a (some l') ks (m.put (.cell a' 0) (.keys l')) := by
  refine ⟨⟨a', ha, ?_⟩, by simpa [Mem.put] using h.idf, ?_, ?_⟩
  · exact ⟨by simpa [Mem.put] using h2.1, by simp [Mem.put]⟩
  · intro x h3 h4 h5 h6
    have hne : x ≠ .cell a' 0 := by
      rintro rfl
      rcases ha with rfl | ha
      · exact h5 rfl
      · rw [ha] at h6; simp at h6
    simp only [Mem.put, if_neg hne]
    exact h.rest x h3 h4 h5 h6
  · intro x hx
    have := h.used x hx
    simp only [Mem.put]; split <;> simp_all

theorem solo_putIdf (h : StopState m0 a map ks m) (w : Bytes) : Solo (Leaves m0 a (some (map, StopMap.put ks w))) (putKeyP .idfStop w) m := by
  refine ⟨fun x hx => ?_, fun hn => ?_⟩
  · rw [h.idf] at hx; cases hx
    exact ⟨fun _ => ⟨rfl, solo_idf h _⟩, fun hn => by rw [h.idf] at hn; cases hn⟩
  · rw [h.idf] at hn; cases hn

theorem solo_addStop (h : StopState m0 a map ks m) (w : Bytes) : Solo (Leaves m0 a ((map.addStop w).map (·, ks))) (addStopP w) m := by
  obtain ⟨a', h1, h2⟩ := h.stops
  cases map with
  | none =>
    have h2 : m .stopVar = some (.stops none) := h2
    exact ⟨fun x hx => by rw [h2] at hx; cases hx; exact rfl, fun hn => by rw [h2] at hn; cases hn⟩
  | some l =>
    refine ⟨fun x hx => ?_, fun hn => by rw [h2.1] at hn; cases hn⟩
    rw [h2.1] at hx; cases hx
    refine ⟨fun x hx => ?_, fun hn => by rw [h2.2] at hn; cases hn⟩
    rw [h2.2] at hx; cases hx
    exact ⟨fun _ => ⟨rfl, solo_cell h h1 h2 _⟩, fun hn => by rw [h2.2] at hn; cases hn⟩

theorem solo_removeStop (h : StopState m0 a map ks m) (w : Bytes) : Solo (Leaves m0 a (some (map.removeStop w, ks))) (removeStopP w) m := by
  obtain ⟨a', h1, h2⟩ := h.stops
  cases map with
  | none =>
    have h3 : m .stopVar = some (.stops none) := h2
    exact ⟨fun x hx => by rw [h3] at hx; cases hx; exact ⟨rfl, h⟩, fun hn => by rw [h3] at hn; cases hn⟩
  | some l =>
    refine ⟨fun x hx => ?_, fun hn => by rw [h2.1] at hn; cases hn⟩
    rw [h2.1] at hx; cases hx
    refine ⟨fun x hx => ?_, fun hn => by rw [h2.2] at hn; cases hn⟩
    rw [h2.2] at hx; cases hx
    exact ⟨fun _ => ⟨rfl, solo_cell h h1 h2 _⟩, fun hn => by rw [h2.2] at hn; cases hn⟩

theorem solo_addStops {l : List Bytes} (h : StopState m0 a (some l) ks m) (ws : List Bytes) :
    Solo (Leaves m0 a (some (some (ws.foldl StopMap.put l), ks))) (addStopsP ws) m := by
  induction ws generalizing l m with
  | nil => exact ⟨rfl, h⟩
  | cons w ws ih =>
    refine solo_bind (addStopP w) (solo_mono ?_ _ (solo_addStop h w))
    rintro r m' hr
    obtain ⟨rfl, h'⟩ : r = some () ∧ StopState m0 a (some (StopMap.put l w)) ks m' := hr
    exact ih h'

theorem solo_change (h : StopState m0 a map ks m) (x : StopChange) : Solo (Leaves m0 a (x.apply (map, ks))) x.prog m := by
  cases x with
  | add w => exact solo_addStop h w
  | remove w => exact solo_removeStop h w
  | load ws =>
    obtain ⟨a', h1, h2⟩ := h.stops
    cases map with
    | some l =>
      refine ⟨fun x hx => ?_, fun hn => by rw [h2.1] at hn; cases hn⟩
      rw [h2.1] at hx; cases hx
      exact solo_addStops h ws
    | none =>
      have h3 : m .stopVar = some (.stops none) := h2
      refine ⟨fun x hx => ?_, fun hn => by rw [h3] at hn; cases hn⟩
      rw [h3] at hx; cases hx
      intro b hb
      refine ⟨fun _ => ?_, fun hn => ?_⟩
      · have hb0 : m0 (.cell b 0) = none := by
          by_contra hne
          have := h.used (.cell b 0) (Option.isSome_iff_ne_none.mpr hne)
          rw [hb 0] at this; simp at this
        refine solo_addStops (l := []) ⟨⟨b, .inr hb0, ?_⟩, ?_, ?_, ?_⟩ ws
        · exact ⟨by simp [Mem.put], by simp [Mem.put, Mem.extend]⟩
        · simpa [Mem.put, Mem.extend] using h.idf
        · intro x h4 h5 h6 h7
          have hx := h.rest x h4 h5 h6 h7
          simp only [Mem.put, if_neg h4]
          cases x with
          | cell c i =>
            simp only [Mem.extend]
            split
            · next e =>
              subst e
              have := h.used _ h7
              rw [hb i] at this; simp at this
            · exact hx
          | _ => exact hx
        · intro x hx
          have hu := h.used x hx
          simp only [Mem.put]
          split
          · rfl
          · cases x with
            | cell c i =>
              simp only [Mem.extend]
              split
              · next e =>
                subst e
                rw [hb i] at hu; simp at hu
              · exact hu
            | _ => exact hu
      · simp [Mem.extend, h3] at hn
  | empty =>
    obtain ⟨p, hp, _⟩ := h.var
    refine ⟨fun _ => ⟨rfl, ⟨a, .inl rfl, by simp [HoldsStop, Mem.put]⟩, by simpa [Mem.put] using h.idf, ?_, ?_⟩, fun hn => by rw [hp] at hn; cases hn⟩
    · intro x h4 h5 h6 h7
      simp only [Mem.put, if_neg h4]
      exact h.rest x h4 h5 h6 h7
    · intro x hx
      have := h.used x hx
      simp only [Mem.put]; split <;> simp_all
  | idfAdd w => exact solo_putIdf h w
  | idfRemove w =>
    refine ⟨fun x hx => ?_, fun hn => by rw [h.idf] at hn; cases hn⟩
    rw [h.idf] at hx; cases hx
    exact ⟨fun _ => ⟨rfl, solo_idf h _⟩, fun hn => by rw [h.idf] at hn; cases hn⟩
  | idfCopy ws =>
    show Solo _ (idfCopyStopP ws) m
    have main : ∀ (ws : List Bytes) {m : Mem F D} {ks : List Bytes}, StopState m0 a map ks m →
        Solo (Leaves m0 a (some (map, ws.foldl StopMap.put ks))) (idfCopyStopP ws) m := by
      intro ws
      induction ws with
      | nil => intro m ks h; exact ⟨rfl, h⟩
      | cons w ws ih =>
        intro m ks h
        refine solo_bind (putKeyP .idfStop w) (solo_mono ?_ _ (solo_putIdf h w))
        rintro r m' hr
        obtain ⟨rfl, h'⟩ : r = some () ∧ StopState m0 a map (StopMap.put ks w) m' := hr
        exact ih h'
    exact main ws h

theorem solo_changes (xs : List StopChange) : ∀ {m : Mem F D} {map : StopMap} {ks : List Bytes}, StopState m0 a map ks m →
    Solo (Leaves m0 a (applyAll xs (map, ks))) (changesP xs) m := by
  induction xs with
  | nil => intro m map ks h; exact ⟨rfl, h⟩
  | cons x xs ih =>
    intro m map ks h
    refine solo_bind x.prog (solo_mono ?_ _ (solo_change h x))
    intro r m' hr
    rw [applyAll]
    cases hs : x.apply (map, ks) with
    | none =>
      rw [hs] at hr
      have hr : r = none := hr
      subst hr
      exact (rfl : (none : Option Unit) = none)
    | some s =>
      obtain ⟨map', ks'⟩ := s
      rw [hs] at hr
      obtain ⟨rfl, h'⟩ : r = some () ∧ StopState m0 a map' ks' m' := hr
      exact ih h'

/-- C95: calls that change stop words, made one after the other in one goroutine with nothing beside it, do what the
sequential functions say (`Model/Stop.lean`): the goroutine panics exactly when one of these calls does (an `AddStop`
when there is no map, so after `EmptyStop`), `RemoveStop` is no such call, and otherwise it leaves exactly their stop
words, in the map that was there or in a new one, and nothing else is changed. -/
theorem C95_alone (m : Mem F D) (a : Nat) (map : StopMap) (ks : List Bytes) (h : HoldsStop m a map) (hk : m .idfStop = some (.keys ks))
    (xs : List StopChange) (tr : List (Nat × Access)) (c' : Config F D Unit) (hx : Exec ⟨m, [changesP xs]⟩ tr c') (q : Prog F D Unit)
    (hq : c'.threads[0]? = some q) (he : Ended q) :
    match applyAll xs (map, ks) with
    | none => q = .panic
    | some (map', ks') => q = .ret () ∧ (∃ a', HoldsStop c'.mem a' map') ∧ c'.mem .idfStop = some (.keys ks') ∧
        ∀ l, l ≠ .stopVar → l ≠ .idfStop → l ≠ .cell a 0 → (m l).isSome → c'.mem l = m l := by
  have h0 : StopState m a map ks m := ⟨⟨a, .inl rfl, h⟩, hk, fun _ _ _ _ _ => rfl, fun _ h => h⟩
  obtain ⟨q', hq', hS⟩ := solo_exec (solo_changes xs h0) hx
  rw [hq'] at hq
  simp at hq
  subst hq
  cases hs : applyAll xs (map, ks) with
  | none =>
    rw [hs] at hS
    rcases he with ⟨u, rfl⟩ | rfl
    · have : some u = none := hS
      cases this
    · rfl
  | some s =>
    obtain ⟨map', ks'⟩ := s
    rw [hs] at hS
    rcases he with ⟨u, rfl⟩ | rfl
    · obtain ⟨_, h1, h2, h3, _⟩ := hS
      obtain ⟨a', _, h1⟩ := h1
      exact ⟨rfl, ⟨a', h1⟩, h2, h3⟩
    · obtain ⟨h1, _⟩ : (none : Option Unit) = some () ∧ _ := hS
      cases h1

section examples
attribute [local instance] sampleUnicode sampleUnicodeOK sampleF64 sampleF32 sampleNarrow

/-- The hypotheses are met by `stopMem`; some sequences and what they leave. -/
example (d : Dictionary Int Int) : HoldsStop (stopMem d [str "ab"] []) 0 (some [str "ab"]) := ⟨rfl, rfl⟩
example : applyAll [.empty, .remove (str "x"), .load [str "a", str "b"], .remove (str "a"), .idfAdd (str "c")] (some [str "ab"], []) =
      some (some [str "b"], [str "c"]) ∧ applyAll [.empty, .remove (str "x"), .add (str "a")] (some [str "ab"], []) = none := by decide +kernel
end examples
end Gse
