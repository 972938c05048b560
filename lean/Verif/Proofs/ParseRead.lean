import Verif.Proofs.ParseFloat

/-! # The texts that `readFloat` accepts are the literals -/

namespace Gse.ParseFloat
open Gse.Spec

/-- The characters of a decimal literal. -/
def DecChar (c : UInt8) : Prop := InRun false c ∨ c = 46 ∨ c = 101 ∨ c = 69 ∨ c = 43 ∨ c = 45

theorem decChar_lower {c : UInt8} (h : DecChar c) : lower c ≠ 98 ∧ lower c ≠ 111 ∧ lower c ≠ 120 := by
  have key : ∀ n : Fin 256, (UInt8.ofNat n = 95 ∨ (dval false (UInt8.ofNat n)).isSome) ∨ UInt8.ofNat n = 46 ∨ UInt8.ofNat n = 101 ∨ UInt8.ofNat n = 69 ∨
      UInt8.ofNat n = 43 ∨ UInt8.ofNat n = 45 → lower (UInt8.ofNat n) ≠ 98 ∧ lower (UInt8.ofNat n) ≠ 111 ∧ lower (UInt8.ofNat n) ≠ 120 := by
    unfold dval lower
    decide +kernel
  refine forall_byte (P := fun c => (c = 95 ∨ (dval false c).isSome) ∨ c = 46 ∨ c = 101 ∨ c = 69 ∨ c = 43 ∨ c = 45 → lower c ≠ 98 ∧ lower c ≠ 111 ∧ lower c ≠ 120) key c ?_
  rcases h with (h | ⟨v, hv⟩) | h
  · exact .inl (.inl h)
  · exact .inl (.inr (by rw [hv]; rfl))
  · exact .inr h

theorem lower_e (c : UInt8) (h : lower c = 101) : c = 101 ∨ c = 69 := by
  have key : ∀ n : Fin 256, lower (UInt8.ofNat n) = 101 → UInt8.ofNat n = 101 ∨ UInt8.ofNat n = 69 := by unfold lower; decide +kernel
  exact forall_byte (P := fun c => lower c = 101 → c = 101 ∨ c = 69) key c h

theorem lower_p (c : UInt8) (h : lower c = 112) : c = 112 ∨ c = 80 := by
  have key : ∀ n : Fin 256, lower (UInt8.ofNat n) = 112 → UInt8.ofNat n = 112 ∨ UInt8.ofNat n = 80 := by unfold lower; decide +kernel
  exact forall_byte (P := fun c => lower c = 112 → c = 112 ∨ c = 80) key c h

theorem lower_x (c : UInt8) (h : lower c = 120) : c = 120 ∨ c = 88 := by
  have key : ∀ n : Fin 256, lower (UInt8.ofNat n) = 120 → UInt8.ofNat n = 120 ∨ UInt8.ofNat n = 88 := by unfold lower; decide +kernel
  exact forall_byte (P := fun c => lower c = 120 → c = 120 ∨ c = 88) key c h

theorem mantissa_chars {m : Bytes} {q : ℚ} (h : Mantissa 10 m q) : ∀ c ∈ m, DecChar c := by
  have d : ∀ {s vs}, Digits 10 s vs → ∀ c ∈ s, DecChar c := fun h c hc => .inl ((digits_vals (hex := false) h).1 c hc)
  cases h with
  | whole h => exact d h
  | point h =>
    intro c hc
    rcases List.mem_append.mp hc with hc | hc
    · exact d h c hc
    · exact .inr (.inl (List.mem_singleton.mp hc))
  | both h h' =>
    intro c hc
    rcases List.mem_append.mp hc with hc | hc
    · exact d h c hc
    · rcases List.mem_cons.mp hc with rfl | hc
      · exact .inr (.inl rfl)
      · exact d h' c hc
  | frac h =>
    intro c hc
    rcases List.mem_cons.mp hc with rfl | hc
    · exact .inr (.inl rfl)
    · exact d h c hc

theorem exponent_chars {e : Bytes} {x : Int} (h : Exponent 101 69 e x) : ∀ c ∈ e, DecChar c := by
  cases h with
  | mk hc hs hd =>
    intro c' hc'
    rcases List.mem_cons.mp hc' with rfl | hc'
    · rcases hc with rfl | rfl
      · exact .inr (.inr (.inl rfl))
      · exact .inr (.inr (.inr (.inl rfl)))
    · rcases List.mem_append.mp hc' with h' | h'
      · cases hs with
        | none => cases h'
        | plus => exact .inr (.inr (.inr (.inr (.inl (List.mem_singleton.mp h')))))
        | minus => exact .inr (.inr (.inr (.inr (.inr (List.mem_singleton.mp h')))))
      · exact .inl ((digits_vals (hex := false) hd).1 c' h')

/-- A mantissa starts with a digit or the point. -/
theorem mantissa_head {hex : Bool} {m : Bytes} {q : ℚ} (h : Mantissa (baseOf hex) m q) : ∃ c t, m = c :: t ∧ (c = 46 ∨ ∃ v, dval hex c = some v) := by
  have d : ∀ {s vs} (r : Bytes), Digits (baseOf hex) s vs → ∃ c t, s ++ r = c :: t ∧ (c = 46 ∨ ∃ v, dval hex c = some v) := by
    intro s vs r h
    obtain ⟨_, _, _, c, t, rfl, hv⟩ := digits_vals h
    exact ⟨c, t ++ r, rfl, .inr hv⟩
  cases h with
  | whole h => simpa using d [] h
  | point h => exact d _ h
  | both h _ => exact d _ h
  | frac h => exact ⟨46, _, rfl, .inl rfl⟩

theorem literal_head {t : Bytes} {b : Nat} {q : ℚ} {x : Int} (h : Literal t b q x) : ∃ c s, t = c :: s ∧ (c = 46 ∨ ∃ v, dval false c = some v) := by
  have d : ∀ {m q} (r : Bytes), Mantissa 10 m q → ∃ c t, m ++ r = c :: t ∧ (c = 46 ∨ ∃ v, dval false c = some v) := by
    intro m q r h
    obtain ⟨c, t, rfl, hv⟩ := mantissa_head (hex := false) h
    exact ⟨c, t ++ r, rfl, hv⟩
  cases h with
  | plain h => simpa using d [] h
  | dec h _ => exact d _ h
  | hex _ _ _ => exact ⟨48, _, rfl, .inr ⟨0, by decide⟩⟩
  | hexSep _ _ _ _ => exact ⟨48, _, rfl, .inr ⟨0, by decide⟩⟩

/-- The scanner takes the text as hexadecimal. -/
def isHex (s : Bytes) : Bool := match s with
  | c :: x :: _ :: _ => decide (c = 48 ∧ lower x = 120)
  | _ => false

theorem isHex_dec {s : Bytes} (h : ∀ c ∈ s, DecChar c) : isHex s = false := by
  unfold isHex
  split
  · next c x _ _ =>
    have := (decChar_lower (h x (by simp))).2.2
    simp [this]
  · rfl

theorem readDigits_eq (s : Bytes) : readDigits s =
    if (scan (isHex s) {} (if isHex s then s.drop 2 else s)).1.sawdigits = false then none
    else match exponent (if isHex s then 112 else 101) (isHex s) (scan (isHex s) {} (if isHex s then s.drop 2 else s)).2 with
      | none => none
      | some (e, u, rest) =>
        let r := scan (isHex s) {} (if isHex s then s.drop 2 else s)
        let dp : Int := if r.1.sawdot then r.1.dp else r.1.nd
        some (if isHex s then (r.1.mant : ℚ) * 2 ^ (dp * 4 + e - r.1.nd * 4) else r.1.mant * 10 ^ (dp + e - r.1.nd), r.1.underscores || u, rest) := rfl

theorem stops_exp_dec {e : Bytes} {x : Int} (h : Exponent 101 69 e x) : Stops false e := by
  cases h with
  | mk hc hs hd =>
    intro c t he
    cases he
    rcases hc with rfl | rfl <;> decide

theorem stops_exp_hex {e : Bytes} {x : Int} (h : Exponent 112 80 e x) : Stops true e := by
  cases h with
  | mk hc hs hd =>
    intro c t he
    cases he
    rcases hc with rfl | rfl <;> decide

theorem readDigits_fwd {t : Bytes} {b : Nat} {q : ℚ} {x : Int} (h : Literal t b q x) : ∃ x' u, Cut x x' ∧ readDigits t = some (q * (b : ℚ) ^ x', u, []) := by
  have dec : ∀ (m e : Bytes) (x' : Int) (u : Bool), Mantissa 10 m q → (∀ c ∈ m ++ e, DecChar c) → Stops false e → exponent 101 false e = some (x', u, []) →
      ∃ u', readDigits (m ++ e) = some (q * (10 : ℚ) ^ x', u', []) := by
    intro m e x' u hm hc hs he
    obtain ⟨st, h1, h2, h3⟩ := scan_mantissa (hex := false) hm false hs
    have h1 : scan false {} (m ++ e) = (st, e) := h1
    refine ⟨st.underscores || u, ?_⟩
    rw [readDigits_eq, isHex_dec hc]
    simp only [Bool.false_eq_true, if_false, h1, h2, he]
    rw [if_neg (by simp)]
    simp only [Option.some.injEq, Prod.mk.injEq, and_true]
    rw [← h3, show (baseOf false : Nat) = 10 from rfl, show (if st.sawdot = true then st.dp else (st.nd : Int)) + x' - st.nd = ((if st.sawdot = true then st.dp else (st.nd : Int)) - st.nd) + x' by ring,
      zpow_add₀ (by norm_num)]
    push_cast
    ring
  have hex : ∀ (c : UInt8) (p m e : Bytes) (up : Bool) (x' : Int) (u : Bool), (c = 120 ∨ c = 88) → Mantissa 16 m q → Stops true e → exponent 112 true e = some (x', u, []) →
      scan true {} (p ++ (m ++ e)) = scan true { underscores := up } (m ++ e) → ∃ u', readDigits (48 :: c :: (p ++ (m ++ e))) = some (q * (2 : ℚ) ^ x', u', []) := by
    intro c p m e up x' u hc hm hs he hp
    obtain ⟨st, h1, h2, h3⟩ := scan_mantissa (hex := true) hm up hs
    obtain ⟨c0, t0, hc0, _⟩ := mantissa_head (hex := true) hm
    have hh : isHex (48 :: c :: (p ++ (m ++ e))) = true := by
      rw [hc0]
      cases p with
      | nil => rcases hc with rfl | rfl <;> rfl
      | cons a p => rcases hc with rfl | rfl <;> rfl
    refine ⟨st.underscores || u, ?_⟩
    rw [readDigits_eq, hh]
    simp only [if_true, List.drop_succ_cons, List.drop_zero, hp, h1, h2, he]
    rw [if_neg (by simp)]
    simp only [Option.some.injEq, Prod.mk.injEq, and_true]
    rw [← h3, show (baseOf true : Nat) = 16 from rfl, show (if st.sawdot = true then st.dp else (st.nd : Int)) * 4 + x' - st.nd * 4 = 4 * ((if st.sawdot = true then st.dp else (st.nd : Int)) - st.nd) + x' by ring,
      zpow_add₀ (by norm_num), zpow_mul]
    norm_num
    ring
  cases h with
  | plain hm =>
    obtain ⟨u', h'⟩ := dec t [] 0 false hm (by simpa using mantissa_chars hm) (fun c t h => by cases h) rfl
    exact ⟨0, u', cut_zero, by simpa using h'⟩
  | dec hm he =>
    obtain ⟨x', u, h1, h2⟩ := exponent_fwd (by decide) (by decide) he false
    obtain ⟨u', h'⟩ := dec _ _ x' u hm (fun c hc => (List.mem_append.mp hc).elim (mantissa_chars hm c) (exponent_chars he c)) (stops_exp_dec he) h2
    exact ⟨x', u', h1, by exact_mod_cast h'⟩
  | hex hc hm he =>
    obtain ⟨x', u, h1, h2⟩ := exponent_fwd (by decide) (by decide) he true
    obtain ⟨u', h'⟩ := hex _ [] _ _ false x' u hc hm (stops_exp_hex he) h2 rfl
    exact ⟨x', u', h1, by exact_mod_cast h'⟩
  | hexSep hc hm _ he =>
    obtain ⟨x', u, h1, h2⟩ := exponent_fwd (by decide) (by decide) he true
    obtain ⟨u', h'⟩ := hex _ [95] _ _ true x' u hc hm (stops_exp_hex he) h2 (by rw [List.singleton_append, scan, scanStep_sep])
    exact ⟨x', u', h1, by exact_mod_cast h'⟩

/-! ## Underscores -/

/-- The check, after the sign. -/
def checkTail (s : Bytes) : Bool := match s with
  | 48 :: c :: s' => if lower c = 98 ∨ lower c = 111 ∨ lower c = 120 then underscoreLoop (lower c = 120) 48 s' else underscoreLoop false 94 (48 :: c :: s')
  | s => underscoreLoop false 94 s

theorem underscoreOK_sign {sg : Bytes} {neg : Bool} (hs : Sign sg neg) {t : Bytes} (ht : ∀ c s, t = c :: s → c ≠ 43 ∧ c ≠ 45) : underscoreOK (sg ++ t) = checkTail t := by
  unfold underscoreOK
  cases hs with
  | none =>
    cases t with
    | nil => rfl
    | cons c s =>
      have := ht c s rfl
      simp only [List.nil_append, this.1, this.2, or_self, if_false]
      rfl
  | plus => rfl
  | minus => rfl

theorem checkTail_dec {t : Bytes} (h : ∀ c ∈ t, DecChar c) : checkTail t = underscoreLoop false 94 t := by
  unfold checkTail
  split
  · next c s' =>
    have := decChar_lower (h c (by simp))
    rw [if_neg (by simp [this])]
  · rfl

theorem checkTail_hex {c : UInt8} (h : lower c = 120) (s : Bytes) : checkTail (48 :: c :: s) = underscoreLoop true 48 s := by
  simp [checkTail, h]

theorem loop_mantissa {hex : Bool} {m : Bytes} {q : ℚ} (hm : Mantissa (baseOf hex) m q) (saw : UInt8) (hs : saw ≠ 95 ∨ ∀ t, m ≠ 46 :: t) (rest : Bytes) :
    ∃ saw', saw' ≠ 95 ∧ underscoreLoop hex saw (m ++ rest) = underscoreLoop hex saw' rest := by
  have dot : ∀ (saw : UInt8), saw ≠ 95 → ∀ s, underscoreLoop hex saw (46 :: s) = underscoreLoop hex 33 s := by
    intro saw h s
    rw [loop_other (dval_not hex).2.1, if_neg (by decide), if_neg h]
  cases hm with
  | whole h => exact ⟨48, by decide, loop_digits (b := hex) id h _ _⟩
  | point h => exact ⟨33, by decide, by rw [List.append_assoc, loop_digits (b := hex) id h, List.singleton_append, dot _ (by decide)]⟩
  | both h h' => exact ⟨48, by decide, by rw [List.append_assoc, loop_digits (b := hex) id h, List.cons_append, dot _ (by decide), loop_digits (b := hex) id h']⟩
  | frac h =>
    have : saw ≠ 95 := hs.resolve_right fun h => h _ rfl
    exact ⟨48, by decide, by rw [List.cons_append, dot _ this, loop_digits (b := hex) id h]⟩

theorem loop_sign {hex : Bool} {sg : Bytes} {neg : Bool} (hs : Sign sg neg) (s : Bytes) : underscoreLoop hex 33 (sg ++ s) = underscoreLoop hex 33 s := by
  cases hs with
  | none => rfl
  | plus => rw [List.singleton_append, loop_other (dval_not hex).2.2.1, if_neg (by decide), if_neg (by decide)]
  | minus => rw [List.singleton_append, loop_other (dval_not hex).2.2.2, if_neg (by decide), if_neg (by decide)]

theorem loop_exponent {hex : Bool} {low up : UInt8} (h1 : dval hex low = none ∧ low ≠ 95) (h2 : dval hex up = none ∧ up ≠ 95) {e : Bytes} {x : Int} (he : Exponent low up e x)
    (saw : UInt8) (hs : saw ≠ 95) : underscoreLoop hex saw e = true := by
  cases he with
  | @mk c sg neg ds vs hc hsg hd =>
    have hc' : dval hex c = none ∧ c ≠ 95 := by rcases hc with rfl | rfl <;> assumption
    rw [loop_other hc'.1, if_neg hc'.2, if_neg hs, loop_sign hsg, ← List.append_nil ds, loop_digits (b := false) (by simp) hd]
    rfl

theorem underscoreOK_fwd {sg t : Bytes} {neg : Bool} (hsg : Sign sg neg) {b : Nat} {q : ℚ} {x : Int} (h : Literal t b q x) : underscoreOK (sg ++ t) = true := by
  rw [underscoreOK_sign hsg]
  · cases h with
    | plain hm =>
      rw [checkTail_dec (mantissa_chars hm), ← List.append_nil t]
      obtain ⟨saw', h1, h2⟩ := loop_mantissa (hex := false) hm 94 (.inl (by decide)) []
      rw [h2]; simp [underscoreLoop, h1]
    | dec hm he =>
      rw [checkTail_dec fun c hc => (List.mem_append.mp hc).elim (mantissa_chars hm c) (exponent_chars he c)]
      obtain ⟨saw', h1, h2⟩ := loop_mantissa (hex := false) hm 94 (.inl (by decide)) _
      rw [h2]
      exact loop_exponent (by decide) (by decide) he _ h1
    | hex hc hm he =>
      rw [checkTail_hex (by rcases hc with rfl | rfl <;> rfl)]
      obtain ⟨saw', h1, h2⟩ := loop_mantissa (hex := true) hm 48 (.inl (by decide)) _
      rw [h2]
      exact loop_exponent (by decide) (by decide) he _ h1
    | hexSep hc hm hd he =>
      rw [checkTail_hex (by rcases hc with rfl | rfl <;> rfl), loop_other (dval_not true).1]
      simp only [if_true, ne_eq, not_true_eq_false, if_false]
      obtain ⟨saw', h1, h2⟩ := loop_mantissa (hex := true) hm 95 (.inr hd) _
      rw [h2]
      exact loop_exponent (by decide) (by decide) he _ h1
  · rintro c s rfl
    obtain ⟨c', s', he, hv⟩ := literal_head h
    cases he
    rcases hv with rfl | ⟨v, hv⟩
    · decide
    · refine ⟨?_, ?_⟩ <;> rintro rfl
      · rw [(dval_not false).2.2.1] at hv; cases hv
      · rw [(dval_not false).2.2.2] at hv; cases hv

/-! ## Only literals are accepted -/

theorem scan_after {hex : Bool} {st st' : Scan} {s rest : Bytes} (hd : st.sawdot = true) (h : scan hex st s = (st', rest)) :
    ∃ b, s = b ++ rest ∧ (∀ c ∈ b, InRun hex c) ∧ st' = run hex st b ∧ ∀ c t, rest = c :: t → dval hex c = none ∧ c ≠ 95 := by
  induction s generalizing st with
  | nil => simp [scan] at h; obtain ⟨rfl, rfl⟩ := h; exact ⟨[], rfl, by simp, rfl, by simp⟩
  | cons c s ih =>
    rw [scan] at h
    by_cases h95 : c = 95
    · subst h95
      rw [scanStep_sep] at h
      obtain ⟨b, rfl, h2, h3, h4⟩ := ih (st := { st with underscores := true }) hd h
      exact ⟨95 :: b, rfl, by simpa using ⟨.inl rfl, h2⟩, by simpa [run, (dval_not hex).1] using h3, h4⟩
    · cases hv : dval hex c with
      | some v =>
        rw [scanStep_digit st hv] at h
        obtain ⟨b, rfl, h2, h3, h4⟩ := ih (st := push hex st v) (by unfold push; split <;> exact hd) h
        exact ⟨c :: b, rfl, by simpa using ⟨.inr ⟨v, hv⟩, h2⟩, by simpa [run, hv] using h3, h4⟩
      | none =>
        have : scanStep hex st c = none := by
          by_cases h46 : c = 46
          · subst h46; simp [scanStep, hd]
          · exact scanStep_none st hv h95 h46
        rw [this] at h
        simp only [Prod.mk.injEq] at h
        obtain ⟨rfl, rfl⟩ := h
        exact ⟨[], rfl, by simp, rfl, by rintro c' t ⟨⟩; exact ⟨hv, h95⟩⟩

theorem scan_shape {hex : Bool} {st st' : Scan} {s rest : Bytes} (hd : st.sawdot = false) (h : scan hex st s = (st', rest)) :
    (∃ a, s = a ++ rest ∧ (∀ c ∈ a, InRun hex c) ∧ st' = run hex st a ∧ Stops hex rest) ∨
    ∃ a b, s = a ++ 46 :: (b ++ rest) ∧ (∀ c ∈ a, InRun hex c) ∧ (∀ c ∈ b, InRun hex c) ∧
      st' = run hex { run hex st a with sawdot := true, dp := (run hex st a).nd } b ∧ ∀ c t, rest = c :: t → dval hex c = none ∧ c ≠ 95 := by
  induction s generalizing st with
  | nil => simp [scan] at h; obtain ⟨rfl, rfl⟩ := h; exact .inl ⟨[], rfl, by simp, rfl, fun _ _ h => by cases h⟩
  | cons c s ih =>
    by_cases h46 : c = 46
    · subst h46
      rw [scan_dot hd] at h
      obtain ⟨b, rfl, h2, h3, h4⟩ := scan_after (st := { st with sawdot := true, dp := st.nd }) rfl h
      exact .inr ⟨[], b, rfl, by simp, h2, h3, h4⟩
    · rw [scan] at h
      by_cases h95 : c = 95
      · subst h95
        rw [scanStep_sep] at h
        rcases ih (st := { st with underscores := true }) hd h with ⟨a, rfl, h2, h3, h4⟩ | ⟨a, b, rfl, h2, h3, h4, h5⟩
        · exact .inl ⟨95 :: a, rfl, by simpa using ⟨.inl rfl, h2⟩, by simpa [run, (dval_not hex).1] using h3, h4⟩
        · exact .inr ⟨95 :: a, b, rfl, by simpa using ⟨.inl rfl, h2⟩, h3, by simpa [run, (dval_not hex).1] using h4, h5⟩
      · cases hv : dval hex c with
        | some v =>
          rw [scanStep_digit st hv] at h
          rcases ih (st := push hex st v) (by unfold push; split <;> exact hd) h with ⟨a, rfl, h2, h3, h4⟩ | ⟨a, b, rfl, h2, h3, h4, h5⟩
          · exact .inl ⟨c :: a, rfl, by simpa using ⟨.inr ⟨v, hv⟩, h2⟩, by simpa [run, hv] using h3, h4⟩
          · exact .inr ⟨c :: a, b, rfl, by simpa using ⟨.inr ⟨v, hv⟩, h2⟩, h3, by simpa [run, hv] using h4, h5⟩
        | none =>
          rw [scanStep_none st hv h95 h46] at h
          simp only [Prod.mk.injEq] at h
          obtain ⟨rfl, rfl⟩ := h
          exact .inl ⟨[], rfl, by simp, rfl, by rintro c' t ⟨⟩; exact ⟨hv, h95, h46⟩⟩

/-- Digits around an optional point that pass the check form a mantissa. `pre`: an underscore may come first. -/
theorem mantissa_conv {hex : Bool} {st' : Scan} {s rest : Bytes} (h : scan hex {} s = (st', rest)) (hd : st'.sawdigits = true) (hrest : ∀ c t, rest = c :: t → dval hex c = none ∧ c ≠ 95) :
    (∃ a, s = a ++ rest ∧ (st'.underscores = true ↔ 95 ∈ a)) ∧ ∀ saw, saw ≠ 95 → underscoreLoop hex saw s = true →
      ∃ p m q saw', s = p ++ (m ++ rest) ∧ Mantissa (baseOf hex) m q ∧ (p = [] ∨ p = [95] ∧ saw = 48 ∧ ∀ t, m ≠ 46 :: t) ∧ saw' ≠ 95 ∧ underscoreLoop hex saw' rest = true := by
  have nodot : ∀ {a vs} (r : Bytes), Digits (baseOf hex) a vs → ∀ t, a ++ r ≠ 46 :: t := by
    intro a vs r h t e
    obtain ⟨_, _, _, c, t', rfl, v, hv⟩ := digits_vals h
    cases e
    rw [(dval_not hex).2.1] at hv; cases hv
  rcases scan_shape rfl h with ⟨a, rfl, h2, rfl, h4⟩ | ⟨a, b, rfl, h2, h3, rfl, h5⟩
  · obtain ⟨r1, r2, r3, r4, r5, r6⟩ := run_spec a h2 {} (fun _ => rfl)
    have hva : vals hex a ≠ [] := by simpa using r3.mp hd
    refine ⟨⟨a, rfl, by simpa using r5⟩, fun saw hs hl => ?_⟩
    obtain ⟨_, l2, l3, saw', l4, l5⟩ := loop_run (b := hex) id a rest h2 hrest saw hl
    have hne : a ≠ [] := by rintro rfl; exact hva rfl
    by_cases h48 : saw = 48
    · rcases l2 h48 with e | ⟨vs, hv⟩ | ⟨a', vs, rfl, hv⟩
      · exact absurd e hne
      · exact ⟨[], a, _, saw', rfl, .whole hv, .inl rfl, l4, l5⟩
      · exact ⟨[95], a', _, saw', rfl, .whole hv, .inr ⟨rfl, h48, by simpa using nodot [] hv⟩, l4, l5⟩
    · rcases l3 h48 hs with e | ⟨vs, hv⟩
      · exact absurd e hne
      · exact ⟨[], a, _, saw', rfl, .whole hv, .inl rfl, l4, l5⟩
  · obtain ⟨r1, r2, r3, r4, r5, r6⟩ := run_spec a h2 {} (fun _ => rfl)
    obtain ⟨k1, k2, k3, k4, k5, k6⟩ := run_spec b h3 { run hex {} a with sawdot := true, dp := (run hex {} a).nd } r6
    refine ⟨⟨a ++ 46 :: b, by simp, ?_⟩, fun saw hs hl => ?_⟩
    · rw [k5]
      show (run hex {} a).underscores = true ∨ _ ↔ _
      rw [r5]; simp
    have hvals : vals hex a ≠ [] ∨ vals hex b ≠ [] := by
      rcases k3.mp hd with h | h
      · exact .inl (by simpa using r3.mp h)
      · exact .inr h
    obtain ⟨_, l2, l3, saw1, l4, l5⟩ := loop_run (b := hex) id a (46 :: (b ++ rest)) h2 (by rintro c t ⟨⟩; exact ⟨(dval_not hex).2.1, by decide⟩) saw hl
    rw [loop_other (dval_not hex).2.1, if_neg (by decide), if_neg l4] at l5
    obtain ⟨_, _, n3, saw2, n4, n5⟩ := loop_run (b := hex) id b rest h3 h5 33 l5
    have hb := n3 (by decide) (by decide)
    -- the part before the point
    have ha : a = [] ∨ (∃ vs, Digits (baseOf hex) a vs) ∨ ∃ a' vs, a = 95 :: a' ∧ saw = 48 ∧ Digits (baseOf hex) a' vs := by
      by_cases h48 : saw = 48
      · rcases l2 h48 with e | h | ⟨a', vs, h, hv⟩
        · exact .inl e
        · exact .inr (.inl h)
        · exact .inr (.inr ⟨a', vs, h, h48, hv⟩)
      · rcases l3 h48 hs with e | h
        · exact .inl e
        · exact .inr (.inl h)
    rcases ha with rfl | ⟨vs, hv⟩ | ⟨a', vs, rfl, h48, hv⟩
    · rcases hb with rfl | ⟨us, hu⟩
      · simp [vals] at hvals
      · exact ⟨[], 46 :: b, _, saw2, rfl, .frac hu, .inl rfl, n4, n5⟩
    · rcases hb with rfl | ⟨us, hu⟩
      · exact ⟨[], a ++ [46], _, saw2, by simp, .point hv, .inl rfl, n4, n5⟩
      · exact ⟨[], a ++ 46 :: b, _, saw2, by simp, .both hv hu, .inl rfl, n4, n5⟩
    · rcases hb with rfl | ⟨us, hu⟩
      · exact ⟨[95], a' ++ [46], _, saw2, by simp, .point hv, .inr ⟨rfl, h48, nodot _ hv⟩, n4, n5⟩
      · exact ⟨[95], a' ++ 46 :: b, _, saw2, by simp, .both hv hu, .inr ⟨rfl, h48, nodot _ hv⟩, n4, n5⟩

end Gse.ParseFloat
