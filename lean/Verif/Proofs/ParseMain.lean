import Verif.Proofs.ParseRead

/-! # `ParseFloat` accepts the literals of the language and gives their rounded value -/

namespace Gse.ParseFloat
open Gse.Spec

theorem exponent_digits {hex : Bool} {low up : UInt8} (h1 : dval hex low = none ∧ low ≠ 95) (h2 : dval hex up = none ∧ up ≠ 95) {c : UInt8} {sg ds : Bytes} {neg : Bool}
    (hc : c = low ∨ c = up) (hs : Sign sg neg) (hr : ∀ d ∈ ds, InRun false d) (hne : ds ≠ []) {saw : UInt8} (hsaw : saw ≠ 95)
    (hl : underscoreLoop hex saw (c :: (sg ++ ds)) = true) : ∃ x, Exponent low up (c :: (sg ++ ds)) x := by
  have hc' : dval hex c = none ∧ c ≠ 95 := by rcases hc with rfl | rfl <;> assumption
  rw [loop_other hc'.1, if_neg hc'.2, if_neg hsaw, loop_sign hs, ← List.append_nil ds] at hl
  obtain ⟨_, _, h3, _⟩ := loop_run (b := false) (by simp) ds [] hr (by simp) 33 hl
  rcases h3 (by decide) (by decide) with e | ⟨vs, hv⟩
  · exact absurd e hne
  · exact ⟨_, .mk hc hs hv⟩

theorem readDigits_sign {c : UInt8} (hc : c = 43 ∨ c = 45) (t : Bytes) : readDigits (c :: t) = none := by
  have hh : isHex (c :: t) = false := by
    unfold isHex
    split
    · next e => cases e; rcases hc with rfl | rfl <;> simp
    · rfl
  have hsc : scan false {} (c :: t) = ({}, c :: t) := by
    apply scan_stops
    rintro _ _ ⟨⟩
    rcases hc with rfl | rfl <;> decide
  rw [readDigits_eq, hh]
  simp [hsc]

theorem literal_of_read {t : Bytes} {v : ℚ} {u : Bool} (h : readDigits t = some (v, u, [])) (hu : u = true → checkTail t = true) : ∃ b q x, Literal t b q x := by
  rw [readDigits_eq] at h
  cases hh : isHex t with
  | false =>
    simp only [hh, Bool.false_eq_true, if_false] at h
    generalize hsc : scan false {} t = r at h
    obtain ⟨st, rest⟩ := r
    split at h
    · cases h
    · next hd =>
      simp only [Bool.not_eq_false] at hd
      split at h
      · cases h
      · next e ue rest' he =>
        simp only [Option.some.injEq, Prod.mk.injEq] at h
        obtain ⟨_, hue, rfl⟩ := h
        have hexp := exponent_conv lower_e he
        have hrest : ∀ c t, rest = c :: t → dval false c = none ∧ c ≠ 95 := by
          rcases hexp with ⟨rfl, _⟩ | ⟨c, sg, neg, ds, hc, _, rfl, _⟩
          · simp
          · rintro _ _ ⟨⟩
            rcases hc with rfl | rfl <;> decide
        obtain ⟨⟨a, ha, hua⟩, key⟩ := mantissa_conv hsc hd hrest
        have hmem : 95 ∈ t ↔ u = true := by
          rw [ha, List.mem_append, ← hue, Bool.or_eq_true, hua]
          rcases hexp with ⟨rfl, _, rfl⟩ | ⟨c, sg, neg, ds, hc, hs, rfl, _, _, hu', _⟩
          · simp
          · rw [hu']
            have h1 : (95 : UInt8) ≠ c := by rcases hc with rfl | rfl <;> decide
            have h2 : (95 : UInt8) ∉ sg := by cases hs <;> decide
            simp [h1, h2]
        have hr : ∀ c ∈ rest, DecChar c := by
          rcases hexp with ⟨rfl, _⟩ | ⟨c, sg, neg, ds, hc, hs, rfl, hds, _⟩
          · simp
          · intro c' hc'
            rcases List.mem_cons.mp hc' with rfl | hc'
            · rcases hc with rfl | rfl
              · exact .inr (.inr (.inl rfl))
              · exact .inr (.inr (.inr (.inl rfl)))
            · rcases List.mem_append.mp hc' with h' | h'
              · cases hs with
                | none => cases h'
                | plus => exact .inr (.inr (.inr (.inr (.inl (List.mem_singleton.mp h')))))
                | minus => exact .inr (.inr (.inr (.inr (.inr (List.mem_singleton.mp h')))))
              · exact .inl (hds c' h')
        have hchk : underscoreLoop false 94 t = true := by
          by_cases h95 : 95 ∈ t
          · have hchk := hu (hmem.mp h95)
            rw [checkTail_dec] at hchk
            · exact hchk
            · rcases scan_shape rfl hsc with ⟨a, rfl, h2, _, _⟩ | ⟨a, b, rfl, h2, h3, _, _⟩
              · intro c hc
                rcases List.mem_append.mp hc with hc | hc
                · exact .inl (h2 c hc)
                · exact hr c hc
              · intro c hc
                rcases List.mem_append.mp hc with hc | hc
                · exact .inl (h2 c hc)
                · rcases List.mem_cons.mp hc with rfl | hc
                  · exact .inr (.inl rfl)
                  · rcases List.mem_append.mp hc with hc | hc
                    · exact .inl (h3 c hc)
                    · exact hr c hc
          · exact loop_none t h95 _ (by decide)
        obtain ⟨p, m, q, saw', ht, hm, hp, hs', hl⟩ := key 94 (by decide) hchk
        rcases hp with rfl | ⟨_, e48, _⟩
        · rcases hexp with ⟨rfl, _⟩ | ⟨c, sg, neg, ds, hc, hs, rfl, hds, hne, _⟩
          · simp only [List.nil_append, List.append_nil] at ht
            subst ht
            exact ⟨_, _, _, .plain hm⟩
          · obtain ⟨x, hx⟩ := exponent_digits (by decide) (by decide) hc hs hds hne hs' hl
            simp only [List.nil_append] at ht
            subst ht
            exact ⟨_, _, _, .dec hm hx⟩
        · exact absurd e48 (by decide)
  | true =>
    obtain ⟨c, t', rfl, hc⟩ : ∃ c t', t = 48 :: c :: t' ∧ lower c = 120 := by
      unfold isHex at hh
      split at hh
      · next a x y z =>
        have := of_decide_eq_true hh
        exact ⟨x, y :: z, by rw [this.1], this.2⟩
      · cases hh
    simp only [hh, if_true, List.drop_succ_cons, List.drop_zero] at h
    generalize hsc : scan true {} t' = r at h
    obtain ⟨st, rest⟩ := r
    split at h
    · cases h
    · next hd =>
      simp only [Bool.not_eq_false] at hd
      split at h
      · cases h
      · next e ue rest' he =>
        simp only [Option.some.injEq, Prod.mk.injEq] at h
        obtain ⟨_, hue, rfl⟩ := h
        have hexp := exponent_conv lower_p he
        rcases hexp with ⟨_, hf, _⟩ | ⟨c', sg, neg, ds, hc', hs, rfl, hds, hne, hu', _⟩
        · cases hf
        have hrest : ∀ c t, c' :: (sg ++ ds) = c :: t → dval true c = none ∧ c ≠ 95 := by
          rintro _ _ ⟨⟩
          rcases hc' with rfl | rfl <;> decide
        obtain ⟨⟨a, ha, hua⟩, key⟩ := mantissa_conv hsc hd hrest
        have hmem : 95 ∈ t' ↔ u = true := by
          rw [ha, List.mem_append, ← hue, Bool.or_eq_true, hua, hu']
          have h1 : (95 : UInt8) ≠ c' := by rcases hc' with rfl | rfl <;> decide
          have h2 : (95 : UInt8) ∉ sg := by cases hs <;> decide
          simp [h1, h2]
        have hchk : underscoreLoop true 48 t' = true := by
          by_cases h95 : 95 ∈ t'
          · have hc0 := hu (hmem.mp h95)
            rwa [checkTail_hex hc] at hc0
          · exact loop_none t' h95 _ (by decide)
        obtain ⟨p, m, q, saw', ht, hm, hp, hs', hl⟩ := key 48 (by decide) hchk
        obtain ⟨x, hx⟩ := exponent_digits (by decide) (by decide) hc' hs hds hne hs' hl
        rcases hp with rfl | ⟨rfl, _, hnd⟩
        · simp only [List.nil_append] at ht
          subst ht
          exact ⟨_, _, _, .hex (lower_x c hc) hm hx⟩
        · simp only [List.singleton_append] at ht
          subst ht
          exact ⟨_, _, _, .hexSep (lower_x c hc) hm hnd hx⟩

/-- The texts `readFloat` reads to the end are the numerals, with their values. -/
theorem readFloat_fwd {s : Bytes} {neg : Bool} {b : Nat} {q : ℚ} {x : Int} (h : Numeral s neg b q x) : ∃ x', Cut x x' ∧ readFloat s = some (neg, q * (b : ℚ) ^ x', []) := by
  obtain ⟨sg, t, hs, hl, rfl⟩ := h
  obtain ⟨x', u, h1, h2⟩ := readDigits_fwd hl
  refine ⟨x', h1, ?_⟩
  have hu := underscoreOK_fwd hs hl
  obtain ⟨c, t', rfl, hv⟩ := literal_head hl
  have hc : c ≠ 43 ∧ c ≠ 45 := by
    rcases hv with rfl | ⟨v, hv⟩
    · decide
    · refine ⟨?_, ?_⟩ <;> rintro rfl
      · rw [(dval_not false).2.2.1] at hv; cases hv
      · rw [(dval_not false).2.2.2] at hv; cases hv
  cases hs with
  | none =>
    have hu : underscoreOK (c :: t') = true := hu
    simp [readFloat, hc.1, hc.2, h2, hu]
  | plus =>
    have hu : underscoreOK (43 :: c :: t') = true := hu
    simp [readFloat, h2, hu]
  | minus =>
    have hu : underscoreOK (45 :: c :: t') = true := hu
    simp [readFloat, h2, hu]

theorem readFloat_conv {s : Bytes} {neg : Bool} {v : ℚ} (h : readFloat s = some (neg, v, [])) : ∃ b q x, Numeral s neg b q x := by
  have main : ∀ sg t neg, Sign sg neg → readFloat (sg ++ t) = (readDigits t).bind (fun r =>
      if r.2.1 = true ∧ underscoreOK ((sg ++ t).take ((sg ++ t).length - r.2.2.length)) = false then none else some (neg, r.1, r.2.2)) →
      ∀ neg' v, readFloat (sg ++ t) = some (neg', v, []) → neg' = neg ∧ ∃ b q x, Literal t b q x := by
    intro sg t neg hs he neg' v h
    rw [he, Option.bind_eq_some_iff] at h
    obtain ⟨⟨q, u, rest⟩, hr, h⟩ := h
    · split at h
      · cases h
      · next hu =>
        simp only [Option.some.injEq, Prod.mk.injEq] at h
        obtain ⟨rfl, rfl, rfl⟩ := h
        refine ⟨rfl, literal_of_read hr fun hut => ?_⟩
        have hok : underscoreOK (sg ++ t) = true := by
          simp only [List.length_nil, Nat.sub_zero, List.take_length, not_and, Bool.not_eq_false] at hu
          exact hu hut
        rw [underscoreOK_sign hs] at hok
        · exact hok
        · rintro c s rfl
          refine ⟨?_, ?_⟩ <;> rintro rfl
          · rw [readDigits_sign (.inl rfl)] at hr; cases hr
          · rw [readDigits_sign (.inr rfl)] at hr; cases hr
  cases s with
  | nil =>
    have h0 : readDigits [] = none := by
      have hs : (scan (isHex []) {} (if isHex [] then List.drop 2 [] else [])).1.sawdigits = false := rfl
      rw [readDigits_eq, if_pos hs]
    have : readFloat [] = none := by
      unfold readFloat
      simp only [h0, Option.bind_none]
    rw [this] at h; cases h
  | cons c t =>
    by_cases h43 : c = 43
    · subst h43
      obtain ⟨rfl, b, q, x, hl⟩ := main [43] t false .plus (by rfl) neg v h
      exact ⟨b, q, x, [43], t, .plus, hl, rfl⟩
    · by_cases h45 : c = 45
      · subst h45
        obtain ⟨rfl, b, q, x, hl⟩ := main [45] t true .minus (by rfl) neg v h
        exact ⟨b, q, x, [45], t, .minus, hl, rfl⟩
      · obtain ⟨rfl, b, q, x, hl⟩ := main [] (c :: t) false .none (by simp [readFloat, h43, h45]) neg v h
        exact ⟨b, q, x, [], c :: t, .none, hl, rfl⟩

/-! ## Long exponents -/

theorem foldl_lt {b : Nat} (vs : List Nat) (h : ∀ v ∈ vs, v < b) (n : Nat) : vs.foldl (fun n v => n * b + v) n < (n + 1) * b ^ vs.length := by
  induction vs generalizing n with
  | nil => simp
  | cons v vs ih =>
    have h1 := ih (fun v hv => h v (by simp [hv])) (n * b + v)
    have h2 := h v (by simp)
    refine Nat.lt_of_lt_of_le h1 ?_
    rw [List.length_cons, pow_succ]
    calc (n * b + v + 1) * b ^ vs.length ≤ (n * b + b) * b ^ vs.length := Nat.mul_le_mul_right _ (by omega)
      _ = (n + 1) * (b ^ vs.length * b) := by ring

theorem digits_lt {b : Nat} {s : Bytes} {vs : List Nat} (h : Digits b s vs) : (∀ v ∈ vs, v < b) ∧ vs.length ≤ s.length := by
  induction h with
  | one h => exact ⟨by simpa using h.1, by simp⟩
  | more h _ ih => exact ⟨by simpa using ⟨h.1, ih.1⟩, by simpa using ih.2⟩
  | sep h _ ih => exact ⟨by simpa using ⟨h.1, ih.1⟩, by have := ih.2; simp; omega⟩

theorem mantissa_bounds {b : Nat} (hb : 1 < b) (hb' : b ≤ 16) {m : Bytes} {q : ℚ} (h : Mantissa b m q) :
    0 ≤ q ∧ q < 16 ^ m.length ∧ (q ≠ 0 → ((16 : ℚ) ^ m.length)⁻¹ ≤ q) := by
  have hb0 : (b : ℚ) ≠ 0 := by exact_mod_cast (by omega : b ≠ 0)
  have key : ∀ (i f : List Nat) (n : Nat), (∀ v ∈ i, v < b) → (∀ v ∈ f, v < b) → i.length ≤ n → f.length ≤ n → q = Spec.whole b i + fraction b f →
      0 ≤ q ∧ q < 16 ^ n ∧ (q ≠ 0 → ((16 : ℚ) ^ n)⁻¹ ≤ q) := by
    intro i f n hi hf hin hfn hq
    have e := foldl_fraction b (by omega) f (Spec.whole b i)
    have lt := foldl_lt (b := b) f hf (Spec.whole b i)
    have lt' : Spec.whole b i < (0 + 1) * b ^ i.length := foldl_lt (b := b) i hi 0
    rw [← hq] at e
    set N := f.foldl (fun n v => n * b + v) (Spec.whole b i) with hN
    have hp : (0 : ℚ) < (b : ℚ) ^ f.length := by positivity
    have hqN : q = N / (b : ℚ) ^ f.length := by rw [e]; field_simp
    have h16 : ∀ k, k ≤ n → (b : ℚ) ^ k ≤ 16 ^ n := by
      intro k hk
      calc (b : ℚ) ^ k ≤ 16 ^ k := by gcongr; exact_mod_cast hb'
        _ ≤ 16 ^ n := by gcongr; norm_num
    refine ⟨by rw [hqN]; positivity, ?_, fun h0 => ?_⟩
    · have h1 : (N : ℚ) < ((Spec.whole b i : ℚ) + 1) * (b : ℚ) ^ f.length := by exact_mod_cast lt
      have h2 : (Spec.whole b i : ℚ) + 1 ≤ (b : ℚ) ^ i.length := by
        have : Spec.whole b i + 1 ≤ b ^ i.length := by rw [zero_add, one_mul] at lt'; exact lt'
        exact_mod_cast this
      calc q = N / (b : ℚ) ^ f.length := hqN
        _ < (Spec.whole b i : ℚ) + 1 := by rw [div_lt_iff₀ hp]; exact h1
        _ ≤ (b : ℚ) ^ i.length := h2
        _ ≤ 16 ^ n := h16 _ hin
    · have hN0 : N ≠ 0 := by
        intro h
        rw [h] at hqN
        exact h0 (by rw [hqN]; simp)
      have hN1 : (1 : ℚ) ≤ N := by exact_mod_cast Nat.one_le_iff_ne_zero.mpr hN0
      calc ((16 : ℚ) ^ n)⁻¹ ≤ ((b : ℚ) ^ f.length)⁻¹ := inv_anti₀ hp (h16 _ hfn)
        _ = 1 / (b : ℚ) ^ f.length := by rw [one_div]
        _ ≤ N / (b : ℚ) ^ f.length := by gcongr
        _ = q := hqN.symm
  cases h with
  | whole h => exact key _ [] _ (digits_lt h).1 (by simp) (digits_lt h).2 (by simp) (by simp [fraction])
  | point h => exact key _ [] _ (digits_lt h).1 (by simp) (by have := (digits_lt h).2; simp; omega) (by simp) (by simp [fraction])
  | both h h' => exact key _ _ _ (digits_lt h).1 (digits_lt h').1 (by have := (digits_lt h).2; simp; omega) (by have := (digits_lt h').2; simp; omega) rfl
  | frac h => exact key [] _ _ (by simp) (digits_lt h).1 (by simp) (by have := (digits_lt h).2; simp; omega) (by simp [Spec.whole])

theorem literal_bounds {t : Bytes} {b : Nat} {q : ℚ} {x : Int} (h : Literal t b q x) :
    (b = 2 ∨ b = 10) ∧ 0 ≤ q ∧ q < 16 ^ t.length ∧ (q ≠ 0 → ((16 : ℚ) ^ t.length)⁻¹ ≤ q) := by
  have key : ∀ {base m q} (n : Nat), 1 < base → base ≤ 16 → Mantissa base m q → m.length ≤ n → 0 ≤ q ∧ q < 16 ^ n ∧ (q ≠ 0 → ((16 : ℚ) ^ n)⁻¹ ≤ q) := by
    intro base m q n h1 h2 hm hn
    obtain ⟨a, b, c⟩ := mantissa_bounds h1 h2 hm
    have : (16 : ℚ) ^ m.length ≤ 16 ^ n := by gcongr; norm_num
    exact ⟨a, lt_of_lt_of_le b this, fun h => le_trans (inv_anti₀ (by positivity) this) (c h)⟩
  cases h with
  | plain hm => exact ⟨.inr rfl, key _ (by omega) (by omega) hm (by simp)⟩
  | dec hm _ => exact ⟨.inr rfl, key _ (by omega) (by omega) hm (by simp)⟩
  | hex _ hm _ => exact ⟨.inl rfl, key _ (by omega) (by omega) hm (by simp; omega)⟩
  | hexSep _ hm _ _ => exact ⟨.inl rfl, key _ (by omega) (by omega) hm (by simp; omega)⟩

theorem round_tiny {f : Format} {q : ℚ} (h : |q| ≤ 2 ^ f.emin / 2) : f.round q = 0 := by
  refine ((Format.nearest_iff f q 0).mp ⟨⟨0, f.emin, by simp, le_refl _, by simp⟩, fun r' hr' => ?_, fun r' _ _ _ => ⟨0, by simp⟩⟩).symm
  rw [zero_sub, abs_neg]
  by_cases h0 : r' = 0
  · rw [h0, zero_sub, abs_neg]
  · have hp : (2 : ℚ) ^ f.emin ≤ |r'| := by
      rcases lt_or_gt_of_ne h0 with h | h
      · rw [abs_of_neg h]; exact (Format.rep_smallest f).2 _ hr'.neg (by linarith)
      · rw [abs_of_pos h]; exact (Format.rep_smallest f).2 _ hr' h
    have := abs_sub_abs_le_abs_sub r' q
    linarith

theorem make_huge {f : Format} (s : Bool) {q : ℚ} (h : 2 ^ f.emax ≤ |q|) : Datum.make f s q = .inf (decide (q < 0)) := by
  have h0 : q ≠ 0 := by
    rintro rfl
    rw [abs_zero] at h
    have : (0 : ℚ) < 2 ^ f.emax := by positivity
    linarith
  unfold Datum.make
  rw [if_neg h0, if_pos]
  rw [Format.overflow_iff]
  have := Format.top_eq f
  have : (0 : ℚ) < 2 ^ (f.emax - f.p) := by positivity
  linarith

theorem make_tiny {f : Format} (s : Bool) {q : ℚ} (h0 : q ≠ 0) (h : |q| ≤ 2 ^ f.emin / 2) : Datum.make f s q = .fin (decide (q < 0)) 0 := by
  unfold Datum.make
  rw [if_neg h0, round_tiny h, if_neg]
  have : (0 : ℚ) < 2 ^ f.emax := by positivity
  simp only [abs_zero]
  linarith

theorem scale_big {b q : ℚ} (hb : 2 ≤ b) (hq : 0 ≤ q) {K E y : Int} (h : 2 ^ (-K) ≤ q) (hy : E + K ≤ y) (hy0 : 0 ≤ y) : 2 ^ E ≤ q * b ^ y := by
  have e1 : (2 : ℚ) ^ (E + K) ≤ b ^ y :=
    calc (2 : ℚ) ^ (E + K) ≤ 2 ^ y := zpow_le_zpow_right₀ (by norm_num) hy
      _ ≤ b ^ y := zpow_le_zpow_left₀ hy0 (by norm_num) hb
  calc (2 : ℚ) ^ E = 2 ^ (-K) * 2 ^ (E + K) := by rw [← zpow_add₀ (by norm_num)]; congr 1; ring
    _ ≤ q * b ^ y := mul_le_mul h e1 (zpow_pos (by norm_num) _).le hq

theorem scale_small {b q : ℚ} (hb : 2 ≤ b) {K E y : Int} (h : q ≤ 2 ^ K) (hy : y ≤ E - K) (hy0 : y ≤ 0) : q * b ^ y ≤ 2 ^ E := by
  have e1 : b ^ y ≤ (2 : ℚ) ^ (E - K) := by
    have e2 : (2 : ℚ) ^ (-y) ≤ b ^ (-y) := zpow_le_zpow_left₀ (by omega) (by norm_num) hb
    calc b ^ y = (b ^ (-y))⁻¹ := by rw [zpow_neg, inv_inv]
      _ ≤ (2 ^ (-y))⁻¹ := inv_anti₀ (zpow_pos (by norm_num) _) e2
      _ = 2 ^ y := by rw [zpow_neg, inv_inv]
      _ ≤ 2 ^ (E - K) := zpow_le_zpow_right₀ (by norm_num) hy
  have hb0 : 0 < b := by linarith
  calc q * b ^ y ≤ 2 ^ K * 2 ^ (E - K) := mul_le_mul h e1 (zpow_pos hb0 _).le (zpow_pos (by norm_num) _).le
    _ = 2 ^ E := by rw [← zpow_add₀ (by norm_num)]; congr 1; ring

theorem make_cut {b : Nat} {q : ℚ} {x x' : Int} (hb : b = 2 ∨ b = 10) (h0 : 0 ≤ q) (h1 : q < 16 ^ 2000) (h2 : q ≠ 0 → ((16 : ℚ) ^ 2000)⁻¹ ≤ q) (hc : Cut x x') (neg : Bool) :
    Datum.make f64 neg (if neg then -(q * (b : ℚ) ^ x') else q * (b : ℚ) ^ x') = Datum.make f64 neg (if neg then -(q * (b : ℚ) ^ x) else q * (b : ℚ) ^ x) := by
  by_cases hq : q = 0
  · subst hq; simp
  have hpos : 0 < q := lt_of_le_of_ne h0 (Ne.symm hq)
  have hb2 : (2 : ℚ) ≤ b := by rcases hb with rfl | rfl <;> norm_num
  have e16 : (16 : ℚ) ^ 2000 = 2 ^ (8000 : Int) := by
    rw [show (16 : ℚ) = 2 ^ (4 : Int) by norm_num, ← zpow_natCast, ← zpow_mul]; rfl
  rw [e16] at h1 h2
  have h2 := h2 hq
  rw [← zpow_neg] at h2
  have big : ∀ y : Int, 10000 ≤ y → (2 : ℚ) ^ (1024 : Nat) ≤ q * (b : ℚ) ^ y := by
    intro y hy
    have := scale_big (E := 1024) hb2 h0 h2 (y := y) (by omega) (by omega)
    rwa [show (2 : ℚ) ^ (1024 : Nat) = 2 ^ (1024 : Int) by rw [← zpow_natCast]; rfl]
  have small : ∀ y : Int, y ≤ -10000 → q * (b : ℚ) ^ y ≤ 2 ^ (-1074 : Int) / 2 := by
    intro y hy
    have := scale_small (E := -1074 - 1) hb2 h1.le (y := y) (by omega) (by omega)
    rwa [zpow_sub_one₀ (by norm_num)] at this
  have pos : ∀ y : Int, 0 < q * (b : ℚ) ^ y := fun y => mul_pos hpos (zpow_pos (by linarith) _)
  by_cases hx : |x| < 100000
  · rw [hc.1 hx]
  · rcases le_total 0 x with hx0 | hx0
    · have h5 : 100000 ≤ x := by rw [abs_of_nonneg hx0] at hx; omega
      have b1 := big x (by omega)
      have b2 := big x' (hc.2.1 h5)
      cases neg with
      | false =>
        simp only [Bool.false_eq_true, if_false]
        rw [make_huge (f := f64) _ (by rw [abs_of_pos (pos x')]; exact b2), make_huge (f := f64) _ (by rw [abs_of_pos (pos x)]; exact b1)]
        simp only [not_lt.mpr (pos x).le, not_lt.mpr (pos x').le]
      | true =>
        simp only [if_true]
        rw [make_huge (f := f64) _ (by rw [abs_neg, abs_of_pos (pos x')]; exact b2), make_huge (f := f64) _ (by rw [abs_neg, abs_of_pos (pos x)]; exact b1)]
        simp only [neg_lt_zero, pos x, pos x']
    · have h5 : x ≤ -100000 := by rw [abs_of_nonpos hx0] at hx; omega
      have b1 := small x (by omega)
      have b2 := small x' (hc.2.2 h5)
      cases neg with
      | false =>
        simp only [Bool.false_eq_true, if_false]
        rw [make_tiny (f := f64) _ (pos x').ne' (by rw [abs_of_pos (pos x')]; exact b2), make_tiny (f := f64) _ (pos x).ne' (by rw [abs_of_pos (pos x)]; exact b1)]
        simp only [not_lt.mpr (pos x).le, not_lt.mpr (pos x').le]
      | true =>
        simp only [if_true]
        rw [make_tiny (f := f64) _ (neg_ne_zero.mpr (pos x').ne') (by rw [abs_neg, abs_of_pos (pos x')]; exact b2),
          make_tiny (f := f64) _ (neg_ne_zero.mpr (pos x).ne') (by rw [abs_neg, abs_of_pos (pos x)]; exact b1)]
        simp only [neg_lt_zero, pos x, pos x']

/-! ## The special words -/

theorem fold_letter (c l : UInt8) (h : 97 ≤ l ∧ l ≤ 122) : (if 65 ≤ c ∧ c ≤ 90 then c + 32 else c) = l ↔ c = l ∨ c + 32 = l := by
  have key : ∀ l : Fin 26, ∀ c : Fin 256, (if 65 ≤ UInt8.ofNat c ∧ UInt8.ofNat c ≤ 90 then UInt8.ofNat c + 32 else UInt8.ofNat c) = UInt8.ofNat (97 + l) ↔
      UInt8.ofNat c = UInt8.ofNat (97 + l) ∨ UInt8.ofNat c + 32 = UInt8.ofNat (97 + l) := by
    decide +kernel
  simp only [UInt8.le_iff_toNat_le] at h
  have h1 : 97 ≤ l.toNat := h.1
  have h2 : l.toNat ≤ 122 := h.2
  have := key ⟨l.toNat - 97, by omega⟩ ⟨c.toNat, c.toNat_lt⟩
  simp only [UInt8.ofNat_toNat, Nat.add_sub_cancel' h1] at this
  exact this

theorem commonPrefix_le (s w : Bytes) : commonPrefix s w ≤ s.length ∧ commonPrefix s w ≤ w.length := by
  induction s generalizing w with
  | nil => simp [commonPrefix]
  | cons c s ih =>
    cases w with
    | nil => simp [commonPrefix]
    | cons p w =>
      have := ih w
      rw [commonPrefix]
      generalize (if 65 ≤ c ∧ c ≤ 90 then c + 32 else c) = c'
      split
      · simp; omega
      · simp

theorem commonPrefix_word (s w w' : Bytes) (hw : ∀ l ∈ w, 97 ≤ l ∧ l ≤ 122) (h : IgnoringCase s w) : commonPrefix s (w ++ w') = w.length := by
  induction h with
  | nil => cases w' <;> rfl
  | @cons c l s w h _ ih =>
    rw [List.cons_append, commonPrefix, if_pos ((fold_letter c l (hw l (by simp))).mpr h), ih fun l hl => hw l (by simp [hl])]
    rfl

theorem commonPrefix_take (s w : Bytes) (hw : ∀ l ∈ w, 97 ≤ l ∧ l ≤ 122) (n : Nat) (hn : n ≤ commonPrefix s w) : IgnoringCase (s.take n) (w.take n) := by
  induction s generalizing w n with
  | nil => simp [commonPrefix] at hn; subst hn; simp [IgnoringCase]
  | cons c s ih =>
    cases w with
    | nil => simp [commonPrefix] at hn; subst hn; simp [IgnoringCase]
    | cons l w =>
      cases n with
      | zero => simp [IgnoringCase]
      | succ n =>
        rw [commonPrefix] at hn
        have hfold := fold_letter c l (hw l (by simp))
        generalize (if 65 ≤ c ∧ c ≤ 90 then c + 32 else c) = c' at hn hfold
        split at hn
        · next h =>
          exact .cons (hfold.mp h) (ih w (fun l hl => hw l (by simp [hl])) n (by omega))
        · omega

theorem letters_inf : ∀ l ∈ str "infinity", (97 : UInt8) ≤ l ∧ l ≤ 122 := by decide
theorem letters_nan : ∀ l ∈ str "nan", (97 : UInt8) ≤ l ∧ l ≤ 122 := by decide

theorem infinity_fwd {t : Bytes} (h : IgnoringCase t (str "inf") ∨ IgnoringCase t (str "infinity")) (neg : Bool) : infinity neg t = some (.inf neg, t.length) := by
  unfold infinity
  rcases h with h | h
  · have : commonPrefix t (str "infinity") = 3 := commonPrefix_word t (str "inf") (str "inity") (by decide) h
    have hl : t.length = 3 := h.length_eq
    simp [this, hl]
  · have : commonPrefix t (str "infinity") = 8 := commonPrefix_word t (str "infinity") [] (by decide) h
    have hl : t.length = 8 := h.length_eq
    simp [this, hl]

theorem infinity_conv {t : Bytes} {neg : Bool} {x : Datum} {n : Nat} (h : infinity neg t = some (x, n)) (hn : n = t.length) :
    x = .inf neg ∧ (IgnoringCase t (str "inf") ∨ IgnoringCase t (str "infinity")) := by
  unfold infinity at h
  simp only at h
  have take := commonPrefix_take t (str "infinity") letters_inf
  generalize commonPrefix t (str "infinity") = k at h take
  by_cases hk : (if 3 < k ∧ k < 8 then 3 else k) = 3 ∨ (if 3 < k ∧ k < 8 then 3 else k) = 8
  · rw [if_pos hk] at h
    simp only [Option.some.injEq, Prod.mk.injEq] at h
    obtain ⟨rfl, hkn⟩ := h
    refine ⟨rfl, ?_⟩
    rcases hk with hk | hk
    · left
      have h3 : 3 ≤ k := by split at hk <;> omega
      have := take 3 h3
      rwa [List.take_of_length_le (by omega)] at this
    · right
      have h8 : 8 ≤ k := by split at hk <;> omega
      have := take 8 h8
      rwa [List.take_of_length_le (by omega)] at this
  · rw [if_neg hk] at h; cases h

theorem special_nan {s : Bytes} (h : NanWord s) : special s = some (.nan, s.length) := by
  have hp : commonPrefix s (str "nan") = 3 := commonPrefix_word s (str "nan") [] (by decide) h
  have hl : s.length = 3 := h.length_eq
  cases s with
  | nil => cases hl
  | cons c t =>
    have hc : c = 110 ∨ c = 78 := by
      have := h
      unfold NanWord IgnoringCase at this
      have h1 : c = 110 ∨ c + 32 = 110 := by
        cases this with
        | cons h _ => exact h
      have key : ∀ n : Fin 256, UInt8.ofNat n = 110 ∨ UInt8.ofNat n + 32 = 110 → UInt8.ofNat n = 110 ∨ UInt8.ofNat n = 78 := by decide +kernel
      exact forall_byte (P := fun c => c = 110 ∨ c + 32 = 110 → c = 110 ∨ c = 78) key c h1
    rw [hl]
    rcases hc with rfl | rfl <;> simp [special, hp]

theorem head_inf {c : UInt8} {t : Bytes} (h : IgnoringCase (c :: t) (str "inf") ∨ IgnoringCase (c :: t) (str "infinity")) : c = 105 ∨ c = 73 := by
  have h1 : c = 105 ∨ c + 32 = 105 := by
    rcases h with h | h
    · cases h with
      | cons h _ => exact h
    · cases h with
      | cons h _ => exact h
  have key : ∀ n : Fin 256, UInt8.ofNat n = 105 ∨ UInt8.ofNat n + 32 = 105 → UInt8.ofNat n = 105 ∨ UInt8.ofNat n = 73 := by decide +kernel
  exact forall_byte (P := fun c => c = 105 ∨ c + 32 = 105 → c = 105 ∨ c = 73) key c h1

theorem special_inf {s : Bytes} {neg : Bool} (h : InfWord s neg) : special s = some (.inf neg, s.length) := by
  obtain ⟨sg, t, hs, ht, rfl⟩ := h
  have hi := infinity_fwd ht
  cases hs with
  | none =>
    cases t with
    | nil => rcases ht with h | h <;> cases h
    | cons c t =>
      have hc := head_inf ht
      rcases hc with rfl | rfl
      · simpa [special] using hi false
      · simpa [special] using hi false
  | plus => simp [special, hi]
  | minus => simp [special, hi]

theorem special_conv {s : Bytes} {x : Datum} {n : Nat} (h : special s = some (x, n)) (hn : n = s.length) : x = .nan ∧ NanWord s ∨ ∃ neg, x = .inf neg ∧ InfWord s neg := by
  cases s with
  | nil => simp [special] at h
  | cons c t =>
    rw [special] at h
    split at h
    · next hc =>
      right
      rw [Option.map_eq_some_iff] at h
      obtain ⟨⟨y, k⟩, h1, h2⟩ := h
      simp only [Prod.mk.injEq] at h2
      obtain ⟨rfl, rfl⟩ := h2
      obtain ⟨rfl, h3⟩ := infinity_conv h1 (by simpa using hn)
      rcases hc with rfl | rfl
      · exact ⟨_, rfl, [43], t, .plus, h3, rfl⟩
      · exact ⟨_, rfl, [45], t, .minus, h3, rfl⟩
    · split at h
      · right
        obtain ⟨rfl, h3⟩ := infinity_conv h hn
        exact ⟨_, rfl, [], c :: t, .none, h3, rfl⟩
      · split at h
        · split at h
          · next hp =>
            simp only [Option.some.injEq, Prod.mk.injEq] at h
            obtain ⟨rfl, rfl⟩ := h
            left
            refine ⟨rfl, ?_⟩
            have := commonPrefix_take (c :: t) (str "nan") letters_nan 3 (by omega)
            rwa [List.take_of_length_le (by omega)] at this
          · cases h
        · cases h

theorem special_numeral {s : Bytes} {neg : Bool} {b : Nat} {q : ℚ} {x : Int} (h : Numeral s neg b q x) : special s = none := by
  obtain ⟨sg, t, hs, hl, rfl⟩ := h
  obtain ⟨c, t', rfl, hv⟩ := literal_head hl
  have key : ∀ n : Fin 256, (UInt8.ofNat n = 46 ∨ (dval false (UInt8.ofNat n)).isSome) → UInt8.ofNat n ≠ 43 ∧ UInt8.ofNat n ≠ 45 ∧ UInt8.ofNat n ≠ 105 ∧ UInt8.ofNat n ≠ 73 ∧
      UInt8.ofNat n ≠ 110 ∧ UInt8.ofNat n ≠ 78 ∧ (if 65 ≤ UInt8.ofNat n ∧ UInt8.ofNat n ≤ 90 then UInt8.ofNat n + 32 else UInt8.ofNat n) ≠ 105 := by
    unfold dval lower
    decide +kernel
  obtain ⟨k1, k2, k3, k4, k5, k6, k7⟩ := forall_byte (P := fun c => (c = 46 ∨ (dval false c).isSome) → c ≠ 43 ∧ c ≠ 45 ∧ c ≠ 105 ∧ c ≠ 73 ∧ c ≠ 110 ∧ c ≠ 78 ∧
      (if 65 ≤ c ∧ c ≤ 90 then c + 32 else c) ≠ 105) key c (by
    rcases hv with rfl | ⟨v, hv⟩
    · exact .inl rfl
    · exact .inr (by rw [hv]; rfl))
  have hp : commonPrefix (c :: t') (str "infinity") = 0 := by
    show commonPrefix (c :: t') (105 :: _) = 0
    rw [commonPrefix, if_neg k7]
  have hi : ∀ neg, infinity neg (c :: t') = none := by intro neg; simp [infinity, hp]
  cases hs with
  | none => simp [special, k1, k2, k3, k4, k5, k6]
  | plus => simp [special, hi]
  | minus => simp [special, hi]

/-- A numeral gives its rounded value; it is an error exactly if that is an infinity. -/
theorem parse_numeral {s : Bytes} {neg : Bool} {b : Nat} {q : ℚ} {x : Int} (h : Numeral s neg b q x) (hx : |x| < 100000 ∨ s.length ≤ 2000) :
    parseDatum s = (Datum.make f64 neg (if neg then -(q * (b : ℚ) ^ x) else q * (b : ℚ) ^ x),
      decide (Datum.make f64 neg (if neg then -(q * (b : ℚ) ^ x) else q * (b : ℚ) ^ x) = .inf neg)) := by
  obtain ⟨x', hc, hr⟩ := readFloat_fwd h
  have e : Datum.make f64 neg (if neg then -(q * (b : ℚ) ^ x') else q * (b : ℚ) ^ x') = Datum.make f64 neg (if neg then -(q * (b : ℚ) ^ x) else q * (b : ℚ) ^ x) := by
    rcases hx with hx | hx
    · rw [hc.1 hx]
    · obtain ⟨sg, t, hs, hl, rfl⟩ := h
      obtain ⟨h1, h2, h3, h4⟩ := literal_bounds hl
      have ht : t.length ≤ 2000 := by rw [List.length_append] at hx; omega
      have h16 : (16 : ℚ) ^ t.length ≤ 16 ^ 2000 := pow_le_pow_right₀ (by norm_num) ht
      exact make_cut h1 h2 (lt_of_lt_of_le h3 h16) (fun h0 => le_trans (inv_anti₀ (by positivity) h16) (h4 h0)) hc neg
  unfold parseDatum
  rw [special_numeral h]
  simp only [hr, ne_eq, not_true_eq_false, if_false, e]

theorem parse_nan {s : Bytes} (h : NanWord s) : parseDatum s = (.nan, false) := by simp [parseDatum, special_nan h]

theorem parse_inf {s : Bytes} {neg : Bool} (h : InfWord s neg) : parseDatum s = (.inf neg, false) := by simp [parseDatum, special_inf h]

theorem parse_other {s : Bytes} (h1 : ¬ NanWord s) (h2 : ∀ neg, ¬ InfWord s neg) (h3 : ∀ neg b q x, ¬ Numeral s neg b q x) : parseDatum s = (.fin false 0, true) := by
  unfold parseDatum
  split
  · next x n hs =>
    rw [if_neg]
    intro hn
    rcases special_conv hs hn with ⟨_, h⟩ | ⟨neg, _, h⟩
    · exact h1 h
    · exact h2 neg h
  · split
    · rfl
    · next neg q rest hr =>
      rw [if_pos]
      rintro rfl
      obtain ⟨b, q, x, h⟩ := readFloat_conv hr
      exact h3 _ _ _ _ h

end Gse.ParseFloat
