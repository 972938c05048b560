import Verif.Proofs.IeeeOps
import Verif.Spec.Nearest

/-!
# The rounding of Model/Ieee.lean is that of the standard
-/

namespace Gse

theorem rne_near (x y : ℚ) (h : y ≤ ⌊x⌋ ∨ (⌊x⌋ : ℚ) + 1 ≤ y) :
    |(rne x : ℚ) - x| ≤ |y - x| ∧ (y ≠ rne x → |y - x| = |(rne x : ℚ) - x| → rne x % 2 = 0 ∧ |y - rne x| = 1) := by
  have hf := Int.floor_add_fract x
  have h0 := Int.fract_nonneg x
  have h1 := Int.fract_lt_one x
  generalize hn : ⌊x⌋ = n at *
  generalize ht : Int.fract x = t at *
  have hx : x = n + t := hf.symm
  have hr : ((rne x : ℤ) : ℚ) = n ∧ t ≤ 1 / 2 ∧ (t = 1 / 2 → n % 2 = 0) ∧ rne x = n ∨
      ((rne x : ℤ) : ℚ) = n + 1 ∧ 1 / 2 ≤ t ∧ (t = 1 / 2 → n % 2 ≠ 0) ∧ rne x = n + 1 := by
    unfold rne
    rw [hn, ht]
    split
    · next h => exact .inl ⟨rfl, by linarith, fun h' => by linarith, rfl⟩
    · split
      · next h => exact .inr ⟨by push_cast; rfl, by linarith, fun h' => by linarith, rfl⟩
      · split
        · next h => exact .inl ⟨rfl, by linarith, fun _ => h, rfl⟩
        · next h => exact .inr ⟨by push_cast; rfl, by linarith, fun _ => h, rfl⟩
  rcases hr with ⟨hr, ht2, he, hz⟩ | ⟨hr, ht2, he, hz⟩
  · rw [hr, hx, show (n : ℚ) - (n + t) = -t by ring, abs_neg, abs_of_nonneg h0]
    rcases h with h | h
    · have : |y - (n + t)| = n + t - y := by rw [abs_of_nonpos (by linarith)]; ring
      rw [this]
      exact ⟨by linarith, fun h2 h3 => absurd (by linarith) h2⟩
    · have : |y - (n + t)| = y - (n + t) := abs_of_nonneg (by linarith)
      rw [this]
      refine ⟨by linarith, fun h2 h3 => ?_⟩
      have hth : t = 1 / 2 := by linarith
      have hx' := he hth
      rw [← hx, hz]
      refine ⟨hx', ?_⟩
      rw [show y - (n : ℚ) = 1 by linarith]; simp
  · rw [hr, hx, show (n : ℚ) + 1 - (n + t) = 1 - t by ring, abs_of_nonneg (show 0 ≤ 1 - t by linarith)]
    rcases h with h | h
    · have : |y - (n + t)| = n + t - y := by rw [abs_of_nonpos (by linarith)]; ring
      rw [this]
      refine ⟨by linarith, fun h2 h3 => ?_⟩
      have hth : t = 1 / 2 := by linarith
      have hx' := he hth
      rw [← hx, hz]
      refine ⟨by omega, ?_⟩
      rw [show y - ((n : ℚ) + 1) = -1 by linarith]; simp
    · have : |y - (n + t)| = y - (n + t) := abs_of_nonneg (by linarith)
      rw [this]
      exact ⟨by linarith, fun h2 h3 => absurd (by linarith) h2⟩

namespace Format

variable (f : Format)

theorem Rep.neg {f : Format} {r : ℚ} (h : f.Rep r) : f.Rep (-r) := by
  obtain ⟨m, e, h1, h2, rfl⟩ := h
  exact ⟨-m, e, by rwa [abs_neg], h2, by push_cast; ring⟩

/-- The numbers of the format are those that rounding keeps. -/
theorem rep_iff (r : ℚ) : f.Rep r ↔ f.round r = r := by
  constructor
  · rintro ⟨m, e, h1, h2, rfl⟩
    exact f.round_exact h1.le h2
  · intro h
    rcases eq_or_ne r 0 with h0 | h0
    · subst h0; exact ⟨0, 0, by simp, f.emin_le, by simp⟩
    have hq : 0 < |r| := abs_pos.mpr h0
    have hp := f.p_pos
    refine ⟨rne (r / 2 ^ f.ulpExp r), f.ulpExp r, ?_, by unfold ulpExp; omega, h.symm⟩
    -- the significand is exact, so it is below 2 ^ p
    have hm : (rne (r / 2 ^ f.ulpExp r) : ℚ) = r / 2 ^ f.ulpExp r := by
      rw [eq_div_iff (two_zpow_pos _).ne']; exact h
    have : |(rne (r / 2 ^ f.ulpExp r) : ℚ)| < 2 ^ f.p := by
      rw [hm, abs_div, abs_of_pos (two_zpow_pos _), div_lt_iff₀ (two_zpow_pos _)]
      refine (log_bounds hq).2.trans_le ?_
      rw [← zpow_natCast, ← zpow_add₀ (by norm_num)]
      refine zpow_le_zpow_right₀ (by norm_num) ?_
      unfold ulpExp; omega
    exact_mod_cast this

/-- No number of the format lies strictly between neighbouring multiples of the unit in the last place. -/
theorem rep_gap {q r : ℚ} (hq : 0 < q) (hr : f.Rep r) :
    r ≤ ⌊q / 2 ^ f.ulpExp q⌋ * 2 ^ f.ulpExp q ∨ ((⌊q / 2 ^ f.ulpExp q⌋ : ℚ) + 1) * 2 ^ f.ulpExp q ≤ r := by
  by_contra hc
  rw [not_or, not_le, not_le] at hc
  obtain ⟨h1, h2⟩ := hc
  have hu := two_zpow_pos (f.ulpExp q)
  have hp := f.p_pos
  have hn : (0 : ℤ) ≤ ⌊q / 2 ^ f.ulpExp q⌋ := Int.floor_nonneg.mpr (div_nonneg hq.le hu.le)
  have hr0 : 0 < r := lt_of_le_of_lt (mul_nonneg (by exact_mod_cast hn) hu.le) h1
  have hexp : f.ulpExp q ≤ f.ulpExp r := by
    rcases le_or_gt (Int.log 2 |q| - (f.p - 1)) f.emin with h | h
    · unfold ulpExp; omega
    · have hlog : Int.log 2 q ≤ Int.log 2 r := by
        have he : f.ulpExp q ≤ Int.log 2 q := by unfold ulpExp; rw [abs_of_pos hq] at h ⊢; omega
        obtain ⟨N, hN⟩ := zpow_mul_int he
        have hb := (log_bounds hq).1
        have hle : N ≤ ⌊q / 2 ^ f.ulpExp q⌋ := by
          rw [Int.le_floor, le_div_iff₀ hu, ← hN]; exact hb
        have : (2 : ℚ) ^ Int.log 2 q < r := by
          rw [hN]
          refine lt_of_le_of_lt (mul_le_mul_of_nonneg_right ?_ hu.le) h1
          exact_mod_cast hle
        have h3 := (log_bounds hr0).2
        have := (zpow_lt_zpow_iff_right₀ (by norm_num : (1 : ℚ) < 2)).mp (this.trans h3)
        omega
      unfold ulpExp; rw [abs_of_pos hq, abs_of_pos hr0]; omega
  have hm := (f.rep_iff r).mp hr
  obtain ⟨N, hN⟩ := zpow_mul_int hexp
  unfold round at hm
  rw [hN, ← mul_assoc] at hm
  rw [← hm] at h1 h2
  have h3 := lt_of_mul_lt_mul_right h1 hu.le
  have h4 := lt_of_mul_lt_mul_right h2 hu.le
  have h5 : ⌊q / 2 ^ f.ulpExp q⌋ < rne (r / (N * 2 ^ f.ulpExp q)) * N := by exact_mod_cast h3
  have h6 : rne (r / (N * 2 ^ f.ulpExp q)) * N < ⌊q / 2 ^ f.ulpExp q⌋ + 1 := by exact_mod_cast h4
  omega

theorem round_nearest_pos {q : ℚ} (hq : 0 < q) : Nearest f q (f.round q) := by
  have hu := two_zpow_pos (f.ulpExp q)
  have key : ∀ r', f.Rep r' → |f.round q - q| ≤ |r' - q| ∧
      (r' ≠ f.round q → |r' - q| = |f.round q - q| → ∃ k : ℤ, f.round q = 2 * k * |r' - f.round q|) := by
    intro r' hr'
    have hg : r' / 2 ^ f.ulpExp q ≤ ⌊q / 2 ^ f.ulpExp q⌋ ∨ (⌊q / 2 ^ f.ulpExp q⌋ : ℚ) + 1 ≤ r' / 2 ^ f.ulpExp q := by
      rw [div_le_iff₀ hu, le_div_iff₀ hu]; exact f.rep_gap hq hr'
    obtain ⟨h1, h2⟩ := rne_near _ _ hg
    have e1 : f.round q - q = (rne (q / 2 ^ f.ulpExp q) - q / 2 ^ f.ulpExp q) * 2 ^ f.ulpExp q := by
      unfold round; rw [sub_mul, div_mul_cancel₀ _ hu.ne']
    have e2 : r' - q = (r' / 2 ^ f.ulpExp q - q / 2 ^ f.ulpExp q) * 2 ^ f.ulpExp q := by
      rw [sub_mul, div_mul_cancel₀ _ hu.ne', div_mul_cancel₀ _ hu.ne']
    have e3 : r' - f.round q = (r' / 2 ^ f.ulpExp q - rne (q / 2 ^ f.ulpExp q)) * 2 ^ f.ulpExp q := by
      unfold round; rw [sub_mul, div_mul_cancel₀ _ hu.ne']
    rw [e1, e2, abs_mul, abs_mul, abs_of_pos hu]
    refine ⟨mul_le_mul_of_nonneg_right h1 hu.le, fun hne heq => ?_⟩
    obtain ⟨h3, h4⟩ := h2 (fun e => hne (by unfold round; rw [← e, div_mul_cancel₀ _ hu.ne'])) (mul_right_cancel₀ hu.ne' heq)
    rw [e3, abs_mul, h4, abs_of_pos hu, one_mul]
    obtain ⟨k, hk⟩ := Int.dvd_of_emod_eq_zero h3
    refine ⟨k, ?_⟩
    unfold round
    rw [hk]; push_cast; ring
  exact ⟨(f.rep_iff _).mpr (f.round_round q), fun r' h => (key r' h).1, fun r' h => (key r' h).2⟩

theorem _root_.Gse.Nearest.neg {f : Format} {q r : ℚ} (h : Nearest f q r) : Nearest f (-q) (-r) := by
  refine ⟨h.rep.neg, fun r' hr' => ?_, fun r' hr' hne heq => ?_⟩
  · have := h.near (-r') hr'.neg
    rwa [show -r - -q = -(r - q) by ring, abs_neg, ← abs_neg (r' - -q), show -(r' - -q) = -r' - q by ring]
  · rw [show -r - -q = -(r - q) by ring, abs_neg, ← abs_neg (r' - -q), show -(r' - -q) = -r' - q by ring] at heq
    obtain ⟨k, hk⟩ := h.even (-r') hr'.neg (fun e => hne (by rw [← e, neg_neg])) heq
    refine ⟨-k, ?_⟩
    rw [← abs_neg (r' - -r), show -(r' - -r) = -r' - r by ring]
    push_cast
    rw [show 2 * -(k : ℚ) * |-r' - r| = -(2 * k * |-r' - r|) by ring, ← hk]

theorem round_nearest (q : ℚ) : Nearest f q (f.round q) := by
  rcases lt_trichotomy q 0 with h | h | h
  · have := (f.round_nearest_pos (show 0 < -q by linarith)).neg
    rwa [round_neg, neg_neg, neg_neg] at this
  · subst h
    rw [round_zero]
    refine ⟨(f.rep_iff 0).mpr f.round_zero, fun r' _ => by simp, fun r' _ hne heq => ?_⟩
    simp at heq
    exact absurd heq hne
  · exact f.round_nearest_pos h

/-- The specification leaves no choice. -/
theorem nearest_iff (q r : ℚ) : Nearest f q r ↔ r = f.round q := by
  constructor
  · intro h
    have h' := f.round_nearest q
    by_contra hne
    have heq : |r - q| = |f.round q - q| := le_antisymm (h.near _ h'.rep) (h'.near _ h.rep)
    obtain ⟨k, hk⟩ := h.even _ h'.rep (Ne.symm hne) heq.symm
    obtain ⟨k', hk'⟩ := h'.even _ h.rep hne heq
    have hd : 0 < |r - f.round q| := abs_pos.mpr (sub_ne_zero.mpr hne)
    rw [abs_sub_comm] at hk
    set g := |r - f.round q| with hg
    have : r - f.round q = (2 * (k - k') : ℤ) * g := by
      push_cast
      rw [mul_sub, sub_mul, ← hk, ← hk']
    rcases abs_choice (r - f.round q) with h1 | h1
    · have h2 : (2 * (k - k') : ℤ) * g = 1 * g := by rw [← this, one_mul, hg, h1]
      have h3 := mul_right_cancel₀ hd.ne' h2
      have : (2 * (k - k') : ℤ) = 1 := by exact_mod_cast h3
      omega
    · have h2 : (2 * (k - k') : ℤ) * g = -1 * g := by rw [← this, hg, h1]; ring
      have h3 := mul_right_cancel₀ hd.ne' h2
      have : (2 * (k - k') : ℤ) = -1 := by exact_mod_cast h3
      omega
  · rintro rfl; exact f.round_nearest q

/-! ## Overflow -/

theorem greatest_rep : f.Rep f.greatest := by
  refine ⟨2 ^ f.p - 1, ((f.emax - f.p : ℕ) : ℤ), ?_, f.emin_le.trans (by positivity), ?_⟩
  · have : (1 : ℤ) ≤ 2 ^ f.p := one_le_pow₀ (by norm_num)
    rw [abs_of_nonneg (by omega)]; omega
  · unfold greatest; push_cast; rw [zpow_natCast]

theorem top_eq : (2 : ℚ) ^ f.emax = f.greatest + 2 ^ (f.emax - f.p) := by
  unfold greatest
  rw [sub_mul, one_mul, sub_add_cancel, ← pow_add, Nat.add_sub_cancel' f.p_le]

theorem top_rep : f.Rep (2 ^ f.emax) := by
  rw [rep_iff]
  have := f.round_zpow (e := (f.emax : ℤ)) (f.emin_le.trans (by positivity))
  rwa [zpow_natCast] at this

theorem greatest_pos : 0 < f.greatest := by
  have : (2 : ℚ) ≤ 2 ^ f.p := by
    calc (2 : ℚ) = 2 ^ 1 := by norm_num
      _ ≤ 2 ^ f.p := pow_le_pow_right₀ (by norm_num) f.p_pos
  unfold greatest
  refine mul_pos (by linarith) (by positivity)

/-- There is nothing between the greatest number and the power of two above. -/
theorem rep_top {r : ℚ} (hr : f.Rep r) : r ≤ f.greatest ∨ 2 ^ f.emax ≤ r := by
  have hg := f.greatest_pos
  have hlog : Int.log 2 f.greatest = f.emax - 1 := by
    have h1 : (2 : ℚ) ^ ((f.emax : ℤ) - 1) ≤ f.greatest := by
      have hp := f.p_pos
      have : (2 : ℚ) ^ ((f.emax : ℤ) - 1) = 2 ^ (f.p - 1) * 2 ^ (f.emax - f.p) := by
        rw [← pow_add, ← zpow_natCast]
        congr 1
        have := f.p_le
        omega
      rw [this]
      unfold greatest
      refine mul_le_mul_of_nonneg_right ?_ (by positivity)
      obtain ⟨k, hk⟩ : ∃ k, f.p = k + 1 := ⟨f.p - 1, by omega⟩
      rw [hk, Nat.add_sub_cancel, pow_succ]
      have : (1 : ℚ) ≤ 2 ^ k := one_le_pow₀ (by norm_num)
      linarith
    have h2 : f.greatest < (2 : ℚ) ^ (f.emax : ℤ) := by
      rw [zpow_natCast, top_eq]
      have : (0 : ℚ) < 2 ^ (f.emax - f.p) := by positivity
      linarith
    obtain ⟨h3, h4⟩ := log_bounds hg
    have h5 := (zpow_lt_zpow_iff_right₀ (by norm_num : (1 : ℚ) < 2)).mp (h3.trans_lt h2)
    have h6 := (zpow_lt_zpow_iff_right₀ (by norm_num : (1 : ℚ) < 2)).mp (h1.trans_lt h4)
    omega
  have hu : f.ulpExp f.greatest = ((f.emax - f.p : ℕ) : ℤ) := by
    have := f.p_le
    have h2 := f.emin_le
    unfold ulpExp; rw [abs_of_pos hg, hlog]; omega
  have hfl : ⌊f.greatest / 2 ^ f.ulpExp f.greatest⌋ = 2 ^ f.p - 1 := by
    rw [hu, zpow_natCast]
    have : f.greatest / 2 ^ (f.emax - f.p) = ((2 ^ f.p - 1 : ℤ) : ℚ) := by
      rw [div_eq_iff (by positivity)]; unfold greatest; push_cast; rfl
    rw [this, Int.floor_intCast]
  have := f.rep_gap hg hr
  rw [hfl, hu, zpow_natCast] at this
  rcases this with h | h
  · left; unfold greatest; push_cast at h; exact h
  · right
    rw [top_eq]; unfold greatest
    push_cast at h
    linarith

theorem overflow_pos (q : ℚ) : 2 ^ f.emax ≤ f.round q ↔ f.greatest + 2 ^ (f.emax - f.p) / 2 ≤ q := by
  have hN := f.round_nearest q
  have ht := f.top_eq
  have hu : (0 : ℚ) < 2 ^ (f.emax - f.p) := by positivity
  constructor
  · intro h
    by_contra hc
    rw [not_le] at hc
    rcases le_total q f.greatest with h1 | h1
    · have := f.round_mono h1
      rw [(f.rep_iff _).mp f.greatest_rep] at this
      linarith
    · have h2 := hN.near _ f.greatest_rep
      rw [abs_of_nonneg (by linarith), abs_of_nonpos (by linarith)] at h2
      linarith
  · intro h
    rcases f.rep_top hN.rep with h1 | h1
    · exfalso
      rcases le_total q (2 ^ f.emax) with h2 | h2
      · have h3 := hN.near _ f.top_rep
        have h4 := hN.near _ f.greatest_rep
        have e1 : |f.round q - q| = q - f.round q := by rw [abs_of_nonpos (by linarith)]; ring
        have e2 : |2 ^ f.emax - q| = 2 ^ f.emax - q := abs_of_nonneg (by linarith)
        rw [e1, e2] at h3
        have hqT : q = f.greatest + 2 ^ (f.emax - f.p) / 2 := by linarith
        have hrG : f.round q = f.greatest := by linarith
        obtain ⟨k, hk⟩ := hN.even _ f.top_rep (by rw [hrG]; linarith) (by rw [e1, e2]; linarith)
        rw [hrG, show (2 : ℚ) ^ f.emax - f.greatest = 2 ^ (f.emax - f.p) by linarith, abs_of_pos hu] at hk
        unfold greatest at hk
        have h5 := mul_right_cancel₀ hu.ne' hk
        have h6 : (2 ^ f.p - 1 : ℤ) = 2 * k := by exact_mod_cast h5
        obtain ⟨j, hj⟩ : ∃ j, f.p = j + 1 := ⟨f.p - 1, by have := f.p_pos; omega⟩
        rw [hj, pow_succ] at h6
        omega
      · have := f.round_mono h2
        rw [(f.rep_iff _).mp f.top_rep] at this
        linarith
    · exact h1

theorem overflow_iff (q : ℚ) : 2 ^ f.emax ≤ |f.round q| ↔ f.greatest + 2 ^ (f.emax - f.p) / 2 ≤ |q| := by
  rcases le_total 0 q with h | h
  · rw [abs_of_nonneg h, abs_of_nonneg (f.round_nonneg h)]; exact f.overflow_pos q
  · have h' := f.round_nonneg (show 0 ≤ -q by linarith)
    have := f.overflow_pos (-q)
    rw [round_neg] at h' this
    rw [abs_of_nonpos h, abs_of_nonpos (by linarith)]; exact this

end Format

open Format

namespace Datum
variable (f : Format)

theorem make_rounded (s : Bool) (q : ℚ) : Rounded f q (make f s q) := by
  have hN := f.round_nearest q
  refine ⟨fun h => ?_, fun h => ?_⟩
  · have h1 := (f.overflow_iff q).mpr h
    have h2 : q ≠ 0 := by
      rintro rfl
      rw [round_zero, abs_zero] at h1
      have : (0 : ℚ) < 2 ^ f.emax := by positivity
      linarith
    unfold make
    rw [if_neg h2, if_pos h1]
  · have h1 : ¬ 2 ^ f.emax ≤ |f.round q| := fun h' => absurd ((f.overflow_iff q).mp h') (not_le.mpr h)
    by_cases h0 : q = 0
    · subst h0
      rw [round_zero] at hN
      exact ⟨s, 0, by simp [make], hN, fun h => absurd h (lt_irrefl _), fun h => absurd h (lt_irrefl _)⟩
    · refine ⟨decide (q < 0), f.round q, by unfold make; rw [if_neg h0, if_neg h1], hN, fun h => by simpa using h, fun h => ?_⟩
      simpa using h.le

end Datum

/-- A datum is determined by the exact result, but for the sign of zero. -/
theorem rounded_unique {f : Format} {q : ℚ} {x y : Datum} (hx : Rounded f q x) (hy : Rounded f q y) (h0 : q ≠ 0) : x = y := by
  rcases le_or_gt (f.greatest + 2 ^ (f.emax - f.p) / 2) |q| with h | h
  · rw [hx.over h, hy.over h]
  · obtain ⟨s, r, rfl, hr, h1, h2⟩ := hx.fits h
    obtain ⟨s', r', rfl, hr', h1', h2'⟩ := hy.fits h
    rw [(f.nearest_iff q r).mp hr, (f.nearest_iff q r').mp hr']
    rcases lt_or_gt_of_ne h0 with h3 | h3
    · rw [h1 h3, h1' h3]
    · rw [h2 h3, h2' h3]

section ops
variable (f : Format)
open Datum

/-- `x + y` of finite numbers: the exact sum rounded. A sum that is exactly zero is `-0` if both are `-0`, else `+0`. -/
theorem add_rounded (s t : Bool) (q r : ℚ) : Rounded f (q + r) (add f (fin s q) (fin t r)) := make_rounded f _ _

theorem add_zero_sign (s t : Bool) (q r : ℚ) (h : q + r = 0) : add f (fin s q) (fin t r) = fin (s && t) 0 := by simp [add, make, h]

/-- `x * y` of finite numbers: the exact product rounded, negative if the signs differ. -/
theorem mul_rounded (s t : Bool) (q r : ℚ) : Rounded f (q * r) (mul f (fin s q) (fin t r)) := make_rounded f _ _

theorem mul_zero_sign (s t : Bool) (q r : ℚ) (h : q * r = 0) : mul f (fin s q) (fin t r) = fin (s ^^ t) 0 := by simp [mul, make, h]

/-- `x / y` of finite numbers, `y` not zero: the exact quotient rounded, negative if the signs differ. -/
theorem div_rounded (s t : Bool) (q r : ℚ) (h : r ≠ 0) : Rounded f (q / r) (div f (fin s q) (fin t r)) := by
  simp only [div, if_neg h]; exact make_rounded f _ _

theorem div_zero_sign (s t : Bool) (r : ℚ) (h : r ≠ 0) : div f (fin s 0) (fin t r) = fin (s ^^ t) 0 := by simp [div, make, h]

/-- Conversions round. -/
theorem convert_rounded (s : Bool) (q : ℚ) : Rounded f q (convert f (fin s q)) := make_rounded f _ _

theorem ofNat_rounded (n : Nat) : Rounded f n (ofNat f n) := make_rounded f _ _

/-- The invalid operations of section 7.2 give NaN, and only they and NaN do. -/
theorem add_nan (x y : Datum) : add f x y = nan ↔ x = nan ∨ y = nan ∨ ∃ s, x = inf s ∧ y = inf (!s) := by
  cases x <;> cases y <;> simp [add, make_ne_nan]
  rename_i a b
  cases a <;> cases b <;> simp

theorem mul_nan (x y : Datum) : mul f x y = nan ↔ x = nan ∨ y = nan ∨ (∃ s t, x = inf s ∧ y = fin t 0) ∨ ∃ s t, x = fin s 0 ∧ y = inf t := by
  cases x <;> cases y <;> simp [mul, make_ne_nan]

theorem div_nan (x y : Datum) : div f x y = nan ↔ x = nan ∨ y = nan ∨ (∃ s t, x = inf s ∧ y = inf t) ∨ ∃ s t, x = fin s 0 ∧ y = fin t 0 := by
  cases x <;> cases y <;> simp [div]
  split
  · split
    · simp [*]
    · simp [*]
  · simp [make_ne_nan, *]

/-- Infinities are the limits of great numbers. -/
theorem add_inf (s : Bool) (t : Bool) (q : ℚ) : add f (inf s) (fin t q) = inf s ∧ add f (fin t q) (inf s) = inf s ∧ add f (inf s) (inf s) = inf s := by
  simp [add]

theorem mul_inf (s t : Bool) (q : ℚ) (h : q ≠ 0) : mul f (inf s) (fin t q) = inf (s ^^ t) ∧ mul f (fin t q) (inf s) = inf (s ^^ t) ∧
    mul f (inf s) (inf t) = inf (s ^^ t) := by
  simp [mul, h, Bool.xor_comm]

/-- A quotient by zero is an infinity, a quotient by an infinity is zero. -/
theorem div_inf (s t : Bool) (q : ℚ) : (q ≠ 0 → div f (fin s q) (fin t 0) = inf (s ^^ t)) ∧ div f (fin s q) (inf t) = fin (s ^^ t) 0 ∧
    div f (inf s) (fin t q) = inf (s ^^ t) := by
  refine ⟨fun h => ?_, rfl, rfl⟩
  simp [div, h]

/-- Exactly one of less, equal, greater and unordered holds, and unordered means that one is NaN. -/
theorem compare_one (x y : Datum) : (x = nan ∨ y = nan) ∧ lt x y = false ∧ eq x y = false ∧ lt y x = false ∨
    (x ≠ nan ∧ y ≠ nan) ∧ (lt x y = true ∧ eq x y = false ∧ lt y x = false ∨ lt x y = false ∧ eq x y = true ∧ lt y x = false ∨
      lt x y = false ∧ eq x y = false ∧ lt y x = true) := by
  cases x <;> cases y <;> simp [lt, eq]
  · rename_i a b; cases a <;> cases b <;> simp
  · rename_i s q t r
    rcases lt_trichotomy q r with h | h | h
    · simp [h, h.ne, h.le]
    · simp [h]
    · simp [h, h.ne', h.le]

/-- Finite numbers compare as numbers, zeros of both signs are equal, infinities lie outside. -/
theorem compare_fin (s t : Bool) (q r : ℚ) : (lt (fin s q) (fin t r) = true ↔ q < r) ∧ (eq (fin s q) (fin t r) = true ↔ q = r) ∧
    lt (fin s q) (inf false) = true ∧ lt (inf true) (fin s q) = true ∧ lt (inf true) (inf false) = true := by
  simp [lt, eq]

/-- The integer part, towards zero. -/
theorem trunc_val {f : Format} {s : Bool} {q : ℚ} (h : (fin s q).Ok f) :
    ∃ (t : Bool) (n : ℤ), trunc f (fin s q) = fin t n ∧ |(n : ℚ)| ≤ |q| ∧ |q| < |(n : ℚ)| + 1 ∧ (n ≠ 0 → (0 < n ↔ 0 < q)) := by
  obtain ⟨h1, h2, _, _⟩ := h
  obtain ⟨m, e, hm, he, hq⟩ := (f.rep_iff q).mpr h1
  have key : ∀ n : ℤ, |(n : ℚ)| ≤ |q| → |q| < |(n : ℚ)| + 1 → f.round n = n := by
    intro n hn hn'
    rcases le_or_gt 0 e with he0 | he0
    · obtain ⟨N, hN⟩ := zpow_mul_int he0
      have hqi : q = ((m * N : ℤ) : ℚ) := by rw [hq, hN]; push_cast; simp
      rw [hqi] at hn hn'
      have h3 : |n| ≤ |m * N| := by exact_mod_cast hn
      have h4 : |m * N| < |n| + 1 := by exact_mod_cast hn'
      have h5 : |n| = |m * N| := by omega
      rcases abs_eq_abs.mp h5 with h6 | h6
      · rw [h6, ← hqi]; exact h1
      · rw [h6]; push_cast; rw [round_neg]
        have : f.round ((m : ℚ) * N) = m * N := by rw [hqi] at h1; push_cast at h1; exact h1
        rw [this]
    · refine f.round_int ?_
      have h3 : |q| ≤ |(m : ℚ)| := by
        rw [hq, abs_mul, abs_of_pos (two_zpow_pos e)]
        refine mul_le_of_le_one_right (abs_nonneg _) ?_
        exact zpow_le_one_of_nonpos₀ (by norm_num) he0.le
      have h4 : |n| ≤ |m| := by exact_mod_cast hn.trans h3
      omega
  have mk : ∀ (n : ℤ), |(n : ℚ)| ≤ |q| → |q| < |(n : ℚ)| + 1 → ∃ t, make f s n = fin t n := by
    intro n hn hn'
    have hr := key n hn hn'
    unfold make
    split
    · next h0 => rw [h0]; exact ⟨s, rfl⟩
    · rw [hr, if_neg (by rw [not_le]; exact lt_of_le_of_lt hn h2)]
      exact ⟨_, rfl⟩
  have hfl := Int.floor_le q
  have hfl' := Int.lt_floor_add_one q
  have hce := Int.le_ceil q
  have hce' := Int.ceil_lt_add_one q
  rcases lt_or_ge q 0 with h0 | h0
  · have hn0 : ⌈q⌉ ≤ 0 := Int.ceil_le.mpr (by push_cast; exact h0.le)
    have hn0' : ((⌈q⌉ : ℤ) : ℚ) ≤ 0 := by exact_mod_cast hn0
    have a1 : |((⌈q⌉ : ℤ) : ℚ)| ≤ |q| := by rw [abs_of_nonpos hn0', abs_of_neg h0]; linarith
    have a2 : |q| < |((⌈q⌉ : ℤ) : ℚ)| + 1 := by rw [abs_of_nonpos hn0', abs_of_neg h0]; linarith
    obtain ⟨t, ht⟩ := mk _ a1 a2
    refine ⟨t, ⌈q⌉, by simp only [trunc, if_pos h0]; exact ht, a1, a2, fun hne => ⟨fun h => by omega, fun h => absurd h (not_lt.mpr h0.le)⟩⟩
  · have hn0 : 0 ≤ ⌊q⌋ := Int.floor_nonneg.mpr h0
    have hn0' : (0 : ℚ) ≤ ((⌊q⌋ : ℤ) : ℚ) := by exact_mod_cast hn0
    have a1 : |((⌊q⌋ : ℤ) : ℚ)| ≤ |q| := by rw [abs_of_nonneg hn0', abs_of_nonneg h0]; linarith
    have a2 : |q| < |((⌊q⌋ : ℤ) : ℚ)| + 1 := by rw [abs_of_nonneg hn0', abs_of_nonneg h0]; linarith
    obtain ⟨t, ht⟩ := mk _ a1 a2
    refine ⟨t, ⌊q⌋, by simp only [trunc, if_neg (not_lt.mpr h0)]; exact ht, a1, a2, fun hne => ⟨fun h => ?_, fun h => by omega⟩⟩
    have : (0 : ℚ) < ((⌊q⌋ : ℤ) : ℚ) := by exact_mod_cast h
    linarith

end ops

/-! ## The two formats -/

namespace Format
variable (f : Format)

theorem rep_smallest : f.Rep ((2 : ℚ) ^ f.emin) ∧ ∀ r, f.Rep r → 0 < r → (2 : ℚ) ^ f.emin ≤ r := by
  refine ⟨⟨1, f.emin, ?_, le_refl _, by simp⟩, ?_⟩
  · obtain ⟨j, hj⟩ : ∃ j, f.p = j + 1 := ⟨f.p - 1, by have := f.p_pos; omega⟩
    have : (1 : ℤ) ≤ 2 ^ j := one_le_pow₀ (by norm_num)
    rw [hj, pow_succ, abs_one]; omega
  · rintro r ⟨m, e, _, he, rfl⟩ h0
    have hm : 0 < m := by
      have := (mul_pos_iff_of_pos_right (two_zpow_pos e)).mp h0
      exact_mod_cast this
    have h1 : (1 : ℚ) ≤ m := by exact_mod_cast hm
    calc (2 : ℚ) ^ f.emin ≤ 2 ^ e := zpow_le_zpow_right₀ (by norm_num) he
      _ = 1 * 2 ^ e := (one_mul _).symm
      _ ≤ m * 2 ^ e := mul_le_mul_of_nonneg_right h1 (two_zpow_pos e).le

theorem rep_next (h : f.emin ≤ 1 - f.p) (h2 : 2 ≤ f.p) : f.Rep (1 + (2 : ℚ) ^ (1 - (f.p : ℤ))) ∧ ∀ r, f.Rep r → 1 < r → 1 + (2 : ℚ) ^ (1 - (f.p : ℤ)) ≤ r := by
  have hu : f.ulpExp 1 = 1 - f.p := by unfold ulpExp; rw [abs_one, Int.log_one_right]; omega
  obtain ⟨j, hj⟩ : ∃ j, f.p = j + 2 := ⟨f.p - 2, by omega⟩
  have hmul : (1 : ℚ) = ((2 ^ (j + 1) : ℤ) : ℚ) * 2 ^ (1 - (f.p : ℤ)) := by
    push_cast
    rw [← zpow_natCast, ← zpow_add₀ (by norm_num)]
    rw [show ((j + 1 : ℕ) : ℤ) + (1 - (f.p : ℤ)) = 0 by push_cast; omega, zpow_zero]
  refine ⟨⟨2 ^ (j + 1) + 1, 1 - f.p, ?_, h, ?_⟩, fun r hr h1 => ?_⟩
  · have : (1 : ℤ) ≤ 2 ^ j := one_le_pow₀ (by norm_num)
    rw [hj, abs_of_nonneg (by positivity), pow_succ, pow_succ, pow_succ]; omega
  · push_cast at hmul ⊢
    rw [add_mul, one_mul, ← hmul]
  · have hg := f.rep_gap (q := 1) one_pos hr
    have hfl : ⌊(1 : ℚ) / 2 ^ (1 - (f.p : ℤ))⌋ = 2 ^ (j + 1) := by
      rw [show (1 : ℚ) / 2 ^ (1 - (f.p : ℤ)) = ((2 ^ (j + 1) : ℤ) : ℚ) from by rw [div_eq_iff (two_zpow_pos _).ne']; exact hmul, Int.floor_intCast]
    rw [hu, hfl, ← hmul, add_mul, one_mul, ← hmul] at hg
    rcases hg with hg | hg
    · exact absurd h1 (not_lt.mpr hg)
    · exact hg

end Format

/-- binary64: the greatest number is `2^1024 - 2^971`, the smallest positive one `2^-1074`, the one after 1 is `1 + 2^-52`. -/
theorem f64_range : f64.greatest = 2 ^ 1024 - 2 ^ 971 ∧ f64.Rep ((2 : ℚ) ^ (-1074 : ℤ)) ∧ (∀ r, f64.Rep r → 0 < r → (2 : ℚ) ^ (-1074 : ℤ) ≤ r) ∧
    f64.Rep (1 + (2 : ℚ) ^ (-52 : ℤ)) ∧ ∀ r, f64.Rep r → 1 < r → 1 + (2 : ℚ) ^ (-52 : ℤ) ≤ r := by
  have h1 := f64.rep_smallest
  have h2 := f64.rep_next (by decide) (by decide)
  refine ⟨?_, h1.1, h1.2, by simpa [f64] using h2.1, by simpa [f64] using h2.2⟩
  simp only [greatest, f64]
  rw [show (1024 : ℕ) - 53 = 971 by rfl, show (2 : ℚ) ^ 1024 = 2 ^ 53 * 2 ^ 971 by rw [← pow_add]]
  rw [sub_mul, one_mul]

/-- binary32: the greatest number is `2^128 - 2^104`, the smallest positive one `2^-149`, the one after 1 is `1 + 2^-23`. -/
theorem f32_range : f32.greatest = 2 ^ 128 - 2 ^ 104 ∧ f32.Rep ((2 : ℚ) ^ (-149 : ℤ)) ∧ (∀ r, f32.Rep r → 0 < r → (2 : ℚ) ^ (-149 : ℤ) ≤ r) ∧
    f32.Rep (1 + (2 : ℚ) ^ (-23 : ℤ)) ∧ ∀ r, f32.Rep r → 1 < r → 1 + (2 : ℚ) ^ (-23 : ℤ) ≤ r := by
  have h1 := f32.rep_smallest
  have h2 := f32.rep_next (by decide) (by decide)
  refine ⟨?_, h1.1, h1.2, by simpa [f32] using h2.1, by simpa [f32] using h2.2⟩
  simp only [greatest, f32]
  norm_num

/-- One and a half units after 1 lies between two numbers; the even one is taken, here the greater. -/
example : Nearest f32 (1 + 3 * 2 ^ (-24 : ℤ)) (1 + 2 * 2 ^ (-23 : ℤ)) := by
  rw [f32.nearest_iff]
  have hl : Int.log 2 |(1 + 3 * 2 ^ (-24 : ℤ) : ℚ)| = 0 := by
    rw [abs_of_pos (by norm_num)]
    have h := log_bounds (q := (1 + 3 * 2 ^ (-24 : ℤ) : ℚ)) (by norm_num)
    have h1 := (zpow_lt_zpow_iff_right₀ (by norm_num : (1 : ℚ) < 2)).mp (h.1.trans_lt (show _ < (2 : ℚ) ^ (1 : ℤ) by norm_num))
    have h2 := (zpow_lt_zpow_iff_right₀ (by norm_num : (1 : ℚ) < 2)).mp ((show (2 : ℚ) ^ (0 : ℤ) ≤ _ by norm_num).trans_lt h.2)
    omega
  have hu : f32.ulpExp (1 + 3 * 2 ^ (-24 : ℤ)) = -23 := by unfold ulpExp; rw [hl]; rfl
  have hf : ⌊(8388609.5 : ℚ)⌋ = 8388609 := by rw [Int.floor_eq_iff]; norm_num
  unfold Format.round
  rw [hu, show (1 + 3 * 2 ^ (-24 : ℤ) : ℚ) / 2 ^ (-23 : ℤ) = 8388609.5 by norm_num]
  unfold rne
  rw [Int.fract, hf]
  norm_num

end Gse
