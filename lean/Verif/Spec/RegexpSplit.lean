import Verif.Model.RegexpSplit

/-!
# Specification of RegexpSplit
-/

namespace Gse.Spec

open Gse

/-- A list of matches as the regexp package returns them: in order, not overlapping, within the text. -/
inductive Matches : Nat → Nat → List (Nat × Nat) → Prop
  | nil {b n : Nat} : b ≤ n → Matches b n []
  | cons {b n : Nat} {m : Nat × Nat} {ms : List (Nat × Nat)} : b ≤ m.1 → m.1 ≤ m.2 → Matches m.2 n ms → Matches b n (m :: ms)

/-- The pieces are, alternately, a gap and a match. -/
inductive Alternates (s : Bytes) : Nat → List (Nat × Nat) → List Bytes → Prop
  | last {b : Nat} : Alternates s b [] [s.drop b]
  | next {b : Nat} {m : Nat × Nat} {ms : List (Nat × Nat)} {l : List Bytes} : Alternates s m.2 ms l →
      Alternates s b (m :: ms) (slice s b m.1 :: slice s m.1 m.2 :: l)

/-- The gaps between the matches. -/
inductive Gaps (s : Bytes) : Nat → List (Nat × Nat) → List Bytes → Prop
  | last {b : Nat} : Gaps s b [] [s.drop b]
  | next {b : Nat} {m : Nat × Nat} {ms : List (Nat × Nat)} {l : List Bytes} : Gaps s m.2 ms l → Gaps s b (m :: ms) (slice s b m.1 :: l)

end Gse.Spec
