import Verif.Spec.Segment

/-!
# Specification of DAG routes

A route writes a text as stored words of positive frequency, with single characters where no such word starts.
-/

namespace Gse.Spec

open Gse

variable {F D : Type} [F64 F] [F32 D]

/-- The characters `t` are a stored word of positive frequency. -/
def posWord (d : Dictionary F D) (t : List Rune) : Bool :=
  (storedTok d (encode t)).any fun tok => F64.lt (F64.ofNat 0) tok.freq

/-- Some word of positive frequency starts the text. -/
def StartsWord (d : Dictionary F D) (text : List Rune) : Prop := ∃ u, u <+: text ∧ u ≠ [] ∧ posWord d u = true

/-- `ps` is a route through the text. -/
inductive IsRoute (d : Dictionary F D) : List Rune → List (List Rune) → Prop
  | nil : IsRoute d [] []
  | cons {t rest : List Rune} {ps : List (List Rune)} : t ≠ [] →
      (posWord d t = true ∨ (t.length = 1 ∧ ¬ StartsWord d (t ++ rest))) → IsRoute d rest ps → IsRoute d (t ++ rest) (t :: ps)

/-- `w` starts some stored word. -/
def StartsStored (d : Dictionary F D) (w : Bytes) : Prop := ∃ k tok, storedTok d k = some tok ∧ w <+: k

open Classical in
/-- The frequency a piece counts with: its own if stored, 0 if it only begins stored words, 1 if unknown. -/
noncomputable def pieceFreq (d : Dictionary F D) (t : List Rune) : F :=
  match storedTok d (encode t) with
  | some tok => tok.freq
  | none => if StartsStored d (encode t) then F64.ofNat 0 else F64.ofNat 1

/-- The logarithm of the frequency of one piece, less `T`. -/
noncomputable def pieceScoreBy (T : F) (d : Dictionary F D) (t : List Rune) : F := F64.sub (F64.log (pieceFreq d t)) T

/-- The score of a route, added from the right. -/
noncomputable def scoreBy (T : F) (d : Dictionary F D) (ps : List (List Rune)) : F :=
  ps.foldr (fun t acc => F64.add (pieceScoreBy T d t) acc) (F64.ofNat 0)

/-- The score of a route by log-probabilities: `T` is the logarithm of the total. -/
noncomputable abbrev score (d : Dictionary F D) (ps : List (List Rune)) : F := scoreBy (F64.log d.totalFreq) d ps

end Gse.Spec

namespace Gse

/-- What the optimality theorems assume about `float64`: on the values in `good`, `<` is a strict weak order, `==` is
its equivalence, adding is commutative, and adding a value on the left is monotone. The non-positive values and `-Inf` are an instance: their
sums stay among them, and rounding is monotone. -/
class F64Laws (F : Type) [F64 F] where
  good : F → Prop
  good_zero : good (F64.ofNat 0)
  good_add : ∀ {a b : F}, good a → good b → good (F64.add a b)
  lt_asymm : ∀ {a b : F}, good a → good b → F64.lt a b = true → F64.lt b a = false
  lt_cotrans : ∀ {a b c : F}, good a → good b → good c → F64.lt a c = true → F64.lt a b = true ∨ F64.lt b c = true
  add_mono : ∀ {a b c : F}, good a → good b → good c → F64.lt a b = false → F64.lt (F64.add c a) (F64.add c b) = false
  add_comm : ∀ {a b : F}, good a → good b → F64.add a b = F64.add b a
  eq_iff : ∀ {a b : F}, good a → good b → (F64.eq a b = true ↔ F64.lt a b = false ∧ F64.lt b a = false)

namespace Spec

variable {F D : Type} [F64 F] [F32 D]

/-- Every piece score a route can use is a number of the assumed range. -/
def GoodScoresBy [F64Laws F] (T : F) (d : Dictionary F D) : Prop :=
  ∀ t, t ≠ [] → posWord d t = true ∨ t.length = 1 → F64Laws.good (pieceScoreBy T d t)

/-- The same for log-probabilities. -/
abbrev GoodScores [F64Laws F] (d : Dictionary F D) : Prop := GoodScoresBy (F64.log d.totalFreq) d

/-- `ps` is the best route through `text`: from every cut on, no other route of the rest scores higher, and one that
does not score lower does not start with a longer piece. -/
structure IsBestRouteBy (T : F) (d : Dictionary F D) (text : List Rune) (ps : List (List Rune)) : Prop where
  route : IsRoute d text ps
  highest : ∀ p q, ps = p ++ q → ∀ q', IsRoute d q.flatten q' → F64.lt (scoreBy T d q) (scoreBy T d q') = false
  longest : ∀ p t q, ps = p ++ t :: q → ∀ t' q', IsRoute d (t :: q).flatten (t' :: q') →
    F64.lt (scoreBy T d (t' :: q')) (scoreBy T d (t :: q)) = false → t'.length ≤ t.length

/-- The best route by log-probabilities. -/
abbrev IsBestRoute (d : Dictionary F D) (text : List Rune) (ps : List (List Rune)) : Prop :=
  IsBestRouteBy (F64.log d.totalFreq) d text ps

/-- One ASCII letter or digit. -/
def asciiAlnum (r : Rune) : Bool :=
  (str "0123456789abcdefghijklmnopqrstuvwxyzABCDEFGHIJKLMNOPQRSTUVWXYZ").any fun b => b.toNat = r

/-- `groups` collects consecutive pieces: a group is one piece not satisfying `p`, or a maximal run of pieces satisfying
`p`. -/
structure IsRuns {α : Type} (p : α → Prop) (xs : List α) (groups : List (List α)) : Prop where
  flat : groups.flatten = xs
  kind : ∀ g ∈ groups, (∃ x, g = [x] ∧ ¬ p x) ∨ (g ≠ [] ∧ ∀ x ∈ g, p x)
  maximal : ∀ a g h b, groups = a ++ g :: h :: b → ¬ ((∀ x ∈ g, p x) ∧ (∀ x ∈ h, p x))

end Spec
end Gse

namespace Gse.Spec

/-- `sub` occurs in `data` at offset `m`. -/
def OccAt (data sub : Bytes) (m : Nat) : Prop := m ≤ data.length ∧ sub <+: data.drop m

/-- The occurrences found by scanning from the right, below `index`, without overlap. -/
inductive RightOccs (data sub : Bytes) : Nat → List Nat → Prop
  | nil {index : Nat} : (∀ m, OccAt data sub m → ¬ m + sub.length ≤ index) → RightOccs data sub index []
  | cons {index m : Nat} {l : List Nat} : OccAt data sub m → m + sub.length ≤ index →
      (∀ m', OccAt data sub m' → m' + sub.length ≤ index → m' ≤ m) → RightOccs data sub m l → RightOccs data sub index (m :: l)

end Gse.Spec

namespace Gse.Spec

variable {F D : Type} [F64 F] [F32 D]

/-- The characters a DAG cut works on: the text, lower-cased if asked for. -/
def dagText [U : Unicode] (cfg : SplitCfg) (s : Bytes) : List Rune := if cfg.toLower then (runes s).map U.toLower else runes s

/-- A piece that is one ASCII letter or digit. -/
def EngPiece (t : List Rune) : Prop := ∃ r, t = [r] ∧ asciiAlnum r = true

/-- What `cutDAG` emits for a run of single characters or for a longer piece. -/
inductive RunOut (d : Dictionary F D) (cut : Bytes → Option (List Bytes)) : List (List Rune) → List Bytes → Prop
  | word {t : List Rune} : t.length ≠ 1 → RunOut d cut [t] [encode t]
  | one {t : List Rune} : t.length = 1 → RunOut d cut [t] [encode t]
  | known {g : List (List Rune)} {tok : Token F D} : 2 ≤ g.length → (∀ t ∈ g, t.length = 1) →
      storedTok d (encode g.flatten) = some tok → F64.eq tok.freq (F64.ofNat 0) = false → RunOut d cut g (g.map encode)
  | hmm {g : List (List Rune)} {o : List Bytes} : 2 ≤ g.length → (∀ t ∈ g, t.length = 1) →
      (∀ tok, storedTok d (encode g.flatten) = some tok → F64.eq tok.freq (F64.ofNat 0) = true) →
      cut (encode g.flatten) = some o → RunOut d cut g o

/-- The stored proper substrings of `n` characters, from left to right. -/
def gramsOf (d : Dictionary F D) (rs : List Rune) (n : Nat) : List Bytes :=
  if rs.length ≤ n then []
  else ((List.range (rs.length + 1 - n)).filter fun i => posWord d (slice rs i (i + n))).map fun i => encode (slice rs i (i + n))

/-- Order of the items: by start, then by end. -/
def Before (p q : Nat × Nat) : Prop := p.1 < q.1 ∨ (p.1 = q.1 ∧ p.2 < q.2)

/-- The end of the last item. -/
def lastEnd (ps : List (Nat × Nat)) (st : Nat) : Nat := (ps.getLast?.map (·.2)).getD st

end Gse.Spec
