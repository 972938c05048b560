import Verif.Model.AddMem

/-!
# `Find`, `Cut`, `CutAll`, `CutSearch`, `HMMCut` and `LoadModel` as programs over memory (dag.go, gse.go, package hmm)

The same functions as in Model/Dag.lean and Model/Hmm.lean, with every access to the segmenter, the dictionary and the global
HMM model made explicit. Simplification: what these functions allocate (rune slices, the maps `dag` and `rs`, the columns of
Viterbi, results) is kept as values, since no address of it leaves the call before it returns; strings are immutable. The global
`ToLower` is part of `flags`. The regular expressions are read-only (`regexp.Regexp` is safe for concurrent use).
-/

namespace Gse

variable {F D : Type} [F64 F] [F32 D]

namespace Prog

/-- Read the HMM model. -/
def rdEmit : Prog F D (EmitModel F) := .read .emit fun c => match c with | .emit x => .ret x | _ => .panic

/-- Run a program on every element in turn. -/
def mapP {α β : Type} (f : α → Prog F D β) : List α → Prog F D (List β)
  | [] => .ret []
  | a :: l => do
    let b ← f a
    let bs ← mapP f l
    .ret (b :: bs)

end Prog

open Prog

/-- dag.go:39-41 `Find` with dictionary.go:107-131. A nil dictionary and an index out of range panic. -/
def findP (word : Bytes) : Prog F D (F × Bytes × Bool) := do
  let nil ← rdBool .segDict
  if nil then .panic
  else do
    let t ← rdTrie
    match t.jump word [] with
    | none => .ret (F64.ofNat 0, [], false)
    | some id => do
      let t ← rdTrie
      match t.value id with
      | none => if id ≠ [] then .ret (F64.ofNat 0, [], true) else .ret (F64.ofNat 0, [], false)
      | some v => do
        let n ← rdNat .tokHdr
        if v < n then do
          let x ← rdTok v
          let n ← rdNat .tokHdr
          if v < n then do
            let y ← rdTok v
            .ret (x.freq, y.pos, true)
          else .panic
        else .panic

/-- dag.go:141-158, the inner loop of `getDag`. -/
def dagEndsP (rs : List Rune) (k : Nat) : Nat → Nat → Prog F D (List Nat)
  | 0, _ => .panic
  | n + 1, i => do
    let x ← findP (encode (slice rs k (i + 1)))
    if !x.2.2 then .ret []
    else if i + 1 ≥ rs.length then .ret (if F64.lt (F64.ofNat 0) x.1 then [i] else [])
    else do
      let rest ← dagEndsP rs k n (i + 1)
      .ret ((if F64.lt (F64.ofNat 0) x.1 then [i] else []) ++ rest)

/-- dag.go:136-162: `dag[k]`. -/
def dagAtP (rs : List Rune) (k : Nat) : Prog F D (List Nat) := do
  let l ← dagEndsP rs k (rs.length - k) k
  .ret (if l = [] then [k] else l)

/-- dag.go:127-165 `getDag`. -/
def getDagP (rs : List Rune) : Prog F D (List (List Nat)) := mapP (dagAtP rs) (List.range rs.length)

/-- dag.go:180-187: the candidate for end `i`. -/
def routeCandP (rs : List Rune) (logT : F) (idx i : Nat) (rest : F) : Prog F D (Route F) := do
  let x ← findP (encode (slice rs idx (i + 1)))
  .ret ⟨F64.add (F64.sub (F64.log (if x.2.2 then x.1 else F64.ofNat 1)) logT) rest, i⟩

/-- dag.go:179-197: the loop over `dag[idx]`. -/
def routeAtP (rs : List Rune) (logT : F) (idx : Nat) (routes : List (Nat × Route F)) :
    List Nat → Option (Route F) → Prog F D (Option (Route F))
  | [], v => .ret v
  | i :: is, v => do
    let r ← routeCandP rs logT idx i (((routes.lookup (i + 1)).map (·.freq)).getD (F64.ofNat 0))
    routeAtP rs logT idx routes is (some (routeBetter v r))

/-- dag.go:178-198: the loop over `idx` downwards, `idx = k - 1`. -/
def calcLoopP (rs : List Rune) (logT : F) (dag : List (List Nat)) : Nat → List (Nat × Route F) → Prog F D (List (Nat × Route F))
  | 0, routes => .ret routes
  | k + 1, routes => do
    let r ← routeAtP rs logT k routes (dag.getD k []) none
    match r with
    | none => calcLoopP rs logT dag k routes
    | some r => calcLoopP rs logT dag k ((k, r) :: routes)

/-- dag.go:167-201 `calc`. -/
def calcRoutesP (rs : List Rune) : Prog F D (List (Nat × Route F)) := do
  let dag ← getDagP rs
  let nil ← rdBool .segDict
  if nil then .panic
  else do
    let total ← rdFreq .totalFreq
    calcLoopP rs (F64.log total) dag rs.length [(rs.length, ⟨F64.ofNat 0, 0⟩)]

/-- A step without access to memory that can panic. -/
def liftP {α : Type} : Option α → Prog F D α
  | none => .panic
  | some a => .ret a

/-- dag.go:269-308 `cutDAGNoHMM`. -/
def cutDAGNoHMMP [Unicode] (s : Bytes) : Prog F D (List Bytes) := do
  let cfg ← rdFlags
  let routes ← calcRoutesP (dagRunes cfg s)
  let frags ← liftP (walk (dagRunes cfg s) routes (dagRunes cfg s).length 0)
  .ret (noHmmLoop frags [])

/-- hmm/viterbi.go:73-81: one state of the first column; `probEmit` is read. -/
def vtbStartP (c : HmmConst F) (r : Rune) (y : Tag) : Prog F D (F × List Tag) := do
  let em ← rdEmit
  .ret (vtbStart c em r y)

/-- hmm/viterbi.go:88-97 with `probs` (112-133): one state of a later column; `probEmit` is read. -/
def vtbNextP (c : HmmConst F) (col : Column F) (r : Rune) (y : Tag) : Prog F D (F × List Tag) := do
  let em ← rdEmit
  .ret (vtbNext c em col r y)

/-- hmm/viterbi.go:73-81: the first column. -/
def vtbFirstP (c : HmmConst F) (r : Rune) : Prog F D (Column F) := do
  let b ← vtbStartP c r .B
  let m ← vtbStartP c r .M
  let e ← vtbStartP c r .E
  let s ← vtbStartP c r .S
  .ret ⟨b, m, e, s⟩

/-- hmm/viterbi.go:83-100: one step of the loop. -/
def vtbStepP (c : HmmConst F) (col : Column F) (r : Rune) : Prog F D (Column F) := do
  let b ← vtbNextP c col r .B
  let m ← vtbNextP c col r .M
  let e ← vtbNextP c col r .E
  let s ← vtbNextP c col r .S
  .ret ⟨b, m, e, s⟩

/-- hmm/viterbi.go:83-100: the loop. -/
def vtbLoopP (c : HmmConst F) : List Rune → Column F → Prog F D (Column F)
  | [], col => .ret col
  | r :: rs, col => do
    let col' ← vtbStepP c col r
    vtbLoopP c rs col'

/-- hmm/viterbi.go:68-110 `Viterbi`. -/
def viterbiP (c : HmmConst F) : List Rune → Prog F D (F × List Tag)
  | [] => .panic
  | r :: rs => do
    let col ← vtbFirstP c r
    let col ← vtbLoopP c rs col
    .ret ((probTop (col.e.1, .E) (col.s.1, .S)).1, (col.get (probTop (col.e.1, .E) (col.s.1, .S)).2).2)

/-- hmm/hmm_seg.go:47-73 `internalCut`. -/
def internalCutP (c : HmmConst F) (text : Bytes) : Prog F D (List Bytes) := do
  let p ← viterbiP c (runes text)
  liftP (assemble (runes text) p.2)

/-- hmm/hmm_seg.go:85-130: the loop of `Cut`. More rounds than given count as a panic. -/
def hmmCutLoopP (c : HmmConst F) (word skip : Matcher) : Nat → Bytes → List Bytes → Prog F D (List Bytes)
  | 0, _, _ => .panic
  | n + 1, text, acc =>
    if (word text).isNone ∧ text = [] then .ret acc
    else if (word text).map (·.1) = some 0 then do
      let ws ← internalCutP c (text.take (((word text).map (·.2)).getD 0))
      hmmCutLoopP c word skip n (text.drop (((word text).map (·.2)).getD 0)) (acc ++ ws)
    else if (skip text).isNone ∧ text = [] then .ret acc
    else if (skip text).map (·.1) = some 0 then
      if text.take (((skip text).map (·.2)).getD 0) ≠ [] then
        hmmCutLoopP c word skip n (text.drop (((skip text).map (·.2)).getD 0)) (acc ++ [text.take (((skip text).map (·.2)).getD 0)])
      else
        match locJudge (word text) (skip text) with
        | none => .ret (acc ++ [text.drop (((skip text).map (·.2)).getD 0)])
        | some l => hmmCutLoopP c word skip n ((text.drop (((skip text).map (·.2)).getD 0)).drop l.1)
            (acc ++ [(text.drop (((skip text).map (·.2)).getD 0)).take l.1])
    else
      match locJudge (word text) (skip text) with
      | none => .ret (acc ++ [text])
      | some l => hmmCutLoopP c word skip n (text.drop l.1) (acc ++ [text.take l.1])

/-- hmm/hmm_seg.go:76-133 `Cut(text, reg...)`, behind gse.go:133 `HMMCut`. -/
def hmmCutP [Unicode] (c : HmmConst F) (text : Bytes) (reg : List Matcher) : Prog F D (List Bytes) :=
  hmmCutLoopP c (reg[1]?.getD regHan) (reg[0]?.getD regSkip) (text.length + 1) text []

/-- dag.go:203-215 `hmm`. -/
def hmmBufP [Unicode] (c : HmmConst F) (reg : List Matcher) (buf : List Rune) : Prog F D (List Bytes) := do
  let x ← findP (encode buf)
  if !x.2.2 || F64.eq x.1 (F64.ofNat 0) then hmmCutP c (encode buf) reg else .ret (buf.map encodeRune)

/-- dag.go:240-249 and 256-264: what becomes of the pending single characters. -/
def flushBufP [Unicode] (c : HmmConst F) (reg : List Matcher) (buf : List Rune) : Prog F D (List Bytes) :=
  if buf.length = 0 then .ret [] else if buf.length = 1 then .ret [encode buf] else hmmBufP c reg buf

/-- dag.go:232-264: the body of `cutDAG` over the fragments. -/
def hmmLoopP [Unicode] (c : HmmConst F) (reg : List Matcher) : List (List Rune) → List Rune → Prog F D (List Bytes)
  | [], buf => flushBufP c reg buf
  | frag :: rest, buf =>
    if frag.length = 1 then hmmLoopP c reg rest (buf ++ frag)
    else do
      let o ← flushBufP c reg buf
      let r ← hmmLoopP c reg rest []
      .ret (o ++ encode frag :: r)

/-- dag.go:217-267 `cutDAG`. -/
def cutDAGP [Unicode] (c : HmmConst F) (s : Bytes) (reg : List Matcher) : Prog F D (List Bytes) := do
  let cfg ← rdFlags
  let routes ← calcRoutesP (dagRunes cfg s)
  let frags ← liftP (walk (dagRunes cfg s) routes (dagRunes cfg s).length 0)
  hmmLoopP c reg frags []

/-- dag.go:310-345 `cutAll`, behind gse.go:91 `CutAll`. -/
def cutAllP [Unicode] (s : Bytes) : Prog F D (List Bytes) := do
  let cfg ← rdFlags
  let dag ← getDagP (dagRunes cfg s)
  .ret ((cutAllLoop ((List.range dag.length).zip dag) 0).map fun p => encode (slice (dagRunes cfg s) p.1 p.2))

/-- gse.go:68-79 `Cut` with the flag given. -/
def cutP [Unicode] (c : HmmConst F) (s : Bytes) (hmm : Bool) : Prog F D (List Bytes) :=
  if hmm then cutDAGP c s [] else cutDAGNoHMMP s

/-- dag.go:361-367: the grams of `incr` runes of a word. -/
def gramsFromP (rs : List Rune) (incr : Nat) : List Nat → Prog F D (List Bytes)
  | [] => .ret []
  | i :: is => do
    let x ← findP (encode (slice rs i (i + incr)))
    let r ← gramsFromP rs incr is
    .ret ((if x.2.2 && F64.lt (F64.ofNat 0) x.1 then [encode (slice rs i (i + incr))] else []) ++ r)

/-- dag.go:354-368 for one `incr`. -/
def gramsP (rs : List Rune) (incr : Nat) : Prog F D (List Bytes) :=
  if rs.length ≤ incr then .ret [] else gramsFromP rs incr (List.range (rs.length - incr + 1))

/-- dag.go:352-371: one word of `cutForSearch`. -/
def searchWordP (word : Bytes) : Prog F D (List Bytes) := do
  let a ← gramsP (runes word) 2
  let b ← gramsP (runes word) 3
  .ret (a ++ b ++ [word])

/-- dag.go:347-374 `cutForSearch`, behind gse.go:82-88 `CutSearch` with the flag given. -/
def cutSearchP [Unicode] (c : HmmConst F) (s : Bytes) (hmm : Bool) : Prog F D (List Bytes) := do
  let ws ← cutP c s hmm
  let l ← mapP searchWordP ws
  .ret l.flatten

/-- `probEmit[y] = m`, which reads and writes the map. -/
def setEmitP (y : Tag) (f : Rune → Option F) : Prog F D Unit := do
  let em ← rdEmit
  put .emit (.emit fun t => if t = y then f else em t)

/-- hmm/hmm_seg.go:34-45 `LoadModel` with `loadDefEmit` (hmm/prob_emit.go:7): four assignments. -/
def loadModelP (dflt : EmitModel F) (prob : List (Rune → Option F)) : Prog F D Unit :=
  match prob with
  | b :: e :: m :: s :: _ => do
    setEmitP .B b
    setEmitP .E e
    setEmitP .M m
    setEmitP .S s
  | _ => do
    setEmitP .B (dflt .B)
    setEmitP .E (dflt .E)
    setEmitP .M (dflt .M)
    setEmitP .S (dflt .S)

/-- dict_util.go:42-56 `Init`, as far as it reaches memory that other segmenters use. It is called by the first `LoadDict` of a
segmenter, so also by `New` (dict_util.go:151-155), and by `LoadDictMap` and `LoadDictStr` while the segmenter has no dictionary
(dict_util.go:114-117, dict_1.16.go:92-95). -/
def initP (dflt : EmitModel F) (notLoad : Bool) : Prog F D Unit := if notLoad then .ret () else loadModelP dflt []

end Gse
