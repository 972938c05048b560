# Formal model of go-ego/gse in Lean 4

## Layout

* `lean/Verif/Model/*.lean` — the model, function by function. Each definition cites the Go file and lines.
* `lean/Verif/Spec/*.lean`  — small specifications, written without using the model's helpers.
* `lean/Verif/Proofs/*.lean` — helper lemmas.
* `lean/Verif/Props/*.lean` — the property theorems, with a non-vacuity `example` beside each.
* `properties.jsonl` / `MANIFEST.json` — English properties and the theorems that prove them.
* `seeded/LOG.jsonl` — log of seeded-bug experiments.

## Modelling decisions

* Go strings and `[]byte` are `List UInt8`; runes are `Nat`; `utf8.DecodeRune`, rune-to-string conversion
  and `[]rune(s)` are modelled at the byte level, including every malformed input.
* Floating point: the model is generic over types `F` (float64) and `D` (float32) with operations as parameters
  (`class F64`, `class F32`, `class Narrow`). Structural theorems assume no law beyond `0 == 0` and `!(0 < 0)`, so they hold
  for IEEE arithmetic with NaN, infinities and rounding. Theorems on optimal paths, weights and ranks assume a law class
  (`F32Laws`, `F64Laws`, `F64Count`, `F64Round`). `Model/Ieee.lean` defines IEEE 754 numbers with correct rounding to
  nearest even, signed zeros, infinities and NaN for both widths; `Proofs/IeeeOps.lean` proves every law class of them, and
  the theorems `Cnn_ieee*` state the results for them with no float law left as a hypothesis.
* The same operations without rounding are a further instance, over `EReal` (`Spec/Exact.lean`). The theorems `C11_exact`,
  `C27_exact` and C70 are about it: they say what is optimised in terms of probabilities, not what floats make of it.
  C71 closes the gap: with the IEEE operations and logarithms of a given relative accuracy, what floats make of it is within
  a stated factor of that optimum (`Spec/Error.lean`).
* `unicode.IsLetter` etc. are parameters; the only assumed laws concern ASCII letters and U+FFFD, in `class UnicodeOK`.
* The double-array trie `github.com/vcaesar/cedar` is not in the repository. It is modelled by its contract: a finite
  map from byte strings to integers whose node identifiers are the byte paths. `Delete` of a path that is a proper prefix
  of a stored key but not itself stored is outside the contract (the model returns "unspecified").
* Go panics and non-termination are explicit: partial functions return `Option` (`none` = panic or divergence), loops
  whose termination is not structural take fuel, and theorems show which fuel suffices.
* Pointers `*Token` are modelled by references (index into the token table, or a pseudo token owned by the segment).
* Map iteration and unstable sorting are relations or a `Choice` parameter: theorems hold for every order.
* The tables of package `hmm` and `hmm/pos` are parameters; the start, transition and state tables of `hmm/pos` are also in
  the model as data (`Model/PosData.lean`, written by tools/posdata.py), with theorems for exactly these tables.

## Plan per property

| id | modelled | method |
|----|----------|--------|
| C01–C03, C43 | UTF-8 decoder, `SplitTextToWords`, `toLower` with index-level loop | loop invariant; characterisation by maximal runs; uniqueness by induction |
| C04–C07 | trie contract, `Dictionary` and its methods, `Segmenter` wrappers | refinement to an abstract map; induction over histories |
| C08–C14 | `segmentWords`, `updateJumper`, back-tracking | forward-loop invariant (jumper table), induction for back-tracking; DP optimality by induction on position |
| C15–C19 | `CalcToken`, `tokenToSlice/String/Pos`, `ToX` | invariant "sub-segments are shorter", well-founded expansion via fuel |
| C20–C23 | `Size`, `LoadDictStr`, `LoadDictMap`, `Reader` | fold lemmas, history refinement |
| C24–C28, C32, C54 | `getDag`, `calc`, `cutDAG`, `cutDAGNoHMM`, `cutAll`, `cutForSearch`, `SuggestFreq` | induction over positions |
| C29–C31, C51, C55 | `Viterbi`, `probs`, `internalCut`, `hmm.Cut`, `locJudge`, `LoadModel` | induction over observations; well-founded remaining text |
| C33–C34 | `FindAllOccs`, `Analyze` | induction over the scan index |
| C35–C42, C44 | stop-word map, trim and filter functions, joins, `DictPaths` | set refinement, list induction |
| C45–C48 | `ExtractTags`, `rank`, `addEdge`, `Idf.AddToken`, `StopWord` | permutation invariance of sorting; witness by evaluation over rationals |
| C49–C52 | `RegexpSplit`, `pos` segmenter | list induction |
| C53 | loop-step machine of `segmentWords` with shared dictionary | induction over the schedule |
| C56–C64 | `Reader`, `LoadDict`, `LoadDictEmbed`, `LoadStop`, the trims, `idf` loading | fold lemmas, refinement, witnesses |
| C65–C67 | `hmm/pos` Viterbi and DAG cut, trims | Viterbi optimality by induction, legality of tables by evaluation of the whole table |
| C68, C69 | `Segment` and `AddToken` as programs over memory, all interleavings | ownership invariant over executions |
| C70 | `SuggestFreq` followed by adding the word, exact arithmetic | comparison of route probabilities before and after |
| C71 | the same functions with IEEE rounding and logarithms of given accuracy | forward error analysis, by induction over the pieces |
| C72 | the same functions with a total that is NaN or `+Inf` | invariants of the two searches when comparisons fail or tie; both results unique |
| C73 | the `Cut` family, `HMMCut`, `LoadModel` and `Init` as programs over memory | refinement of the programs to the functions; who must read and who must write the global model |
| C74 | variables of type `Segmenter` with references to dictionaries and stop maps | invariant between the references and an ownership specification that names a dictionary by the step that made it; what a call does to every variable |
| C75 | handlers, `json.Marshal`, requests in sequence | reader of JSON from RFC 8259 inverts the writer (mutual induction over values); the server refines histories of `AddTokenForce` |
| C76 | the same | C04, C06, C72 carried to sequences of requests |
| C77 | `AddTokenForce` and `CalcToken` as programs over memory, beside the programs of C73 | refinement to the functions; which locations a call must write and a reader must read whatever other goroutines do; isolation of the rest |
| C78 | `strconv.ParseFloat` modelled (Model/ParseFloat.lean) against the grammar of Go literals (Spec/FloatText.lean) | the scanner recognises exactly the grammar, by induction on the text; value as a rational; rounded once; then C20, C72, C76 without an assumption on the parser |
| C79 | accesses in the trace of an execution (`work`, Spec/Cost.lean); `within` bounds a program by what it does in its own memory | invariant of `Isolated` executions that carries what a goroutine may still spend; loops by induction; memory as in C53. A trie step counts one access for the node and one for each byte read; copying by `append` is not counted |
| C80 | as C79, for the calls of C73 | as C79; words longer than M are unknown to `Find` (C05), so a row of the graph has at most M+1 ends; the pieces of the route flatten to the text (C26, C28). A trie lookup counts as one access; private values and the matching of patterns are not counted |
| C81 | `Utf8` written from the bit patterns of RFC 3629, `CharsOf`, `Blanks`, `TrimmedOf`; `IsSpace(U+FFFD) = false` is an explicit hypothesis | both directions: `runes`, `encodeRune`, `trimSpace`, `trimNewlines` give exactly what the specification describes, and the description determines the result |
| C82 | `Overshoots`, `LooseRoute`, `Meets`, `Coherent` in terms of stored words and the split of the text; `mixRun`: what a history stores, each call with its own flags | panics on a text iff it overshoots, returns on all texts iff no word that can be met overshoots, same for `CalcToken`/`AddTokenForce`; contents of the dictionary; `AlphaNum` always safe; coherent or plain words give the fixed-flag results |
| C83 | `ledger`: for every variable the list of dictionary calls it stands for, each with its flags, kept by reading the program alone | invariant between the worlds of C74 and the ledger; contents, nil, panics of calls, `Segment` and `Cut` in terms of the list; with steady flags the theorems about fixed-flag histories apply |
| C84 | `script`: the segmenter steps and stop-word calls a program amounts to, what its extracters refer to, the weights added to each `Idf`; `StopNow`, `Fallback`; with `ledger` of C83 | simulation of the program by its script; exact panics; the result is `IsTopTags` of C45; where `WithGse` + `LoadDict` puts the words |
| C85 | `filesWords`, `textWords`: the entries of files and texts under the factory settings; `made`: a segmenter with those settings; `embedTexts`, `filesAsked` as in C83 | `New` and `NewEmbed` unfolded to one load of a blank segmenter; recalculating between loads makes no difference to the last one (`SameCore`) |
| C86 | the ledger of C83 for what the dictionary of a tagger holds; `posChar` for the characters looked up; `PosOut` as in C50 | a tagger is a variable of the world; C83 for its dictionary; the theorems of C50 and C46 for every dictionary whose entries exist (`IdxOK`) |
| C87 | `IsSeam`, `NoSpan`, `NoSpanRunes`, `NoEngSeam` in terms of characters and stored words; `F32Shift`/`F64Shift`: arithmetic without rounding on finite numbers | every segmentation and route splits at a seam; a beginning of a best segmentation is best, an end of a best route is best, so C11 and C27 with their uniqueness decide; without rounding also the other part. `C87_infinite` and `C87_cut_infinite` show that infinities break the other part |
| C88 | `KindSeam`, `KindSeamRunes` by kinds of characters and decimal points; `NoSpanKept`, `EndFree`, `StartFree` in terms of stored words and the best route | the runs of C30 are unique and join at a seam; the pending characters of `Cut(s, true)` on both sides of the seam are flushed as one text, which C30 then splits; `C88_context` states the exception |
| C89 | the abstract dictionary of C04 (`content`, `stored`); `SameCuts`, `SameSegments`: every call answers the same | two dictionaries with the same content are related word by word whatever the table numbers; the search, the recalculation and the output functions preserve the relation; `Cut` and its kind see the dictionary through `Find` and the total only |
| C90 | `scaleOp` (a call with its frequency multiplied), `SameShapes` (every call that segments answers the same, frequencies aside), `KnownChars`; exact arithmetic | the relation of C89 with frequencies in proportion: all distances stay, so the search does; the graph of `Cut` only asks whether a frequency is positive, and its scores are differences of logarithms; raising: every other product of shares falls, that of the word rises; witnesses computed in exact arithmetic by listing all segmentations |
| C91 | `PlainChar`, `IsWriting` (a way of writing the text as stored words), `BestByLast`, `BestByFirst` (most probable, with the rule for ties); exact arithmetic | the forward search of C11 and the backward search of C27 are both carried over to writings: the product of shares and the product of frequencies over totals are one number; ties and unknown characters: witnesses computed in exact arithmetic |
| C92 | on the results of the calls only; `Harmless`, `Counted` (what an item may be), `LowerOnce` (lower-casing twice is lower-casing once, assumed of `unicode.ToLower`) | a front of a best segmentation is best, a rest of a best route is best (no arithmetic); the other directions by cancelling the common factor of the products of shares; words of a part by C03; groups of letters by uniqueness of maximal runs |
| C93 | `AddToken`, `RemoveToken`, `ReAddToken` as programs over memory, beside the programs of C73; `Asking`, `Meets`, `Effective`, `Idle`, `Growing` say which calls and words are meant | refinement to the functions; the accesses a call must make whatever the others do; executions built up to the half-made change; isolation of the rest |
| C94 | two histories with the same entries for the words that occur in a text (`OccursIn`, `OccursRunes`); `Elsewhere` says which calls leave the text alone | simulation of the two searches restricted to the words of the text; sub-references stay valid; exchange argument between two totals |
| C95 | everything that reaches a map of stop words as programs over memory (Model/StopMem.lean); `MayStop`, `MayPass`, `Sifted` say what a call may return while words change | isolation of readers; accesses that a call must make; an invariant that bounds the map between what is certain and what is possible; executions built for the losses |
| C96 | well-formedness (`ValidText`) and counts of items, characters and words, stated over the outputs of the calls | the words of a split take up whole characters; invariant that the sub-segments of a stored token come from a cut of it into two or more smaller tokens; induction on the depth of expansion |
| C97 | permutations and counts of the lines, number of steps; the steps of the pool are a transition relation over two channels and n goroutines | invariant over every execution (lines received, queued, unsent; goroutines that have ended); a measure that every step lowers by one; case analysis for progress |
| C98 | offsets into the caller's buffer, and the memory after it has been overwritten | a second, partial-correctness predicate over programs (`wlp`) that follows pointers to unknown words from the array of words through jumpers to the result; joined with `wp` |
| C99 | the model with one table and indices; the table with all its arrays and real pointers (Model/Table.lean) must read the same | refinement with a Boolean per call for what `append` finds; invariant: a pointer in array `a` goes into `a` or into an older array that is still a beginning of it; old arrays never change |
| C100 | `Indexed`: well-formed, two characters or more, content with positive frequency (Spec/Found.lean); membership against occurrence as an infix of the characters | from the exact item list of `CutAll` (C24), the losslessness of each call (C26, C28, C32, C96) and decoding of infixes; witnesses for what the other calls lose |
| C101 | `Cut` of a tagger and `TextRank` as programs over memory (Model/PosMem.lean), beside the programs of C73, C77 and C93; `posChar` says which texts ask the dictionary | refinement to the functions of Model/Pos.lean; isolation; the read of the trie that a tagger makes whatever the others do; on other texts the program yields in every memory |
| C102 | `Cut` of a tagger on `a`, on `b` and on `a + b`; the seam said by `SymbolSeam`, `NoBreakSeam`, `NoSpanRunes`, `NoEngSeam` (Spec/PosSeam.lean, Spec/Seam.lean) | the items are a function of the characters (`PosOut`), appended run by run; inside a run by the best routes of C87, for any subtrahend of the scores. With the state model a seam inside a run is not claimed: a character left alone is looked up in the dictionary, two of them are not |
| C103 | `Cut` of a tagger and `TextRank` after two histories; agreement said by the abstract dictionary (`content`, `Begins`, `FirstKept`) on the words of the text | congruence of graph, routes, tags and loops (Props/PosLocal.lean), shared with C94; the witness `C103_begins` is computed |
| C104 | `ExtractTags` of two texts; shares said by `Proportional` over `tagCount` (Spec/TagBag.lean), quotients by `RatioLaw`, proved of IEEE division | the candidates of C45 and their weights determine the result; totals are proportional because the repeated bags are permutations of each other (Props/TagBag.lean); seams from C88 |
| C105 | results of `String`, `Pos`, `Slice`, `PosStr`; which words and tags print well is said in Spec/Print.lean | items are read back one by one from the left; every token of the table comes from a call, sub-segments are parts of their token (Props/Print.lean); the witness `C105_slash` is computed |
| C106 | `ExtractTags` of two texts; what it means to gain is said by `Gains` over shares, arithmetic by `ShareLaw` (Spec/TagMore.lean), proved of IEEE operations | weights are monotone in the share and the IDF value; who is before the word afterwards was before it already, so the list before it does not get longer (Props/TagMore.lean); the witness `C106_negative` is computed |
| C107 | Spec/Plain.lean: rows of three columns without blanks, the text with one line for each, and the entries of the accepted rows | C107_same, C107_again, C107_back, C107_order; C107_str, C107_map, C107_files for each loader; C107_empty_word for the difference under LoadNoFreq |
| C108 | Spec/Priority.lean: what Find answers after a load of all files, against what it answers after a load of each file alone | C108_front, C108_none, C108_later, C108_later_str; C108_forgets for the first LoadDict |
| C109 | Spec/TagStop.lean: MoreStops, DivisorLaw (comparison does not depend on the common divisor) | C109_order, C109_weight, C109_weight_ieee; C109_rounding shows that float64 breaks the order |
| C110 | Spec/Unused.lean: Unused (no segment is the word), NotHeavy, FirstChars, RightMono | C110_segment, C110_ieee, C110_cut, C110_cut_ieee; C110_heavy and C110_cut_moves show that the conditions are needed |
| C111 | Spec/Joined.lean: OneChar, AlnumText, JoinsChars, TwoChars, TagsKept | C111_words, C111_joins, C111_same, C111_pos; C111_letters shows why letters and digits are excepted |
| C112 | Spec/Dump.lean: written, onlyAdds, readBack, EachOnce | C112_text, C112_returns, C112_same, C112_file, C112_kept; C112_undone, C112_twice show what removing words does |
| C113 | Spec/Calls.lean: DictOp.result, callsP, answers, HistoryOK, recalcs, tableBytes | C113_alone, C113_work, C113_cheap, C113_least, C113_quadratic, C113_batch |
| C114 | concurrent changes of the dictionary: race exactly when two calls collide; a race-free execution is every goroutine alone | Spec/Alone, Proofs/Alone, Props/Alone |
| C115 | Spec/Order.lean: serial, FreshAddresses; RaceFree, SafeAlone, ownAccesses, answers as before | C115_orders, C115_serial, C115_last, C115_fresh, C115_calls, C115_commute |
| C116 | goroutines with lists of calls (those of C101 and the changes) and one readers-writer lock (`LStep`, `LExec`, Spec/Lock.lean); `Right`: the answer in the order of the lock; `OrderedByLock` | invariant over every execution: while readers have the lock they are isolated and what they returned lies in memory nobody writes; while a change has it, it owns the memory; progress and termination by a lexicographic measure |
| C117 | as C80, for the calls of C101; the characters looked up are counted with `posChar` (Spec of C50) | as C80 from above; `Least` and `exceeds` (C113) from below; the blocks between matches of the pattern flatten to the text, so that the characters of the blocks looked up are those of the text. The tables of package pos, the matching of patterns and the graph of a ranker are not counted |
| C118 | `Brings`, `startServer`, `ServingOK`, `OneAdd`, `AddsNew` (Spec/ServerConc): the text a request brings, the handlers as goroutines over one memory, one request to `/add` among requests to `/json`; answers are those of `handle` (Model/Server.lean) | `C118_result`, `C118_known` by isolation (`Isolated`: private memory apart from what is shared); `C118_race` by the rely argument of C69, C77 and C93 (`Guarded`); `C118_panic` runs `/add` up to the point where the word is in the trie and not in the table (Props/ServerConc) |
| C119 | `QueueOK`, `inOrder` (Spec/ServerSerial), `serial`, `FreshAddresses` (Spec/Order), `startServer` (Spec/ServerConc): room for a token per request, the requests in an order; answers are those of `serve` (Model/Server.lean) | `C119_serial` by induction over the order: the handler that runs first meets a memory that holds the dictionary and leaves one that holds the next (`wp_handler`, `run_queue`); `C119_raceFree` with C115; `C119_exists` runs the handlers one by one (Props/ServerSerial) |
| C120 | `jsonBound`, `workOf` (Spec/ServerCost), `work` (Spec/Cost), `QueueOK`, `inOrder` (Spec/ServerSerial): accesses and allocated cells of a goroutine | `C120_json` by isolation and the bounds of C79 and C80, plus the loop over the tokens (`within_tokens`); `C120_add`, `C120_quadratic` by induction over the order with the bounds of C113 for the call in the handler (`cost_add`, `queue_work`) (Props/ServerCost) |
| C121 | `SameStops`, `SameIdf`, `GainsIdf` (Spec/TagLocal): the tables seen through the words of the text | `C121_local` by uniqueness of the ranked list (`extract_idf`); `C121_raise`, `C121_ieee` by comparing the ranked lists (`idf_keeps`); `C121_settled` by induction over the calls (`addTokens_run`, `stored_segAdd`); `C121_moved` shows that words not in the table move with the median (Props/TagLocal) |
| C122 | `tie`, `tieSum`, `valueNew`, `valueOf`, `Falling`, `Rising` (Spec/RankExact): sums over the words, no edges; arithmetic is that of the rationals | `value_exact` turns sums over edges into sums over words by permutation; `C122_two` by uniqueness of sorted lists with the directions of C46 (`ranked`); `C122_orders`; `C122_both` builds the order of the map (`visitBy`, `pick_exists`) (Props/RankExact) |
| C123 | `longItems` (Spec/SearchCut); `gramsOf` (Spec/Dag), `NoSpanRunes`, `NoEngSeam`, `KindSeamRunes` (Spec/Seam, Spec/SeamHmm), `OccursRunes` (Spec/Local) | `C123_cut` by induction from the right (`flatMap_end_inj`), `C123_text`; `C123_slice` with `piece_by_text`, `C123_string` with C105, exceptions `C123_one_word`, `C123_all`; `C123_seam`, `C123_seam_hmm` from C87 and C88 (`search_append`); `C123_local`, `C123_removed` from C94 (`search_of_cut`); `C123_hmm` from the groups of C111; `C123_letters` (Props/SearchCut) |
| C124 | `modelValue`, `SameValues`, `Rescaled`, `SameWithHmm` (Spec/HmmModel); exact arithmetic is that of the rationals | `hmmCut_paths` from the runs of C30 and their uniqueness, `cutDAG_congr`; `C124_local`, `C124_none` by `viterbi_congr`; `C124_scale` by the invariant `ColScaled` of the columns (Props/HmmModel) |

Nothing is declared not expressible in advance; what stays partial is said in MANIFEST.json.

## Trusted base

* Lean 4.33.0's kernel, and Mathlib as a library of proofs checked by it. No axiom is added. `AXIOMS.md` (tools/axioms.py)
  lists for each property theorem what `#print axioms` reports: never more than `propext`, `Classical.choice`, `Quot.sound`.
  There is no `sorry`, no `native_decide`, no `bv_decide`.
* The reading of the Go source. Every model definition cites file and lines; `tools/cites.py` checks that the cited lines
  exist and name the function. The Go code itself is not run.
* Parameters and what is assumed of them, always as explicit hypotheses or instance arguments of the theorem:
  * `Unicode`/`UnicodeOK`: tables of package `unicode`; ASCII letters, U+FFFD, blanks, lower case of ASCII, Han excludes ASCII.
  * `F64.parse`, `F64.log`, `F64.log2`, `F64.exp`: uninterpreted. IEEE theorems that need more assume `LogLike` (monotone and
    of bounded range on non-negative numbers). C71 alone assumes accuracy (`LogAccurate`); a function meeting both is built in
    `Props/ErrorNum.lean`. `F64.parse` is interpreted only in C78, under the hypothesis `GoParse` that it is `parseDatum`
    (Model/ParseFloat.lean): `strconv.ParseFloat` is not part of the repository, and the model of its scanner was written from what is known of
    the library, not checked against a copy of it; the step from digits to `float64` is taken to be one correct rounding, as documented.
  * Literals of the source enter the IEEE model through `lit` (correct rounding of the decimal value, `Model/Consts.lean`).
  * Text functions of the standard library (`utf8.DecodeRune`, `range` over a string, `string(r)`, `strings.TrimSpace`, `strings.Trim`,
    `strings.Split`, `strings.Contains`, `strings.LastIndex`, `strings.ToLower`) are modelled by definitions, and the definitions are proved
    to be what the documentation says: C81, `splitStr_spec` with `SplitAt.unique`, `containsStr_iff`, `lastIndex_spec`, `runes_strLower`.
  * Regular expressions: a compiled pattern is a function giving the leftmost match from an offset; the patterns of the
    source that matter (`\\p{Han}+`, `[a-zA-Z0-9]+` …) are modelled one by one, and C31 states what a user's own pattern must do.
  * The trie package `cedar`: its contract as above. Insertion fails in the contract only for values from 2³¹ − 1 on.
  * `bufio.Reader`, `fmt.Fscanln`, `bufio.Scanner`: modelled from their documentation at the level of lines and fields; the
    field that `Fscanln` leaves when it stops early is a parameter (`mid`). File contents are a parameter, file errors a flag.
  * `encoding/json` (C75, C76): `Marshal` of strings, slices, structs, `null` and whole numbers, modelled from its source; whether the
    release writes `\b` and `\f` short is a parameter. `net/http` hands over decoded parameters.
  * `sync.RWMutex` (C116): readers together or one writer alone have the lock; giving it back happens before the next conflicting holder gets it. The model lets any
    waiting goroutine get a free lock, which includes every order a real lock chooses. The lock is the caller's: gse has none.
  * The Go memory model: race-free programs behave as interleavings. Allocation returns unused memory. cedar's arrays count as one location, so
    where a theorem says that there is a race on the trie (C69, C77, C93, C101) it means: one goroutine writes into the trie while another reads in it.
    A map of stop words is one location as well (C95), as Go's rules for maps have it; that the runtime may stop the program when it notices
    two accesses is not modelled.
* Not modelled: NaN payloads; fused multiply-add (Go may fuse `x*y + z` on some machines; the IEEE theorems are for unfused
  evaluation, the theorems with law classes do not depend on it); the growth of slices by `append`, except where C59
  needs aliasing and for the table of tokens (C99); overflow of `int` (sizes and counters are unbounded); running time (C79, C80, C113 and C117 count accesses to shared memory), memory use and log output.

## Modelled and unmodelled code

Modelled, apart from what the comments in the model call simplifications: dictionary.go, token.go, segmenter.go, seg_utils.go,
dag.go, trim.go, stop.go, dict_util.go, dict_1.16.go, gse.go, hmm/*.go, hmm/idf, hmm/pos, hmm/util.
Data not in the model: the emission tables hmm/prob_emit.go and hmm/pos/prob_emit.go (parameters of every theorem that
mentions them) and the dictionary files. Not modelled: data/main.go, examples, profiling and timing in tools/benchmark, the HTTP part of
tools/server (taking apart URL and body; the handlers are in Model/Server.lean, and as goroutines over one memory in Model/ServerMem.lean; the copy of the text into a byte slice is made before the goroutine starts, and the flag `-hmm` is a constant), `String` methods used for debugging, and the empty packages crf, gonn, tf, hmm/bm25.

The floating-point model is itself held to a specification: `Spec/Nearest.lean` says what IEEE 754 asks of a rounded
result (the nearest representable number, on a tie the even one, overflow from the half-way point above the greatest) without
mentioning how it is computed, and `Proofs/Nearest.lean` proves it of `add`, `mul`, `div`, the conversions and the rules for
zeros, infinities and NaN. The tests in `tools/ieee_check.lean.txt` compare Model/Ieee.lean with the machine's floats on random pairs. They are tests,
not part of any proof.

## Where the code disagrees with what its users may expect

The model follows the code. These theorems state a defect of it, each with a witness: C13 (a word of distance zero is never
preferred), C23 and C56 (readers leak the previous tag, keep a newline), C31 (patterns that match the empty string), C33
(an empty search loops), C43 (`Cut` with a flag lower-cases all of Unicode but stored words are lower-cased in ASCII only, so a
stored word with another capital is never found by it), C46 (TextRank depends on map order), C48 and C55 (state shared by all instances), C52 (the first
dictionary word counts as unknown in `hmm/pos`), C57, C58, C61 (files not loaded), C59 (an argument is changed), C60, C63,
C64 (stop words and weights), C66 (frequencies multiplied, not probabilities), C69 (adding words beside `Segment` is a race),
C70 (a suggested frequency that does not cut a word apart), C72 (one line with the frequency `NaN` or `1e999` spoils every
segmentation), C73 (creating a segmenter races with `Cut(s, true)` on another), C74 (`LoadDict` discards words loaded in another
way and separates copies; it panics after `LoadDict` and `Empty`), C76 (the server says ok to every `/add` and takes `NaN`), C77 (adding a word that is already there
races with `Segment`; the server's handlers make both calls), C78 (a frequency too large is stored as an infinity, also a negative one below `MinTokenFreq`), C82 (changing the split flags after loading makes
`Segment` panic), C84 (`LoadDict` of an extracter changes the program's own segmenter; `ExtractTags` panics without weights), C85 (`New("a", "b")` ignores `b`; `LoadDict` after `NewEmbed` loses the embedded words), C86 (`LoadDict` of a tagger either changes the program's own segmenter or drops its words), C87 (a word of frequency zero, or a character that only begins stored words, changes how the rest of the text is cut), C88 (a stored word less likely than its characters comes back as characters when alone, and through the HMM behind a separator), C89 (the frequency of a removed word stays in the total and changes later segmentations), C90 (unknown characters count with frequency 1 in `Cut` whatever the scale of the dictionary; raising a word's frequency can remove it from a segmentation), C91 (`Slice` and `Cut` break ties from opposite ends and charge unknown characters differently), C92 (an item of `Cut(str, true)` may be cut apart when given to `Cut` alone), C93 (adding a word beside `Cut` or `Find` can make them panic; a word that is added again is gone in between), C94 (removing a word that does not occur in a text can change how `Cut` cuts it, adding one can join words of it), C95 (changing stop words races with every call that looks one up, in package idf across all extracters of a program; words get lost; `LoadStopArr` beside `EmptyStop` can panic), C97 (the benchmarks read the first word of every line only), C98 (a result of `Segment` changes when the caller reuses its buffer), C99 (what a kept result shows in search mode depends on whether `append` moved the table), C103 (adding a word that does not occur in a text can change how the tagger cuts it, if it begins with a character of the text), C105 (a stored word with a slash and a blank inside makes two texts print alike), C106 (with a negative IDF value, which `AddToken` accepts, a word named more often loses its place), With LoadNoFreq, LoadDictStr stores an empty word for every empty line, also for the end of a text that ends in a newline; it counts in NumTokens and TotalFreq. LoadDict on the same text does not (C107_empty_word)., The first LoadDict of a segmenter forgets what LoadDictStr, LoadDictMap or AddToken stored in it, since it goes by the flag Load, which only LoadDict sets (C108_forgets). A user dictionary cannot keep a word of the common one out by a small frequency: its line is rejected and the common line is taken (example in Props/Priority.lean)., With float64 a further stop word may change the order of the other keywords, since all weights are divided by the number of words that count (C109_rounding)., Removing a word that Cut does not use may change what it answers, since an unknown character may be cut off only where no stored word begins (C110_cut_moves); the same happens to Segment with a stored single word rarer than 2^-32 of the total (C110_heavy)., Cut joins the letters of a stored word that the best route splits when the HMM is off, and splits them when it is on (C111_letters)., Dict.Tokens, offered for traversing the dictionary, keeps removed words and former frequencies (C112_returns, C112_undone)., AddTokenForce recomputes distances and sub-segments of all words ever stored, also when the word is known already and nothing changes (dict_util.go:82-86): N words one by one cost at least 4 N squared accesses (C113_quadratic), AddToken and one CalcToken give the same dictionary at the cost of one recalculation (C113_batch)..
