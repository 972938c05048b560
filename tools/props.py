# Writes /verif/properties.jsonl (one JSON object per line).
import json
P=[]
def p(i,title,st,q,why,*anch):
    P.append(dict(id=i,title=title,statement=st,quantifier=q,why_tests_cant=why,anchors=list(anch)))
p("C01","Word splitting loses no text",
"Concatenating the words returned by SplitTextToWords(text) gives back text byte for byte, except that when ToLower is on, ASCII capitals inside alphanumeric characters are lower-cased; in particular the total byte length is unchanged.",
"every byte string (valid UTF-8 or not), every setting of AlphaNum, Alpha, Num and ToLower",
"The byte strings are unbounded and include every malformed UTF-8 sequence; a test samples a few sentences.",
"segmenter.go:SplitTextToWords","segmenter.go:SplitWords","segmenter.go:toLow","segmenter.go:toLower")
p("C02","Word boundaries are exactly the documented ones",
"Each word returned by SplitTextToWords is non-empty and is either one non-alphanumeric character (or one invalid byte), or, with AlphaNum off, a maximal run of one- or two-byte letters/numbers, or, with AlphaNum on, one single such character; these conditions determine the result uniquely.",
"every byte string, every flag setting",
"Uniqueness and maximality are statements about all possible splits of all possible texts.",
"segmenter.go:SplitTextToWords")
p("C03","Word splitting is stable under re-splitting of any run of words",
"Splitting the concatenation of any consecutive words of a split returns exactly those words; so a dictionary entry that matches the bytes of consecutive words of a text was itself split into the same words.",
"every text, every contiguous run of its words, every fixed flag setting",
"Quantifies over all texts and all sub-runs; it is the hidden reason why dictionary token lengths can be used as jump distances.",
"segmenter.go:SplitTextToWords","segmenter.go:segmentWords")
p("C04","The dictionary behaves as a first-wins map over any history",
"After any sequence of AddToken, RemoveToken and ReAddToken calls, Find(word) returns the frequency and part of speech of the first AddToken (or ReAddToken) of that word since it was last removed; later AddToken calls for a present word change nothing and report no error.",
"every history of add/remove/re-add operations of any length, every word (removals restricted to words that are stored or match no stored prefix, where the trie library contract is defined)",
"Histories are unbounded; interleavings of adds and removes of overlapping words cannot be enumerated.",
"dictionary.go:AddToken","dictionary.go:RemoveToken","dictionary.go:Find","dict_util.go:AddToken","dict_util.go:ReAddToken","dict_util.go:RemoveToken")
p("C05","Find's existence flag means 'is a stored word or the beginning of one'",
"Find(word) reports true exactly when word is non-empty and a prefix of some stored word (or word is stored); the frequency is 0 and the tag empty when word is only a proper prefix.",
"every reachable dictionary and every byte string",
"Needs every dictionary and every query, including queries cutting a UTF-8 character in half.",
"dictionary.go:Find","dag.go:Find")
p("C06","NumTokens, TotalFreq and MaxTokenLen account for the whole history",
"NumTokens equals the number of AddToken calls that actually stored a word, TotalFreq is the running float sum of their frequencies in call order, MaxTokenLen is the largest word count among them; RemoveToken changes none of the three (so they keep counting removed words).",
"every history of add/remove/re-add operations",
"Unbounded histories.",
"dictionary.go:AddToken","dictionary.go:RemoveToken","dictionary.go:NumTokens","dictionary.go:TotalFreq","dictionary.go:MaxTokenLen")
p("C07","LookupTokens returns exactly the stored words that start the given word list",
"LookupTokens(words, buf) returns, in increasing length, precisely the stored tokens whose text is an initial run of words, never writes past the buffer of MaxTokenLen entries used by the segmenter and never indexes outside the token table.",
"every reachable dictionary, every word list obtained by splitting a text",
"All dictionaries times all texts.",
"dictionary.go:LookupTokens")
p("C08","Segments tile the input",
"Segment(bytes) returns segments whose [Start,End) byte ranges are non-empty, contiguous, start at 0 and end at len(bytes).",
"every input byte string, every dictionary reachable through the API with fixed split flags, every frequency/distance value including NaN and infinities",
"Shortest-path back-tracking must be right for every dictionary and every text; off-by-one errors appear only for particular overlaps.",
"segmenter.go:Segment","segmenter.go:internalSegment","segmenter.go:segmentWords","token.go:Segment")
p("C09","A segment's token text is the input slice it covers",
"For every segment s of Segment(bytes), s.Token().Text() is the (lower-cased, see C01) input slice bytes[s.Start():s.End()], so joining the texts reproduces the normalised input.",
"every input, every reachable dictionary",
"Same unbounded space as C08.",
"segmenter.go:segmentWords","token.go:Text","gse.go:Slice","gse.go:Cut")
p("C10","Every segment is a dictionary word or one unknown word tagged x",
"Each segment's token is either a stored dictionary token, or a single split word that is not itself stored, reported with frequency 1 and tag \"x\"; a stored single word is never reported as unknown.",
"every input, every reachable dictionary",
"All dictionaries times all texts.",
"segmenter.go:segmentWords")
p("C11","Segment returns a shortest path",
"Among all ways of writing the word list as stored tokens and unknown single words, the segmentation returned has the least accumulated distance, and ties are broken towards the longest last token, recursively; this holds whenever all stored distances are positive. Without rounding it is a segmentation of greatest probability, an unknown word counting 2^-32.",
"every input, every reachable dictionary with positive distances, every alternative segmentation",
"The number of alternative segmentations is exponential in the text and the texts are unbounded.",
"segmenter.go:segmentWords","segmenter.go:updateJumper")
p("C12","Segmentation never panics nor loops while the split flags stay fixed",
"Segment/ModeSegment return normally for every input on every dictionary built through the API with unchanged AlphaNum/Alpha/Num/ToLower; changing those flags after loading can make Segment panic or drop text.",
"every history of dictionary operations, every input",
"Nil-pointer and index panics depend on particular dictionary/text combinations.",
"segmenter.go:segmentWords","dictionary.go:LookupTokens")
p("C13","Distance-zero tokens break the shortest path",
"A token whose stored distance is 0 (every token added by AddToken before a recalculation, or the only token of a dictionary) makes the 'unvisited' test of the path search misfire, so Segment may return a path that is not shortest.",
"existence of a dictionary and a text; contrasts with C11",
"A test can show one bad case but not that positivity of distances is exactly what C11 needs.",
"segmenter.go:updateJumper","dict_util.go:AddToken","dict_util.go:CalcToken")
p("C14","Search mode changes the segmentation only for texts that are one dictionary word",
"ModeSegment(bytes,true) equals Segment(bytes) whenever Segment(bytes) has at least two segments (positive distances); when the whole text is a stored word, search mode never returns it as one segment, and when the text is one split word search mode returns nothing at all.",
"every input, every reachable dictionary with positive distances",
"Relates two runs of a dynamic program over all dictionaries and texts.",
"segmenter.go:ModeSegment","segmenter.go:segmentWords","gse.go:CutSearch","gse.go:Slice")
p("C15","Sub-segments tile their token and are strictly shorter",
"After CalcToken, the Segments() of each dictionary token have strictly fewer words than the token, lie inside it in order without overlap with correct byte offsets, and tile it exactly unless a single Japanese kana character was left out.",
"every reachable dictionary, every token",
"All dictionaries.",
"dict_util.go:CalcToken","token.go:Segments","dict_util.go:IsJp")
p("C16","Search-mode output terminates",
"Expanding tokens recursively in ToSlice/ToString/ToPos with searchMode=true terminates and never dereferences a missing token or an empty text, for every token of every recalculated dictionary.",
"every reachable dictionary after CalcToken, every token",
"Termination over an arbitrary token graph.",
"seg_utils.go:tokenToSlice","seg_utils.go:tokenToString","seg_utils.go:tokenToPos","dict_util.go:CalcToken")
p("C17","ToString, ToSlice and ToPos agree",
"In both modes ToSlice is the list of Text fields of ToPos, and ToString is the concatenation of text/pos followed by a space for the same list.",
"every segment list, both modes",
"All token graphs.",
"seg_utils.go:ToString","seg_utils.go:ToSlice","seg_utils.go:ToPos")
p("C18","Search-mode output only adds sub-words",
"Expanding segments in search mode yields the normal-mode texts as a subsequence, in order, and every additional item placed before a token's text is a substring of that text.",
"every segment list over a recalculated dictionary",
"All dictionaries and texts.",
"seg_utils.go:ToSlice","seg_utils.go:tokenToSlice")
p("C19","Recalculation is idempotent",
"Calling CalcToken again without changing the dictionary changes nothing observable; AddTokenForce of a word already present behaves like CalcToken alone.",
"every reachable dictionary",
"Recalculation reads the distances and sub-segments it is itself rewriting.",
"dict_util.go:CalcToken","dict_util.go:AddTokenForce")
p("C20","Loading a dictionary string stores exactly the accepted lines, first line wins",
"After LoadDictStr on a fresh segmenter, a word is found with frequency f and tag t exactly when the first accepted line for it says so; loading a\\n+b equals loading a then b.",
"every dictionary text",
"Dictionary files are arbitrary text.",
"dict_1.16.go:LoadDictStr","dict_util.go:Size")
p("C21","Frequency filter decision table",
"Size(n,text,freqText): 0 columns rejects; 1 column rejects unless LoadNoFreq, then uses TextFreq; unparsable rejects, but an out-of-range number is accepted as infinity despite the error; below MinTokenFreq rejects; words of fewer than two characters get frequency 2.",
"every column count, text, frequency string and setting",
"A decision over four independent unbounded inputs.",
"dict_util.go:Size")
p("C22","LoadDictMap equals loading the equivalent entries one by one",
"LoadDictMap stores exactly the entries accepted by Size (column count = number of map keys), in order, first wins, then recalculates.",
"every list of maps",
"Unbounded lists.",
"dict_util.go:LoadDictMap")
p("C23","Reader without separator leaks the previous line's tag",
"When loading with Reader and no DictSep, a line that has only a word (LoadNoFreq) inherits the part of speech of the previous line; all other lines get their own tag.",
"every sequence of lines",
"Depends on state carried across lines of an arbitrary file.",
"dict_util.go:Reader")
p("C24","CutAll reports every dictionary occurrence",
"CutAll(str) emits every occurrence (start,end) of a stored word with positive frequency spanning two or more characters, exactly once, ordered by start then end; every other emitted item is one character.",
"every text, every reachable dictionary",
"All occurrences in all texts.",
"dag.go:cutAll","dag.go:getDag","gse.go:CutAll")
p("C25","CutAll covers the text",
"Every character of the (lower-cased) input lies inside some emitted item of CutAll.",
"every text, every reachable dictionary",
"Coverage depends on overlaps of arbitrary dictionary words.",
"dag.go:cutAll")
p("C26","Cut without HMM loses no text",
"Joining Cut(str,false) gives back the lower-cased input (with invalid bytes read as U+FFFD); no item is empty; each item is a dictionary word, a single character or a run of ASCII alphanumerics.",
"every text, every reachable dictionary, every floating point behaviour",
"All texts and dictionaries.",
"dag.go:cutDAGNoHMM","dag.go:calc","gse.go:Cut","gse.go:CutDAGNoHMM")
p("C27","DAG cutting follows a maximum-probability route",
"The route chosen by the DAG cut maximises the accumulated log-frequency over all ways to split the text into stored positive-frequency words (single characters where no word starts), ties going to the longer next word. Without rounding this is a route of greatest probability, the product of the shares of its words in the total.",
"every text, every reachable dictionary, every alternative route; arithmetic only assumed totally ordered with monotone addition (as IEEE addition without NaN is)",
"Exponentially many routes over unbounded texts.",
"dag.go:calc","dag.go:getDag")
p("C28","Cut with HMM loses no text",
"Joining Cut(str,true) gives back the lower-cased input (invalid bytes as U+FFFD), whatever the HMM model parameters.",
"every text, every reachable dictionary, every HMM model, every floating point behaviour",
"All texts, dictionaries and models.",
"dag.go:cutDAG","dag.go:hmm","hmm/hmm_seg.go:Cut","hmm/hmm_seg.go:internalCut")
p("C29","Viterbi returns a legal, complete and optimal tag sequence",
"hmm.Viterbi returns one tag per character, consecutive tags respect B->M/E, M->M/E, E->B/S, S->B/S, the last tag is E or S, and no legal tag sequence ending in E or S has a higher accumulated score.",
"every non-empty observation sequence, every emission model (for optimality: emission values that are numbers up to zero or -Inf)",
"4^n tag sequences for unbounded n, arbitrary user models.",
"hmm/viterbi.go:Viterbi","hmm/viterbi.go:probs")
p("C30","HMMCut loses no text and terminates with the default patterns",
"Joining HMMCut(str) gives back str exactly and no item is empty, for every string and every model.",
"every byte string, every HMM model",
"The loop re-scans the remaining text; termination and losslessness are for all inputs.",
"hmm/hmm_seg.go:Cut","hmm/hmm_seg.go:locJudge","hmm/hmm_seg.go:internalCut","gse.go:HMMCut")
p("C31","User patterns that match the empty string break HMMCut/CutDAG",
"With user supplied patterns that never match the empty string HMMCut terminates and loses nothing (on valid text); a skip pattern matching the empty string at the front makes it loop forever, and a word pattern doing so makes it panic.",
"every pair of match functions, every text",
"Non-termination cannot be observed by a test.",
"hmm/hmm_seg.go:Cut","gse.go:CutDAG","gse.go:HMMCut")
p("C32","CutSearch with an HMM flag adds only dictionary bigrams and trigrams",
"CutSearch(str,hmm) contains Cut(str,hmm) as a subsequence; each word is preceded by exactly its proper 2- and 3-character substrings that are stored with positive frequency, 2-grams first, left to right.",
"every text, every reachable dictionary",
"All texts.",
"dag.go:cutForSearch","gse.go:CutSearch")
p("C33","FindAllOccs reports true, non-overlapping occurrences from the right, and hangs on an empty search",
"For non-empty search strings every reported offset is an occurrence, offsets of one search are strictly decreasing and non-overlapping, and a search string with any occurrence has at least one; with an empty search string the call never returns.",
"every data and every list of search strings",
"Unbounded data; non-termination is not testable.",
"dag.go:FindAllOccs")
p("C34","Analyze never indexes out of range and its offsets are right",
"With an empty text argument Start/End tile the concatenated words (in bytes or runes); with a text argument every word that occurs in it gets Start/End with text[Start:End]==word (of the lower-cased text when ToLower is on); no call panics, even with repeated words.",
"every word list without empty words, every text",
"Repeated words index into a list built by another loop; safety must hold for all repetitions.",
"dag.go:Analyze","dag.go:FindAllOccs")
p("C35","Stop words behave as a set",
"After any sequence of LoadStop, LoadStopEmbed, LoadStopStr, LoadStopArr, AddStopArr, AddStop, RemoveStop and EmptyStop, IsStop(w) is true iff w was added after the last removal/emptying; AddStop panics exactly when no stop list has been created since the start or the last EmptyStop.",
"every history of stop-word operations",
"Unbounded histories.",
"stop.go","dict_1.16.go:LoadStopStr")
p("C36","Trim functions are exact filters",
"Stop, Trim, TrimSymbol, TrimPunct, TrimPos and TrimPosPunct keep, in order, exactly the items described by their documentation (stop words, symbols, spaces, punctuation removed), and applying Stop/Trim/TrimSymbol/TrimPunct/TrimPos twice equals applying them once.",
"every list, every stop set",
"All lists and all characters.",
"trim.go:Stop","trim.go:Trim","trim.go:TrimSymbol","trim.go:TrimPunct","trim.go:TrimPos","trim.go:TrimPosPunct")
p("C37","TrimWithPos removes exactly the listed tags, and everything when none is listed",
"TrimWithPos(se, pos...) with at least one tag keeps in order exactly the items whose tag is not listed; with no tag it returns nothing, so PosTrim/PosTrimArr/PosTrimStr without tags always return nothing.",
"every list, every tag list",
"All lists and tag lists.",
"trim.go:TrimWithPos","trim.go:PosTrim","trim.go:PosTrimArr","trim.go:PosTrimStr")
p("C38","CutStr and PosStr are joins",
"CutStr(list, sep) is the list joined by sep (default a space) with no trailing separator; PosStr likewise over text/pos (text only with SkipPos); with a separator byte not occurring in the items the list can be recovered.",
"every list, every separator",
"All lists.",
"gse.go:CutStr","gse.go:PosStr")
p("C39","Filter functions delete only what they name and are idempotent",
"FilterSymbol, FilterEmoji and FilterLang keep in order exactly the characters of the named kinds and are idempotent; Range lists all characters, RangeText spaces them; FilterLang with an unknown language panics on the first non-letter.",
"every text",
"All Unicode texts.",
"trim.go:FilterSymbol","trim.go:FilterEmoji","trim.go:FilterLang","trim.go:Range","trim.go:RangeText")
p("C40","FilterHtml removes tags completely in one pass",
"FilterHtml only deletes text, leaves text without tags unchanged, and is idempotent (no removable tag remains or is created by a removal).",
"every text",
"Removing text can create new matches; must hold for all texts.",
"trim.go:FilterHtml")
p("C41","SplitNum partitions the text into digit and non-digit runs",
"Joining SplitNum(text) gives text; items are non-empty, alternate between all-digit and no-digit.",
"every text",
"All texts.",
"trim.go:SplitNum","trim.go:SplitNums","trim.go:CutUrl")
p("C42","Token.Equals(s) iff Token.Text()==s",
"Equals never panics and is true exactly when the concatenated text equals the argument; Join equals concatenation for every length including its special cases.",
"every token, every string",
"All lengths (the code special-cases 0..3).",
"token.go:Equals","token.go:Text","seg_utils.go:Join","seg_utils.go:textSliceToBytes")
p("C43","Segmentation is ASCII case-insensitive when ToLower is on",
"With ToLower on and Alpha off, Segment and every Cut call give the same result for texts that differ only in ASCII letter case, and AddToken/RemoveToken treat such words as the same. Cut with a flag, CutAll and CutSearch lower-case all of Unicode, so they depend only on the text lower-cased character by character; stored words are lower-cased in ASCII only, so a stored word with another capital is never an item of Cut with a flag or of CutAll.",
"every text pair differing only in ASCII case",
"All texts.",
"segmenter.go:SplitTextToWords","segmenter.go:toLower","dict_util.go:ToToken")
p("C44","Dictionary path list",
"DictPaths maps language names to bundled files and other names to themselves, in order; unknown-language names ko/ti/en repeat the previous path; 'en' alone yields nothing.",
"every comma separated list",
"All lists of names; depends on state carried between iterations.",
"dict_util.go:DictPaths")
p("C45","ExtractTags is deterministic and returns the top K",
"ExtractTags(text,k) does not depend on map iteration order; it returns at most k distinct words of at least two characters that are not stop words, in decreasing weight, and no omitted candidate outweighs a returned one.",
"every text, every k>=0, every map iteration order",
"Go randomises map iteration; a test sees one order at a time.",
"hmm/idf/tag_extracker.go:ExtractTags","hmm/segment/segment.go:Less")
p("C46","TextRank depends on map iteration order",
"TextRank lists each word of the co-occurrence graph once, the first topK by decreasing weight, with finite weights. The weights go with the TextRank values unless the values happen to be visited in strictly descending order (the running maximum is skipped whenever the minimum is updated): then all weights are negative and the ranking is upside down. There is a text that any change between two map orders ranks in opposite ways; a graph with one word always gets a negative weight.",
"every text within the size bounds, graph, iteration order and sorting algorithm; existence of a bad pair",
"Map iteration order is a hidden schedule.",
"hmm/idf/textrank.go:rank","hmm/idf/textrank.go:addEdge","hmm/idf/textrank.go:TextRankWithPOS")
p("C47","The IDF median is the middle of the sorted frequencies added",
"After any sequence of Idf.AddToken calls the fallback weight is the element at index len/2 of the sorted list of all frequencies added, including those of duplicate words.",
"every sequence of AddToken calls",
"Unbounded histories.",
"hmm/idf/idf.go:AddToken")
p("C48","idf stop words are shared by all extractors",
"Adding or removing a stop word through one StopWord value changes IsStopWord for every StopWord value created by NewStopWord, past or future.",
"every history over any number of StopWord values",
"Aliasing over arbitrary histories.",
"hmm/idf/stop_words.go")
p("C49","RegexpSplit with a capture group loses no text",
"util.RegexpSplit(re,s,-1) with one capture group and non-empty matches returns pieces whose concatenation is s, matches and gaps alternating.",
"every match list, every text",
"All texts and patterns.",
"hmm/util/util.go:RegexpSplit")
p("C50","pos.Segmenter.Cut loses no text",
"Joining the Text fields of pos.Segmenter.Cut(text, hmm) gives back the text (malformed bytes as U+FFFD), and the call does not panic.",
"every text, every reachable dictionary, every map order",
"All texts.",
"hmm/pos/pos_seg.go:Cut","hmm/pos/pos_seg.go:cutDAG","hmm/pos/pos_seg.go:cutDAGNoHMM","hmm/pos/pos_seg.go:cutDetail")
p("C51","Word assembly from B/M/E/S tags is lossless for legal tag sequences",
"Assembling words from tags returns all characters in order whenever consecutive tags are legal transitions, for any first and last tag; the illegal tags B S and B M B E lose characters, and B E M E repeats some.",
"every tag sequence",
"All tag sequences of all lengths.",
"hmm/hmm_seg.go:internalCut","hmm/pos/pos_seg.go:cutDetailInternal")
p("C52","pos lookup treats the first dictionary word as unknown",
"pos.Dict.Pos returns the stored tag for every stored word except the one added first, which is reported as missing as long as it has not been removed.",
"every reachable dictionary, every word",
"Holds for all dictionaries.",
"hmm/pos/dict.go:Pos")
p("C53","Concurrent Segment calls do not interfere",
"Any number of goroutines calling Segment on the same loaded segmenter return, under every schedule, what each would return alone, and leave the segmenter unchanged.",
"every number of goroutines, inputs and interleavings of their loop steps",
"Schedules cannot be enumerated by tests.",
"segmenter.go:segmentWords","tools/benchmark/goroutines/goroutines.go")
p("C54","SuggestFreq bounds",
"SuggestFreq(word) is at least the word's current frequency; SuggestFreq(w1,w2,...) is at most the current frequency of the joined word; with no argument it panics.",
"every word list, every reachable dictionary, ordered arithmetic",
"All words and dictionaries.",
"dag.go:SuggestFreq")
p("C55","The HMM model is global",
"LoadModel/HMMCutMod through any segmenter determines the model used by every later HMM cut of every segmenter; fewer than four maps always reload the default model.",
"every history of model loads and cuts over any number of segmenters",
"Histories over shared global state.",
"hmm/hmm_seg.go:LoadModel","gse.go:HMMCutMod","gse.go:LoadModel","dict_util.go:Init")
p("C56","Reader with a separator keeps the newline of one-column lines",
"When a file is read with DictSep set, a line without the separator (stored only with LoadNoFreq) is stored as the word followed by its newline, so looking up the word itself finds nothing; other lines store their first column untrimmed.",
"every file content, every separator",
"Whole files of arbitrary lines; the defect only shows in lookups after loading.",
"dict_util.go:ReadN","dict_util.go:Reader")
p("C57","LoadDict stops at a missing file and skips the recalculation",
"LoadDict over a list of files stores the entries of all files in order and recalculates; when one file cannot be opened it returns an error, the entries of the earlier files stay stored, later files are not read and no distances are computed (all words keep distance 0).",
"every list of files, every file system content",
"All positions of the missing file in all lists; the effect is on later segmentations.",
"dict_util.go:LoadDict","dict_util.go:Read")
p("C58","LoadDictEmbed drops the first name of a list with zh in it",
"LoadDictEmbed of a list containing 'zh,' loads the embedded Chinese dictionary and then every name but the first as a dictionary text, so 'zh, u' works but 'u, zh, v' drops u; the two embedded Chinese dictionaries are joined without a newline.",
"every list of names",
"All lists of names.",
"dict_1.16.go:LoadDictEmbed","dict_1.16.go:loadZhST","dict_1.16.go:loadZh")
p("C59","TrimPosPunct changes its argument",
"TrimPosPunct blanks the text of every stop word in the slice its caller passed; every other element of that slice is unchanged, and without stop words the whole slice is unchanged.",
"every list of tagged words, every stop list",
"All lists and stop sets; the effect is on the caller's data, not on the result.",
"trim.go:TrimPosPunct")
p("C60","LoadStop reports missing files and loses lines after a long one",
"LoadStop returns an error exactly when one of the named files cannot be opened, and the words of the files before it stay; a line of 65536 bytes or more silently ends the reading of its file without an error.",
"every list of file names, every file system content",
"All file contents of any length.",
"stop.go:LoadStop")
p("C61","LoadStopEmbed drops the first name of a list with zh in it",
"LoadStopEmbed of a list containing 'zh,' after another name drops that first name and makes the text 'zh' itself a stop word.",
"every list of names",
"All lists of names.",
"dict_1.16.go:LoadStopEmbed")
p("C62","Trimming cuts lose only markup, symbols, blanks and punctuation",
"Joining the items of TrimSymbol(Cut(s, mode)), CutTrimHtml(s, mode) or CutUrl(s) gives exactly the characters of the (normalised, tag-free) text that are neither symbols nor spaces nor punctuation, in order; the blanks CutUrl puts around numbers change nothing in this; no item is empty.",
"every text, every reachable dictionary, every HMM model, each mode of Cut",
"All texts, dictionaries and modes; a character split between two items would be lost only for particular words.",
"trim.go:TrimSymbol","trim.go:CutTrimHtml","trim.go:CutUrl","gse.go:Cut")
p("C63","The IDF fallback weight of a loaded dictionary is 0",
"LoadIdf and LoadIdfStr fill the IDF dictionary without setting the median, so a word that is neither stored nor the beginning of a stored word gets weight 0, and so does a word that only begins stored words, whatever the median.",
"every reachable IDF dictionary, every word, every share",
"All dictionaries and words; a test with words from the dictionary never sees the fallback.",
"hmm/idf/idf.go:LoadDict","hmm/idf/idf.go:Freq","hmm/idf/tag_extracker.go:ExtractTags","hmm/idf/tag_extracker.go:LoadIdf")
p("C64","Removed idf stop words return with the next LoadDict",
"A word read by LoadDict through a StopWord value, even by a call that failed, and removed by RemoveStop since, is a stop word again for all values after the next successful LoadDict through the same value, whatever file that call loads.",
"every history over any number of StopWord values, every file system, every word",
"All histories; the effect needs a removal between two loads through the same value.",
"hmm/idf/stop_words.go:LoadDict","hmm/idf/stop_words.go:RemoveStop")
p("C65","Tagging Han runs by states is deterministic and optimal",
"The tagging that pos.Segmenter.Cut(text, true) gives a run of Han characters unknown to the dictionary comes from the sequence of states with the highest accumulated score (larger state numbers win ties), a word ends at each state of position E or S and takes its tag; the result does not depend on map iteration order, on the sorting algorithm, or on the order in which the list of all states was filled at start-up.",
"every run of Han characters, every legal state table, every map order and sort, every reachable dictionary",
"Map order changes from run to run and cannot be forced by a test; optimality ranges over all state sequences.",
"hmm/pos/viterbi.go:viterbi","hmm/pos/viterbi.go:probs","hmm/pos/pos_seg.go:cutDetailInternal","hmm/pos/prob_trans.go:init")
p("C66","pos.Cut maximises products of frequencies, not probabilities",
"pos.Segmenter.Cut follows the route through the dictionary with the highest sum of log-frequencies (the log of the total is never set), so it can cut a word apart that Segmenter.Cut keeps; pieces of several characters are tagged by the dictionary, runs of single characters by the dictionary or the state model, runs of letters and digits are one eng item without HMM.",
"every text, every reachable dictionary",
"Optimality over all routes of all texts.",
"hmm/pos/pos_seg.go:calc","hmm/pos/pos_seg.go:cutDAG","hmm/pos/pos_seg.go:cutDAGNoHMM","hmm/pos/dict.go:updateLogTotal")
p("C67","pos trims only remove whole items",
"TrimPunct, Trim and TrimWithPos of package pos return a sub-list of their argument with texts and tags unchanged: TrimPunct drops the items that start with a space or punctuation character or are empty, Trim drops those without a plain character and those whose plain characters spell a stop word, TrimWithPos drops those with a listed tag, and everything when no tag is listed.",
"every list of tagged words, every stop list, every list of tags",
"All lists of tagged words.",
"hmm/pos/pos_seg.go:TrimPunct","hmm/pos/pos_seg.go:Trim","hmm/pos/pos_seg.go:TrimWithPos")
p("C68","Concurrent Segment calls are race free",
"Any number of goroutines calling Segment or ModeSegment on one segmenter, even on the same input bytes, never make conflicting accesses: every location written is a cell of an array that the writing call allocated itself, never the segmenter, the dictionary or an input. No schedule makes them run for ever, and every execution can be completed.",
"every number of goroutines, inputs (overlapping or not), dictionary and interleaving of single memory accesses, and every choice of the allocator",
"The race detector sees only the schedules and inputs that a test happens to run.",
"segmenter.go:segmentWords","segmenter.go:SplitTextToWords","dictionary.go:LookupTokens")
p("C69","Adding a word beside Segment is a data race that can panic",
"When one goroutine adds a new word with AddToken while others segment non-empty texts on the same segmenter without a lock, every completed execution contains conflicting accesses to the dictionary (cedar's trie counted as one object), not only some. There is an interleaving in which Segment of a text that begins with the word panics with an index out of range (the word is in the trie before it is in the token table), although neither order of the two calls panics and AddToken alone never does.",
"every reachable dictionary, new word, number of segmenting goroutines and texts, and every interleaving of single memory accesses",
"A test sees a few schedules; that no schedule avoids the race needs all of them.",
"dictionary.go:AddToken","dict_util.go:AddToken","dictionary.go:LookupTokens","segmenter.go:segmentWords","tools/server/server.go")
p("C70","A word added with its suggested frequency is cut whole",
"SuggestFreq(word) gives a frequency with which the word, added by AddToken if it is not stored and by ReAddToken if it is, is returned as one item by Cut with and without the HMM, provided no single ASCII letter or digit of it is stored as a word. Without that proviso it can fail. SuggestFreq of several words does not always make the joined word be cut apart: the total grows by the new frequency, and the old frequency is not taken off it.",
"every reachable dictionary with frequencies from zero up and a total of at least one, every valid lower-case word, every HMM model; arithmetic without rounding",
"The suggestion has to beat every one of exponentially many routes, for all dictionaries.",
"dag.go:SuggestFreq","dict_util.go:AddToken","dict_util.go:ReAddToken","dag.go:cutDAG","dag.go:cutDAGNoHMM")
p("C71","What rounding costs in probability",
"With float64 and float32 as they are and a math.Log and math.Log2 of given relative accuracy, the division Cut uses is at most a factor exp(e) less probable than any other, and the segmentation Segment returns at most a factor 2^e, with e proportional to the size of the logarithms and the number of pieces. In numbers: for frequencies that are zero or from one up, a total up to 2^40 and logarithms accurate to a unit in the last place, the factor is below 1 + 10^-7 for Cut on texts of up to 1000 characters, and below 1.01 for Segment on up to 20 words. A division that is more probable than every other by more than that is the one Cut uses.",
"every reachable dictionary with frequencies from zero up, every text, every logarithm of the stated accuracy",
"Rounding errors accumulate along exponentially many routes; a test compares a few sums.",
"dag.go:calc","dag.go:cutDAGNoHMM","dag.go:cutDAG","dict_util.go:CalcToken","segmenter.go:internalSegment","segmenter.go:updateJumper")
p("C72","One frequency that is not a finite number turns segmentation into greedy matching",
"Once a new word has been added with the frequency NaN (the text NaN in a dictionary is enough) the total stays NaN whatever is done after, and no frequency counts any more: Cut takes from the front the shortest stored word of positive frequency (a single character where none starts), and after a recalculation Segment takes from the end the longest stored word. With +Inf (a text such as 1e999) and a text in which only words of finite frequency occur, Cut takes from the front the longest word, and Segment takes every word as unknown as long as no word is stored by itself, and from there on the longest stored word from the end. Each of these divisions is unique.",
"every sequence of operations on the dictionary before and after, every text, every logarithm that maps NaN to NaN and +Inf to +Inf",
"The effect is on every text, however far from the offending word, and shows only as a different choice between divisions that are all valid; a test of the word added sees nothing.",
"dict_util.go:Size","dict_1.16.go:LoadDictStr","dictionary.go:AddToken","dag.go:calc","dag.go:cutDAGNoHMM","dag.go:cutDAG","dict_util.go:CalcToken","segmenter.go:segmentWords","segmenter.go:updateJumper")
p("C73","Goroutines may cut at the same time, but nobody may load a model meanwhile",
"Any number of goroutines that call Segment, ModeSegment, Cut, CutDAG, CutAll, CutSearch, HMMCut and Find on one segmenter do not race, change nothing, do not panic, and each gets the result it gets alone. But the emission table of the HMM is one global map: LoadModel, HMMCutMod, and the first LoadDict, New or LoadDictStr of any other segmenter write it, so creating a segmenter while another goroutine runs Cut(s, true) on a text that needs the HMM is a data race under every interleaving. Two goroutines that load models race as well, and can leave a model that mixes the two.",
"every memory holding a segmenter made by any history of dictionary calls, any list of calls, every interleaving of their memory accesses",
"A race depends on the schedule; a test sees one schedule, and the two goroutines need not even share a segmenter.",
"gse.go:Cut","gse.go:CutDAG","gse.go:CutAll","gse.go:CutSearch","gse.go:HMMCut","gse.go:LoadModel","gse.go:HMMCutMod","dag.go:Find","dag.go:cutDAG","hmm/hmm_seg.go:LoadModel","hmm/hmm_seg.go:Cut","hmm/viterbi.go:Viterbi","hmm/prob_emit.go:probEmit","dict_util.go:Init")
p("C74","Copies of a segmenter share the dictionary until one of them gets another",
"Segmenter is a struct, so an assignment, the result of New and the argument of WithGse are copies. A copy made when there is a dictionary shares it: every word added, removed or loaded through one is seen through the other, in both directions, however many calls follow; flags are not shared. Sharing ends exactly when one of the two is assigned to, emptied, or loaded with LoadDict while its Load flag is unset (filled by LoadDictStr, LoadDictMap or LoadDictEmbed): that LoadDict discards the words, the copy keeps them, and the two never share again. A copy made before the first load shares nothing. Stop words are shared only if a map existed at the copy. A call changes no other variable in any other way. LoadDict after LoadDict and Empty panics or reports a file error.",
"every program of declarations, assignments and calls on any number of variables, with any texts, files and flags",
"Which variables alias depends on the whole history; a test checks one history, usually on a single variable.",
"segmenter.go:Segmenter","gse.go:New","dict_util.go:LoadDict","dict_util.go:Empty","dict_1.16.go:LoadDictStr","dict_1.16.go:LoadDictEmbed","dict_util.go:LoadDictMap","dict_util.go:AddToken","dict_util.go:RemoveToken","stop.go:LoadStopArr","stop.go:AddStop","stop.go:EmptyStop","hmm/idf/tag_extracker.go:WithGse","hmm/pos/pos_seg.go:WithGse")
p("C75","The server answers every request, and its JSON gives the text back",
"The server starts with any dictionary file, also a missing one, and no sequence of /add and /json requests makes a handler panic; every request is answered. The body is UTF-8 and a JSON text for whatever bytes the client sent. A client that reads the answer to /json gets, without the flag -hmm, segments with err null whose texts join to the lower-cased text (with malformed bytes as U+FFFD), each a stored word with its tag or an unknown word with the tag x; with -hmm, words that join to that text, none empty. The text is the parameter text of the query, and the one of the form only if that is missing or empty.",
"every dictionary file, every sequence of requests, every text, well-formed or not, every HMM model, every floating point behaviour",
"Escaping has to be right for all byte strings, and the state of the server depends on all requests before.",
"tools/server/server.go:JsonRpcServer","tools/server/server.go:addToken","tools/server/server.go:main","dict_util.go:LoadDict","dict_util.go:AddTokenForce")
p("C76","The server acknowledges every /add, whatever it did",
"/add answers code 200 and text ok to every request. A word the dictionary has is not changed by it: no result of Find changes, and if the distances were up to date nothing changes at all. A new word is stored with the number ParseFloat returns beside its error, and with the tag passed. So one request for a new word with a frequency that reads as NaN turns every later answer, on every text and whatever requests come between, into greedy matching: the longest stored words from the end, or with -hmm the shortest stored words from the front.",
"every reachable dictionary, every query, every sequence of later requests, every text",
"The answer does not tell whether the word was stored, and the damage is on texts that do not contain the word.",
"tools/server/server.go:addToken","dict_util.go:AddTokenForce","dictionary.go:AddToken","dict_util.go:CalcToken")
p("C77","AddTokenForce changes the dictionary for concurrent readers even when the word is known",
"Alone, AddTokenForce never panics, returns the error of AddToken and leaves the word, the distances and the sub-segments that the sequential functions compute. Beside goroutines that call Segment on the same dictionary it is a data race under every interleaving: always when the word is new (cedar's trie counted as one object), and also when the dictionary has the word already (the call is then without effect, but rewrites the distance of every token), as soon as the segmented text has a word of the dictionary. Only then: with a known word it is safe beside Cut, CutSearch, CutAll, HMMCut and Find, and beside Segment and ModeSegment of texts without a word of the dictionary: no race, no panic, each call returns what it returns alone. The handlers of the server for /add and /json make these two calls.",
"every reachable dictionary, every word, frequency and tag, every number of goroutines and texts, every interleaving",
"Races depend on the schedule and the race detector sees only the executions it is given.",
"dict_util.go:AddTokenForce","dict_util.go:AddToken","dict_util.go:CalcToken","dictionary.go:AddToken","segmenter.go:segmentWords","segmenter.go:Segment","tools/server/server.go:addToken")
p("C78","Which frequency a dictionary line or a request gives a word, from its text",
"strconv.ParseFloat reads the frequency column as documented: a decimal or hexadecimal floating-point literal of Go, with an optional sign and underscores, is rounded to the nearest float64 (whole numbers below 2^53 exactly); nan in any letter case, without sign, is NaN; inf and infinity with or without a sign are infinities; a number too large gives an infinity of its sign with an error; every other text gives 0 with an error. So a line of a dictionary text is kept exactly as follows: NaN and +Inf are kept; -Inf and a number that rounds below MinTokenFreq or to zero leave the line out; a number too large is kept as an infinity whatever its sign, also below MinTokenFreq; a word of fewer than two characters gets 2 unless the number is too large or left out; other texts leave the line out. After LoadDictStr, Find of a word returns the number in the first line for it that is not left out. One line with nan makes Segment and Cut of every text greedy. The server stores for /add the number returned, 0 for a text that is no number.",
"every text of the column (exponents of six digits or more in texts of more than 2000 bytes excepted), every word, every MinTokenFreq that is finite, every dictionary text, every state of the server",
"The texts are unbounded, and the rounding is right only if it is right for every digit string; tests use whole numbers.",
"dict_util.go:Size","dict_1.16.go:LoadDictStr","dict_util.go:LoadDictMap","dict_util.go:Reader","tools/server/server.go:addToken")
p("C79","The work of Segment is bounded by its own text and the longest word of the dictionary",
"While any number of goroutines call Segment or ModeSegment on one segmenter, the reads, writes and allocated cells of one call are at every moment at most 11*L*B + 32*B + L + 19, where B is the number of bytes of its text and L is MaxTokenLen; without a dictionary at most 32*B + 19. So the number of words in the dictionary and the texts of the other calls play no part, no schedule makes a call run on, and every execution ends after a number of steps known beforehand. With a dictionary made by any history of calls, L is at most the largest number of atomic words of a word stored. One step of the trie is counted as one access for each byte read and one for the node; what append copies when a slice is full is not counted.",
"every text, every dictionary made by any history of dictionary calls, every number of goroutines and every interleaving, at every moment",
"A test measures the time of some texts; a bound for all texts and schedules needs a proof.",
"segmenter.go:Segment","segmenter.go:ModeSegment","segmenter.go:internalSegment","segmenter.go:segmentWords","segmenter.go:SplitTextToWords","dictionary.go:LookupTokens")
p("C80","The work of Cut, CutAll, CutSearch, CutDAG, HMMCut and Find is linear in the text",
"While any number of goroutines make these calls on one segmenter, beside Segment, the accesses of one call to shared memory are at every moment at most: for Cut and CutDAG 14*n*(M+1) + 44*n + 3, for CutAll 7*n*(M+1) + 1, for CutSearch 14*n*(M+1) + 100*n + 3, where n is the number of characters of the text and M the number of bytes of the longest word in the dictionary; for HMMCut four for each byte; for Find 7. So there is no text for which the graph of a text, the search for the best route or the run of the HMM is quadratic in the length of the text, also with patterns given to CutDAG and HMMCut. A lookup in the trie is counted as one access whatever its key, which has at most M+1 bytes that matter; values private to the call and the matching of patterns are not counted.",
"every text, every dictionary made by any history of dictionary calls, every HMM model, every pair of patterns with which the call returns, every number of goroutines and every interleaving, at every moment",
"A test measures the time of some texts; that no text is quadratic is a statement about all of them.",
"gse.go:Cut","gse.go:CutSearch","gse.go:CutAll","gse.go:HMMCut","dag.go:cutDAG","dag.go:cutDAGNoHMM","dag.go:cutAll","dag.go:cutForSearch","dag.go:getDag","dag.go:calc","dag.go:Find","hmm/hmm_seg.go:Cut","hmm/viterbi.go:Viterbi")
p("C81","A character is what RFC 3629 encodes, a malformed byte counts as one character, and trimming removes blanks only",
"Wherever a call of this library takes a text apart into characters, the characters are the ones RFC 3629 encodes (shortest form, no surrogates, nothing above 10FFFF), a byte at which no encoding starts counts as the single character U+FFFD of one byte, and this reading is the only one. Writing a character gives its encoding, or the encoding of U+FFFD for a number that has none. What is taken from a field of a dictionary line, a line of a stop word text or a segment handed to the tag extracter is the text without the encoded blanks at both ends: no blank character stands at either end of the rest, only whole blank characters are removed, and a stray byte that is merely the end of a blank character stays. Taking newlines away takes exactly the newlines at both ends.",
"every byte string, valid UTF-8 or not, every character number",
"The byte strings that are not valid UTF-8 are infinitely many, and the cases that matter (over-long forms, surrogates, cut-off characters at the end) are the ones a test author does not think of.",
"segmenter.go:SplitTextToWords","dict_util.go:ReadN","dict_1.16.go:LoadDictStr","dict_1.16.go:LoadStopStr","hmm/idf/tag_extracker.go:ExtractTags")

p("C82","What changing the split flags between calls does: exactly when Segment panics, and when it stays right",
"AlphaNum, Alpha, Num and the package variable ToLower may be assigned between any two calls. A dictionary remembers each word in the pieces it was split into by the flags of its call. Whatever those flags were, Segment and ModeSegment panic on a text exactly if some consecutive pieces of the text spell a stored word that was stored as more pieces than are left in the text; over all texts that never happens exactly if no stored word that can be met under the flags of now was stored as more pieces than it is met as. With AlphaNum set it never happens. When the call returns, each token was taken for as many pieces as it was stored as. If every stored word that can be met is met as the pieces it was stored as, the result covers the text and consists of stored words and unknown pieces. CalcToken, and with it AddTokenForce and every load, panics exactly if the same happens inside a stored word. Words without letters and digits of one or two bytes (for example Chinese words) are stored alike under all flags. Cut without HMM is not affected by the flags of earlier calls.",
"every list of dictionary calls each with its own flags, every setting of the flags at the time of segmenting, every text",
"A test fixes one setting before loading; the panic needs a word stored under one setting at the right distance from the end of a text met under another.",
"segmenter.go:SplitTextToWords","segmenter.go:segmentWords","dict_util.go:AddToken","dict_util.go:AddTokenForce","dict_util.go:CalcToken","dictionary.go:LookupTokens")

p("C83","Whatever a program does with its segmenters, each dictionary is what one list of calls makes of an empty one",
"A program may keep any number of segmenters, copy them, load them with LoadDict, LoadDictStr, LoadDictMap or LoadDictEmbed, change them with AddToken, AddTokenForce, ReAddToken, RemoveToken and Empty, assign their flags and settings and assign ToLower, in any order. A ledger kept beside the program writes down for every segmenter the calls that reached its dictionary, each with the flags it was made with, a new list being started by the first LoadDict of a segmenter and by any other load of one that has no dictionary; after Empty it has none. After any such program the dictionary of every segmenter is exactly what its list makes of an empty dictionary, and is nil exactly if the ledger has no list. A call panics exactly if it has something to do on a dictionary and there is none, or one of the dictionary calls it stands for panics after those made so far. Segment without a dictionary returns nothing; with one it panics exactly as the list says. If the flags of the calls in the list are the flags of now, everything proved of dictionaries made with fixed flags holds, and a call panics only for want of a dictionary or for removing a proper beginning of a stored word. Cut without HMM never panics with a dictionary.",
"every program over any number of segmenters, every order of copies, loads, changes, assignments and calls of ToLower, every file system, every embedded text, every text segmented",
"The programs are unbounded and the dictionary is reached through copies; a test runs one program on one segmenter loaded once.",
"segmenter.go:Segmenter","dict_util.go:LoadDict","dict_1.16.go:LoadDictStr","dict_1.16.go:LoadDictEmbed","dict_util.go:LoadDictMap","dict_util.go:Empty","dict_util.go:AddToken","dict_util.go:RemoveToken","hmm/idf/tag_extracker.go:WithGse")

p("C84","Extracters in any program: exactly when ExtractTags panics, what it returns, and where LoadDict puts the words",
"A program may keep any number of segmenters, TagExtracter, Idf and StopWord values and call WithGse, LoadDict, LoadIdf, LoadIdfStr, LoadStopWords, AddToken, AddStop, RemoveStop on them, copy extracters and assign the field Idf, in any order. ExtractTags panics exactly if the segmenter of the extracter has no dictionary, or topK is negative, or no call of WithGse, LoadDict or LoadStopWords was made on it and an item of two characters or more is cut off, or it has no Idf with a dictionary and an item that may become a tag is cut off. Otherwise it returns the topK heaviest words of Cut(text, true) through the dictionary that the calls made so far have given the segmenter, leaving out the stop words of the whole program, weighed with the dictionary of its Idf. Words unknown to the Idf get the weight 0 until AddToken was called on that Idf, then the middle one of the weights added; LoadIdf and LoadIdfStr start again from 0. WithGse followed by LoadDict of the extracter puts the words into the dictionary of the program's own segmenter too if LoadDict was ever called on that segmenter; if it was filled otherwise, the extracter loses its words and the segmenter stays as it was.",
"every program over any number of such values, every order of calls, every file system, every HMM model, every text, every topK, every iteration order of maps and every outcome of unstable sorting",
"The order of the calls and the sharing between the values decide; a test has one extracter and one order.",
"hmm/idf/tag_extracker.go:WithGse","hmm/idf/tag_extracker.go:LoadDict","hmm/idf/tag_extracker.go:LoadIdf","hmm/idf/tag_extracker.go:LoadIdfStr","hmm/idf/tag_extracker.go:LoadStopWords","hmm/idf/tag_extracker.go:ExtractTags","hmm/idf/idf.go:AddToken","hmm/idf/idf.go:LoadDict","hmm/idf/stop_words.go:NewStopWord")

p("C85","What New and NewEmbed return, whatever they are given",
"New never panics. The segmenter it returns, also beside an error, has the default settings (least frequency 2, lines without a frequency refused), keeps runs of letters and digits whole exactly if the second argument is 'alpha', and its dictionary holds the entries of the files that the first argument names, in order, up to the first one that cannot be opened; there is an error exactly if one cannot, and then no distances are computed. Every further argument, in particular a second dictionary, is ignored. Segment and Cut without HMM never panic on what was returned, and the segments tile the text. LoadDict on it adds further files and computes the missing distances. NewEmbed never panics and holds the entries of the texts it is asked for, with the flag set by 'alpha' or 'en'; LoadDict on what it returned throws all embedded words away.",
"every list of arguments, every file system, every content of files and embedded texts, every setting of ToLower, every text cut afterwards",
"Tests call the constructors with the shipped dictionary; what further arguments, missing files and later loads do is a statement about all combinations.",
"gse.go:New","dict_1.16.go:NewEmbed","dict_util.go:LoadDict","dict_1.16.go:LoadDictEmbed","dict_util.go:Init")

p("C86","Taggers and text rankers in any program",
"A pos.Segmenter or TextRanker that never got a dictionary (no WithGse of a segmenter with one, no LoadDict) panics in Cut and TextRank exactly on the texts that have a Han character, an ASCII letter or digit, or one of +#&._ ; on all other texts it returns the same items as with any dictionary. Once it has a dictionary, Cut never panics and its items are the text, whatever calls filled that dictionary, through which segmenters and under which flags. After WithGse, words added to or removed from the segmenter are added to and removed from the tagger as well. LoadDict of the tagger after WithGse puts its words into the program's own segmenter if LoadDict was ever called on that one; otherwise the tagger silently loses all words of the segmenter.",
"every program with any number of segmenters, taggers and rankers, copies and calls in any order, every text, every table of the model with finite numbers, every order of map iteration",
"Tests load one tagger and cut a few texts; sharing between copies and panics without a dictionary are statements about all programs and texts.",
"hmm/pos/pos_seg.go:WithGse","hmm/pos/pos_seg.go:LoadDict","hmm/pos/pos_seg.go:Cut","hmm/idf/textrank.go:WithGse","hmm/idf/textrank.go:LoadDict","hmm/idf/textrank.go:TextRankWithPOS")

p("C87","A text may be cut in two where no stored word lies across, and what then holds of the parts",
"Let a text be cut where no stored word lies across the cut, not inside a character and not inside a run of letters and digits (for instance before a line feed when no stored word of several pieces has one). Then Segment gives for the first part the same segments as it gives at the beginning of the whole text: what follows has no influence. Cut without HMM gives for the second part the same items as it gives at the end of the whole text: what precedes has no influence. Both hold with rounding as well. Without rounding, and if no word of frequency zero (for Cut: no character that only begins words) is met, Segment, Slice and Cut of the whole are those of the parts, one after the other, with positions moved. With such a word they are not: after a word of frequency zero Segment takes the longest words, and Cut takes the longest words before a character that only begins stored words. CutAll of the whole is always CutAll of the parts, and search mode segments such a text as normal mode does.",
"every dictionary history, every pair of texts with such a seam between them, every setting of the flags, every arithmetic satisfying the float laws and IEEE arithmetic in particular",
"Independence of what follows or precedes is a statement about all continuations of all texts; tests compare a few whole texts with fixed expected output.",
"segmenter.go:SplitTextToWords","segmenter.go:segmentWords","dag.go:calc","dag.go:cutDAGNoHMM","dag.go:cutAll","gse.go:Cut","gse.go:Slice")

p("C88","Where a text may be cut in two before the HMM sees it, and how a neighbour decides whether it does",
"The runs that HMMCut works on are determined by the text. Between characters of different kinds (Han, ASCII letters and digits, anything else), and not inside a decimal number, HMMCut of the whole is HMMCut of the parts one after the other, for every model. At such a place Cut with the HMM gives for the second part the items it gives at the end of the whole text if no stored word lies across and the characters that the best route leaves single right after the seam are not together a stored word; without rounding, and under the same condition before the seam, Cut of the whole is Cut of the parts one after the other. The last condition is needed: a stored word that the best route leaves as single characters comes back as single characters when it is the whole text, but is handed to the HMM, and may come back as one word, when a separator stands before it.",
"every model of the HMM, every dictionary history, every pair of texts with such a seam, every setting of the flags, every arithmetic satisfying the float laws and IEEE arithmetic in particular",
"That a neighbour has no influence is a statement about all neighbours; the exception shows only for a stored word that is less likely than its characters.",
"hmm/hmm_seg.go:Cut","hmm/hmm_seg.go:internalCut","dag.go:cutDAG","dag.go:hmm","gse.go:Cut","gse.go:HMMCut")

p("C89","What a segmenter answers depends on what is stored, not on how it got there",
"Two histories of calls after which the same words are stored with the same frequencies and tags, and in which the stored frequencies add up to the same sum, give the same answers: Find, Cut, CutAll, CutSearch, SuggestFreq and Analyze at once, and after a recalculation Segment, Slice, String and Pos in both modes, with the same positions, texts, frequencies, tags, distances and sub-words. So the same entries may be added in any order, without rounding and also with it when the frequencies are whole numbers with a sum up to 2^53. Two things do remember the past: a word added and removed again keeps changing how other words are segmented, because its frequency stays in the total, and for a tagger of hmm/pos the word added first has no tag.",
"every pair of histories, every text, every arithmetic; for the order every permutation of every list of entries",
"Order independence compares all histories with each other; tests build one dictionary in one order.",
"dict_util.go:AddToken","dict_util.go:CalcToken","dictionary.go:AddToken","dictionary.go:RemoveToken","dictionary.go:Find","segmenter.go:Segment","gse.go:Cut","gse.go:Slice","gse.go:Pos","hmm/pos/dict.go:Pos")

p("C90","Only the proportions of the frequencies count, and raising one keeps its word whole",
"Multiplying all frequencies by one positive factor changes, without rounding, neither the positions nor the texts, tags and distances of the segments after a recalculation, nor Slice, String and Pos in both modes, nor CutAll, nor Cut and CutSearch with a flag on a text all of whose characters are in the dictionary. A character that is not in the dictionary always counts with frequency 1, so on other texts Cut may change: with 8, 2 and 2 it cuts one way and with 128, 32 and 32 another. When Segment keeps a word whole and the frequency of that word is raised, it still keeps it whole; but raising the frequency of a word inside a longer text can remove it from the segmentation there, because the total grows as well.",
"every history, every factor, every text, both modes; for raising every dictionary built by adding entries and every amount",
"Compares the segmentations of two dictionaries for all factors and all texts; a test fixes both, and the effect of a frequency on a long text is not monotone.",
"dict_util.go:AddToken","dict_util.go:CalcToken","segmenter.go:Segment","dag.go:calc","dag.go:getDag","dag.go:cutAll","dag.go:cutDAG","gse.go:Cut","gse.go:CutSearch","gse.go:Slice")

p("C91","Slice and Cut without HMM write a text with the same probability",
"For a text of plain characters (nothing gathered into runs of letters, nothing changed by lower-casing) each of which is stored with a positive frequency, Slice and Cut(str, false) after a recalculation both return, without rounding, a most probable way of writing the text as stored words of positive frequency; their probabilities are equal, and when only one writing is as probable they return the same words. Among equally probable writings Slice ends in the longest word and Cut begins with the longest word, so they can differ: 中|国人 against 中国|人 when all frequencies are 1. Every word of two or more characters that either returns is also returned by CutAll. With a character that is not stored the two may differ even without a tie, because Segment charges it a constant and Cut the share of a word of frequency 1.",
"every history of calls with exact frequencies, every text of known plain characters",
"Relates two independently written searches (forward with float32 distances, backward with float64 logarithms) for all dictionaries and texts; tests compare outputs on chosen texts and cannot tell which differences are ties.",
"segmenter.go:Segment","dict_util.go:CalcToken","dag.go:getDag","dag.go:calc","dag.go:cutDAGNoHMM","dag.go:cutAll","gse.go:Slice","gse.go:Cut","gse.go:CutAll")

p("C92","Segmenting a part of a result again gives that part back",
"Joining the first items of Slice (with the tags of Pos as well) and slicing the joined text gives these items again, in any arithmetic that obeys the order laws, so also with float32 as it is; joining the last items of Cut(str, false) and cutting again gives these items again, likewise. Without rounding this holds of any consecutive items, so every item alone comes back whole: for Slice if no item before them is a word of frequency zero, for Cut if from there on no item has a single character, letter or digit that is stored with frequency zero or only begins stored words. Both conditions are needed. With the HMM it fails: an item of Cut(str, true) may be cut apart when it is given to Cut alone.",
"every history of calls, every text, every position of the items in the result",
"A query made of words of a document must be cut as the document was, for all documents, dictionaries and positions; tests try some phrases.",
"segmenter.go:Segment","segmenter.go:SplitTextToWords","dag.go:calc","dag.go:cutDAGNoHMM","dag.go:cutDAG","gse.go:Slice","gse.go:Pos","gse.go:Cut")

p("C93","Adding, removing or re-adding a word beside Cut, Find and Segment",
"When one goroutine makes a call of AddToken for a new word, or of RemoveToken or ReAddToken for a stored one, while others call Cut, CutDAG, CutAll, CutSearch, Find or Segment on non-empty texts of the same segmenter without a lock, every completed execution contains conflicting accesses to the dictionary (cedar's trie counted as one object). Beside AddToken of a new word or ReAddToken there is an interleaving in which a Find of the word, or a Cut of a text that has it anywhere, panics with an index out of range. ReAddToken is not one step: every call beside it has an interleaving in which it answers as if the word had been removed, and Find gives frequency zero for a word that is stored before and after. Only HMMCut, which has no dictionary, is safe beside every change; and a change with nothing to do (a known word to be added, a word without a path to be removed or re-added) is safe beside every call: no race, no panic, each call returns what it returns alone and the dictionary stays.",
"every reachable dictionary, every change and word, every number of goroutines and texts, every interleaving",
"Whether a reader sees a half-made change depends on the schedule; the race detector and the tests see only the executions they are given.",
"dictionary.go:RemoveToken","dict_util.go:RemoveToken","dict_util.go:ReAddToken","dict_util.go:AddToken","dictionary.go:AddToken","dag.go:Find","gse.go:Cut","gse.go:CutAll","segmenter.go:Segment")

p("C94","A word that does not occur in a text acts on it through the total only",
"For one text only the entries of the words that occur in it count, and the total of all frequencies ever added. Calls of AddToken, RemoveToken and ReAddToken on words that do not occur in the text, without a recalculation, change neither the segments of the text (positions, texts, frequencies, tags, distances) nor Slice, String and Pos, in both modes. With a recalculation this stays so for RemoveToken, and for AddToken as long as the rounded logarithm of the total stays the same. CutAll of the text never changes. Cut with a flag does not change if also each of its characters is found as before and the total has the same logarithm, so RemoveToken changes nothing for Cut if the word begins with no character of the text; that condition is needed, because a character that no longer begins a stored word is an unknown one. A greater total does act: without rounding it never makes Segment use more stored words, nor Cut without HMM more pieces in a text without ASCII letters and digits, but it can join words: 中 and 国 become 中国 when 北京 is added often enough.",
"every two histories of calls, every text, both modes, every arithmetic for the equalities; exact arithmetic for the effect of the total",
"A user who adds words for one subject expects texts on others to be cut as before; tests compare a few texts before and after a few words.",
"dict_util.go:AddToken","dict_util.go:RemoveToken","dict_util.go:ReAddToken","dict_util.go:CalcToken","dictionary.go:AddToken","segmenter.go:Segment","dag.go:getDag","dag.go:calc","dag.go:cutAll","dag.go:cutDAG","dag.go:cutDAGNoHMM","gse.go:Cut","gse.go:CutAll","gse.go:Slice","gse.go:Pos")

p("C95","Stop words and goroutines",
"Calls that consult stop words (IsStop, Stop, Trim, TrimPos, CutStop, CutTrim, ExtractTags) can be made from any number of goroutines beside each other and beside Cut, CutAll, Find and Segment: no data race, no panic, each returns what it returns alone. A call that changes stop words meanwhile (AddStop, RemoveStop, LoadStopArr, AddStopArr, EmptyStop) races under every interleaving with each call that looks a word up; the stop words of package idf are one map for the whole program, so a change through one extracter races with ExtractTags of every other. Made one after the other in one goroutine, the changing calls do what the sequential functions say: they panic exactly when AddStop finds no map, and leave the same words and everything else unchanged. If every access to the map were atomic, still nothing panics unless EmptyStop is among the calls, every item of a result is judged by itself (one that is and stays a stop word is left out, one that never is stays in, order and the rest unchanged), and a call whose words nobody adds or removes returns what it returns alone; but of two AddStop calls one word can get lost, Stop of a word that occurs twice can keep one of the two, which no set of stop words does, and LoadStopArr beside EmptyStop can panic.",
"every reachable dictionary, every map of stop words, every number of goroutines, changes and texts, every interleaving",
"Tests run one goroutine; which words are seen as stop words while they change depends on the schedule.",
"stop.go:IsStop","stop.go:AddStop","stop.go:RemoveStop","stop.go:LoadStopArr","stop.go:EmptyStop","trim.go:Stop","trim.go:Trim","trim.go:TrimPos","trim.go:CutStop","trim.go:CutTrim","hmm/idf/stop_words.go:AddStop","hmm/idf/stop_words.go:RemoveStop","hmm/idf/stop_words.go:LoadDict","hmm/idf/tag_extracker.go:ExtractTags")

p("C96","Every item is made of whole characters, and a text gives a bounded number of items",
"Cut with a flag and CutAll return, for any bytes at all, items that are not empty and are well-formed UTF-8; CutSearch with a flag likewise; HMMCut of well-formed text too. Cut gives no more items than the text has characters; CutSearch at most twice as many, less the number of words of Cut; CutAll at most n * max(1, K-1) where K is the length of the longest stored word. Every segment of Segment and ModeSegment takes up the bytes of some characters in a row, so text[Start:End] and the token are well-formed when the text is, and there are no more segments than characters. Every item of Slice, Pos and String is made of some of the words of the text in a row; n words give at most n items in normal mode and at most max(n, 2n-4) in search mode, of at most n times the bytes of the text; a token of L words expands to at most max(1, 2L-3) items of at most L times its bytes.",
"for all dictionaries reached by any sequence of dictionary calls, all byte strings, both modes and flags, all HMM models and all floating point behaviours",
"the expansion of nested sub-words is recursive and its size depends on every word stored; samples show some sizes, not that no dictionary makes the output of a hostile text grow further or cut a character in two",
"gse.go:Cut","gse.go:CutSearch","gse.go:CutAll","gse.go:Slice","gse.go:Pos","gse.go:String","seg_utils.go:tokenToSlice","seg_utils.go:tokenToPos","segmenter.go:Segment","segmenter.go:ModeSegment","gse.go:HMMCut")

p("C97","The pool of goroutines in tools/benchmark handles every line exactly once and always comes to an end",
"With at least one goroutine, however the goroutines are scheduled: while main has not returned and nothing has panicked some goroutine can go on (no deadlock); an execution has at most 3*lines + 3*goroutines + 2 steps and main returns exactly with the last of them; by then every line has been segmented, none twice, each result is that of Segment on the line, so the results are those of the sequential benchmark.go up to order; main never returns earlier; with one goroutine the order is kept too; the task channel stays within its bound and no goroutine waits at done. With the dictionary of any segmenter nothing panics and each line is segmented numRuns times; a dictionary used under changed flags can crash the whole program. With no goroutine the first send hangs. openBook keeps the first word of every line only and stops without an error at a line of 65536 bytes; benchmark.go -output writes numRuns times one line for each line of the book, holding its String.",
"for all numbers of goroutines and runs, all books, all dictionaries reached by any sequence of dictionary calls, and all interleavings of the steps of main and of the goroutines",
"a run of the program shows one schedule; that no schedule deadlocks, loses a line or lets main return early is a statement about all of them",
"tools/benchmark/goroutines/goroutines.go:worker","tools/benchmark/goroutines/goroutines.go:main","tools/benchmark/goroutines/goroutines.go:openBook","tools/benchmark/benchmark.go:main","tools/benchmark/benchmark.go:openFile","segmenter.go:Segment","seg_utils.go:ToString")

p("C98","Results of Segment share memory with the caller's buffer exactly at the unknown words that were not copied",
"When Segment or ModeSegment returns, each segment of a dictionary word holds the dictionary's token; each segment of an unknown word holds a slice of the bytes passed in, from the segment's start to its end, except that with ToLower on a word that begins with a letter or number of one or two bytes is a copy in fresh memory. So when the caller then writes other bytes of the same length over its buffer (as bufio.Scanner does with the slice it lends), the texts of exactly the former unknown words become what now stands in their place, and nothing else of the result changes. The same holds for the words SplitTextToWords returns. This is so in every execution, with any number of such calls at the same time.",
"for all dictionaries reached by any sequence of dictionary calls, all switches, all inputs and input buffers, both modes, all interleavings of concurrent calls, and all bytes written afterwards",
"the text of a result reads right as long as the buffer is left alone; which of the results are windows into the buffer depends on every character of the text and on the dictionary",
"segmenter.go:Segment","segmenter.go:ModeSegment","segmenter.go:segmentWords","segmenter.go:SplitTextToWords","segmenter.go:toLow","token.go:Text")

p("C99","The table of tokens may move in memory: what a kept result of Segment shows later",
"append moves the dictionary's tokens to a new array whenever the old one is full, and segments returned earlier keep pointing into the old array. (a) When this happens has no effect on the dictionary: searches, and results that are read at once with ToSlice, ToPos or ToString, come out the same. (b) Texts, frequencies and tags of a kept result never change, so in normal mode it reads for ever as on the day it was made, whatever is added, removed or recalculated. (c) In search mode a kept result reads as in the current dictionary as long as the table has not moved since, and from the first move on for ever as in the dictionary just before that call; so the same calls can give two different outputs, according to how much room append found. (d) Reading a kept result always ends normally.",
"for all histories of dictionary calls before and after the search, all texts, both modes, and all ways in which the append of each call may or may not find room",
"whether the table moves depends on the growth rule of the Go release and on how many words were loaded before; a test sees one growth pattern",
"dictionary.go:AddToken","dictionary.go:LookupTokens","dict_util.go:CalcToken","seg_utils.go:ToSlice","seg_utils.go:ToPos","seg_utils.go:ToString","segmenter.go:Segment")

p("C100","CutAll is an index: what a call finds in a query, CutAll finds in every text that holds the query",
"Take any stored word of at least two characters with a frequency above zero. CutAll(text) has it among its items exactly when it occurs in the text (after lower-casing when ToLower is on), wherever it stands and whatever it overlaps. Hence when a query occurs in a text, every such word that Cut or CutSearch with either flag, or CutAll, returns for the query is among the items CutAll returns for the text; the same for Slice in both modes and Cut and CutSearch without a flag, if with ToLower on the word has no capital letter. The other calls give no such promise: Cut and CutSearch can lose a word of the query in the longer text, and CutAll itself can lose a stored single character.",
"for all dictionaries reached by any sequence of dictionary calls, all words stored in them, all queries and all texts that contain them, all HMM models, all switches and flags",
"a search engine that indexes with one call and asks with another relies on this for every document and query; tests try a few pairs",
"gse.go:CutAll","gse.go:Cut","gse.go:CutSearch","gse.go:Slice","dag.go:cutAll","dag.go:cutDAG","dag.go:cutDAGNoHMM","dag.go:cutForSearch","dag.go:getDag")

p("C101","Taggers and text rankers may run in many goroutines, but not beside a change of the dictionary",
"Any number of goroutines may tag (pos.Cut with either flag), rank (TextRank, TextRankWithPOS), cut, segment and look up with one loaded dictionary at the same time: there is no data race, the dictionary is unchanged, nothing panics, and every call returns what it returns alone, with the tables of the package for every text of up to 2^36 bytes. If one goroutine adds a new word, or removes or re-adds a stored one, then every complete execution has a data race with every tagger and ranker whose text has a Chinese character, a letter or digit of ASCII or one of + # & . _ in it; beside texts without any of these the change is safe and both sides give their sequential results. AddTokenForce of a word that is already there is safe beside taggers and rankers, though not beside Segment.",
"for all interleavings of any number of goroutines, all dictionaries reached by any sequence of dictionary calls, all texts and tables within the bounds of the arithmetic",
"a test runs a few interleavings; that none of all interleavings has a race, or that all of them have one, is not visible in any run",
"hmm/pos/pos_seg.go:Cut","hmm/pos/pos_seg.go:cutDAG","hmm/pos/pos_seg.go:cutDAGNoHMM","hmm/pos/dict.go:Pos","hmm/idf/textrank.go:TextRankWithPOS","dag.go:Value","dict_util.go:AddToken","dict_util.go:AddTokenForce","dict_util.go:RemoveToken","dict_util.go:ReAddToken")

p("C102", "A text may be cut in two at a symbol, at a line end, or where no stored word lies across, before it is tagged",
  "pos.Segmenter.Cut of a + b is Cut of a followed by Cut of b, with and without the state model, whenever the character before or after the seam is not one that is looked up and the seam is neither inside a character nor inside a line break; in particular a text may be tagged line by line. With hmm off the same holds inside a run of characters that are looked up when no stored word of positive frequency lies across the seam and the seam is not between two letters or digits: what comes before never changes the items after it, and without rounding the items before it are also those of the part alone. The text of the items before the seam is always the text of the part.",
  "for every dictionary reached by loading, adding and removing words, every pair of texts, every order of map iteration, and every state model with consistent tables (including the shipped one)",
  "The statement relates three runs of the tagger on unboundedly many texts; a test fixes one text and one seam, and rounding of the scores may differ only for long texts.",
  "hmm/pos/pos_seg.go:Cut", "hmm/pos/pos_seg.go:cutDAGNoHMM", "hmm/pos/pos_seg.go:cutDAG", "hmm/pos/pos_seg.go:calc")

p("C103", "What a tagger answers for a text depends on the words of that text only, and on which word was added first",
  "If after two histories of dictionary calls the words that occur in a text have the same frequencies and tags, the same characters of the text begin stored words, and the same word of the text (or none) is the one added first, then pos.Segmenter.Cut with either flag, and TextRank, answer the same for the text. The total of the frequencies, on which Segmenter.Cut and Segment depend, does not enter: adding or removing other words with any frequency, also an infinite one or NaN, changes nothing unless the word begins with a character of the text, and the order of adding words after the first does not matter in any arithmetic. A word that does not occur in the text but begins with one of its characters can change the answer.",
  "for all pairs of histories, all texts, all tables of the state model, both flags, every order of map iteration, any arithmetic",
  "a test compares two dictionaries on a few texts; that nothing else than the words of the text can matter is a statement about all dictionaries",
  "hmm/pos/pos_seg.go:Cut", "hmm/pos/pos_seg.go:calc", "hmm/pos/dict.go:Pos", "hmm/idf/textrank.go:TextRankWithPOS")

p("C104", "Keywords depend on the shares of the words, not on where they are or how long the text is",
  "Two texts that are cut with HMM into words such that every word that may become a tag (two characters or more, no stop word) has the same share in both give through ExtractTags the same tags with the same weights in the same order, for every topK. Hence the order of the words does not matter, stop words and single characters do not matter however many there are, and a text written several times has the tags of the text. The tags for a smaller topK are the beginning of those for a larger one. With IEEE arithmetic this is exact although the weights are rounded, as long as no IDF value is NaN; parts of a text between which it may be cut may change places, and a part without candidates may be left out.",
  "for all pairs of texts, dictionaries, HMM models, stop word sets, IDF dictionaries, all topK, every order of map iteration and sorting algorithm",
  "a test compares a text with itself doubled for a few texts; that rounding never separates equal shares and that no other feature of the text enters holds for all texts only by proof",
  "hmm/idf/tag_extracker.go:ExtractTags", "hmm/segment/segment.go:Less")

p("C105", "What String prints can be read back, unless a stored word holds a slash or a tag a blank",
  "If no word with a slash inside and no tag with a blank was ever added, then equal results of String come from equal lists of words and tags, so String says as much as Pos and Slice, in normal and in search mode, also across different segmenters; outside search mode the text itself can be read back from it, up to the lower case of its letters. The same holds of PosStr. A word that is just a slash, and slashes as unknown characters of the text, do no harm. A stored word with a slash and a blank inside makes two different texts print alike.",
  "for all pairs of histories, texts and flags",
  "a test compares printed forms with expected ones; that no two different results share a printed form is a statement about all pairs",
  "gse.go:String", "seg_utils.go:ToString", "seg_utils.go:tokenToString", "gse.go:PosStr")

p("C106", "Naming a word more often never costs it its place among the keywords",
  "If no IDF value is below zero or NaN: a word that is named at least as often as a keyword ExtractTags returned and has at least its IDF value is returned as well, not with less weight and before it if its weight is larger; it can be missing only with exactly the same weight, as the earlier text, when topK is used up. A keyword of one text that another text names more often, every other candidate as often as before, is a keyword of the other text for the same topK, its weight is not less, and every word before it was before it already. The same if only the shares move in this way, and if the added words stand in a text that may be appended. Holds with IEEE rounding. With an IDF value below zero it fails.",
  "for all texts, dictionaries, models, stop words, IDF values, topK, map orders and sorting algorithms",
  "a test fixes two texts; rounding of quotients and products, ties and the cut at topK could break monotonicity for others",
  "hmm/idf/tag_extracker.go:ExtractTags", "hmm/segment/segment.go:Less")

p("C107", "A dictionary in the plain form is the same for every loader",
  "For rows of word, frequency and tag without blanks in them, a new segmenter ends up in the same state whether the rows are given to LoadDictStr as a text with one line for each row, to LoadDictMap as maps with the keys text, freq and pos, or to LoadDict in files, however the rows are divided among the files; with or without a separator (DictSep). LoadDict only sets its load flag besides. The same holds for a segmenter that has loaded files before. Rows in another order give the same segments and cuts when no two name the same word and the sum of the frequencies does not depend on the order. A dictionary written out in this form and read back is the one that adding its entries one by one gives. The exception: when words without frequency are let in (LoadNoFreq), LoadDictStr also stores an empty word for the text after the last newline, which counts in NumTokens and TotalFreq.",
  "For all lists of rows, all ways to divide them among files, all separators without blank and newline, all settings of the segmenter, all ways to write frequencies that read back.",
  "Tests load a few fixed files; the three readers share no code for taking a line apart, and only a proof shows that they agree on every text of this form.",
  "dict_1.16.go:91-129 LoadDictStr", "dict_util.go:113-133 LoadDictMap", "dict_util.go:150-200 LoadDict", "dict_util.go:297-383 ReadN, Reader")

p("C108", "The dictionary file named first has priority, and later loads change nothing about a stored word",
  "When LoadDict is given several files, a word that is not stored yet gets frequency and tag from the first file that stores it when loaded alone; a file whose line for the word is rejected leaves it to the next one; a word that no file stores alone is not stored. A word that is stored keeps frequency and tag through every later LoadDict, also one that ends in an error because a file is missing, and through every LoadDictStr. The exception: the first LoadDict of a segmenter that never called it forgets whatever LoadDictStr, LoadDictMap or AddToken stored before.",
  "For all lists of files with any content of together less than 2^31 bytes, all settings, all words, all segmenters reached by any history of calls.",
  "The comment of LoadDict promises priority for the user dictionary; tests try one word of two files. Whether a rejected line, a repeated word, a missing file or a later load breaks it can only be shown for all files.",
  "dict_util.go:142-217 LoadDict", "dict_util.go:297-383 ReadN, Reader", "dictionary.go:51-71 AddToken", "dict_1.16.go:91-129 LoadDictStr")

p("C109", "Further stop words only take words out of the keywords",
  "When words are added to the stop words, ExtractTags of the same text gives first the earlier tags that are no stop words now, in the same order; with room for all tags it gives exactly these. A word that is a tag before and after has no less weight after, and no tag is a stop word. The first part holds for arithmetic whose products with quotients compare alike for every common divisor; with float64 it can fail, since 3*(1/10) is more than 3/10 while 3*(1/4) is 3/4, so that the order of two other words may change. The second part holds for float64.",
  "For all texts of at most 2^51 bytes, all dictionaries and IDF dictionaries reached by any history of calls, all pairs of stop word sets one of which contains the other, all numbers of tags, all orders in which Go may visit a map.",
  "The stop words enter both the selection and the common divisor of the weights, so that a test of one word says nothing about the order of the others; that the order really may change shows up only for particular counts.",
  "hmm/idf/tag_extracker.go:51-99 ExtractTags", "hmm/idf/stop_words.go:50-71 AddStop, IsStopWord")

p("C110", "Words that a result does not use may be removed without changing it",
  "When RemoveToken takes away words that are no segment of the result for a text, Segment, ModeSegment, Slice, String and Pos answer that text exactly as before, unless a removed word is a single word stored with a distance of more than 32 (an unknown word then costs less than the stored one did). Cut without HMM answers as before if the removed words are no items of the result, Find says the same of the single characters of the text as before, and the first character of each removed word in the text is a word that stays; without the last condition the result may change, since Cut allows an unknown character only where no word begins.",
  "For all dictionaries reached by any history of calls with positive distances (Segment) or log-probabilities of at most 0 (Cut), all lists of removed words, all texts, both search modes, in every arithmetic with monotone addition, IEEE float32 and float64 included.",
  "The claim is about the absence of influence of every alternative that lost, with the ties and the rounding of the search; a test removes one word and sees one result. The two exceptions come up only for special dictionaries.",
  "dictionary.go:74-78 RemoveToken", "segmenter.go:104-183 segmentWords", "dag.go:127-201 getDag, calc", "dag.go:269-308 cutDAGNoHMM")

p("C111", "The HMM changes a result only where single characters stand side by side",
  "Every item of Cut(str, false) that is neither one character nor a run of ASCII letters and digits is also an item of Cut(str, true), at the same place, whatever HMM model is loaded; the same holds with the tag for Cut of package pos. For a text without ASCII letters and digits Cut(str, true) is Cut(str, false) with some neighbouring items of one character joined, so that the HMM changes nothing when no two such items are neighbours. With letters and digits neither result need be finer than the other: 1.5c gives 1|.|5c without and 1.5|c with the HMM, and a stored word whose letters are likelier comes back whole without the HMM and in letters with it.",
  "For all dictionaries reached by any history of calls, all texts, all models and emissions, all arithmetics (package pos: all well-formed tables and all texts within the range of the arithmetic).",
  "The two functions share their search but gather single characters in different ways; that nothing else can differ is a statement about all routes and all models, while tests compare the two modes on a few sentences with the shipped model.",
  "gse.go:68-94 Cut", "dag.go:217-266 cutDAG", "dag.go:269-308 cutDAGNoHMM", "hmm/pos/pos_seg.go:189-316 cutDAG, cutDAGNoHMM")

p("C112", "What a caller gets who writes the listed tokens out and reads them back",
  "Dict.Tokens is there to traverse the dictionary, but RemoveToken leaves the token in it. A caller who goes through it, writes text, frequency and tag of every token and adds them to an empty dictionary gets what the calls that added words would have given without the others: every removed word is back, and every word added again has its first frequency and tag. If each word is listed once and stored as listed (so it is after any history without RemoveToken and ReAddToken), the result answers Find, Cut, CutAll, CutSearch and SuggestFreq as the old one, and after recalculation also the calls that segment, exactly in floating point; and so does LoadDictStr of the tokens written as a plain file. A word removed and added as before is listed twice and counts twice in the total, once when it is read back.",
  "For all histories of calls of at most as many words as the trie can hold, all arithmetics, all ways to write frequencies that read back; words and tags without separators for the file.",
  "The list and the trie agree in every test, since none removes a word and then traverses; that the list remembers every word ever added, and that nothing else is lost by writing and reading, is a statement about all histories.",
  "dictionary.go:21-27 Dictionary", "dictionary.go:51-78 AddToken, RemoveToken", "token.go:93-105 Text, Freq, Pos", "dict_util.go:75-104 AddToken, ReAddToken, RemoveToken")

p("C113", "AddTokenForce costs as much as the whole dictionary, AddToken as much as its word",
  "A goroutine makes any calls of AddToken, AddTokenForce, RemoveToken, ReAddToken and CalcToken one after another. Alone it never panics, and it ends with the errors and the dictionary of the sequential functions. Its memory accesses and the cells it allocates are at most 17 times the bytes of its texts and 22 per call, and for every CalcToken and AddTokenForce at most a product of MaxTokenLen and the bytes of all words that were ever stored (removed ones included). Every CalcToken and AddTokenForce costs at least 8 accesses per word ever stored, also AddTokenForce of a word that is there already. So storing N new words with AddTokenForce costs at least 4 N squared, and 8 N for each word that was there; AddToken for each and one CalcToken makes the same dictionary, and costs the texts and one recalculation.",
  "For all histories that made the dictionary, all lists of calls, all texts, frequencies and tags, all executions; the array behind Dict.Tokens has room (growing it is not counted) and an operation of the trie library counts as one access.",
  "A test or benchmark sees one dictionary; that the cost of AddToken does not depend on the dictionary, that AddTokenForce is never cheap, and that both ways end in the same dictionary are statements about all of them.",
  "dict_util.go:75-104 AddToken, AddTokenForce, ReAddToken, RemoveToken", "dict_util.go:454-503 CalcToken", "dictionary.go:51-78 AddToken, RemoveToken")

p("C114", "Which calls that change the dictionary may be made at the same time",
  "Goroutines each make one call of AddToken, AddTokenForce, RemoveToken, ReAddToken or CalcToken on the same segmenter without a lock. They never race exactly when no two of the calls collide, and if two collide every execution in which both have returned contains a data race. Two calls collide when both recompute the table (CalcToken, AddTokenForce, even of a known word) and it has a word; when one appends a token (a new word, or a stored word added again) whatever the other does; and when one takes a stored word out and the other is anything but CalcToken, or the table has a word that is split into several. So two requests to /add of the server that are handled at the same time always race once the dictionary has a word. In an execution without a race every goroutine does what it does alone: it makes the same accesses in the same order, none panics, each call returns the error it returns alone, and what one of them leaves where no other wrote is in memory at the end; this holds for goroutines running any programs that are safe alone.",
  "For all reachable dictionaries, all numbers of goroutines, calls, texts, frequencies and tags, all interleavings of single memory accesses and choices of the allocator; the array behind Dict.Tokens has room, and the trie of the library counts as one object.",
  "The race detector reports the races of the schedules it is given; that there is none under any schedule, or one under every schedule, are statements about all of them.",
  "dict_util.go:75-104 AddToken, AddTokenForce, ReAddToken, RemoveToken", "dict_util.go:454-503 CalcToken", "dictionary.go:51-80 AddToken, RemoveToken", "tools/server/server.go:110-119 addToken")

p("C115", "Calls that do not race do what they do one after another, in any order",
  "Take goroutines that share a segmenter, each safe by itself, and an execution of theirs in which no two of them make conflicting accesses to a memory location. Then any other interleaving of the very same accesses is an execution as well and ends with the same memory and the same results: the goroutines might have run one after another, in any order one likes. For goroutines that each make one call of AddToken, AddTokenForce, RemoveToken, ReAddToken or CalcToken this means that the dictionary afterwards is the one that the calls make one after another in any order, and each returned what it returns there. And whenever no two of the calls collide in the sense of C114, all orders give the same stored words, frequencies, tags, distances and returned errors. When two goroutines add the same new word with different frequencies (they collide), the order shows.",
  "all programs and memories with each goroutine safe alone, all executions without a race in which no address is given to two goroutines (the model allocator could do so for arrays without elements only), all interleavings of their accesses; all split settings, dictionaries, lists of calls and orders in which the calls return",
  "a test sees the few interleavings its scheduler happened to choose, on one dictionary; the claim is about every interleaving and every order",
  "dict_util.go:75-104", "dict_util.go:454-499", "dictionary.go:54-78")

p("C116", "Behind a readers-writer lock any calls may be mixed",
  "gse has no lock of its own, and C69, C77, C93 and C114 show what goes wrong without one. If goroutines make any lists of calls on one segmenter, and on taggers and text rankers that use it, and take one sync.RWMutex around every call, RLock for Segment, ModeSegment, Cut, CutDAG, CutAll, CutSearch, HMMCut and Find, for Cut of a tagger and for TextRank and TextRankWithPOS, Lock for AddToken, AddTokenForce, RemoveToken, ReAddToken and CalcToken, then in every execution: no call panics; conflicting accesses of two goroutines are always ordered by the lock, so there is no data race; every call returns what it returns when the calls are made one after another in the order in which they got the lock; whenever no change is under way memory holds the dictionary that the changes made so far make in that order, and results of Segment returned earlier can still be read; somebody can always go on until all calls are made, and no execution goes on for ever.",
  "all split settings, reachable dictionaries, HMM models, numbers of goroutines and lists of calls (without patterns of the caller; of taggers with well-formed tables, texts short enough for their sums to stay finite), all executions of the goroutines with the lock; if words are removed, those in which no RemoveToken or ReAddToken is given a text that only begins stored words (there cedar is outside its contract)",
  "a test or the race detector sees some schedules of some programs; that a lock around the calls is enough, for every program and schedule, is a statement about all of them",
  "dict_util.go:75-104", "dict_util.go:454-499", "segmenter.go:77-142", "dag.go:269-310", "hmm/pos/pos_seg.go:111-355", "hmm/idf/textrank.go:141-181")

p("C117", "Tagging and text ranking cost time in proportion to the characters that are looked up",
  "Let goroutines tag texts with pos.Segmenter.Cut, rank them with TextRank, cut, search, segment and look up, all with one segmenter, in any interleaving. A call of Cut of a tagger, or of TextRank or TextRankWithPOS, makes at most 14*(M+1)+16 accesses to shared memory for each character of its text that is looked up, where M is the length in bytes of the longest word in the dictionary. The characters looked up are Chinese characters, ASCII letters and digits and the characters + # & . and _; all others cost nothing. A lookup in the trie counts as one access. A call that has returned made at least 2 accesses for each such character, and Cut, CutAll and CutSearch of the segmenter made at least 2 for each character of the text. The number of words in the dictionary and the other calls do not matter. No schedule has more steps than the sum of the bounds.",
  "for all dictionary histories, all calls that return when made alone (C101 says that all with well-formed tables do), all HMM models, all texts, all lists of calls and all interleavings, at every moment",
  "A benchmark measures some texts with one dictionary; that the work never grows with the number of words in the dictionary, and never faster than the number of characters looked up, is a statement about all texts, dictionaries and schedules.",
  "hmm/pos/pos_seg.go:111-355", "hmm/pos/dict.go:53-61", "hmm/idf/textrank.go:141-181", "dag.go:44-46", "dictionary.go:101-143")

p("C118", "The server answers requests for words at the same time, and only those",
  "Let the server of tools/server handle any number of requests at the same time, each in a goroutine of its own and all with the one segmenter. If all are requests to /json, then in every interleaving there is no data race, no handler panics, the dictionary stays as it is, every answer is the one the request has alone, and when nothing can go on all have been answered. A request to /add beside requests to /json is a data race in every interleaving in which both handlers end: always if the word is new; and, if it is stored already, when the server runs without -hmm and the text for /json has a word of the dictionary. If the word is new and the text for /json has it (with -hmm anywhere, otherwise at its start and not longer than the longest stored word), there is an interleaving in which the handler of /json panics. On the other hand an /add of a stored word is harmless with -hmm, or if no text for /json has a word of the dictionary: no race, no panic, the answers of the requests alone, and the recomputed dictionary afterwards.",
  "for all dictionary histories, all models, all lists of requests with any parameters and all interleavings of their handlers",
  "A test of the server sends a few requests and sees one schedule. That no schedule of any number of requests for words goes wrong, and that every schedule with an added word is a race, are statements about all of them.",
  "tools/server/server.go:78-119", "tools/server/server.go:125-140", "dict_util.go:67-86", "segmenter.go:77-142", "segmenter.go:221-306")

p("C119", "Requests behind one mutex, or without a data race, are answered as one after the other",
  "Let the server of tools/server have any number of requests to /json and to /add, each in a goroutine of its own. If the handlers do not interleave, as with a mutex around them, then whichever of them have run and in whatever order, none has panicked, the answers are those of the requests made one after the other in the order in which the handlers ran, and memory holds the dictionary that these requests leave, with every word stored and the table recomputed. For every order there is such an execution. If the handlers do interleave, but the execution has no data race and all handlers have ended, then the answers are those of the requests one after the other in every order one may name, and so is the dictionary.",
  "for all dictionary histories, all models, all lists of requests with any parameters, all orders of any of them and all executions that follow an order or are free of races",
  "A test with a mutex runs a few requests in one order. That mutual exclusion is enough for every mix of requests, and that freedom from races makes the order irrelevant, quantify over all executions.",
  "tools/server/server.go:78-119", "tools/server/server.go:125-140", "dict_util.go:67-86", "segmenter.go:77-142")

p("C120", "A request for words costs as much as its text, a request that adds a word as much as the dictionary",
  "Count the accesses to memory of a handler of tools/server, and the cells it allocates. With any number of requests to /json at the same time, at every moment of every interleaving the count of a handler is bounded by a product of the length of its own text and of the longest stored word; neither the number of stored words nor the other requests matter. Among requests handled one after the other in any order, as behind a mutex, every request to /add, also one for a word that is stored already, costs at least 8 for every word that was ever stored, and at most a multiple of its own text plus a product of the longest word and the bytes of all words that were ever stored. So N requests that store N new words cost at least 4 N squared, and 8 N for every word that was there before.",
  "for all dictionary histories, all models, all lists of requests, all interleavings of requests for words and all orders of requests of both kinds",
  "A benchmark measures a few texts and one dictionary. A bound for every request in every interleaving, and a lower bound that every added word has to pay, are statements about all executions.",
  "tools/server/server.go:78-119", "dict_util.go:67-86", "segmenter.go:77-142", "segmenter.go:221-306")

p("C121", "Keywords depend on the IDF values of the words of the text",
  "Two tag extracters that cut a text alike, whose stop words agree on the words of the text and whose IDF tables give the same values to the words of the text that may become tags, return the same tags with the same weights in the same order from ExtractTags, whatever else is in the tables. A tag whose IDF value does not fall from one table to another, while that of no other word of the text rises, is a tag with the other table as well, with a weight that is not less, and with nobody before it who was not before it already. Once every word of the text that may become a tag is in the table, no calls of AddToken on it, for whatever words and values, change the tags of the text, though the calls move the median.",
  "for all texts of which four times the length is at most 2 to the 53, all dictionaries, HMM models, IDF tables without NaN, stop words, numbers of tags, orders of map iteration and outcomes of sort.Sort, and all lists of AddToken calls",
  "Tests compare the keywords of a few texts with one table. That nothing outside the words of the text matters, and that raising a value never costs a place, are statements about pairs of tables that cannot be enumerated.",
  "hmm/idf/tag_extracker.go:51-99", "hmm/idf/idf.go:33-54")

p("C122", "Without rounding TextRank has one ranking for a text, and its reverse",
  "Let float64 arithmetic be exact. The values that TextRank computes for the items of a cut are those of the textbook formula on the graph of co-occurrences, whatever the order in which maps are visited: ten rounds, word by word in the order of texts, in which every word hands on its value in proportion to how often it stands within four items of another. Every call lists the words by falling value, equal values with the later text first, with positive weights, or in exactly the opposite order with negative weights. The opposite order occurs only if no two words have the same value; in that case, with two words or more, both orders occur: a change in the order in which the map of values is visited, and nothing else, turns the list around. So for each text whose values differ the keywords of TextRank with a small topK may be the least important ones.",
  "for all lists of items of up to 2 to the 38 items, all lists of allowed tags, all topK, all orders of map iteration and all outcomes of sort.Sort",
  "Go randomises the order of maps, so that a test sees one of many runs. That all runs give one of two lists, and that both are possible for every text without equal values, are statements about all iteration orders.",
  "hmm/idf/textrank.go:85-137", "hmm/idf/textrank.go:141-181")

p("C123", "Search mode loses nothing of the cut, splits at seams, and the HMM costs it no longer term",
  "What CutSearch with a flag answers determines what Cut with that flag answers and the text itself, up to invalid bytes and, with ToLower, letter case: two texts with the same answer are the same text. So it is for Slice(str, true), which is CutSearch(str), and, unless a stored word holds a slash or a tag a blank, for String(str, true), among texts that are not one word; for a text of one word it answers nothing, whichever word it is. CutAll does not determine the text. At a seam, a place no stored word crosses and where runs of letters or kinds of characters meet, what comes before has no influence on the items for the text after it; without rounding, and when no piece has the score of frequency zero, CutSearch(a + b) is CutSearch(a) followed by CutSearch(b), with the HMM under the conditions Cut has. CutSearch depends on the entries of the words that occur in the text, on whether its single characters are found and on the total only: removing a word that does not occur in the text and begins with no character of it changes nothing. In a text without ASCII letters and digits the items of two or more characters of CutSearch(str, false) are all among those of CutSearch(str, true), in their order; with letters a stored word can be lost.",
  "for all histories of dictionary calls, all texts and pairs of texts, both flags, all HMM models",
  "That no two texts share an answer, and that no index term is lost whatever the model and dictionary, are statements about all texts and all dictionaries; a test compares a few answers.",
  "dag.go:347-374", "gse.go:82-88")

p("C124", "An HMM model acts on a text through the values of its Han characters, up to a factor and added constants",
  "What HMMCut, Cut(str, true) and CutSearch(str, true) answer depends on a model through the values it gives in the four states to the Han characters of the text, as it is and as lowered for the cut; a value that is missing is the same as the least number. Two models that agree there give the same answers, so a model with more characters changes nothing for texts without them, and for a text without Han characters the model does not matter at all. Let arithmetic be exact. Multiplying all logarithms by one positive factor, which is choosing another base, and adding constants, one to all start values, one to all transitions and for each character one to its four values, changes no answer; so probabilities in a model need not be normalised.",
  "for all dictionaries, all models and start and transition values, all texts",
  "That no character outside the text has an influence, and that no rescaling shows in any answer, are statements about all models and all texts; a test uses one model.",
  "hmm/viterbi.go:68-132", "hmm/hmm_seg.go:34-133")

if __name__=="__main__":
    with open("/verif/properties.jsonl","w") as f:
        for x in P: f.write(json.dumps(x,ensure_ascii=False)+"\n")
    print(len(P))
