{"id": "C01", "title": "charset.New accepts exactly the listed bytes", "statement": "A set built by charset.New(chars) accepts a byte b (Has returns true) exactly when b occurs in chars; in particular bytes >= 128 are handled although the doc comment says only ASCII is allowed.", "quantifier": "for every byte slice chars and every byte b", "why_tests_cant": "There are infinitely many byte slices; a test checks a handful of memberships.", "anchors": ["charset/charset.go: New", "charset/charset.go: Set.Has"]}
{"id": "C02", "title": "charset.Range accepts exactly an inclusive interval", "statement": "charset.Range(low, high).Has(b) is true exactly when low <= b <= high; an inverted range is empty.", "quantifier": "for all bytes low, high, b", "why_tests_cant": "2^24 combinations, with four word-boundary cases that tests sample only at ASCII.", "anchors": ["charset/charset.go: Range"]}
{"id": "C03", "title": "charset algebra", "statement": "Complement, Add and Sub are set complement, union and difference with respect to Has; hence e.g. complement is an involution and a.Sub(b) equals the intersection of a with the complement of b.", "quantifier": "for all sets a, b (any bit pattern) and every byte", "why_tests_cant": "2^512 pairs of sets.", "anchors": ["charset/charset.go: Set.Complement, Set.Add, Set.Sub"]}
{"id": "C04", "title": "charset Size counts members", "statement": "Size() of a Set equals the number of bytes it accepts, and IsSmall() holds exactly when no byte >= 128 is accepted, in which case SmallSet() accepts the same bytes below 128 and has the same Size.", "quantifier": "for every set", "why_tests_cant": "2^256 sets.", "anchors": ["charset/charset.go: Set.Size, Set.IsSmall, Set.SmallSet, SmallSet.Size, SmallSet.Has"]}
{"id": "C05", "title": "charset equality is extensional", "statement": "Two sets compare equal with == exactly when they accept the same bytes; so the set de-duplication done when a program is encoded never conflates different classes.", "quantifier": "for all pairs of sets", "why_tests_cant": "2^512 pairs.", "anchors": ["charset/charset.go: Set", "vm/code.go: addSet"]}
{"id": "C06", "title": "Input behaves as a flat cursor", "statement": "Reading through an Input is independent of its internal buffering: after any sequence of SeekTo, Peek, PeekBefore and Advance calls, Peek/PeekBefore return exactly the byte of the underlying data at/just before Pos(), SeekTo(p) moves to p and reports whether p is inside the data, and Advance moves Pos() by n (or not at all at the end of data).", "quantifier": "for every data, every buffer size >= 1 and every finite sequence of calls", "why_tests_cant": "Bugs show only when a particular call sequence straddles a 4096-byte boundary; sequences are unbounded.", "anchors": ["input/input.go: Input.Peek, PeekBefore, SeekTo, Advance, refill, Pos"]}
{"id": "C07", "title": "Advance(n) reports whether n bytes were available", "statement": "Advance(n) returns true exactly when n more bytes were available in the data. (Found to be FALSE of the code: for n >= 2 a step over a buffer boundary reports failure although the bytes exist, and Advance(0) at end of data reports failure.)", "quantifier": "for every data, position and n", "why_tests_cant": "The failure depends on the alignment of the position with a 4096-byte boundary.", "anchors": ["input/input.go: Input.Advance"]}
{"id": "C08", "title": "Furthest is the largest position ever peeked", "statement": "Furthest() equals the maximum position at which Peek was called since creation (or since ResetFurthest); SeekTo and Advance never change it.", "quantifier": "for every data and every finite sequence of calls", "why_tests_cant": "Unbounded call sequences.", "anchors": ["input/input.go: Input.Peek, Furthest, ResetFurthest"]}
{"id": "C09", "title": "FromReader serves the stream at random access", "statement": "An io.ReaderAt obtained from FromReader(r) returns, for every ReadAt(b, off) call in any order, exactly the bytes [off, off+len(b)) of the complete stream (truncated at its end), however the wrapped reader splits its data into Read results.", "quantifier": "for every stream, every split of the stream into reads (including reads that return data together with EOF) and every sequence of ReadAt calls", "why_tests_cant": "The way a reader chunks its data is chosen by the environment.", "anchors": ["input/reader.go: readerWrapper.ReadAt, FromReader"]}
{"id": "C10", "title": "Operand encoding round-trips", "statement": "Every instruction operand written by Encode (8-bit values, 16-bit signed ids, 24-bit labels and table indices, booleans) decodes to the original value over its whole legal range, and out-of-range operands are rejected rather than truncated.", "quantifier": "for every value in the operand's range", "why_tests_cant": "2^24 labels and all the byte layouts; tests use small programs with labels < 256.", "anchors": ["vm/code.go: encodeU8, encodeI16, encodeU24, encodeLabel", "vm/vm.go: decodeU8, decodeI16, decodeU24"]}
{"id": "C11", "title": "Encoded layout agrees with the size table", "statement": "The number of bytes Encode emits for each instruction equals the size used to compute label offsets and the size by which the VM advances, so each label denotes exactly the first byte of the instruction it precedes.", "quantifier": "for every program that encodes", "why_tests_cant": "Programs are unbounded and one wrong size shifts every later label.", "anchors": ["vm/code.go: Encode", "vm/op.go: size, sz*"]}
{"id": "C12", "title": "Bytecode execution equals instruction execution", "statement": "Running the encoded bytecode of a program gives the same result (match flag, position, captures, errors, memo-table contents) as stepping through the instruction list itself, jumping to labels; and one terminates exactly when the other does.", "quantifier": "for every program that encodes, every input, memo table and interval", "why_tests_cant": "Needs equality of unbounded executions.", "anchors": ["vm/code.go: Encode", "vm/vm.go: Code.exec"]}
{"id": "C13", "title": "Optimize preserves behaviour", "statement": "The peephole pass applied by Compile (head-fail instructions, jump threading) never changes the observable result of running a program, nor whether it terminates.", "quantifier": "for every compiled program without multi-byte Any, every input and memo table", "why_tests_cant": "Unbounded programs and runs.", "anchors": ["pattern/optimize.go: Optimize"]}
{"id": "C14", "title": "Pattern rewriting preserves meaning", "statement": "The rewriting of patterns done before compilation (Get: dropping empty sequences/alternatives, merging classes, turning !x . into a class, removing Optional of Star) preserves which prefixes are matched and which captures are produced.", "quantifier": "for every pattern, grammar environment, input and position", "why_tests_cant": "Unbounded patterns.", "anchors": ["pattern/optimize.go: Get, combine"]}
{"id": "C15", "title": "Compile implements PEG semantics: matches", "statement": "If a pattern compiles and encodes, then Exec reports a match ending at position j exactly when the pattern, read as a parsing expression (ordered choice, greedy repetition, syntactic predicates, recursive non-terminals), consumes exactly the first j bytes of the input; it reports no match exactly when the parsing expression fails.", "quantifier": "for every pattern that uses Any only with n = 1 (C24) and in which no non-terminal is captured by an inner definition, the inliner or Search (C25), every input, every buffer size", "why_tests_cant": "Patterns and inputs are unbounded; tests cover a few grammars.", "anchors": ["pattern/compile.go", "pattern/optimize.go", "vm/vm.go: Code.Exec"]}
{"id": "C16", "title": "Termination of Exec", "statement": "Exec terminates on an input exactly when the parsing expression evaluation terminates (no optimisation introduces or hides divergence such as a star over an empty-matching pattern or left recursion).", "quantifier": "for every pattern that uses Any only with n = 1 (C24) and in which no non-terminal is captured by an inner definition, the inliner or Search (C25), every input, every buffer size", "why_tests_cant": "Non-termination cannot be observed by a test.", "anchors": ["vm/vm.go: Code.exec", "pattern/compile.go"]}
{"id": "C17", "title": "Captures returned by Exec are the parse tree", "statement": "On a match the capture tree returned equals the tree of Cap nodes entered on the successful path, in order, with exact start and length, and nothing from abandoned alternatives or negative predicates.", "quantifier": "for every pattern that uses Any only with n = 1 (C24) and in which no non-terminal is captured by an inner definition, the inliner or Search (C25), every input, every buffer size", "why_tests_cant": "Backtracking paths are unbounded.", "anchors": ["vm/vm.go: CaptureBegin/Late/Full/End", "vm/stack.go", "pattern/compile.go: CapNode.Compile"]}
{"id": "C18", "title": "Exec never panics on compiled patterns", "statement": "For every pattern that compiles and encodes, no run of the VM reaches one of its panics (Return failed, PartialCommit failed, CaptureEnd did not find capture entry, ...).", "quantifier": "for every pattern that uses Any only with n = 1 (C24) and in which no non-terminal is captured by an inner definition, the inliner or Search (C25), every input, every buffer size", "why_tests_cant": "A panic may need an arbitrarily deep stack configuration.", "anchors": ["vm/vm.go: Code.exec panics"]}
{"id": "C19", "title": "Errors are logged in order", "statement": "The list of ParseErrors returned is the sequence of Error patterns evaluated by the parsing expression (including those on later abandoned branches), each with the position at which it was evaluated; an Error without recovery ends the parse unsuccessfully at that point.", "quantifier": "for every pattern as in C15, every input, with no memo-table hits", "why_tests_cant": "Unbounded.", "anchors": ["vm/vm.go: opError, opEnd", "pattern/compile.go: ErrorNode.Compile"]}
{"id": "C20", "title": "Checkers see exactly the matched slice", "statement": "A Check node calls its checker with exactly the bytes matched by its sub-pattern, fails exactly when the checker answers -1, and otherwise continues n bytes further.", "quantifier": "for every pattern that uses Any only with n = 1 (C24) and in which no non-terminal is captured by an inner definition, the inliner or Search (C25), every input, every buffer size", "why_tests_cant": "Checkers are arbitrary user functions.", "anchors": ["vm/vm.go: opCheckBegin, opCheckEnd", "isa/checker.go"]}
{"id": "C21", "title": "Search matches the first occurrence", "statement": "Search(p) succeeds with end j exactly when j is the end of p's match at the least position >= the current one at which p matches.", "quantifier": "for every pattern p as in C15 not using the reserved name S, every input", "why_tests_cant": "The skip-ahead optimisation depends on the first instruction of p.", "anchors": ["pattern/compile.go: SearchNode.Compile"]}
{"id": "C22", "title": "Inlining and definition order are unobservable", "statement": "The result of a grammar does not depend on which non-terminals are inlined nor on the (random) order in which Go iterates over the definition map.", "quantifier": "for every grammar without shadowing, every ordering of its definitions, every input", "why_tests_cant": "Map order is chosen by the runtime; inlining depends on a size threshold.", "anchors": ["pattern/optimize.go: GrammarNode.Inline, inline", "pattern/compile.go: GrammarNode.Compile"]}
{"id": "C23", "title": "Tail calls are unobservable", "statement": "Replacing a call followed by a return with a jump (and deleting the return) never changes results.", "quantifier": "for every program with calls and returns, every input", "why_tests_cant": "Unbounded call depth.", "anchors": ["pattern/compile.go: GrammarNode.Compile lines 407-438"]}
{"id": "C24", "title": "Any(n) consumes n bytes or fails without consuming", "statement": "Any(n) succeeds exactly when at least n bytes remain, and then consumes n bytes; as the body of Optional/Not/Or it leaves the position unchanged on failure. (Found to be FALSE of the code for n >= 2 and for n = 0.)", "quantifier": "for every n and input", "why_tests_cant": "Depends on buffer alignment and on the head-fail instruction TestAny.", "anchors": ["pattern/pattern.go: Any", "vm/vm.go: opAny, opTestAny", "input/input.go: Advance"]}
{"id": "C25", "title": "Non-terminals are lexically scoped", "statement": "A non-terminal refers to the innermost enclosing grammar defining it. (Found to be FALSE of the code: the outer grammar's inliner overrides an inner definition of the same name, and Search captures a user non-terminal named S.)", "quantifier": "for every nesting of grammars", "why_tests_cant": "Needs an unusual nesting.", "anchors": ["pattern/optimize.go: inline", "pattern/compile.go: SearchNode.Compile"]}
{"id": "C26", "title": "Captures are properly nested", "statement": "Children of a capture lie inside their parent's range, are ordered and do not overlap. (Found to be FALSE when captures occur inside an And predicate; true otherwise.)", "quantifier": "for every pattern without captures under And, every input", "why_tests_cant": "Unbounded trees.", "anchors": ["memo/capture.go", "vm/vm.go"]}
{"id": "C27", "title": "Memoization is transparent", "statement": "Running with a TreeTable that already holds entries produced by earlier runs of the same program on the same input (any threshold) gives the same match flag, position and capture tree as running with NoneTable.", "quantifier": "for every pattern without Error and without checkers that have a state under Memo, every input, every number of repeated runs", "why_tests_cant": "State of the table depends on the whole history.", "anchors": ["vm/vm.go: opMemoOpen, opMemoClose, opMemoTree*", "memo/tree.go"]}
{"id": "C28", "title": "Incremental reparse equals a fresh parse", "statement": "After ApplyEdit is called with an edit, re-running on the edited text with the same memo table gives the same match flag, position and capture tree as parsing the edited text from scratch. (Found to be FALSE of the code for repeated reparses, also with grammars/json_memo.peg, and for multi-byte lookahead done with Any; true for the first reparse of patterns that inspect bytes only with literals/classes, and for any number of reparses if moreover memoized parts look at no more than two bytes beyond their end.)", "quantifier": "for every pattern, text and sequence of edits", "why_tests_cant": "Histories are unbounded and staleness only shows for particular edit positions.", "anchors": ["vm/vm.go: memoize, opMemoOpen", "memo/tree.go: ApplyEdit", "input/input.go: Furthest"]}
{"id": "C29", "title": "Memo interval tree never returns a stale entry", "statement": "Whatever the history of Add and RemoveAndShift, FindLargest(id, pos) on the lazy interval tree returns only a value that was added under that id, whose current (shifted) start is pos, and which has not been overlapped by any removal since. (Found to be FALSE of the code: after several shrinking edits a node's max is too small and removal skips a subtree.)", "quantifier": "for every finite history of operations with physically possible shifts", "why_tests_cant": "Rotations, lazy shifts and deletions interact; histories are unbounded.", "anchors": ["memo/interval/lazylog/tree.go"]}
{"id": "C30", "title": "Memo interval tree keeps every entry not overlapped", "statement": "RemoveAndShift removes only the entries overlapping the edited range. (Found to be FALSE of the code: deleting a node with two children silently loses its in-order successor.)", "quantifier": "for every history", "why_tests_cant": "Needs a particular tree shape.", "anchors": ["memo/interval/lazylog/tree.go: remove, removeOverlaps"]}
{"id": "C31", "title": "Interval tree stays a search tree", "statement": "After any history of operations keys, with their pending shifts applied, are strictly ordered in-order and each node's max bounds the ends of all intervals below it. (Found to be FALSE of the code for the max field after several shrinking edits.)", "quantifier": "for every finite history with physically possible shifts", "why_tests_cant": "Lazy shifts make the stored keys temporarily inconsistent.", "anchors": ["memo/interval/lazylog/tree.go"]}
{"id": "C32", "title": "Capture positions follow edits", "statement": "The position reported by a memo entry (and the captures relative to it) equals its original position moved by all later edits before it.", "quantifier": "for every history", "why_tests_cant": "Lazily applied shifts.", "anchors": ["memo/interval/lazylog/tree.go: Pos", "memo/capture.go: Capture.Start, setMEnt", "memo/entry.go"]}
{"id": "C33", "title": "TreeTable.Put filters by threshold", "statement": "Put stores an entry exactly when its examined length reaches the threshold and its length is not zero, and the stored examined length is at least its length.", "quantifier": "for all arguments", "why_tests_cant": "Arithmetic corner cases.", "anchors": ["memo/tree.go: TreeTable.Put"]}
{"id": "C34", "title": "Reference interval array", "statement": "lazy.Array implements the abstract interval map exactly: FindLargest returns a largest stored interval starting at the key, RemoveAndShift removes exactly the overlapping intervals and shifts those at or after the edit.", "quantifier": "for every history", "why_tests_cant": "Unbounded histories.", "anchors": ["memo/interval/lazy/array.go"]}
{"id": "C35", "title": "Child iteration flattens memo-tree dummies", "statement": "ChildIterator enumerates exactly the non-dummy descendants reachable through dummies, in order; NumChildren is their number and Child(n) the n-th.", "quantifier": "for every capture tree", "why_tests_cant": "Dummy nesting depth is unbounded.", "anchors": ["memo/capture.go: ChildIterator, Child, NumChildren"]}
{"id": "C36", "title": "Rope edits are text edits", "statement": "Insert, Remove, SplitAt and Join on a line rope have exactly the effect on Value() of the corresponding operation on a byte slice, and Len() is the length of Value().", "quantifier": "for every rope reachable by any history, every position and text, every Split/Join length", "why_tests_cant": "Tree shapes depend on history.", "anchors": ["input/linerope/rope.go: Insert, Remove, SplitAt, Join, Value, adjust"]}
{"id": "C37", "title": "Rope reads", "statement": "ReadAt(p, off), At(i) and slices of a rope return the bytes of Value(), with io.EOF exactly when the read reaches the end of the text (also if the buffer was filled).", "quantifier": "for every rope, offset and buffer length", "why_tests_cant": "Reads cross arbitrary leaf boundaries.", "anchors": ["input/linerope/rope.go: ReadAt, At, slice"]}
{"id": "C38", "title": "Rope line counting", "statement": "NumLines/LLen of a rope count the separators in Value() and the length after the last one, for one-byte separators, after any history of edits. (For longer separators this is FALSE: a separator straddling two leaves is not counted.)", "quantifier": "for every rope history", "why_tests_cant": "Depends on where leaf boundaries fall.", "anchors": ["input/linerope/line.go", "input/linerope/rope.go"]}
{"id": "C39", "title": "Line/column conversion", "statement": "LineColAt(off) is the number of separators before off and the distance from the last of them, and OffsetAt is its inverse on every valid offset (one-byte separators).", "quantifier": "for every rope and offset", "why_tests_cant": "Unbounded.", "anchors": ["input/linerope/rope.go: LineColAt, OffsetAt, lineColAt", "input/linerope/util.go: lineCol"]}
{"id": "C40", "title": "Rebuild and Rebalance preserve contents", "statement": "Rebuild and Rebalance leave Value() unchanged. (Found to be FALSE of the code: Rebuild on any non-leaf rope leaves a node that panics on the next use.)", "quantifier": "for every rope", "why_tests_cant": "Needs a rope larger than one leaf.", "anchors": ["input/linerope/rope.go: Rebuild, Rebalance"]}
{"id": "C41", "title": "Parallel rope construction", "statement": "NewWithOpts builds the same text for every number of worker threads and every interleaving of their chunk assignments.", "quantifier": "for every text, thread count and schedule", "why_tests_cant": "Schedules cannot be enumerated by a test.", "anchors": ["input/linerope/rope.go: NewWithOpts"]}
{"id": "C42", "title": "ExecInterval returns the captures overlapping the interval", "statement": "ExecInterval with an empty memo table returns the captures of Exec pruned to those overlapping the interval, and the same match flag and position.", "quantifier": "for every pattern as in C15, every input and interval", "why_tests_cant": "Unbounded.", "anchors": ["vm/vm.go: ExecInterval, overlaps"]}
{"id": "C43", "title": "Pattern constructors", "statement": "Concat, Or and Repeat mean sequencing, ordered choice among and n-fold repetition of their arguments, including the empty argument list and n <= 0.", "quantifier": "for every list of patterns and every n", "why_tests_cant": "Unbounded argument lists.", "anchors": ["pattern/pattern.go: Concat, Or, Repeat"]}
{"id": "C44", "title": "Memo captures survive sharing", "statement": "Captures stored in a memo entry are not altered by later use of the same or another entry. (Found to be FALSE of the code: entries share slice storage and a later append overwrites a stored capture.)", "quantifier": "for every run with a memo table", "why_tests_cant": "Needs a slice with spare capacity and two users.", "anchors": ["vm/stack.go: stackEntry.addCapt", "vm/vm.go: opMemoOpen, opMemoClose"]}
{"id": "C45", "title": "Regex conversion", "statement": "A regular expression converted with rxconv matches, as a PEG, the prefix that leftmost-first (Perl) backtracking matches at the same position, whenever star bodies do not match the empty string.", "quantifier": "for every regular expression in the supported subset and every input", "why_tests_cant": "Unbounded expressions.", "anchors": ["rxconv/rxconv.go"]}
{"id": "C46", "title": "re character escapes", "statement": "In the re syntax, \\n \\r \\t \\' \\\" \\[ \\] \\\\ and octal escapes denote the corresponding byte. (Found to be FALSE of the code for octal escapes of 200 and above.)", "quantifier": "for every escape", "why_tests_cant": "Octal range corner case.", "anchors": ["re/re.go: parseChar"]}
{"id": "C47", "title": "Serialised code round-trips", "statement": "A Code written with ToJson is read back by FromJson as the same code, and so executes identically. (Holds for codes without checkers; no code with a checker can be read back from JSON. ToBytes and FromBytes, which call encoding/gob and compress/gzip, are not modelled.)", "quantifier": "for every code and program", "why_tests_cant": "The test compares the instructions of one code without messages or checkers, and does not compare its sets.", "anchors": ["vm/code.go:20-83"]}
{"id": "C48", "title": "Slices by line and column", "statement": "SliceLC between the line/column positions of two offsets returns the bytes between these offsets (one-byte separators), empty if the first is not before the second.", "quantifier": "for every rope history and every pair of offsets", "why_tests_cant": "The clamping of both ends at every inner node depends on the tree shape.", "anchors": ["input/linerope/rope.go: SliceLC, sliceLC", "input/linerope/line.go: sliceloc, minloc, maxloc, sublocs"]}
{"id": "C49", "title": "WriteTo writes the text", "statement": "WriteTo calls the writer with pieces that concatenate to Value(), stops at the first error, returns that error and the sum of the counts returned by the writer.", "quantifier": "for every rope history and every writer behaviour", "why_tests_cant": "Writers may fail at any call.", "anchors": ["input/linerope/rope.go: WriteTo, EachLeaf"]}
{"id": "C50", "title": "The regex converter's check is exact", "statement": "The function verify of rxconv accepts exactly the expressions on which the conversion pi does not panic, whatever continuation and counter it is given.", "quantifier": "for every regular expression tree, continuation pattern and counter value", "why_tests_cant": "Unbounded trees; a missing operator in a nested position shows up only for that shape.", "anchors": ["rxconv/rxconv.go:29-90", "rxconv/rxconv.go:107-124"]}
{"id": "C51", "title": "re texts compile to the pattern they denote", "statement": "A text written according to the re syntax (identifiers, literals with escapes, classes, grouping, memo braces, prefix and suffix operators, alternatives, definitions, blanks and comments anywhere between tokens) is accepted as a whole by the parser that re builds from its own grammar with the library's compiler and machine, without errors; and the pattern that re.Compile builds from the captures is the one the text denotes, so no text has two readings. If a name is defined several times the last definition counts; CompileCap makes the same grammar with captures, numbered 0, 1, ... without repetition, around the definitions.", "quantifier": "all expression and grammar trees of any size, all ways of writing them with any spacing and comments", "why_tests_cant": "The existing tests compile a handful of fixed grammars; the set of texts is infinite and the interesting failures (token boundaries such as '{' against '{{', identifier against definition start, '^' or '-' or ']' inside classes, comments at the end) depend on what follows what.", "anchors": ["re/grammar.go:86-308", "re/re.go:24-127", "re/re.go:141-194"]}
{"id": "C52", "title": "Compile and Encode are total on closed patterns", "statement": "Compile ends for every pattern, whatever the nesting of grammars, searches and inlined non-terminals; it fails only if some grammar uses a name it does not define or lacks its start; the calls left open in the program are free non-terminals of the pattern; and a program without open calls and within the documented limits (256 sets, 2^24 bytes, 16 bit identifiers) encodes without panic.", "quantifier": "all patterns, all counter values", "why_tests_cant": "Termination of the inliner, of Get and of the compiler for arbitrary nesting (a search is compiled to a grammar that is compiled again, optional to an alternation) and the absence of panics in Encode are universal statements.", "anchors": ["pattern/compile.go:53-500", "pattern/optimize.go:12-138", "vm/code.go:82-270"]}
{"id": "C53", "title": "The lazy interval tree implements the interval map", "statement": "After any history of Add, RemoveAndShift, FindLargest and Pos calls, the tree of memo/interval/lazy holds exactly the intervals added and not met by a later edit, moved by the edits before them: FindLargest returns a longest such interval with the id and position (nil only if there is none), Pos of the location returned by Add is the current start, overlaps returns exactly the values of the intervals meeting a range; so lookups agree with those of lazy.Array. (Found to be FALSE of the code when an edit makes the text shorter: the bound of a subtree gets too small and a later removal skips it. Size counts keys, not intervals.)", "quantifier": "all histories of operations, all ids, positions, values", "why_tests_cant": "The test compares tree and array on random histories over ten positions; stale entries need a shrinking edit that touches the end of an entry followed by an edit inside it, and unbounded histories cannot be enumerated.", "anchors": ["memo/interval/lazy/tree.go:32-66", "memo/interval/lazy/tree.go:112-132", "memo/interval/lazy/tree.go:134-170", "memo/interval/lazy/tree.go:194-314", "memo/interval/lazy/tree.go:336-417"]}
{"id": "C54", "title": "The library's checkers", "statement": "Check(p, MapChecker) matches exactly what p matches when the matched text is one of the listed words, and fails otherwise. With BackReference, a use after a definition of the same id (and no other definition in between) matches exactly when the defined text occurs again, and consumes it; the delimiter pattern of the tests matches up to the end of the first later occurrence of its opening delimiter. A use of an id never defined matches the empty string. (Found to be FALSE: that a failed alternative has no effect on later uses, that a second run of a program is independent of the first, and that incremental reparsing is sound with uses under Memo.)", "quantifier": "all patterns p and contexts, all texts, all chunk sizes, all word lists, ids and states", "why_tests_cant": "Texts, delimiters and words are unbounded, and the interplay of checker state, backtracking and the chunked input has no finite coverage.", "anchors": ["isa/checker.go:15-66", "vm/vm.go:402-428", "pattern/pattern.go:20-35", "gpeg_test.go:266-284"]}
{"id": "C55", "title": "Well-formed patterns stop on every text", "statement": "If in no part of a pattern something is repeated that may succeed without consuming, and no non-terminal reaches itself before something has been consumed, then the machine running the compiled pattern stops on every text without panicking - also with a memo table filled by earlier runs, and after edits. The grammar of the package re is such a pattern, so that re.Compile finishes parsing every string. Both conditions are needed: the repetition of a pattern that succeeds without consuming, and a grammar whose start begins with itself, never stop.", "quantifier": "all patterns (including errors, recovery, checkers, search, memo, nested grammars), all texts, all chunk sizes, all checkers that stay within the text", "why_tests_cant": "Termination is a statement about unbounded executions; a test can neither observe that a run never stops nor that it stops for all of the unboundedly many texts.", "anchors": ["vm/vm.go:118-500", "pattern/compile.go:225-500", "re/grammar.go:1-308", "re/re.go:180-222"]}
{"id": "C56", "title": "re.Compile makes patterns of the texts of the syntax only", "statement": "The parser of re accepts a string only as a whole. If re.Compile or re.CompileCap returns a pattern without nil parts, then the string is in the documented syntax: spacing, then an expression or one or more definitions. Conversely every string of the syntax gives such a pattern; every other string gives an error, a nil pattern, or a pattern with a nil part. (Set aside: octal escapes of 200 and above, and a class [^#...] with no line end after the #.)", "quantifier": "all strings, all chunk sizes, all checkers, both Compile and CompileCap", "why_tests_cant": "That no string outside the syntax is accepted is a statement about the complement of an infinite language; a test can only try some wrong strings.", "anchors": ["re/grammar.go:8-308", "re/re.go:24-222"]}
{"id": "C57", "title": "The interval trees stay balanced while edits drop nothing", "statement": "After any sequence of insertions, lookups, position queries and edits that drop no node, the interval tree of memo/interval/lazylog (and that of memo/interval/lazy) has right height fields, the depths of the two sides of every node differ by at most one, the depth d and the number n of nodes satisfy 2^d <= (n+1)^2, and a lookup compares with at most d keys. Removing one key keeps the balance. It is false with edits that drop nodes: the nodes above are not rebalanced, and the tree can become a path.", "quantifier": "all histories of any length, all values and positions; for lazylog and for lazy", "why_tests_cant": "Balance is a statement about trees of every size after every order of insertions; a test looks at some sizes and orders.", "anchors": ["memo/interval/lazylog/tree.go:148-178", "memo/interval/lazylog/tree.go:250-287", "memo/interval/lazylog/tree.go:305-383", "memo/interval/lazy/tree.go:134-170", "memo/interval/lazy/tree.go:276-400"]}
{"id": "C58", "title": "The grammar files are read, compiled, and always stop", "statement": "Each of the nine files grammars/*.peg (arith, c, java, java_memo, json, json_memo, lpeg, peg, re), taken byte for byte, is accepted by re.Compile and gives the grammar it writes down. That grammar compiles to bytecode (no missing non-terminal, no label or operand out of range), and matching with it stops on every text, without a panic, with the result of the parsing expression grammar.", "quantifier": "each file; for stopping: all texts, all chunk sizes, all checkers, with and without a capture interval", "why_tests_cant": "A test can compile the files, but that matching stops on every text (no left recursion, no loop without progress in about 200 rules) is about all texts.", "anchors": ["grammars/arith.peg:1-4", "grammars/c.peg:1-666", "grammars/java.peg:1-862", "grammars/java_memo.peg:1-862", "grammars/json.peg:1-17", "grammars/json_memo.peg:1-17", "grammars/lpeg.peg:1-39", "grammars/peg.peg:1-42", "grammars/re.peg:1-42", "re/re.go:24-222"]}
{"id": "C59", "title": "grammars/arith.peg matches arithmetic expressions", "statement": "The machine running the compiled grammar of grammars/arith.peg stops on every text and matches the longest beginning of it that is an arithmetic expression (sums of products of numbers and expressions in parentheses, as a context-free grammar); it fails if the text begins with none.", "quantifier": "all texts, all chunk sizes, all checkers", "why_tests_cant": "Ordered choice and greedy repetition could cut off or skip an expression on some long nested text; agreement with the context-free language for all texts needs induction over derivations and texts.", "anchors": ["grammars/arith.peg:1-4", "re/re.go:24-222", "vm/vm.go:101-384"]}
{"id": "C60", "title": "grammars/json.peg and JSON", "statement": "The machine running the compiled grammar of grammars/json.peg stops on every text and accepts exactly the JSON texts of RFC 8259, up to the following: it also takes vertical tabulators and form feeds as blanks and the escapes \\{ and \\|, and does not take the escape \\/ and strings beginning with two escapes. On texts without backslashes, vertical tabulators and form feeds it accepts exactly JSON.", "quantifier": "all texts, all chunk sizes, all checkers", "why_tests_cant": "Which texts a grammar with ordered choice and greedy repetition rejects is about all texts; the four deviations were found by trying to prove the exact statement.", "anchors": ["grammars/json.peg:1-17", "re/re.go:24-222", "vm/vm.go:101-384"]}
{"id": "C61", "title": "Memoization braces change no result", "statement": "Replacing every Memo node of a pattern by its body changes nothing that callers of Exec see, also when the run with the memoized nodes uses a table that earlier runs on the same text have filled. For the re syntax: {{ e }} may be replaced by ( e ) anywhere. So grammars/json_memo.peg accepts what grammars/json.peg accepts, and grammars/java_memo.peg gives the results of grammars/java.peg, on every text.", "quantifier": "all patterns with the hypotheses of C27, all re grammars, all texts, all tables filled by runs on the text", "why_tests_cant": "The tables reachable by earlier runs and the texts are unbounded; the two java files are 862 lines each and were kept in step by hand.", "anchors": ["pattern/pattern.go:37-55", "pattern/compile.go:147-160", "re/re.go:24-222", "grammars/json_memo.peg:1-17", "grammars/java_memo.peg:1-862", "vm/vm.go:101-384"]}
{"id": "C62", "title": "grammars/re.peg and grammars/lpeg.peg accept what they describe", "statement": "grammars/re.peg is the grammar of the re syntax (re/grammar.go) written in that syntax, so the machine with the compiled file should accept the texts that re.Compile accepts, in particular lists of definitions such as the grammar files themselves. The same for definitions in grammars/lpeg.peg. (False: both files try an expression before a grammar, and an expression always matches, if only the first name. So every text with definitions is refused, and the alternative for grammars is never tried on any text.)", "quantifier": "all texts that are lists of definitions in the re syntax; for the cause, all texts", "why_tests_cant": "That no text with definitions is accepted, and that an alternative is dead on every text, are statements on infinitely many texts; the repository has no test of these two files.", "anchors": ["grammars/re.peg:1-3", "grammars/lpeg.peg:1-2", "re/grammar.go:5-60", "re/re.go:24-222"]}
{"id": "C63", "title": "ExecInterval finds all captures in the interval with a memo table", "statement": "ExecInterval with a memo table filled by earlier runs of Exec and ExecInterval on the same text gives the match flag, end, errors and captures that it gives without a table. (False: entries made by ExecInterval have no captures, so a memoized part that is tried twice loses its captures even with an empty table, Exec after ExecInterval with one table loses captures, and ExecInterval after Exec returns captures outside the interval. What holds: flag, end, errors and checker state are right, every capture found is one of the text, everything is right when memoized parts capture nothing, and what ExecInterval finds of earlier runs has not looked at the interval.)", "quantifier": "all patterns with the hypotheses of C27, all texts, all intervals, all sequences of runs with the same table", "why_tests_cant": "Sequences of runs with different intervals are unbounded, and losing a capture needs backtracking over a memoized part; the repository has no test of ExecInterval.", "anchors": ["vm/vm.go:46-84", "vm/vm.go:257-345", "vm/vm.go:363-399", "memo/tree.go:20-80"]}
{"id": "C64", "title": "Set.String lists the longest runs of the set", "statement": "The string of a charset is the list, in braces and with commas between, of the longest runs of consecutive bytes in the set, in ascending order, each written as one quoted character or as first..last. No text describes two sets, so charsets with equal strings are equal.", "quantifier": "all charsets", "why_tests_cant": "There are 2^256 charsets; the loop has special cases for the last byte, for runs of one byte and for the comma at the end, and the repository does not test String.", "anchors": ["charset/charset.go:133-155"]}
{"id": "C65", "title": "Capture objects held by several memo entries stay at their place in the text", "statement": "A capture object is made relative to the first memo entry it is stored in (setMEnt) and is then held by every entry that a later parse builds with its help. In every session of parses and edits with one table, the capture tree that Exec returns gives every capture the position it has in the current text: the one found by the machine in which captures are values that move with whatever holds them, and the one found by a parse without a table. (False in general; true when every edit does to the first entry what it does to each entry that shares captures with it, which is always so for the first reparse with a pattern without positive lookahead, and for all reparses with bytecode without nested memoized parts.)", "quantifier": "all bytecode, texts, chunk sizes, thresholds, checkers, and sessions of any number of parses and edits", "why_tests_cant": "The wrong positions need an entry that outlives the entry its captures belong to, which takes two reparses with edits between them, or an edit right behind what a memoized lookahead saw; the tests of the repository compare capture trees of a few random edits of two files, with entries of at least 512 bytes.", "anchors": ["memo/capture.go:13-129", "memo/entry.go:12-31", "memo/tree.go:25-61", "memo/interval/lazylog/tree.go:250-287,459-462", "vm/vm.go:75-81,242-399"]}
{"id": "C66", "title": "AllValues and Size of the memo interval tree", "statement": "After any history of additions, look-ups, position reads and edits, AllValues returns the values of exactly the intervals that were added and not met by an edit since, each as often as it was added; Size is the number of keys (id and current position) with at least one such interval. (False once an edit removes an entry, because others can go with it; then AllValues still returns nothing that is not live and nothing twice.)", "quantifier": "all histories of valid operations on the tree, of any length", "why_tests_cant": "AllValues is not called by any test; what is stored depends on rotations, lazily applied shifts and the replacement of removed nodes.", "anchors": ["memo/interval/lazylog/tree.go:99-102,127-130,289-303,312-317", "memo/tree.go:63-70"]}
{"id": "C67", "title": "Each and EachLeaf visit the rope", "statement": "On a rope with any history EachLeaf calls the function on the leaves from left to right until it returns true, and the leaves concatenate to the text; Each calls it on the rope first and then on every node below, each of which holds a contiguous part of the text and caches its length, with the leaves in the order of EachLeaf.", "quantifier": "all scripts of rope operations, all option values, all functions and states", "why_tests_cant": "The shape of the rope depends on all earlier edits; the repository does not test the two functions.", "anchors": ["input/linerope/rope.go:409-429"]}
{"id": "C68", "title": "ToSingleEdits replaces edits by edits of one byte", "statement": "ToSingleEdits turns a list of edits that are in range when their turn comes into a list of edits each of which removes or adds exactly one byte and is in range when its turn comes; both lists make the same text of every text, also when they are applied to a rope.", "quantifier": "all lists of edits, all texts, all rope options", "why_tests_cant": "The positions of the single edits depend on the edits before them; the benchmark code has no tests.", "anchors": ["bench/edit.go:12-47,181-182"]}
{"id": "C69", "title": "Ropes that edit byte slices in place do not disturb each other or the client's buffers", "statement": "Leaves of ropes are byte slices that share arrays: NewWithOpts does not copy its text, SplitAt and splitting a leaf cut slices, Insert and Remove write in place where a slice has room. Still every script of NewWithOpts, Insert, Remove, SplitAt, Join and refilled insert buffers that is in range leaves every rope with exactly the bytes that byte lists would have and every buffer of the client unchanged. A slice returned by Value or Slice keeps its bytes under all later edits if it is not part of a leaf with room, in particular if the rope was not edited since it was made; otherwise it may change. A slice of the rope itself must not be inserted into it, and a rope must not be edited after SplitAt.", "quantifier": "all scripts over any number of ropes and buffers, all split and join lengths, all buffer capacities", "why_tests_cant": "Whether an edit writes in place depends on the lengths and capacities left by all earlier edits; corrupted bytes appear in another rope or in a slice taken long before.", "anchors": ["input/linerope/rope.go:56-111,145-227,230-260,344-381,475-505"]}
{"id": "C70", "title": "Compiling grammars one after the other: non-terminal objects are not disturbed", "statement": "The inliner writes the field Inlined of NonTermNode objects, and Compile of a grammar reads it. In every sequence of Compile calls, with grammars repeated at will and non-terminal objects used many times inside one grammar, each call yields exactly the program of the grammar as freshly built from separate nodes, provided that no non-terminal object occurs in two different grammars. Without that proviso it is false: the second grammar keeps the rule of the first.", "quantifier": "all lists of grammars, all ways of sharing objects inside a grammar, all counter states of the compiler", "why_tests_cant": "The effect depends on the history of Compile calls on shared objects and on which rules are small enough to be inlined.", "anchors": ["pattern/optimize.go:12-15,104-138", "pattern/compile.go:368-382,462-470", "pattern/nodes.go:101-104,141-179"]}
{"id": "C71", "title": "Parses that share a memo table", "statement": "Any number of goroutines may run Exec on one text with one TreeTable at the same time, each with its own input and checkers. Whatever the order in which their calls of Get and Put are served, every parse ends, does not panic and returns the match, end, captures, errors and checker state that it returns without a table; and the table left behind serves later parses as well.", "quantifier": "all schedules of all calls of the table by any number of threads, at every moment; all patterns as in C27, all texts, chunk sizes and tables filled by earlier parses", "why_tests_cant": "The schedules are chosen by the Go runtime; a wrong entry would need one parse to store while another is between its look-up and its own store.", "anchors": ["memo/tree.go:12-49", "vm/vm.go:31-84,289-399,447-469"]}
{"id": "C72", "title": "Compile does not depend on the label counter", "statement": "The bytecode of a pattern does not depend on the programs compiled before it in the same process (the value of isa.uniqId), nor on goroutines that compile other patterns at the same time: whatever the schedule, every goroutine gets the bytecode it would get alone. (False for overlapping calls of NewLabel; true when they do not overlap, and whenever the numbers within one program differ.)", "quantifier": "all patterns, all values of the counter, all supplies of numbers, all schedules of any number of goroutines", "why_tests_cant": "It needs a goroutine to be stopped between the read and the write of uniqId++ while another one makes two calls; the race detector only sees schedules that happen.", "anchors": ["isa/isa.go:40-55", "pattern/compile.go:19-29,53-500", "pattern/optimize.go:207-259", "vm/code.go:82-219"]}
{"id": "C73", "title": "Programs that share a memo table", "statement": "Ids of memoized patterns are unique in the process: patterns made with Memo, or with MemoId and new ids, satisfy what the transparency of memoization (C27) asks of ids, and any number of programs, made and compiled in any order, may parse a text with one table in any order and see what they see without a table. (False when Memo is called with the counter at the id that a compilation of a memoized repetition took: Compile increments memoId before it takes it, Memo after.)", "quantifier": "all sequences of constructor calls and compilations, all patterns without errors and checkers, all texts, all sequences of parses", "why_tests_cant": "It takes two programs, a memoized repetition in the first, a Memo call right after its compilation, one table for both and a text where the repetition matches where the second program looks; and the ids depend on everything built before in the process.", "anchors": ["pattern/pattern.go:36-58", "pattern/compile.go:137-162", "memo/tree.go:25-49", "vm/vm.go:288-395"]}
{"id": "C74", "title": "A memoized pattern is parsed once at a place", "statement": "With a tree table (threshold th) shared by any number of threads, between two look-ups in vain of one memoized pattern at one place a thread has parsed the pattern there and got a result that the table does not keep: one of length zero, or one for which less than th was examined. So a parse works at most once per memoized pattern and place, plus once for every result not kept (the bound that makes packrat parsing linear). (False without the exception: lookaheads and empty matches are never kept, whatever they cost.)", "quantifier": "all patterns with memoized parts that neither call checkers with a state nor report errors, all texts, thresholds, states of the table reached by parses of the text, schedules of any number of threads", "why_tests_cant": "A test sees that a parse is fast on its input, not that nothing is ever parsed again; the exception shows only with look-ups repeated after backtracking over an empty result.", "anchors": ["memo/tree.go:25-49", "vm/vm.go:288-395", "pattern/compile.go:137-171"]}
{"id": "C75", "title": "What an edit does not touch is not parsed again", "statement": "After a parse, an edit and ApplyEdit, the next parse finds every result that the first one had the table keep and whose examined text the edit does not touch, at its new place. More generally, for any calls of Get, Put and ApplyEdit, a look-up fails only where nothing is kept. (False of the code: an edit that empties one node of the interval tree can drop the next one, so that results far behind the edit are computed again. True in front of everything kept that the edits touch.)", "quantifier": "all sequences of calls of Get, Put and ApplyEdit whose edits but the first do not shorten the text; all bytecodes, texts, thresholds", "why_tests_cant": "Results are right anyway; only how much is parsed again differs, and it depends on the shape of the tree when the edit arrives.", "anchors": ["memo/tree.go:25-61", "memo/interval/lazylog/tree.go:70-97,189-287", "vm/vm.go:288-395"]}
{"id": "C76", "title": "Prettify prints what re.Compile reads", "statement": "re.Compile(Prettify(p)) is a pattern with the meaning of p (same matches, captures, bytes looked at). (False of the code: the text of a grammar, whose first line is the bare start symbol, is always rejected; classes are printed in a notation that re reads as another class; an option or repetition of a predicate is printed as the predicate of an option; Any(n) is printed as Any(1); captures are read as nil. True of the other patterns, also of the definitions of a grammar below its first line.)", "quantifier": "all patterns of literals of printable ASCII (and tab, line ends), Any(1), empty, non-terminals with identifiers for names, sequence, choice, repetitions, predicates, memoization, after the rewriting by Get; for the negative part on grammars, all grammars with such definitions", "why_tests_cant": "Prettify has no tests, and a round trip on examples does not show which patterns are printed as others.", "anchors": ["pattern/string.go:8-59", "re/grammar.go:86-308", "re/re.go:28-214"]}
{"id": "C77", "title": "The token grammar of the benchmarks, with a checker inside a memoized part", "statement": "The grammar of bench/java.go, a memoized repetition with a MapChecker inside, finds the tokens of every text: comments up to the end of the line or to */, public/protected/private, identifiers in front of a parenthesis, strings with escapes, newlines; everything else is skipped byte by byte. It does so with no table, with every table from earlier parses of the text, and in a session as in GenerateEdits, which parses again after every edit with one table (threshold 512). (The last part is false of the code after the second edit: a comment that an edit closes is still read as not closed. It is true of the first reparse.)", "quantifier": "all texts, chunk sizes, thresholds, states of other checkers, tables left by parses of the text, edits between the first and the second parse", "why_tests_cant": "The benchmark prints edits at random and checks nothing; that a capture is out of date shows only when an edit far behind a comment closes it after two parses.", "anchors": ["bench/java.go:10-111", "bench/edit.go:78-180", "isa/checker.go:15-35", "memo/tree.go:12-49"]}
{"id": "C78", "title": "grammars/peg.peg accepts the syntax of parsing expression grammars", "statement": "A machine with the compiled grammar of grammars/peg.peg stops on every text. It matches the whole text if the text is spacing followed by one or more definitions (identifier, <-, expression) in the syntax of parsing expression grammars, and does not match otherwise. The syntax is described without parsing expressions: which texts are identifiers, literals, classes, characters with their escapes, primaries with prefix and suffix operators, sequences, choices; every token may be followed by spacing.", "quantifier": "all texts, chunk sizes, checkers without effect on the parse", "why_tests_cant": "The test parses a few grammar files. Which texts are refused, and that nothing but the whole text is ever matched, is a statement about all texts.", "anchors": ["grammars/peg.peg:1-42", "vm/vm.go:60-412"]}
{"id": "C79", "title": "grammars/peg.peg and re.Compile read the same grammars", "statement": "Every text accepted by grammars/peg.peg is read by re.Compile as the grammar of its definitions, and every grammar in the re syntax that uses none of its additions (memoization, complements of classes, the escape \\-) is accepted by grammars/peg.peg. In particular grammars/peg.peg accepts itself and re.peg; it refuses arith.peg and json.peg because of the escape \\-. (The first part holds for texts without octal escapes of 200 and above, [] and [^.)", "quantifier": "all texts and grammars", "why_tests_cant": "The two grammars are separate sources, a file and Go code; tests run some files through each, and cannot show that they agree on all texts.", "anchors": ["grammars/peg.peg:1-42", "re/grammar.go:8-308", "re/re.go:1-222"]}
{"id": "C80", "title": "Edits generated for the benchmark are of the kinds they are meant to be", "statement": "Whatever random numbers are drawn, every edit returned by GenerateEdits is, for the text made by the edits in front of it, one of: a newline put at the start of a line; a newline token removed; a line comment removed with its newline; the name of a called function replaced by a name; a qualifier replaced by a qualifier. What is removed or replaced is a token of that text; the edit lies within the text, and the rope holds the text made by the edits. (Holds as long as the parses return the tokens of the text, so for the first two edits; false afterwards because the table of earlier parses is out of date. The function panics on texts without newline.)", "quantifier": "all texts, all sequences of random draws, chunk sizes, numbers of iterations", "why_tests_cant": "The function is random and its only check is that the benchmark runs; that the edits are what they are meant to be is a statement about all draws and texts, and the failure needs three particular draws in a row.", "anchors": ["bench/edit.go:49-206", "bench/java.go:1-106", "input/linerope/rope.go:141-143"]}
{"id": "C81", "title": "The listing of a program tells the program", "statement": "Two programs with the same Program.String listing are equal but for Nops, which are not listed: opcodes, labels, bytes, sets, counters, ids and messages can all be read back. (False of the code for CheckBegin, listed without its operands, and for assertions with several conditions, listed as Unknown; holds for all programs without these, checkers and unresolved calls.)", "quantifier": "all programs", "why_tests_cant": "Tests print at most a few programs; that no two different ones print alike is about all pairs of programs.", "anchors": ["isa/isa.go:302-521", "charset/charset.go:134-155"]}
{"id": "C82", "title": "Applying all shifts at once keeps the interval map right", "statement": "With ShiftThreshold = 1 (applyAllShifts after every edit) the interval tree is the map it should be after every history of Add, FindLargest, Pos and RemoveAndShift: only live intervals are found, each live interval or a longer one of the same key is found, Pos gives the moved position, AllValues gives exactly the live values, keys are ordered and max bounds the subtree. (False of the code because remove loses intervals; holds with `n.interval = rightMinNode.interval` in the place of copy, and for the code as long as no edit meets a live interval.)", "quantifier": "all histories of operations on the tree, with edits that lengthen or shorten the text", "why_tests_cant": "ShiftThreshold is a constant with the value -1: no test runs the branch, and the failures need certain trees and edits.", "anchors": ["memo/interval/lazylog/tree.go:12", "memo/interval/lazylog/tree.go:92-127", "memo/interval/lazylog/tree.go:194-233", "memo/interval/lazylog/tree.go:433-441"]}
{"id": "C83", "title": "Applying shifts lazily keeps the interval map right", "statement": "With ShiftThreshold = -1, the value in the code, the interval tree is the map it should be (as in C82) after every history. (False of the code: edits that meet intervals lose others, and a call of Pos between edits can make max too small, so that a stale interval stays and is found. Holds for histories without Pos whose edits meet no live interval, also when they shorten the text; with Pos the answers of such histories, though not max, are still right; and with the repaired remove for all histories without Pos.)", "quantifier": "all histories of operations on the tree, with edits that lengthen or shorten the text", "why_tests_cant": "The shifts pending at a node depend on the whole history; a wrong max needs several edits on certain sides of certain nodes and one call of Pos in between.", "anchors": ["memo/interval/lazylog/tree.go:92-127", "memo/interval/lazylog/tree.go:181-192", "memo/interval/lazylog/tree.go:250-287", "memo/interval/lazylog/tree.go:395-431", "memo/interval/lazylog/tree.go:459-462"]}
{"id": "C84", "title": "The text of a capture is its tree of ids", "statement": "Capture.String of two captures is the same exactly if the captures are the same trees of ids, dummies counting as captures with the id 0; and no such text is a proper prefix of another. (What one would want of a debugging aid, that the text tells the children seen through Child and NumChildren, is false: dummies of memoized repetitions are printed like captures.)", "quantifier": "all captures", "why_tests_cant": "All trees, of any depth and width, with all ids.", "anchors": ["memo/capture.go:131-142"]}
{"id": "C85", "title": "Reading bytecode from the front gives back the program", "statement": "Decoding the bytecode made by Encode, one instruction after the other from offset 0, ends exactly at the end of the bytecode and gives the instructions of the program in order, without labels and nops, with offsets in place of labels, and then the End that Encode adds; Program.Size is the number of instructions before that End. Hence two programs have the same bytecode and tables exactly if they agree up to names of labels and nops.", "quantifier": "all programs that can be encoded", "why_tests_cant": "All programs; a wrong size of one instruction shows only with that instruction in front of others.", "anchors": ["isa/isa.go:20-33", "vm/code.go:82-219", "vm/op.go:46-107"]}
{"id": "C86", "title": "Which repairs of the interval tree make reparsing right after edits of any length", "statement": "With one line of remove repaired (as in C82) and ShiftThreshold = 1, every parse in a session of parses, edits of any kind and calls of Start on memoized captures gives the result of a parse without a table; with the value of ShiftThreshold in the code, as long as Start is not called; with no repair, as long as no edit meets an entry of the table. (What C28 asks of memoized parts is asked here too. Of the code as it is, with calls of Start, it is false: asking where a capture is makes a later reparse reject a text of the language.)", "quantifier": "all grammars as in C28, all sessions", "why_tests_cant": "Any number of parses and edits, each depending on what all the others left in the table; the failure needs several edits and one call of Start between two of them.", "anchors": ["memo/tree.go:51-61", "memo/capture.go:95-100", "memo/interval/lazylog/tree.go:108-127", "memo/interval/lazylog/tree.go:194-233", "memo/interval/lazylog/tree.go:459-462"]}
{"id": "C87", "title": "What the command gpeg prints tells the language of the grammar", "statement": "Two files for which gpeg prints the same program, be they PEGs in the syntax of re or (with -r) regular expressions, are made into patterns that match the same prefixes of every text with the same captures. For any two patterns without checkers, whose assertions have one condition each, the same listing means the same bytecode.", "quantifier": "for all pairs of source texts or regular expressions, all values of the counters for labels and memo entries, and all input texts", "why_tests_cant": "It compares all pairs of programs with the same listing on all texts; tests compare listings or matches of chosen grammars only.", "anchors": ["cmd/gpeg/main.go:18-54", "isa/isa.go:480-522", "re/re.go:184-194", "rxconv/rxconv.go:92-105", "vm/code.go:82-219"]}
