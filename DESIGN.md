# Formal model of gpeg — design

Subject: `/repo` (zyedidia/gpeg, Go): PEG pattern compiler, parsing virtual machine,
incremental memo table, rope, charset, input buffer, regex converter.
Tool: Lean 4 (4.33.0), core library plus single Mathlib modules where useful.

## 1. Trusted base

* The Lean kernel, and the three standard axioms `propext`, `Classical.choice`,
  `Quot.sound` (every property theorem is checked with `#print axioms`; the list is in
  section 6). No own axioms, no `sorry`, no `native_decide`/`bv_decide`.
* The hand translation Go → Lean. Every model definition cites file and lines.
* Machine-integer idealisation: Go `int` is modelled by `Nat`/`Int` (no 64-bit overflow).
  `byte` is `UInt8`, `uint64` is `BitVec 64`, 16/24-bit operands are modelled exactly.
* `io.ReaderAt` obeys its contract: `ReadAt` fills the buffer unless the data ends.
* Go slices are modelled as immutable lists, except in the models of the aliasing behaviour of
  `stack.addCapt` (C44) and of ropes (C69) where backing arrays and capacities are explicit.
* Pattern values are trees. A pattern object shared by pointer is modelled by copying, except in `PatObj` (C70), where non-terminals are objects.
* Locks (`sync.Mutex`; but see C71) and the global counters `uniqId` (but see C72) and `memoId` (but see C73) are modelled for a
  single goroutine.
* Not modelled: `encoding/gob`, `gzip` (C47), `String()` printers other than those of
  charsets (C64), patterns (C76), programs (C81) and captures (C84), `bench` except for `ToSingleEdits` (C68), its
  grammar (C77) and `GenerateEdits` (C80).

## 2. Layers of the model

| module | code modelled |
|---|---|
| `Charset`, `SetString` | `charset/charset.go` |
| `Input` | `input/input.go`, `input/reader.go` |
| `Listing` | the `String` methods of `isa/isa.go`, `strconv.QuoteRune` below 256, `strconv.QuoteToASCII` |
| `CapText` | `Capture.String` (`memo/capture.go:131-142`) |
| `ProgSize` | `Program.Size` (`isa/isa.go:20-33`) |
| `Isa`, `Capture`, `Iter` | `isa/isa.go`, `memo/capture.go` |
| `Vm` | `vm/vm.go`, `vm/stack.go`: one step per instruction; generic in the input and in the memo table |
| `Encode` | `vm/code.go: Encode`, `vm/op.go`, operand decoding in `vm/vm.go` |
| `CodeJson` | `ToJson`, `FromJson` of `vm/code.go`, with what `encoding/json` does for them |
| `Pattern`, `Compile`, `Top` | `pattern/nodes.go`, `pattern/pattern.go`, `pattern/optimize.go`, `pattern/compile.go` |
| `Pretty` | `pattern/string.go` (`strconv.Quote` for ASCII; for other strings a parameter) |
| `PatObj` | the inliner of `Pattern` again, with non-terminal objects |
| `Slice` | the machine of `Vm` again, with Go slices (arrays, lengths, capacities) for captures |
| `Obj` | the machine of `Vm` and the table of `TreeTable` again, with capture objects, entry objects and tree nodes |
| `IntervalArray` | `memo/interval/lazy/array.go` |
| `Lazy` | `memo/interval/lazy/{tree,interval}.go` |
| `LazyLog`, `LazyLogEager` | `memo/interval/lazylog/{tree,interval}.go` |
| `TreeTable` | `memo/tree.go`, `memo/entry.go`, `memo/table.go`, `memo/none.go` |
| `Conc` | the mutex of `memo/tree.go`: threads of the machine of `Vm` that share a table |
| `LblSupply` | `pattern/compile.go` with labels from any supply; the counter of `isa/isa.go:40-55` with goroutines |
| `Rope` | `input/linerope/*.go` |
| `RopeHeap` | the ropes of `Rope` again, with Go slices (arrays, lengths, capacities) for the bytes of leaves |
| `Rx` | `rxconv/rxconv.go` |
| `Re` | `re/grammar.go`, `re/re.go` |
| `Checker` | `isa/checker.go` |
| `BenchJava` | `bench/java.go` (and, as `lex`, what its grammar should find) |
| `BenchEdits` | `GenerateEdits` of `bench/edit.go` (and, as `Meant`, what its edits should be) |

Specifications (they use nothing of the code but the types of patterns, captures and charsets):

| module | specification |
|---|---|
| `Peg` | fuelled evaluator for patterns, with captures, errors, checkers and the examined positions |
| `Ford` | inference rules for parsing expressions, after Ford; proved equivalent to the evaluator on pure patterns |
| `WellFormed: Consumes, LeftEnds, WellFormed` | patterns without left recursion and without repetition of what may consume nothing |
| `RxSpec` | backtracking semantics of regular expressions |
| `ReSpec` | the texts that write a syntax tree of the `re` syntax, and the pattern a tree stands for |
| `LazyLogHist`, `Props/IntervalArray` | abstract interval maps (a list of intervals with ids) |
| `Props/Rope` | texts as byte lists, lines and columns counted on them |
| `Props/Compile: Meets, Kept` | the captures that meet an interval |

Proofs:

| modules | content |
|---|---|
| `PegLemmas`, `PegBounds`, `Quiet`, `Calm`, `Local` | determinism, bounds, independence of what was not looked at |
| `GetFuel`, `GetLemmas`, `Inline` | `Get` and inlining keep the meaning |
| `Run`, `Sim`, `Impl`, `Static`, `Scan`, `Labels`, `Leaves`, `CompileLemmas`, `Case*`, `SimMain`, `Top`, `Correct` | compiler correctness |
| `OptSim`, `EncodeLemmas`, `EncodeSim`, `Bisim`, `InputSim`, `Exec` | peephole pass, bytecode, chunked input |
| `EncTotal`, `CompTotal` | totality |
| `LazyLogInv`, `LazyLogOps`, `LazyLogFirst`, `LazyLogHist`, `LazyLogRel` | the interval tree |
| `LazyInv`, `LazyOps` | the interval tree of `memo/interval/lazy`: contents with pending shifts, invariant, every operation |
| `Balance`, `BalanceOps` | shapes of the interval trees, AVL balance |
| `Occ`, `MemoIds`, `MemoPar` | compiler correctness with a memo table |
| `SliceSim`, `SliceRun`, `SliceStep` | slices against lists |
| `ConcLemmas` | runs of the machine with different answers from the table, or with another table |
| `LazyLogMap`, `LazyLogKeep`, `ObjTab`, `ObjCap`, `ObjRel`, `ObjSim` | capture objects against captures as values |
| `RopeLemmas`, `RopeLines` | ropes |
| `RopeHeapLemmas`, `RopeHeapEdit`, `RopeHeapSplit` | ropes with slices against ropes with lists |
| `ReParse`, `ReTree`, `ReExpr`, `ReMain`, `ReConv` | the parser of the `re` syntax: what it does on texts of the syntax, and what texts it accepts |
| `ReCheck`, `RePlain` | a test that a text writes a given syntax tree; what all patterns of the syntax have in common |
| `GrammarFiles*` | the files `grammars/*.peg` as texts, and the trees they write |
| `Eats`, `Lang`, `LangRun`, `Arith`, `Json`, `Spacing`, `RePeg`, `PegPeg`, `PegPegSyn`, `PegRe`, `RePegSyn` | patterns as relations of texts; languages matched |
| `Unmemo`, `Braces` | patterns without their memoized nodes |
| `Lo`, `Look` | the two ways to count what was looked at; bounds for what a pattern looks at |
| `IvPar`, `CapFree` | compiler correctness with a memo table and a capture interval; patterns without captures |
| `JsonSpec` | JSON texts (RFC 8259) with parameters for the deviations of `grammars/json.peg` |
| `Props/*` | the property theorems, with examples that meet their hypotheses next to them |

The VM is generic in the input source and in the memo table. The chain of refinements is

    PEG evaluator  ⟷  labelled program (no tail calls)  ⟷  with tail calls
      ⟷  after Optimize  ⟷  bytecode over flat input  ⟷  bytecode over the chunked Input

each arrow being a simulation proved for all programs/inputs, in both directions
(so termination is preserved and reflected as well).

## 3. Per property plan

* C01–C05 bit-level lemmas on four 64-bit words (`BitVec` bit extensionality); `Size` via
  popcount = number of set bits.
* C06–C08 invariant of the chunk cache, refinement to a cursor over a byte list, induction
  on the list of calls. C07 is false of the code: witness + `_partial` for n = 1.
* C09 invariant "buf ++ rest-of-stream = whole stream", induction on fuel/reads.
* C10–C11 arithmetic on bytes; C12 lockstep simulation bytes ⟷ instruction list.
* C13 each single rewrite is a simulation; composition over the pass.
* C14 semantic equivalence of `Get` by induction on fuel/patterns.
* C15–C20 compiler correctness: an "implements" relation between a code segment and a
  relation on (position, world, result), one composition lemma per instruction shape,
  then induction on evaluator fuel (forward) and on VM steps (termination).
* C21 direct from the compiled shape of Search; C22 semantic lemma for inlining, and
  independence of the definition order by quantifying over the order. C23: the flag `CState.tco` switches
  the replacement off in the model of the compiler; compiler correctness holds for both settings, hence both
  programs agree. False of arbitrary programs (`C23_false_program`).
* C24, C25 false of the code: concrete witnesses on the model; `_partial` theorems.
* C26 invariant of the evaluator.
* C27, C28 the "implements" relation is parametric in a memo-table invariant; validity of
  entries w.r.t. the evaluator; locality of the evaluator (result depends only on the
  examined window). C28 is false in general: witnesses + `_partial`. The examined window of the machine does not count the
  byte under a `.`; `Covered` says that a lookahead counted it before. The kernel evaluates a test for it on the grammar files.
  Any number of reparses (`C28_session_partial`, `Props/Session`): the machine does not count what a memoized part looked at when
  its entry is taken from the table. So `Ctx.lo` gives the evaluator a second way to count: with it, what memoized parts look at is
  not counted, and a run is simulated for this count (`Par.lo`). `Occ.Short` bounds the difference of the two counts by one byte,
  the byte that the interval of an entry has in excess; `Look` is a sound static bound for what a pattern looks at.
* C29–C32 functional model of the AVL tree with lazy shifts; abstraction to a list of
  (id, low, high, value); invariants by induction over operations. C30 false: witness.
* C33 direct; C34 refinement; C35 structural induction.
* C36–C41 abstraction rope → byte list, induction over operations; C40 false: witness.
* C42 pruning function on spec trees, same simulation (parametric in the interval).
* C43 induction on lists. C44 slice-level model, witness trace.
* C45 continuation-passing correctness of `rxconv.pi`; C46 decision on a finite table plus
  witness.
* C53 contents of a tree with its pending shifts applied; every operation against the contents; then the abstract map of
  C34 by induction over histories. False for shrinking edits: witness.
* C55 `Consumes` and `LeftEnds` are inductive predicates on patterns (`WellFormed.lean`); outer induction on the bytes left, inner
  on the derivation of `LeftEnds`; then C16, C27, C28. Left recursion and empty loops: the evaluator is undefined for all fuels.
* C56 inversion of the parser non-terminal by non-terminal, building the syntax tree; strong induction on the bytes left for
  nested expressions. Totality from C55, the other direction from C51.
* C57 shapes (trees with only the height fields) on which both trees do the same; AVL insertion and deletion on shapes; an edit
  that keeps the size keeps the shape. Edits that drop nodes: witness.
* C58 the text of each file is a literal of the model; a test that follows the given tree along the text decides that it is in
  the syntax (evaluated by the kernel, sound for `TopS`), then C51; tests for well-formedness and for compiling, then C55.
* C59 `Ford` as a relation between texts and what is left of them (`Eats`); each category is matched as a whole when what
  follows cannot continue it, at least as far as any of its members, and no further than a member.
* C60 as C59, against a grammar of JSON with parameters; deviations from the RFC by witnesses evaluated with the matcher.
* C62 texts as definitions by `ReSpec`; `Eats` derivations by hand up to the arrow that stops the expression; determinism.
* C63 the machinery of C27 with another relation of captures (sub-forests) and the edit that `ExecInterval` begins with.
* C64 the loop keeps the list of finished runs and the beginning of the open one; quoted characters are a prefix code, so the text determines the runs.
* C65 a second machine with capture objects, entries and tree nodes that have left the tree (`Obj`); lockstep simulation by the machine
  with values: every object reads as a value, every entry holds objects that belong to an entry whose interval is where it should be.
  For bytecode without nested memoized parts (`Cert.ok`, a certificate checked against the bytes) no capture is ever shared (`ObjOwn`,
  `ObjCert`): the stack below the open entry holds new captures only. For bytecode without `BackCommit` (`NCert.ok`) every entry of a first
  parse lies around the entries its captures belong to (`ObjNest`, `ObjNestRun`), which edits keep: the first reparse is right.
  Patterns without positive lookahead compile to such bytecode (`ObjComp`: bytes read in a row before each instruction, kept by
  compilation, `Optimize` and `Encode`).
* C61 the evaluator does not see memoized nodes, so C15 and C27 relate both patterns; everything written in the `re` syntax meets
  the hypotheses; the files with and without braces: the kernel compares the trees.
* C54 frame lemma for checker state (what the check nodes of a pattern keep, its evaluation keeps), then the evaluator.
* C47 `encoding/json` is modelled for the type `code`: a writer and a reader of JSON, induction on values; base 64 by arithmetic on groups of three bytes. `ToBytes` (gob, gzip) is not modelled.
* C66 the list of stored intervals with their places; adding appends one up to order, removing overlaps gives a sublist up to order, an
  edit acts on stored and live intervals by the same function.
* C67 both functions are folds over explicit lists (leaves, nodes in preorder); invariant of C36 for what the nodes hold.
* C68 removing byte by byte and inserting byte by byte by induction on the number of bytes; on ropes by C36.
* C69 a leaf with room is the only one with its array; every operation writes to arrays of leaves with room of its own rope only, and gives
  the rope of `Rope` once slices are read; then an invariant of scripts over all ropes, buffers and slices handed out.
* C70 one pass of the inliner on objects is one pass on trees; passes on trees end and inlining twice is inlining once; so a grammar
  compiled again, or after grammars with other objects, reads a tree that inlines to the same.
* C71 a thread is the machine with a table that logs calls and gets answers from outside; if the answers are true, C27's simulation says
  that its log is true; induction on the calls in the order in which the table serves them. Runs with different answers agree as long
  as the calls do.
* C72 the compiler with labels from any supply is the compiler followed by a renaming of labels (a simulation between the two monads);
  `Optimize` and `Encode` commute with injective renamings; serial calls of `NewLabel` give increasing numbers.
* C73 constructor calls and compilations as an inductive relation on the counter, the patterns not used yet and the compiled ones; its invariant
  (different ids, below the counter, apart from those taken by compilations) gives the condition of C27 for the nodes of all programs together.
  The compiler theorem only asks the table to be right for a superset of the nodes of the program. Refuted for `Memo` right after `Compile`.
* C74 the simulation of C27 with a log in the table's state: while a memoized pattern is being parsed at a place it is not asked for again there (a
  parse that would ask for itself does not end), and when it is done it is stored; so the log has a store between two look-ups. In the table, what
  has been stored is found until an edit. Then counting. Refuted for results of length zero, which are not stored.
* C75 `removeOverlaps` leaves the nodes alone that precede (in the order of the tree) the first node it empties; that bound is carried through
  additions, look-ups and edits, and says what is still found. Refuted for nodes behind it.
* C76 induction on the patterns with a text: the text of each is an element of a sequence in the sense of `ReSpec`, with the operators its
  level allows, and may be followed by spacing; then C51 for the reading and C14 for `Get`. Refuted by parsing the texts, for grammars in general.
* C77 rules for evaluations that leave the world alone, then induction on the rest of the text, token by token. C27 and C28 are proved for memoized
  parts with checkers whose answers depend on the matched bytes only (`Stateless`, `Textual`), and with lookaheads whose first byte was looked at
  before, so they apply. Refuted for the third parse by running it.
* C78 as C59, against a syntax of grammars given without parsing expressions (`Syn`): each category is matched as a whole in front of what can
  follow it; conversely what is matched is in the category, by induction on the length of the text.
* C79 induction on texts of the one syntax, category by category, into the other; then C51 and C78.
* C80 invariant of the loop: the rope holds the text made by the edits so far; with the tokens of C77, each way of making an edit is one of the kinds of `Meant`; rope operations by C38 to C40. The table of the first rounds is that of parses of the text (C77).
* C81 the words of instructions with the character behind them are prefix-free; operands are injective and have no newline; then the listing is read back from left to right.
* C82 model of the branch of `shift` that the constant turns off; without pending shifts `max` is a bound at each node (`Dom`), which each operation keeps; the
  nodes in order are those before, cleaned and moved. The repaired `remove` (`removeR`) is not the code and only used to tell which line is at fault.
* C83 invariant of the lazy tree without empty nodes (`Lz`): at each node, with all shifts applied to it and to its children separately, `max` is not below
  that of the children. `removeOverlaps` leaves each child up to date, behind the edit, or below a node in front of the edit (`Pc`); so the new shift keeps `Lz`.
  `Pos` applies shifts to a child before its parent and breaks it: witness. For the answers when edits meet nothing a weaker invariant is enough, kept by `Pos`:
  at each node with its own shifts applied, the nodes below are where they should be and in order (`Each`).
* C84 the text of a capture is prefix-free, by induction together with lists of children up to the closing bracket.
* C85 instruction by instruction from `Encoded` (C11); the tables are those of encoding the resolved program without labels.
* C86 the proof of C28 for sessions uses little of a table (`Lawful`, `LawfulEdit`); the invariants of C82 and C83 give it for the repaired trees, and for
  the code when edits miss all entries. Counterexample: a tree in which `Pos` makes `max` too small, reached by parses and edits.
* C87 from C81, C85 and C15: the same listing means the same program but for nops, so the same bytecode; `Asserts.lean` follows
  assertions through the compiler; the patterns of `re` texts and of converted regular expressions meet the conditions of C81.

## 4. Where model and code are known to differ

Also stated in the header of each module and in the comment of each definition.

* Integers are unbounded; `uniqId` and `memoId` are counters passed along (`CState`).
* Maps are association lists. Go iterates over a map in an arbitrary order; statements are for every list, so for every
  order (C22).
* Recursion of the compiler is bounded by an explicit number; C52 gives a sufficient one for every pattern.
* A pattern shared by pointer is a copy. In the code, inlining writes into `NonTermNode` objects, so that a
  `NonTermNode` shared between two grammars keeps the body it got in the first. `PatObj` has these objects; C70 says when the
  difference cannot be seen, and that it can be seen otherwise.
* Capture trees are values; `Slice` and `Obj` are the exceptions. Positions of captures are relative to the memo entry they were
  stored with; a capture that belongs to several entries is, in the code, relative to the first that adopted it. So
  C27, C28 and C63 are about captures as values; C65 tells what changes with objects (`Obj`).
* The rope models have value semantics for nodes: a rope that is used after being passed to `Join` shares nodes with the result in
  the code. `RopeHeap` has the arrays that leaves share.
* `checker` functions are arbitrary functions on a state (`CheckFn`) that say how far to skip and do not move the input
  themselves; the two of `isa/checker.go` are instances (C54).
* Error values of `io` calls are not modelled; readers obey their contract.
* `sync.Mutex` in `TreeTable` is dropped, except in `Conc` (C71), where calls of several threads are served in an arbitrary order; `Reader`'s is dropped too. `linerope.New` is modelled with all interleavings of its
  goroutines (C41).
* Not modelled: `ToBytes`/`FromBytes` of `vm/code.go` (C47), the `regexp/syntax` parser (its output type is modelled).

## 5. Findings (properties false of the code)

Each of the following is a theorem with a concrete witness.

| finding | theorem |
|---|---|
| `Input.Advance(n)` with n ≥ 2 fails or overshoots at a chunk end; `Advance(0)` fails at the end | `C07_false`, `C07_false_zero` |
| `Any(n)` with n ≥ 2 matches with fewer than n bytes left, or fails at chunk ends; `Any(0)` fails at the end | `C24_false*` |
| `Choice; Any n` is rewritten to `TestAny n`, which behaves differently for n ≥ 2 | `C13_false_for_wide_any` |
| inlining and `Search` capture non-terminals of an outer grammar | `C25_false_*` |
| captures inside `And` are kept and not nested in text order | `C26_false` |
| `Or()` matches the empty text | `C43_or_none` |
| with a memo table: two `MemoId` nodes with one id are confused; errors and checker effects are not replayed; the position of a failed match changes | `C27_*_false` |
| a memo hit shares its slice of captures: wrong ids in the result, and a capture that contains itself (so `String` and iteration do not end) | `Slice.C44_false`, `Slice.C44_cyclic` |
| incremental reparsing gives results different from a fresh parse; with `grammars/json_memo.peg` the second reparse rejects a JSON text | `C28_false_any`, `C28_false_twice`, `C28_json_memo_false` |
| a capture held by several memo entries has wrong positions once an edit took out the entry it was first stored in | `Obj.C65_false` |
| with a memoized part in a positive lookahead this happens after a single edit | `Obj.C65_first_false` |
| a non-terminal object used in two grammars keeps the rule of the grammar compiled first | `C70_false` |
| a slice returned by `Value` or `Slice` may change with the next edit; inserting a slice of the rope into itself inserts other bytes; editing a rope after `SplitAt` changes the parts | `Linerope.C69_snapshot_false`, `C69_self_insert_false`, `C69_split_false` |
| `AllValues` misses live entries after an edit that removed another one; `Size` is not the number of intervals | `LazyLog.C66_all_false`, `LazyLog.C66_size_false` |
| interval tree: an entry that should have been evicted is returned; entries of another node lost by a removal; `max` too small | `LazyLog.C29_false`, `C30_false`, `C31_false` |
| with `ShiftThreshold = 1` the tree still loses intervals, because of `copy` in `remove` (tree.go:212) | `LazyLog.C82_false` |
| Calling `Start` on a memoized capture between two edits can make the next reparse reject a text that is accepted otherwise | `C86_pos_false` |
| `Pos` of a memoized capture between edits can make `max` of a node above it too small: a later edit does not remove what it meets, and it is found afterwards | `LazyLog.C83_pos_false` |
| edits that drop nodes leave the interval trees unbalanced: `removeOverlaps` rebalances below the nodes it removes, not above; 63 nodes can become a path | `LazyLog.C57_false`, `Lazy.C57_lazy_false` |
| the tree of `memo/interval/lazy` keeps entries that should have been evicted after one shrinking edit; its `Size` counts keys | `Lazy.C53_false`, `Lazy.C53_size_false` |
| rope: `Rebuild` breaks every inner node; multi-byte separators are miscounted | `Linerope.C40_*`, `C38_multibyte_false`, `C39_multibyte_false` |
| `re`: octal escapes from 200 on denote byte 127; `{ e }` and `[]` give a nil pattern | `Re.C46_octal_false`, `C51_brace_nil`, `C51_empty_class_nil` |
| `rxconv`: lazy operators, case folding, empty class, classes above ASCII, `.`, `\B`, and nullable loops differ from `regexp` | `C45_false_*` |
| `BackReference`: definitions in abandoned alternatives and of earlier runs stay; a use under `Memo` reads text that the table does not know of; an undefined id matches the empty text | `C54_abandoned_false`, `C54_rerun_false`, `C54_memo_false`, `C54_undefined` |
| `grammars/json.peg` refuses strings that begin with two escapes and the escape `\/`, and takes `\{`, `\\|`, vertical tabulators and form feeds, unlike RFC 8259 | `C60_escapes_false`, `C60_slash_false`, `C60_brace_false`, `C60_blank_false` |
| `grammars/re.peg` and `grammars/lpeg.peg` refuse every text with definitions: `Expression / Grammar` never tries `Grammar` | `C62_re_false`, `C62_lpeg_false`, `C62_re_dead`, `C62_lpeg_dead` |
| `grammars/peg.peg` has no escape `\-` and refuses `arith.peg` and `json.peg` of the same directory, which `re.Compile` reads | `C79_files_false` |
| `grammars/re.peg` refuses spacing behind `/`, `(`, `)`, and its own notation for memoization, unless what is memoized ends with a suffix operator: in `{+a+}` the first `+` is taken for one | `C62_spacing_false`, `C62_memo_closed` |
| `ExecInterval` with a memo table loses captures in the interval when a memoized part is tried twice; `Exec` after `ExecInterval` loses captures, `ExecInterval` after `Exec` returns some outside the interval | `C63_false`, `C63_exec_false`, `C63_more_false` |
| `isa.NewLabel` is not safe for goroutines: a pattern compiled while another goroutine compiles can get one label twice, and then matches something else | `C72_false` |
| `Memo` takes `memoId` and then increments it, `Compile` of a memoized repetition increments it and then takes it: a pattern made after a compilation can get the id of the repetition, and two programs with one table find each other's entries | `C73_false` |
| A memoized pattern is parsed again and again at one place when its result has length zero (lookaheads, empty matches): `Put` drops such results | `C74_false` |
| An edit that touches one memoized result makes the table forget another one behind it, which is then parsed again | `C75_false` |
| `Prettify` does not print what `re.Compile` reads: grammars are rejected because of their first line, classes, stacked operators, `Any(2)` are read as something else | `C76_grammar_false`, `C76_class_false`, `C76_false` |
| `GenerateEdits` parses again and again with one table, and gets captures that are out of date: a comment that is closed is read as not closed | `C77_false` |
| The third edit of `GenerateEdits` can remove a newline inside of a comment, for the same reason | `C80_false` |
| `GenerateEdits` calls `rand.Intn(0)`, which panics, on a text without newlines, since `NumLines` counts newlines | `C80_panic_false` |
| `FromJson` returns an error for every code with a checker that `ToJson` wrote | `C47_json_false` |
| `Capture.String` prints the dummies of memoized repetitions like captures with the id 0 | `C84_false` |
| `CheckBegin` is listed without its operands, and an assertion with several conditions as `Unknown` | `C81_false` |

Seen while reading, not stated as theorems: `SmallSet.Has` panics above 127 (`SmallSet.has` returns `none`); a grammar
without used non-terminals and without its start symbol panics (`C52_start_needed`); `re.Compile` of a grammar with captures numbers them in map
iteration order; `SplitLen = 0` divides by zero; `lazylog.FindLargest` prefers
the entry that examined most, not the one that matched most; the fail loop has no case for `stMemoTree` and drops it
like a capture; `lazy.Array.FindLargest` ignores entries that end at 0 or before.

## 6. Axioms

`#print axioms` for every theorem named in `MANIFEST.json`: only `propext`, `Classical.choice` and `Quot.sound` occur.

* `propext`: C62_memo_closed, Linerope.C69_snapshot_false, Linerope.C69_self_insert_false, Linerope.C69_split_false, LazyLog.C66_size_false, C60_rfc_partial, C60_blank_false, LazyLog.C57_false, Lazy.C57_lazy_false, C07_false, C07_false_zero, C35_numChildren, C35_no_dummy, C35_trees, LazyLog.C29_false, LazyLog.C31_false, Linerope.C38_multibyte_false, Linerope.C39_multibyte_false, Linerope.C40_rebuild_destroys, Linerope.C40_false, Lazy.C53_false, Lazy.C53_size_false.

* `propext`, `Classical.choice`, `Quot.sound`: C87_gpeg, C87_regexp_partial, C87_code_partial, C87_language_partial, C86_eager_partial, C86_lazy_partial, C86_misses_partial, C86_pos_false, LazyLog.C83_answers_partial, C84_string, C84_prefix, C84_false, C85_sweep, C85_size, C85_same, LazyLog.C82_repaired, LazyLog.C82_threshold_partial, LazyLog.C83_repaired, LazyLog.C83_lazy_partial, LazyLog.C83_pos_false, C80_session_partial, C80_first, C80_panic_false, C80_false, C81_listing_partial, C81_false, C47_json_partial, C47_program_partial, C47_json_false, C62_re_partial, C62_spacing_false, C78_peg, C79_peg_re_partial, C79_re_peg, C79_self, C79_files, C79_files_false, C77_tokens, C77_reparse_partial, C77_false, Re.C76_text_partial, Re.C76_compile_partial, Re.C76_grammar_partial, Re.C76_grammar_false, Re.C76_false, Re.C76_class_false, C75_found_partial, C75_reparse_partial, C74_once_partial, C74_count_partial, C74_total_partial, C74_exec_partial, C73_ids, C73_shared_partial, C72_supply, C72_serial_partial, C71_shared_table_partial, C70_unshared_partial, Linerope.C69_script, Linerope.C69_snapshot_partial, Linerope.C69_snapshot_new, LazyLog.C66_all_live_partial, LazyLog.C66_all_values_partial, LazyLog.C66_size_partial, Linerope.C67_each, Linerope.C68_single_edits, Obj.C65_first_partial, Obj.C65_first_reparse_partial, Obj.C65_json_memo_partial, Obj.C65_lookahead_partial, Obj.C65_java_memo_partial, Obj.C65_unshared_partial, Obj.C65_reparse_partial, Obj.C65_objects_partial, Obj.C65_session_partial, C64_string, C64_injective, Re.C58_arith, Re.C58_json, Re.C58_json_memo, Re.C58_peg, Re.C58_lpeg, Re.C58_re, Re.C58_c, Re.C58_java, Re.C58_java_memo, C28_session_partial, C28_json_memo_partial, C28_java_memo_partial, C28_json_memo_false, C63_cleared_partial, C62_re_false, C62_lpeg_false, C63_sound_partial, C63_bare_partial, C61_unmemo, C61_braces, C61_json_memo, C61_java_memo, C59_arith, C60_json, C60_escapes_false, C60_slash_false, C60_brace_false, LazyLog.C57_balanced, LazyLog.C57_lookup, LazyLog.C57_remove, Lazy.C57_lazy_balanced, Lazy.C57_lazy_lookup, Lazy.C57_lazy_remove, Re.C56_parse, Re.C56_compile, Re.C56_not_syntax, C01_new_has, C02_range_has, C03_algebra, C03_involution, C04_size, allBytes_complete, C06_input_is_flat_cursor, C07_advance_partial, C08_furthest, C09_fromReader, C14_get_preserves_meaning, C14_get_unbounded, C10_i16, C10_u24, C10_instruction, C11_size, C11_label, C12_bytecode_runs_program, C13_optimize_preserves, C15_exec_is_peg, exec_evals, C16_terminates_iff, C16_terminates_iff_ford, C17_captures, C18_no_panic, C19_errors, C19_error_aborts, C20_check, C21_search_least, C21_search_exec, C24_any_partial, C25_scoped_partial, C42_interval, C22_order, C22_inlining, C22_inliner_meaning, C26_nested_partial, C33_get_after_put, IArray.C34_contents, IArray.C34_size, IArray.C34_findLargest, IArray.C34_findLargest_none, LazyLog.C29_never_stale_partial, LazyLog.C30_keeps_partial, LazyLog.C31_search_tree_partial, LazyLog.C32_positions_partial, C27_memo_transparent_partial, C23_tail_calls_partial, C23_tail_calls_memo_partial, C28_reparse_partial, Linerope.C36_edits, Linerope.C37_reads, Linerope.C37_readerAt, Linerope.C38_lines, Linerope.C39_line_col, Linerope.C40_partial, Linerope.C41_schedules, Linerope.C41_terminates, Linerope.C48_sliceLC, Linerope.C49_writeTo, Linerope.C49_copies, C45_exec_partial, C45_exec_loopsOk_partial, C45_match_partial, C45_search_partial, C45_false_loop, Re.C46_char_partial, Re.C46_char_complete, Re.C51_parse, Re.C51_compile, Re.C51_grammar_compiles, Re.C51_unambiguous, C52_compile_ends, C52_closed_compiles, C52_encodes, C52_closed_encodes, Slice.C44_no_table, Slice.C44_clipped_partial, Slice.C44_clipped_transparent_partial, Lazy.C53_finds_partial, Lazy.C53_positions_partial, Lazy.C53_overlaps_partial, Lazy.C53_array_partial, C54_map, C54_backref, C54_undefined, C54_delimited, Re.C51_grammar, C55_stops, C55_stops_memo, C55_stops_reparse, C55_re_stops, C55_empty_loop, C55_left_recursion.

* `propext`, `Quot.sound`: LazyLog.C82_false, C75_false, C74_false, C73_false, C72_counter, C72_false, C71_alone, C70_false, LazyLog.C66_all_false, Obj.C65_first_false, Obj.C65_false, C64_unique, C62_re_dead, C62_lpeg_dead, C63_false, C63_exec_false, C63_more_false, C55_total, C54_abandoned_false, C54_rerun_false, C54_memo_false, C04_small, C05_ext, C10_u8, C13_false_for_wide_any, ford_iff, C24_false, C24_false_zero, C24_false_chunk, C25_false_inline, C25_false_search, C25_false_notFound, C26_false, C43_concat, C43_repeat, C43_or, C43_or_none, C43_and_not_not, C35_iterator, C35_child, C33_put, LazyLog.C30_false, C23_false_program, C27_position_false, C27_same_id_false, C27_errors_false, C28_false_any, C28_false_twice, Linerope.C41_no_race, C45_false_lazy, C45_false_fold, C45_false_empty_class, C45_false_latin1, C45_false_any, C45_false_boundary, C50_verify, C50_verifyCat, C50_verifyAlt, Re.C46_octal_false, Re.C51_brace_nil, Re.C51_empty_class_nil, C52_start_needed, Slice.C44_false, Slice.C44_cyclic.


## 7. Testing the theorems

`seeded/LOG.jsonl` lists edits of the model that were tried in a scratch copy (with `lake build`), and the lemmas that
then failed; "blocked_property_modules" are the property modules that depend on them. Edits that survived are either
harmless (said so in "claim") or led to a stronger theorem ("tightened").
