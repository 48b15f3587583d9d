import Verif.BenchJava
import Verif.Props.BenchJava
import Verif.Props.RopeEach
import Verif.RopeLines
import Verif.Props.Iter
/-!
# Model of `GenerateEdits`, `bench/edit.go:80-206`

The function draws random numbers; the model is a relation that allows every number `rand.Intn` may return. `rand.Intn(n)` panics
unless `0 < n`. Simplifications:

* Offsets in edits are natural numbers. A negative one makes `Remove` panic, so the model panics at once.
* The loop over `ChildIterator` (`:103-108`) is the list of flattened children, see C35.
* `Exec` reads the rope through `ReadAt`, which is `ReadAt` of its text (C37); the model runs it on the text.
-/
namespace Gpeg.Bench
open Linerope

/-- What an iteration of the loop decides. -/
inductive Turn
  | panic
  /-- `continue`. -/
  | again
  | edit (e : Linerope.Edit)

/-- `bench/edit.go:103-108` the children with an id. -/
def candidates (ast : Capture) (id : Int) : List Capture := (Capture.flatL ast.children).filter (·.id = id)

/-- `bench/edit.go:198` `rbytes`. -/
def rbytes : List UInt8 := (List.range' 97 26 ++ List.range' 65 26).map UInt8.ofNat

/-- `bench/edit.go:155-159` `modifiers`. -/
def modifiers : List Bytes :=
  [[112, 114, 111, 116, 101, 99, 116, 101, 100], [112, 117, 98, 108, 105, 99], [112, 114, 105, 118, 97, 116, 101]]

/-- `bench/edit.go:91-179`: one draw and the edit made from it. -/
inductive GenEdit (r : Rope) (ast : Capture) : Turn → Prop
  -- :94-101, `r.NumLines()` is `r.llength.line` (`rope.go:141-143`)
  | lineNone : r.ll.line ≤ 0 → GenEdit r ast .panic
  | lineBad {line : Int} : 0 ≤ line → line < r.ll.line → (∀ off, r.offsetAt line 0 = some off → off < 0) → GenEdit r ast .panic
  | line {line off : Int} : 0 ≤ line → line < r.ll.line → r.offsetAt line 0 = some off → 0 ≤ off →
      GenEdit r ast (.edit ⟨off.toNat, off.toNat, [10]⟩)
  -- :102-118
  | newlineNone : candidates ast 4 = [] → GenEdit r ast .again
  | newline {c : Capture} : c ∈ candidates ast 4 → GenEdit r ast (.edit ⟨c.start, c.start + c.len, []⟩)
  -- :119-136
  | commentNone : candidates ast 0 = [] → GenEdit r ast .again
  | commentBad {c : Capture} : c ∈ candidates ast 0 →
      (∀ l off, r.lineColAt c.start = some l → r.offsetAt (l.line + 1) 0 = some off → off < 0) → GenEdit r ast .panic
  | comment {c : Capture} {l : Loc} {off : Int} : c ∈ candidates ast 0 → r.lineColAt c.start = some l →
      r.offsetAt (l.line + 1) 0 = some off → 0 ≤ off → GenEdit r ast (.edit ⟨c.start, off.toNat, []⟩)
  -- :137-153, :200-206
  | funcNone : candidates ast 1 = [] → GenEdit r ast .again
  | func {c : Capture} {id : Bytes} : c ∈ candidates ast 1 → 4 ≤ id.length → id.length < 9 → (∀ b ∈ id, b ∈ rbytes) →
      GenEdit r ast (.edit ⟨c.start, c.start + c.len, id⟩)
  -- :154-174
  | qualNone : candidates ast 2 = [] → GenEdit r ast .again
  | qual {c : Capture} {m : Bytes} : c ∈ candidates ast 2 → m ∈ modifiers → GenEdit r ast (.edit ⟨c.start, c.start + c.len, m⟩)
  -- :175-176, for `EditChangeComment` and `EditChangeString`
  | other : GenEdit r ast .again

/-- `linerope.DefaultOptions` (`rope.go:9-14`). -/
def ropeOpts : Opts := ⟨4096, 2048, [10]⟩

/-- The variables of the loop. -/
structure Sess where
  rope : Rope
  tbl : TreeTable
  edits : List Linerope.Edit

/-- `bench/edit.go:88-191`, one iteration of the loop; `none` is a panic. `code` is the encoded grammar, `chk` its checkers. -/
inductive Round {σ : Type} (chk : CheckFn σ) (code : Code) (bufsz : Nat) (st : σ) : Sess → Option Sess → Prop
  | valueBad {s : Sess} : s.rope.value = none → Round chk code bufsz st s none
  | execBad {s : Sess} {t : Bytes} : s.rope.value = some t → RunsTree chk code bufsz t s.tbl st .panic → Round chk code bufsz st s none
  -- a nil `ast`
  | astBad {s : Sess} {t : Bytes} {ok : Bool} {src : Input} {errs : List PErr} {T : TreeTable} {st' : σ} : s.rope.value = some t →
      RunsTree chk code bufsz t s.tbl st (.done ok none src errs T st') → Round chk code bufsz st s none
  | genBad {s : Sess} {t : Bytes} {ok : Bool} {ast : Capture} {src : Input} {errs : List PErr} {T : TreeTable} {st' : σ} :
      s.rope.value = some t → RunsTree chk code bufsz t s.tbl st (.done ok (some ast) src errs T st') → GenEdit s.rope ast .panic →
      Round chk code bufsz st s none
  | again {s : Sess} {t : Bytes} {ok : Bool} {ast : Capture} {src : Input} {errs : List PErr} {T : TreeTable} {st' : σ} :
      s.rope.value = some t → RunsTree chk code bufsz t s.tbl st (.done ok (some ast) src errs T st') → GenEdit s.rope ast .again →
      Round chk code bufsz st s (some ⟨s.rope, T, s.edits⟩)
  -- :178-188
  | edit {s : Sess} {t : Bytes} {ok : Bool} {ast : Capture} {src : Input} {errs : List PErr} {T : TreeTable} {st' : σ} {e : Linerope.Edit}
      {r : Rope} :
      s.rope.value = some t → RunsTree chk code bufsz t s.tbl st (.done ok (some ast) src errs T st') → GenEdit s.rope ast (.edit e) →
      ((s.rope.remove e.start e.stop).bind fun r => r.insert e.start e.text) = some r →
      Round chk code bufsz st s (some ⟨r, T.applyEdit ⟨e.start, e.stop, e.text.length⟩, s.edits ++ [e]⟩)
  | editBad {s : Sess} {t : Bytes} {ok : Bool} {ast : Capture} {src : Input} {errs : List PErr} {T : TreeTable} {st' : σ}
      {e : Linerope.Edit} :
      s.rope.value = some t → RunsTree chk code bufsz t s.tbl st (.done ok (some ast) src errs T st') → GenEdit s.rope ast (.edit e) →
      ((s.rope.remove e.start e.stop).bind fun r => r.insert e.start e.text) = none → Round chk code bufsz st s none

/-- `bench/edit.go:80-190`: the states of the loop for a text, newest first. -/
inductive Generates {σ : Type} (chk : CheckFn σ) (code : Code) (bufsz : Nat) (st : σ) (data : Bytes) : List Sess → Prop
  | start {r : Rope} : Rope.newWithOpts data ropeOpts = some r → Generates chk code bufsz st data [⟨r, TreeTable.new 512, []⟩]
  | next {s s' : Sess} {l : List Sess} : Generates chk code bufsz st data (s :: l) → Round chk code bufsz st s (some s') →
      Generates chk code bufsz st data (s' :: s :: l)

/-! ## The specification -/

/-- What the comment at `bench/edit.go:49-55` says about the edits: the part `old` of `t = a ++ old ++ b` is replaced. A newline is put
at the start of a line; a newline, or a line comment with the newline behind it, is removed; the name of a function, that is an
identifier in front of a parenthesis, is replaced by a name; a qualifier is replaced by a qualifier. What is replaced is a token of the
text. -/
inductive Meant (t : Bytes) : Linerope.Edit → Prop
  | line {a b : Bytes} : t = a ++ b → (a = [] ∨ ∃ a', a = a' ++ [10]) → 10 ∈ b → Meant t ⟨a.length, a.length, [10]⟩
  | newline {a b : Bytes} : t = a ++ 10 :: b → CTree.node 4 a.length 1 [] ∈ lex t → Meant t ⟨a.length, a.length + 1, []⟩
  | comment {a c b : Bytes} : t = a ++ (47 :: 47 :: c ++ [10]) ++ b → 10 ∉ c → CTree.node 0 a.length (c.length + 3) [] ∈ lex t →
      Meant t ⟨a.length, a.length + (c.length + 3), []⟩
  | func {a w b m : Bytes} : t = a ++ w ++ 40 :: b → w ≠ [] → w = wordOf w → CTree.node 1 a.length w.length [] ∈ lex t → m ≠ [] →
      m = wordOf m → Meant t ⟨a.length, a.length + w.length, m⟩
  | qual {a w b m : Bytes} : t = a ++ w ++ b → w ∈ qualWords → CTree.node 2 a.length w.length [] ∈ lex t → m ∈ qualWords →
      Meant t ⟨a.length, a.length + w.length, m⟩

end Gpeg.Bench
