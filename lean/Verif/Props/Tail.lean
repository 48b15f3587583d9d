import Verif.Props.Memo
/-!
# Property C23: tail calls are unobservable

The compiler replaces a call that is followed by a return by a jump, and deletes the return if no label stands
before it (`pattern/compile.go:407-438`). `CState.tco` switches this replacement off in the model; the code always
does it.
-/
namespace Gpeg
variable {σ : Type}

/-- `code` is the bytecode of `p`, compiled with (`tco = true`, as in the code) or without the replacement. -/
def CompiledTco (tco : Bool) (p : Pat) (code : Code) : Prop :=
  ∃ k lbl memo prog cst', compile k p ⟨lbl, memo, tco⟩ = .ok (prog, cst') ∧ encode prog = some code

theorem CompiledTco.compiled {tco : Bool} {p : Pat} {code : Code} (h : CompiledTco tco p code) : Compiled p code := by
  obtain ⟨k, l, m, prog, cst', h1, h2⟩ := h
  exact ⟨k, _, prog, cst', h1, h2⟩

theorem ExecRes.view_eq_iv {iv : Option Interval} {e : Ev σ} {r r' : XRes Input Unit σ} (h : ExecRes iv e r)
    (h' : ExecRes iv e r') : r.view = r'.view := by
  obtain ⟨res, far, w⟩ := e
  cases res with
  | ok pos cs =>
    obtain ⟨a, b, ch, src, tbl, rfl, h1, h2, h3⟩ := h
    obtain ⟨a', b', ch', src', tbl', rfl, h1', h2', h3'⟩ := h'
    simp only [XRes.view, Capture.trees, h1, h1', h2, h2']
  | fail =>
    obtain ⟨src, tbl, rfl⟩ := h
    obtain ⟨src', tbl', rfl⟩ := h'
    rfl
  | abort pos =>
    obtain ⟨cap, src, tbl, rfl, _⟩ := h
    obtain ⟨cap', src', tbl', rfl, _⟩ := h'
    rfl

section
variable {p : Pat} {c1 c2 : Code} {chk : CheckFn σ} {data : List UInt8} {bufsz : Nat} {st : σ}

/-- **C23** for the programs of patterns: with and without tail calls the machine stops on the same texts, and callers
see the same match flag, end, captures, errors and checker state, for `Exec` and for `ExecInterval`.
Not covered: patterns outside the hypotheses of C15 (`Any(n)` with `n ≠ 1`, names captured by a nested grammar), and
programs that are not compiled from a pattern, for which it is false (`C23_false_program`). -/
theorem C23_tail_calls_partial {iv : Option Interval} (h1 : CompiledTco true p c1) (h2 : CompiledTco false p c2)
    (hd : p.Dots1) (hs : p.Scoped) (hchk : CheckOK chk) (hb : 0 < bufsz) :
    (∀ r, RunsTo chk iv c1 bufsz data st r → ∃ r', RunsTo chk iv c2 bufsz data st r' ∧ r.view = r'.view) ∧
    (∀ r', RunsTo chk iv c2 bufsz data st r' → ∃ r, RunsTo chk iv c1 bufsz data st r ∧ r.view = r'.view) := by
  have e1 := exec_evals (iv := iv) (data := data) (st := st) h1.compiled hd hs hchk hb
  have e2 := exec_evals (iv := iv) (data := data) (st := st) h2.compiled hd hs hchk hb
  refine ⟨fun r hr => ?_, fun r' hr => ?_⟩
  · obtain ⟨e, he, hx⟩ := e1.2 r hr
    obtain ⟨r', hr', hx'⟩ := e2.1 e he
    exact ⟨r', hr', hx.view_eq_iv hx'⟩
  · obtain ⟨e, he, hx'⟩ := e2.2 r' hr
    obtain ⟨r, hr', hx⟩ := e1.1 e he
    exact ⟨r, hr', hx.view_eq_iv hx'⟩

/-- The same with tree tables that earlier runs of each program have filled. -/
theorem C23_tail_calls_memo_partial {top : Int} {k1 l1 k2 l2 : Nat} {p1 p2 : Program} {s1 s2 : CState}
    (h1 : compile k1 p ⟨l1, top, true⟩ = .ok (p1, s1)) (g1 : encode p1 = some c1)
    (h2 : compile k2 p ⟨l2, top, false⟩ = .ok (p2, s2)) (g2 : encode p2 = some c2)
    (hd : p.Dots1) (hs : p.Scoped) (hchk : CheckOK chk) (hm : p.MemosOK chk top) (hb : 0 < bufsz)
    {T1 T2 : TreeTable} (hT1 : Warm chk c1 data T1) (hT2 : Warm chk c2 data T2) :
    (∀ r, RunsTree chk c1 bufsz data T1 st r → ∃ r', RunsTree chk c2 bufsz data T2 st r' ∧ r.view = r'.view) ∧
    (∀ r', RunsTree chk c2 bufsz data T2 st r' → ∃ r, RunsTree chk c1 bufsz data T1 st r ∧ r.view = r'.view) := by
  have e0 := C23_tail_calls_partial (iv := none) (data := data) (st := st) ⟨_, _, _, _, _, h1, g1⟩ ⟨_, _, _, _, _, h2, g2⟩
    hd hs hchk hb
  have e1 := C27_memo_transparent_partial (st := st) ⟨k1, ⟨l1, top, true⟩, p1, s1, rfl, h1, g1⟩ hd hs hchk hm hb hT1
  have e2 := C27_memo_transparent_partial (st := st) ⟨k2, ⟨l2, top, false⟩, p2, s2, rfl, h2, g2⟩ hd hs hchk hm hb hT2
  refine ⟨fun r hr => ?_, fun r hr => ?_⟩
  · obtain ⟨a, ha, va⟩ := e1.1 r hr
    obtain ⟨b, hb', vb⟩ := e0.1 a ha
    obtain ⟨r', hr', v⟩ := e2.2 b hb'
    exact ⟨r', hr', va.trans (vb.trans v.symm)⟩
  · obtain ⟨a, ha, va⟩ := e2.1 r hr
    obtain ⟨b, hb', vb⟩ := e0.2 a ha
    obtain ⟨r', hr', v⟩ := e1.2 b hb'
    exact ⟨r', hr', v.trans (vb.trans va.symm)⟩

end

/-! ## Instances -/

/-- `A <- 'b' / {1: 'a'} A`: the recursive call is in tail position. -/
def exTail : Pat := .grammar "A" (.cons "A" (.alt (.lit [98]) (.seq (.cap (.lit [97]) 1) (.nonterm "A"))) .nil)

example : exTail.Dots1 := by intro n hn; simpa [exTail, Pat.leaves, Defs.leaves] using hn
example : exTail.Scoped := by simp [exTail, Pat.Scoped, Defs.Scoped, Defs.noCap, Pat.noCap]
example : exTail.MemosOK noChk 0 := Pat.memosOK_of_pure (by simp [exTail, Pat.Pure, Pat.leaves, Defs.leaves])
  (by simp [exTail, Pat.memos, Defs.memos]) (by simp [exTail, Pat.memos, Defs.memos])
/-- The two programs differ. -/
example : ∃ p1 s1 p2 s2, compile 20 exTail ⟨0, 0, true⟩ = .ok (p1, s1) ∧ compile 20 exTail ⟨0, 0, false⟩ = .ok (p2, s2) ∧
    (encode p1).isSome ∧ (encode p2).isSome ∧ .jump 2 ∈ p1 ∧ .jump 2 ∉ p2 :=
  ⟨_, _, _, _, rfl, rfl, by decide, by decide, by decide, by decide⟩

/-! ## Arbitrary programs -/

/-- A procedure that calls another one, which pops an entry that is not its own. -/
def callProg : Program := [.call 1, .endI false, .label 1, .call 2, .ret, .label 2, .commit 3, .label 3, .ret]
/-- `callProg` with the tail call replaced. -/
def jumpProg : Program := [.call 1, .endI false, .label 1, .jump 2, .nop, .label 2, .commit 3, .label 3, .ret]

/-- **C23** is false of arbitrary programs: the procedure called must leave the stack as it was. -/
theorem C23_false_program : jumpProg = (callProg.set 3 (.jump 2)).set 4 .nop ∧
    ∃ c1 c2, encode callProg = some c1 ∧ encode jumpProg = some c2 ∧
      (∃ cap src, RunsTo noChk none c1 4096 [] () (.done true cap src [] () ())) ∧
      RunsTo noChk none c2 4096 [] () .panic :=
  ⟨rfl, _, _, rfl, rfl, ⟨_, _, 20, _, rfl, rfl⟩, ⟨20, _, rfl, rfl⟩⟩

end Gpeg
