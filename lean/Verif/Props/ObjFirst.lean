import Verif.ObjComp
import Verif.Props.ObjCert
import Verif.Props.Reparse
/-!
# Property C65 for the first reparse
-/
namespace Gpeg.Obj
variable {σ : Type}

/-- `Edited` with capture objects. -/
inductive OEdited (T₀ : OTab) (d₀ : List UInt8) : Bool → OTab → List UInt8 → Prop
  | none : OEdited T₀ d₀ false T₀ d₀
  | edit {b : Bool} {T : OTab} {d : List UInt8} (e : TextEdit) : OEdited T₀ d₀ b T d → e.start ≤ e.stop →
      e.stop ≤ d.length → (b = true → e.stop - e.start ≤ e.ins.length) → OEdited T₀ d₀ true (T.applyEdit e.edit) (e.text d)

/-- The table after a parse with an empty table. -/
theorem nest_first {C : NCert} {chk : CheckFn σ} {code : Code} (hC : C.ok code = true) {bufsz : Nat} (hb : 0 < bufsz) {d : List UInt8} {th : Int} {st : σ}
    {ok : Bool} {cap : Option Capture} {src : Input} {errs : List PErr} {T : OTab} {st' : σ}
    (h : RunsObj chk code bufsz d { threshold := th } st (.done ok cap src errs T st')) : Nest T := by
  obtain ⟨k, o, h1, h2⟩ := h
  have h0 : C.atMost 0 0 = true := by
    simp only [NCert.ok, Bool.and_eq_true] at hC
    exact hC.1
  have hz := nRun (b := false) (s := oinit (Input.new bufsz d) { threshold := th } st) hC k ⟨Input.new_inv hb d, ⟨(tsim_new th fun _ => default).twf, nest_new th, fun _ h => (by cases h)⟩, trivial,
    NHere.of h0 (Nat.zero_le _)⟩ h1
  cases o with
  | next s => cases h2
  | panic => cases h2
  | halt x y s => cases h2; exact hz

theorem OEdited.value {φ : Nat → TEnt} {T₀ : OTab} {V₀ : TreeTable} {d₀ : List UInt8} (hN : Nest T₀) (hV : TSim false φ T₀ V₀) {b : Bool} {T : OTab}
    {d : List UInt8} (h : OEdited T₀ d₀ b T d) : ∃ V, Edited V₀ d₀ b V d ∧ TSim b φ T V ∧ Nest T := by
  induction h with
  | none => exact ⟨V₀, .none, hV, hN⟩
  | edit e _ h1 h2 h3 ih =>
    obtain ⟨V, a1, a2, a3⟩ := ih
    exact ⟨_, .edit e a1 h1 h2 h3, a2.edit h1 h3 (a3.tight a2.tinv h1), a3.edit a2.tinv h1⟩

section
variable {C : NCert} {code : Code} {chk : CheckFn σ} {d₀ d : List UInt8} {bufsz bufsz₀ : Nat} {st st₀ st₁ : σ} {th : Int} {T T' : OTab} {ok : Bool}
  {cap : Option Capture} {src : Input} {errs : List PErr} {edited : Bool}

/-- **C65** for the first reparse: a text is parsed with an empty table, edited, and parsed again. For bytecode with a certificate
(`NCert.ok`: there is no `BackCommit`, so no positive lookahead; memoized parts may be nested in any way) the machine with capture
objects gives the results of the machine where captures are values. Missing: bytecode with positive lookahead, for which it is
false (`C65_first_false`), and later reparses (`C65_false`). -/
theorem C65_first_partial (hC : C.ok code = true) (hb₀ : 0 < bufsz₀)
    (h₀ : RunsObj chk code bufsz₀ d₀ { threshold := th } st₀ (.done ok cap src errs T st₁)) (hed : OEdited T d₀ edited T' d) :
    ∃ V V', RunsTree chk code bufsz₀ d₀ (TreeTable.new th) st₀ (.done ok cap src errs V st₁) ∧ Edited V d₀ edited V' d ∧
      (∀ r, RunsObj chk code bufsz d T' st r → ∃ r', RunsTree chk code bufsz d V' st r' ∧ SameRes r r') ∧
      (∀ r', RunsTree chk code bufsz d V' st r' → ∃ r, RunsObj chk code bufsz d T' st r ∧ SameRes r r') := by
  obtain ⟨r', h1, -, h2⟩ := (runs_obj (tsim_new th fun _ => default)).1 _ h₀
  obtain ⟨V, φ, rfl, h3⟩ := h2 rfl
  obtain ⟨V', h4, h5, -⟩ := hed.value (nest_first hC hb₀ h₀) h3
  refine ⟨V, V', h1, h4, fun r hr => ?_, (runs_obj h5).2⟩
  obtain ⟨r', a1, a2, -⟩ := (runs_obj h5).1 r hr
  exact ⟨r', a1, a2⟩

/-- **C65**, with C28: the first reparse gives what a parse without a table gives, for the patterns of `C28_reparse_partial` whose
bytecode has a certificate. -/
theorem C65_first_reparse_partial {p : Pat} {top : Int} (hC : C.ok code = true) (hc : CompiledAt top p code) (hd : p.Dots1) (hs : p.Scoped)
    (hchk : CheckOK chk) (hm : p.MemosOK chk top) (hl : ∀ o ∈ p.memos [], Covered chk o.env o.q) (hb₀ : 0 < bufsz₀) (hb : 0 < bufsz)
    (h₀ : RunsObj chk code bufsz₀ d₀ { threshold := th } st₀ (.done ok cap src errs T st₁)) (hed : OEdited T d₀ edited T' d) :
    (∀ r, RunsObj chk code bufsz d T' st r → ∃ r', RunsTo chk none code bufsz d st r' ∧ r.view = r'.view) ∧
    (∀ r', RunsTo chk none code bufsz d st r' → ∃ r, RunsObj chk code bufsz d T' st r ∧ r.view = r'.view) := by
  obtain ⟨V, V', h1, h2, h3, h4⟩ := C65_first_partial (bufsz := bufsz) (st := st) hC hb₀ h₀ hed
  obtain ⟨h5, h6⟩ := C28_reparse_partial (st := st) hc hd hs hchk hm hl hb₀ hb h1 h2
  refine ⟨fun r hr => ?_, fun r' hr => ?_⟩
  · obtain ⟨r1, a1, a2⟩ := h3 r hr
    obtain ⟨r', a3, a4⟩ := h5 r1 a1
    exact ⟨r', a3, a2.view.trans a4⟩
  · obtain ⟨r1, a1, a2⟩ := h6 r' hr
    obtain ⟨r, a3, a4⟩ := h4 r1 a1
    exact ⟨r, a3, a4.view.trans a2⟩

/-- Bytecode of a pattern without positive lookahead has a certificate. -/
theorem noAnd_cert {p : Pat} {top : Int} (hc : CompiledAt top p code) (hn : p.NoAnd) : ∃ C : NCert, C.ok code = true := by
  obtain ⟨k, cst, raw, cst', -, h1, h2⟩ := hc.raw
  exact ⟨_, Row.cert_ok (Row.optimize_ok (Row.compile_ok k hn h1)) h2⟩

/-- **C65**, with C28, for patterns without positive lookahead (`Pat.NoAnd`): a text is parsed with an empty table, edited, and parsed
again; the machine with capture objects gives what a parse without a table gives. The hypotheses besides `NoAnd` are those of
`C28_reparse_partial`. Missing: patterns with positive lookahead, for which it is false (`C65_first_false`), and later reparses
(`C65_false`). -/
theorem C65_lookahead_partial {p : Pat} {top : Int} (hc : CompiledAt top p code) (hn : p.NoAnd) (hd : p.Dots1) (hs : p.Scoped)
    (hchk : CheckOK chk) (hm : p.MemosOK chk top) (hl : ∀ o ∈ p.memos [], Covered chk o.env o.q) (hb₀ : 0 < bufsz₀) (hb : 0 < bufsz)
    (h₀ : RunsObj chk code bufsz₀ d₀ { threshold := th } st₀ (.done ok cap src errs T st₁)) (hed : OEdited T d₀ edited T' d) :
    (∀ r, RunsObj chk code bufsz d T' st r → ∃ r', RunsTo chk none code bufsz d st r' ∧ r.view = r'.view) ∧
    (∀ r', RunsTo chk none code bufsz d st r' → ∃ r, RunsObj chk code bufsz d T' st r ∧ r.view = r'.view) := by
  obtain ⟨C, hC⟩ := noAnd_cert hc hn
  exact C65_first_reparse_partial hC hc hd hs hchk hm hl hb₀ hb h₀ hed

open Gpeg.Re Gpeg.Json in
/-- **C65**, with C28 and C60, for `grammars/json_memo.peg`: a text is parsed with an empty table, edited, and parsed again. The machine
with capture objects stops, and accepts exactly the texts of `C60_json`. -/
theorem C65_json_memo_partial {k : Int} (hk : 1 ≤ k) (hc : CompiledAt k jsonMemoGram.grammar code) (hchk : CheckOK chk)
    (hb₀ : 0 < bufsz₀) (hb : 0 < bufsz)
    (h₀ : RunsObj chk code bufsz₀ d₀ { threshold := th } st₀ (.done ok cap src errs T st₁)) (hed : OEdited T d₀ edited T' d) :
    (∃ r, RunsObj chk code bufsz d T' st r) ∧ ∀ r, RunsObj chk code bufsz d T' st r →
      (Json file .element d ∧ ∃ cs, r.view = some (true, some (d.length, cs), [], st)) ∨
      (¬ Json file .element d ∧ r.view = some (false, none, [], st)) := by
  obtain ⟨C, hC⟩ := noAnd_cert hc (Pat.noAnd_of_test _ (by decide +kernel))
  obtain ⟨V, V', h1, h2, h3, h4⟩ := C65_first_partial (bufsz := bufsz) (st := st) hC hb₀ h₀ hed
  obtain ⟨⟨r', h5⟩, h6⟩ := C28_json_memo_partial (st := st) hk hc hchk hb₀ hb h1 h2
  refine ⟨?_, fun r hr => ?_⟩
  · obtain ⟨r, hr, -⟩ := h4 r' h5
    exact ⟨r, hr⟩
  · obtain ⟨r1, a1, a2⟩ := h3 r hr
    rw [a2.view]
    exact h6 r1 a1

end

/-! ## Examples -/

set_option maxRecDepth 100000 in
theorem jsonMemo_cert : (match compileF 30 Re.jsonMemoGram.grammar ⟨0, 1, true⟩ with
    | .ok (raw, _) => (encode (optimize raw)).any fun code => (NCert.make code).ok code
    | _ => false) = true := by
  decide +kernel

/-- `grammars/json_memo.peg` has a certificate. -/
example : ∃ code C, CompiledAt 1 Re.jsonMemoGram.grammar code ∧ NCert.ok C code = true := by
  have h := jsonMemo_cert
  split at h
  · rename_i raw cst' hr
    cases he : encode (optimize raw) with
    | none => rw [he] at h; cases h
    | some code =>
      rw [he] at h
      exact ⟨code, _, ⟨30, ⟨0, 1, true⟩, _, cst', rfl, cm_bind.2 ⟨raw, cst', hr, rfl⟩, he⟩, h⟩
  · cases h

/-- `S <- L !.`, `L <- Memo('[' X Memo(',' X)* ']')`, `X <- Memo(< [0-9]+ >) / L` -/
def nestedLists : Pat := .grammar "S" (.cons "S" (.seq (.nonterm "L") (.not (.dot 1)))
  (.cons "L" (.memo (.seq (.lit [91]) (.seq (.nonterm "X") (.seq (.star (.memo (.seq (.lit [44]) (.nonterm "X")) 2)) (.lit [93])))) 1)
  (.cons "X" (.alt (.memo (.cap (.plus (.cls (CSet.range 48 57))) 7) 0) (.nonterm "L")) .nil)))

/-- A parse and an edit. -/
def firstRun (code : Code) : Bool :=
  (NCert.make code).ok code && match runO code 2000 [91, 49, 44, 91, 50, 93, 93] { threshold := 0 } with
    | some (true, _, _) => true
    | _ => false

set_option maxRecDepth 100000 in
theorem nestedLists_run : (match compileF 30 nestedLists ⟨0, 3, true⟩ with
    | .ok (raw, _) => (encode (optimize raw)).any firstRun
    | _ => false) = true := by
  decide +kernel

/-- Nested lists of numbers meet the hypotheses; the text `[1,[2]]` is parsed and made `[1,[33]]`. -/
example : let p := nestedLists
    (∃ code C, CompiledAt 3 p code ∧ NCert.ok C code = true ∧ ∃ ok cap src errs T, RunsObj noChk code 4096 [91, 49, 44, 91, 50, 93, 93] { threshold := 0 } ()
      (.done ok cap src errs T ()) ∧ OEdited T [91, 49, 44, 91, 50, 93, 93] true (T.applyEdit ⟨4, 5, 2⟩) [91, 49, 44, 91, 51, 51, 93, 93]) ∧
      p.NoAnd ∧ p.Dots1 ∧ p.Scoped ∧ p.MemosOK noChk 3 ∧ (∀ o ∈ p.memos [], Covered noChk o.env o.q) := by
  intro p
  refine ⟨?_, Pat.noAnd_of_test _ rfl, ?_, ?_, Pat.memosOK_of_pure ?_ ?_ ?_, memos_covered_of_test (S := (· != "S")) (by decide) (by decide)⟩
  · have h := nestedLists_run
    split at h
    · rename_i raw cst' hr
      cases he : encode (optimize raw) with
      | none => rw [he] at h; cases h
      | some code =>
        rw [he] at h
        have h : firstRun code = true := h
        unfold firstRun at h
        simp only [Bool.and_eq_true] at h
        obtain ⟨h1, h2⟩ := h
        split at h2
        · rename_i T h3
          obtain ⟨_, _, h3⟩ := runO_sound h3
          exact ⟨code, _, ⟨30, ⟨0, 3, true⟩, _, cst', rfl, cm_bind.2 ⟨raw, cst', hr, rfl⟩, he⟩, h1, _, _, _, _, _, h3,
            .edit ⟨4, 5, [51, 51]⟩ .none (by decide) (by decide) (fun h => by cases h)⟩
        · cases h2
    · cases h
  · simp [p, nestedLists, Pat.leaves, Defs.leaves, Pat.Dots1]
  · simp [p, nestedLists, Pat.Scoped, Defs.Scoped, Defs.noCap, Pat.noCap]
  · simp [p, nestedLists, Pat.Pure, Pat.leaves, Defs.leaves]
  · simp [p, nestedLists, Pat.memos, Defs.memos]
  · simp [p, nestedLists, Pat.memos, Defs.memos]

/-! ## The code violates C65 after one edit -/

/-- `S <- (O / .)*`, `O <- Memo(&I 'a')`, `I <- Memo(< 'abc' >)` -/
def peeking : Pat := .grammar "S" (.cons "S" (.star (.alt (.nonterm "O") (.dot 1)))
  (.cons "O" (.memo (.seq (.and (.nonterm "I")) (.lit [97])) 0)
  (.cons "I" (.memo (.cap (.lit [97, 98, 99]) 7) 1) .nil)))

/-- `abc...abc` -/
def peeked₀ : List UInt8 := [97, 98, 99, 46, 46, 46, 97, 98, 99]
/-- `abc....abc` -/
def peeked₁ : List UInt8 := [97, 98, 99, 46, 46, 46, 46, 97, 98, 99]

/-- The capture tree, an `abc` at each of these positions. -/
def abcAt (p q n : Nat) : Capture := .dummy 0 n [.node 7 p 3 [], .node 7 q 3 []]

/-- Is this the tree? -/
def isAbcAt (p q n : Nat) : Option Capture → Bool
  | some (.dummy s m [.node i a k [], .node j b l []]) =>
    decide (s = 0) && decide (m = n) && decide (i = 7) && decide (a = p) && decide (k = 3) && decide (j = 7) && decide (b = q) && decide (l = 3)
  | _ => false

theorem isAbcAt_eq {p q n : Nat} {c : Option Capture} (h : isAbcAt p q n c = true) : c = some (abcAt p q n) := by
  unfold isAbcAt at h
  split at h
  · simp only [Bool.and_eq_true, decide_eq_true_eq] at h
    obtain ⟨⟨⟨⟨⟨⟨⟨rfl, rfl⟩, rfl⟩, rfl⟩, rfl⟩, rfl⟩, rfl⟩, rfl⟩ := h
    rfl
  · cases h

/-- The two parses, with the edit between them. -/
def peekedRun (code : Code) : Bool :=
  (match runO code 2000 peeked₀ { threshold := 3 } with
  | some (true, c0, T) => isAbcAt 0 6 9 c0 && match runO code 2000 peeked₁ (T.applyEdit ⟨4, 4, 1⟩) with
    | some (true, c, _) => isAbcAt 7 7 10 c
    | _ => false
  | _ => false) &&
  match runV noneTable code 2000 peeked₁ () with
  | some (true, c, _) => isAbcAt 0 7 10 c
  | _ => false

set_option maxRecDepth 100000 in
theorem peekedRun_ok : (match compileF 30 peeking ⟨0, 2, true⟩ with
    | .ok (raw, _) => (encode (optimize raw)).any peekedRun
    | _ => false) = true := by
  decide +kernel

/-- **C65** is false of the code even for the first reparse. `abc...abc` is parsed with
`S <- (O / .)*`, `O <- Memo(&I 'a')`, `I <- Memo(< 'abc' >)`, a `.` is inserted
at 4, the text is parsed again. The entry of the inner part is for `abc` and the byte after it, that of the outer part only for `abc`.
The insertion takes out the former and not the latter, and the node the former was in is given to the second `abc`: the result
says that there is an `abc` at 7 twice, and none at 0. Without a table the result is right. The pattern satisfies the hypotheses of
`C28_reparse_partial`: with captures as values the result is right too. -/
theorem C65_first_false : ∃ code, CompiledAt 2 peeking code ∧ (peeking.Dots1 ∧ peeking.Scoped ∧ peeking.MemosOK noChk 2 ∧ ∀ o ∈ peeking.memos [], Covered noChk o.env o.q) ∧
    (∃ src errs T T', RunsObj noChk code 4096 peeked₀ { threshold := 3 } () (.done true (some (abcAt 0 6 9)) src errs T ()) ∧
      OEdited T peeked₀ true T' peeked₁ ∧
      ∃ src errs T'', RunsObj noChk code 4096 peeked₁ T' () (.done true (some (abcAt 7 7 10)) src errs T'' ())) ∧
    ∃ src errs, RunsTo noChk none code 4096 peeked₁ () (.done true (some (abcAt 0 7 10)) src errs () ()) := by
  have h := peekedRun_ok
  split at h
  · rename_i raw cst' hr
    cases he : encode (optimize raw) with
    | none => rw [he] at h; cases h
    | some code =>
      rw [he] at h
      have h : peekedRun code = true := h
      unfold peekedRun at h
      simp only [Bool.and_eq_true] at h
      obtain ⟨ho, hf⟩ := h
      refine ⟨code, ⟨30, ⟨0, 2, true⟩, _, cst', rfl, cm_bind.2 ⟨raw, cst', hr, rfl⟩, he⟩, ⟨?_, ?_, Pat.memosOK_of_pure ?_ ?_ ?_,
        memos_covered_of_test (S := (· != "S")) (by decide) (by decide)⟩, ?_, ?_⟩
      · simp [peeking, Pat.leaves, Defs.leaves, Pat.Dots1]
      · simp [peeking, Pat.Scoped, Defs.Scoped, Defs.noCap, Pat.noCap]
      · simp [peeking, Pat.Pure, Pat.leaves, Defs.leaves]
      · simp [peeking, Pat.memos, Defs.memos]
      · simp [peeking, Pat.memos, Defs.memos]
      · split at ho
        · rename_i c0 T0 h0
          simp only [Bool.and_eq_true] at ho
          obtain ⟨hc0, ho⟩ := ho
          split at ho
          · rename_i c1 T1 h1
            cases isAbcAt_eq ho
            cases isAbcAt_eq hc0
            obtain ⟨_, _, h0⟩ := runO_sound h0
            obtain ⟨_, _, h1⟩ := runO_sound h1
            exact ⟨_, _, _, _, h0, .edit ⟨4, 4, [46]⟩ .none (by decide) (by decide) (fun h => by cases h), _, _, _, h1⟩
          · cases ho
        · cases ho
      · split at hf
        · rename_i c T h0
          cases isAbcAt_eq hf
          obtain ⟨_, _, h0⟩ := runV_sound h0
          exact ⟨_, _, h0⟩
        · cases hf
  · cases h

end Gpeg.Obj
