import Verif.OptSim
/-! # Property C13: the peephole pass -/
namespace Gpeg
variable {τ σ : Type}

/-- **C13**. For every program whose `Any` instructions skip at most one byte (this is what patterns
with `Any(1)` compile to), running the program rewritten by `Optimize` yields the same results as
running the program itself: match flag, captures, position and furthest position, errors, memo table
and checker state (or a panic in both cases); and one run stops iff the other does. For every data,
buffer size, starting position, memo table, checkers and capture interval. -/
theorem C13_optimize_preserves (tab : TableOps τ) (chk : CheckFn σ) (iv : Option Interval) (p : Program)
    (hp : ∀ i ∈ p, ∀ n, (i = .any n ∨ ∃ l, i = .testAny n l) → n.toNat ≤ 1) (src : Input) (hs : src.Inv)
    (t : τ) (cst : σ) (x : XRes Flat τ σ) :
    let c : Cfg Input τ σ := ⟨chunkedOps, tab, chk, iv⟩
    (∃ r, Yields (stepL c (withEnd p)) (initVM c src t cst) r ∧ r.map Input.flat = x) ↔
    (∃ r, Yields (stepL c (withEnd (optimize p))) (initVM c src t cst) r ∧ r.map Input.flat = x) := by
  have hrel : InputRel src src.flat := ⟨hs, rfl, rfl, rfl⟩
  have hend : ∀ {q : Program}, Dots1 q → Dots1 (withEnd q) := by
    intro q hq i hi n hn
    rcases List.mem_append.1 hi with h | h
    · exact hq i h n hn
    · simp only [List.mem_singleton] at h
      subst h
      rcases hn with h | ⟨l, h⟩ <;> cases h
  have ho := optimize_ok tab chk iv (p := p) hp
  have h1 := (chunked_run tab chk iv (hend hp) hrel t cst).yields_chunked x
  have h2 := (chunked_run tab chk iv (hend ho.dots) hrel t cst).yields_chunked x
  exact h1.trans (((ho.run src.flat t cst).yields x).trans h2.symm)

/-- The code of `'a'* 'b'` before and after. -/
example : optimize [.label 0, .choice 1, .char 97, .commit 0, .label 1, .char 98] =
    [.label 0, .testChar 97 1, .nop, .commit 0, .label 1, .char 98] := by rfl
/-- A jump to a return is replaced by it. -/
example : optimize [.call 5, .jump 9, .label 5, .char 97, .jump 6, .char 98, .label 6, .nop, .ret, .label 9] =
    [.call 5, .jump 9, .label 5, .char 97, .ret, .char 98, .label 6, .nop, .ret, .label 9] := by rfl
/-- The theorem applies to it. -/
example (n : UInt8) : ∀ i ∈ [Insn.label 0, .choice 1, .any 1, .commit 0, .label 1, .char 98],
    (i = .any n ∨ ∃ l, i = .testAny n l) → n.toNat ≤ 1 := by
  intro i hi h
  simp only [List.mem_cons, List.not_mem_nil, or_false] at hi
  rcases hi with rfl | rfl | rfl | rfl | rfl | rfl <;> rcases h with h | ⟨l, h⟩ <;> cases h
  decide

/-- Without the restriction to one-byte `Any` the pass does change results: the code of
`Optional(Any(2))` stops at position 0 on the one-byte input "a", but at position 2 after the
rewriting (`TestAny` does not restore the position, `vm/vm.go:231-241`). -/
theorem C13_false_for_wide_any : ¬ ∀ (p : Program) (src : Flat) (x : XRes Flat Unit Unit),
    let c : Cfg Flat Unit Unit := ⟨flatOps, noneTable, fun _ s _ _ _ _ _ => (none, s), none⟩
    Yields (stepL c (withEnd p)) (initVM c src () ()) x ↔
    Yields (stepL c (withEnd (optimize p))) (initVM c src () ()) x := by
  intro h
  have h1 := h [.choice 1, .any 2, .commit 1, .label 1] ⟨[97], 0, 0⟩
    (.done true (some (.dummy 0 0 [])) ⟨[97], 0, 0⟩ [] () ())
  have h2 : Yields (stepL (⟨flatOps, noneTable, fun _ s _ _ _ _ _ => (none, s), none⟩ : Cfg Flat Unit Unit)
      (withEnd (optimize [.choice 1, .any 2, .commit 1, .label 1]))) (initVM ⟨flatOps, noneTable,
        fun _ s _ _ _ _ _ => (none, s), none⟩ ⟨[97], 0, 0⟩ () ())
      (.done true (some (.dummy 0 2 [])) ⟨[97], 2, 0⟩ [] () ()) := ⟨10, _, rfl, rfl⟩
  have := (h1.1 ⟨10, _, rfl, rfl⟩).unique h2
  cases this

end Gpeg
