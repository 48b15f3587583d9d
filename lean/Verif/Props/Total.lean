import Verif.CompTotal
/-!
# `Compile` and `Encode` are total on closed patterns: property C52
-/
namespace Gpeg

/-- **C52.** Compilation of every pattern ends (the model's recursion bound is no restriction): with a
program whose open calls are free non-terminals of the pattern, or with an error that names a non-terminal
without definition or a grammar without its start. -/
theorem C52_compile_ends (p : Pat) (cst : CState) :
    ∃ k0, (∀ k, k0 ≤ k → compile k p cst = compile k0 p cst) ∧
      match compile k0 p cst with
      | .ok (prog, _) => ∀ n, .openCall n ∈ prog → n ∈ p.free
      | .error (.notFound n) => .undefined n ∈ p.flaws ∨ .noStart n ∈ p.flaws
      | .error .panic => ∃ n, .noStart n ∈ p.flaws
      | .error .fuel => False := by
  obtain ⟨k0, r, h1, h2, h3⟩ := compile_tot p.gd p.count p (Nat.le_refl _) (Nat.le_refl _) cst
  have e : ∀ k, k0 ≤ k → compile k p cst = (match r with | .ok (c, s) => .ok (optimize c, s) | .error e => .error e) := by
    intro k hk
    show (compileF k p >>= _) cst = _
    simp only [bind, StateT.bind]
    rw [show compileF k p cst = r from h1 k hk]
    cases r <;> rfl
  refine ⟨k0, fun k hk => by rw [e k hk, e k0 (Nat.le_refl _)], ?_⟩
  rw [e k0 (Nat.le_refl _)]
  cases r with
  | error er =>
    have := h3 er rfl
    cases er <;> exact this
  | ok as =>
    obtain ⟨raw, s⟩ := as
    intro n hn
    refine h2 raw s rfl n ?_
    -- the optimizer adds no open call
    have gen : ∀ (is : List Nat) (lb : Nat → Nat) (q : Program), Insn.openCall n ∈ is.foldl (optStep lb) q → Insn.openCall n ∈ q := by
      intro is lb
      induction is with
      | nil => intro q h; exact h
      | cons i is ih =>
        intro q h
        have h := ih _ h
        unfold optStep at h
        split at h
        · split at h
          all_goals first
            | exact h
            | (rcases List.mem_or_eq_of_mem_set h with h | h
               · rcases List.mem_or_eq_of_mem_set h with h | h
                 · exact h
                 · cases h
               · cases h)
        · split at h
          · rename_i x hx
            split at h
            · rcases List.mem_or_eq_of_mem_set h with h | rfl
              · exact h
              · exact List.mem_of_mem_drop (mem_of_nextInsn hx)
            · exact h
          · exact h
        · exact h
    exact gen _ _ _ hn

/-- **C52.** A pattern all of whose grammars are closed compiles. -/
theorem C52_closed_compiles {p : Pat} (h : p.flaws = []) (cst : CState) :
    ∃ k prog cst', compile k p cst = .ok (prog, cst') ∧ ∀ n, .openCall n ∈ prog → n ∈ p.free := by
  obtain ⟨k, _, hk⟩ := C52_compile_ends p cst
  rw [h] at hk
  cases hr : compile k p cst with
  | ok r => rw [hr] at hk; exact ⟨k, r.1, r.2, hr, hk⟩
  | error e =>
    rw [hr] at hk
    cases e with
    | notFound n => simp at hk
    | panic => simp at hk
    | fuel => exact hk.elim

/-- The limits of the encoding: 256 different sets, labels below 2^24, identifiers of 16 bits. -/
structure Limits (prog : Program) : Prop where
  sets : ∃ L : List CSet, L.length ≤ 256 ∧ ∀ i ∈ prog, ∀ s, i = .set s ∨ i = .span s ∨ (∃ l, i = .testSet s l) ∨ (∃ l, i = .testSetNC s l) → s ∈ L
  ids : ∀ i ∈ prog, ∀ id, i = .captureBegin id ∨ i = .memoTreeClose id ∨ (∃ b, i = .captureLate b id) ∨ (∃ b, i = .captureFull b id) ∨
    (∃ l, i = .memoOpen l id) ∨ (∃ l, i = .memoTreeOpen l id) ∨ (∃ x, i = .checkBegin id x) ∨ (∃ x, i = .checkBegin x id) →
    -(2 ^ 15) ≤ id ∧ id < 2 ^ 15
  size : psize prog < 2 ^ 24

/-- **C52.** A program without open calls encodes within the limits. -/
theorem C52_encodes {prog : Program} (ho : ∀ n, .openCall n ∉ prog) (hl : Limits prog) : ∃ code, encode prog = some code := by
  obtain ⟨⟨L, h1, h2⟩, h3, h4⟩ := hl
  refine encode_total (L := L) ⟨h1, fun i hi => ?_, h4⟩
  cases i <;> first
    | trivial
    | exact h2 _ hi _ (by simp)
    | exact h3 _ hi _ (by simp)
    | exact ⟨h3 _ hi _ (by simp), h3 _ hi _ (by simp)⟩
    | exact (ho _ hi).elim

/-- **C52.** A closed pattern compiles, and its code encodes if it is within the limits. -/
theorem C52_closed_encodes {p : Pat} (h : p.flaws = []) (hf : p.free = []) (cst : CState) :
    ∃ k prog cst', compile k p cst = .ok (prog, cst') ∧ (Limits prog → ∃ code, encode prog = some code ∧ Compiled p code) := by
  obtain ⟨k, prog, cst', h1, h2⟩ := C52_closed_compiles h cst
  refine ⟨k, prog, cst', h1, fun hl => ?_⟩
  obtain ⟨code, hc⟩ := C52_encodes (fun n hn => by have := h2 n hn; rw [hf] at this; cases this) hl
  exact ⟨code, hc, k, cst, prog, cst', h1, hc⟩

/-- A grammar that compiles defines its start. -/
theorem C52_start_needed {k : Nat} {start : String} {ds : Defs} {cst cst' : CState} {prog : Program}
    (h : compile k (.grammar start ds) cst = .ok (prog, cst')) : start ∈ ds.names := by
  cases k with
  | zero => cases h
  | succ k =>
    have h' : CM.Ok (compileF (k + 1) (.grammar start ds) >>= fun c => pure (optimize c)) cst prog cst' := h
    rw [cm_bind] at h'
    obtain ⟨raw, s1, h1, _⟩ := h'
    rw [← (inline_sub ds).names]
    rcases comp_grammar h1 with ⟨_, b, hb, _⟩ | ⟨hu, labels, fns, code, h2, hr, _⟩
    · exact Defs.find_mem_names hb
    · obtain ⟨l, _, hl, _⟩ := resolve_open (n := start) (rest := .jump (cst.lbl + 1) :: fns) hr
      have key : ∀ (ds : Defs) {s s' : CState} {ls : List (String × Nat)} {code : Program} {used : List String},
          CM.Ok (compileDefs (compileF k) start used ds) s (ls, code) s' → ∀ l, ls.lookup start = some l → start ∈ ds.names := by
        intro ds
        induction ds using Defs.rec (motive_1 := fun _ => True) with
        | nil =>
          intro s s' ls code used h l hl
          obtain ⟨rfl, _⟩ := compDefs_nil h
          cases hl
        | cons nm v rest _ ih =>
          intro s s' ls code used h l hl
          by_cases he : nm = start
          · rw [he]; exact List.mem_cons_self
          · refine List.mem_cons_of_mem _ ?_
            unfold compileDefs at h
            split at h
            · exact ih h l hl
            · simp only [cm_bind, cm_label, cm_pure, Prod.mk.injEq] at h
              obtain ⟨l1, s1, _, fn, s2, _, ⟨ls', code'⟩, s3, h3, ⟨rfl, _⟩, _⟩ := h
              refine ih h3 l ?_
              simp only [List.lookup] at hl
              rwa [beq_eq_false_iff_ne.2 (fun h => he h.symm)] at hl
        | _ => trivial
      exact key _ h2 l hl

/-! Examples: a closed grammar with a nested grammar and a search, and an open one. -/

/-- `A <- . ~'b' / (C <- 'c' C?) B`, `B <- 'b' A?`, where `~` is a search. -/
def exClosed : Pat := .grammar "A" (.cons "A" (.alt (.seq (.dot 1) (.search (.lit [98])))
    (.seq (.grammar "C" (.cons "C" (.seq (.lit [99]) (.opt (.nonterm "C"))) .nil)) (.nonterm "B")))
  (.cons "B" (.seq (.lit [98]) (.opt (.nonterm "A"))) .nil))

example : exClosed.flaws = [] ∧ exClosed.free = [] := by decide
example : ∃ code, Compiled exClosed code := by
  have h : (match compileF 20 exClosed ⟨0, 0, true⟩ with | .ok (raw, _) => fitsTest raw | _ => false) = true := by
    decide +kernel
  split at h
  · rename_i raw cst' hr
    obtain ⟨L, hL⟩ := fits_of_test h
    exact compiled_of_fits hr hL
  · cases h
example : (Pat.grammar "A" (.cons "A" (.nonterm "B") .nil)).flaws = [.undefined "B"] := by decide
example : compile 5 (Pat.grammar "A" (.cons "A" (.nonterm "B") .nil)) ⟨0, 0, true⟩ = .error (.notFound "B") := by rfl

end Gpeg
