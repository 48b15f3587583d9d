import Verif.Props.BenchJava
import Verif.Props.FilesJavaMemo
/-!
# C77, continued: parsing again and again

(`FilesJavaMemo` is imported only so that the two are not checked at the same time: both need much memory.)
-/
namespace Gpeg


namespace Bench

/-- Two newlines, then `/*`, blanks, and lines with `*` and `/`. -/
def bench₀ : List UInt8 := [10, 10, 47, 42] ++ List.replicate 506 32 ++ [10, 42, 10, 47]
/-- The first edit: another newline in front. -/
def edit₁ : TextEdit := ⟨0, 0, [10]⟩
/-- The second edit: the newline between `*` and `/` is removed. -/
def edit₂ : TextEdit := ⟨513, 514, []⟩

def quTbl : Nat → Checker := fun _ => .map quals
def quSt : Nat → Symbols := fun _ => []

/-- Run the machine for at most `n` steps with a table. -/
def runB (code : Code) (n : Nat) (d : List UInt8) (T : TreeTable) : Option (List CTree × TreeTable) :=
  let c : Cfg Input TreeTable (Nat → Symbols) := ⟨chunkedOps, treeTable, checkers quTbl, none⟩
  match runOut (stepB c code) n (initVM c (Input.new 4096 d) T quSt) with
  | some (.halt true (some cap) s) => some (cap.trees, s.tbl)
  | _ => none

/-- The starts and the ids of captures. -/
def heads (cs : List CTree) : List (Int × Nat) := cs.map fun | .node id i _ _ => (id, i)

/-- A capture ends within the first `n` bytes. -/
def fits (n : Nat) : CTree → Bool
  | .node _ i k _ => i + k ≤ n

/-- Three parses, with edits between them. -/
def benchRun (code : Code) : Bool :=
  match runB code 100000 bench₀ (TreeTable.new 512) with
  | some (_, T) => match runB code 100000 (edit₁.text bench₀) (T.applyEdit edit₁.edit) with
    | some (_, T) => match runB code 100000 (edit₂.text (edit₁.text bench₀)) (T.applyEdit edit₂.edit) with
      | some (cs, _) => heads cs == [(4, 0), (4, 1), (4, 2), (4, 511)] && cs.all (fits 514)
      | none => false
    | none => false
  | none => false

theorem benchRun_ok : (match compileF 60 grammar ⟨0, 1, true⟩ with
    | .ok (raw, _) => (encode (optimize raw)).any benchRun
    | _ => false) = true := by
  decide +kernel

theorem lex_bench₂ : heads (lex (edit₂.text (edit₁.text bench₀))) = [(4, 0), (4, 1), (4, 2)] := by decide +kernel

theorem lex_bench₁ : heads (lex (edit₁.text bench₀)) = [(4, 0), (4, 1), (4, 2), (4, 511), (4, 513)] := by decide +kernel

theorem runB_sound {code : Code} {n : Nat} {d : List UInt8} {T T' : TreeTable} {cs : List CTree} (h : runB code n d T = some (cs, T')) :
    ∃ cap src errs st, RunsTree (checkers quTbl) code 4096 d T quSt (.done true (some cap) src errs T' st) ∧ cap.trees = cs := by
  unfold runB at h
  simp only [] at h
  split at h
  · rename_i cap s hr
    cases h
    exact ⟨cap, s.src, s.errs, s.cst, ⟨n, _, hr, rfl⟩, rfl⟩
  · cases h

end Bench

open Bench in
/-- **C77** is false of `GenerateEdits` (`bench/edit.go:78-180`), which parses again after every edit, with one table, and takes the places
of the next edit from the captures. The text `bench₀` (a comment that is not closed) is parsed with the table of the function (512), a
newline is inserted in front, the text is parsed again, which gives the captures of the text, and one of the captured newlines, the one
between `*` and `/`, is removed, so the comment is closed. The third parse returns the newline inside the comment. (The second parse
takes the `/*` and the blanks from the table and joins them with the newlines in front. The entry for all does not know that the
machine had looked for the end of the comment.) -/
theorem C77_false : ∃ code T T₁ T₂ T₃, CompiledAt 1 grammar code ∧
    (∃ cap src errs st, RunsTree (checkers quTbl) code 4096 bench₀ (TreeTable.new 512) quSt (.done true (some cap) src errs T st)) ∧
    Edited T bench₀ true T₁ (edit₁.text bench₀) ∧
    (∃ cap src errs st, RunsTree (checkers quTbl) code 4096 (edit₁.text bench₀) T₁ quSt (.done true (some cap) src errs T₂ st) ∧
      cap.trees = lex (edit₁.text bench₀) ∧ (4, edit₂.start) ∈ heads cap.trees) ∧
    Edited T₂ (edit₁.text bench₀) true T₃ (edit₂.text (edit₁.text bench₀)) ∧
    ∃ r, RunsTree (checkers quTbl) code 4096 (edit₂.text (edit₁.text bench₀)) T₃ quSt r ∧ r.view ≠ Tokens (edit₂.text (edit₁.text bench₀)) quSt := by
  have h := benchRun_ok
  split at h
  · rename_i raw cst' hr
    cases he : encode (optimize raw) with
    | none => rw [he] at h; cases h
    | some code =>
      rw [he] at h
      have h : benchRun code = true := h
      have hc : CompiledAt 1 grammar code := ⟨60, ⟨0, 1, true⟩, _, cst', rfl, cm_bind.2 ⟨raw, cst', hr, rfl⟩, he⟩
      unfold benchRun at h
      split at h
      · rename_i cs₀ T h0
        split at h
        · rename_i cs₁ T₂ h1
          split at h
          · rename_i cs₂ T₄ h2
            obtain ⟨cap₀, src₀, errs₀, st₀, r0, _⟩ := runB_sound h0
            obtain ⟨cap₁, src₁, errs₁, st₁, r1, e1⟩ := runB_sound h1
            obtain ⟨cap₂, src₂, errs₂, st₂, r2, e2⟩ := runB_sound h2
            have hed : Edited T bench₀ true (T.applyEdit edit₁.edit) (edit₁.text bench₀) :=
              .edit edit₁ .none (by decide) (by decide +kernel) (fun h => by cases h)
            have hl : cap₁.trees = lex (edit₁.text bench₀) := by
              have := (C77_reparse_partial (by decide) hc rfl (by decide) (by decide) r0 hed).2 _ r1
              simp only [XRes.view, Tokens, Option.some.injEq, Prod.mk.injEq] at this
              exact this.2.1.2
            refine ⟨code, T, _, T₂, _, hc, ⟨_, _, _, _, r0⟩, hed, ⟨_, _, _, _, r1, hl, ?_⟩,
              .edit edit₂ .none (by decide) (by decide +kernel) (fun h => by cases h), _, r2, fun hv => ?_⟩
            · rw [hl, lex_bench₁]
              decide
            · simp only [XRes.view, Tokens, Option.some.injEq, Prod.mk.injEq] at hv
              rw [e2] at hv
              replace h := (Bool.and_eq_true_iff.1 h).1
              rw [hv.2.1.2, lex_bench₂] at h
              revert h
              decide
          · cases h
        · cases h
      · cases h
  · cases h

/-- The hypotheses of `C77_tokens` and `C77_reparse_partial` are met: by the first two parses of `C77_false`, among others. -/
example : ∃ code T T₁, CompiledAt 1 Bench.grammar code ∧ Bench.quTbl 0 = .map Bench.quals ∧
    (∃ cap src errs st, RunsTree (checkers Bench.quTbl) code 4096 Bench.bench₀ (TreeTable.new 512) Bench.quSt (.done true cap src errs T st)) ∧
    Warm (checkers Bench.quTbl) code Bench.bench₀ T ∧ Edited T Bench.bench₀ true T₁ (Bench.edit₁.text Bench.bench₀) := by
  obtain ⟨code, T, T₁, _, _, hc, ⟨_, _, _, _, r0⟩, hed, _⟩ := C77_false
  exact ⟨code, T, T₁, hc, rfl, ⟨_, _, _, _, r0⟩, .run (.new 512) (by decide) r0, hed⟩

end Gpeg
