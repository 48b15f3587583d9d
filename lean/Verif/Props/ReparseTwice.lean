import Verif.Props.Reparse
import Verif.Props.Session
/-!
# C28, continued: the second reparse with `grammars/json_memo.peg`
-/
namespace Gpeg
open Gpeg.Re Gpeg.Json

/-- `[0,5 ,3e+x]` -/
def twice₀ : List UInt8 := [91, 48, 44, 53, 32, 44, 51, 101, 43, 120, 93]
/-- `[0,6 ,3e+x]` -/
def twice₁ : List UInt8 := [91, 48, 44, 54, 32, 44, 51, 101, 43, 120, 93]
/-- `[0,6 ,3e+5]` -/
def twice₂ : List UInt8 := [91, 48, 44, 54, 32, 44, 51, 101, 43, 53, 93]

/-- The three parses, with the edits between them. -/
def twiceRun (code : Code) : Bool :=
  match runT code 2000 twice₀ (TreeTable.new 0) with
  | some (false, T) => match runT code 2000 twice₁ (T.applyEdit ⟨3, 4, 1⟩) with
    | some (false, T) => match runT code 2000 twice₂ (T.applyEdit ⟨9, 10, 1⟩) with
      | some (false, _) => (runT code 2000 twice₂ (TreeTable.new 0)).any (·.1)
      | _ => false
    | _ => false
  | _ => false

set_option maxRecDepth 100000 in
theorem twiceRun_ok : (match compileF 30 jsonMemoGram.grammar ⟨0, 1, true⟩ with
    | .ok (raw, _) => (encode (optimize raw)).any twiceRun
    | _ => false) = true := by
  decide +kernel

/-- **C28** is false of the code with `grammars/json_memo.peg` for the second reparse. `[0,5 ,3e+x]` is parsed, `5` is replaced by
`6`, the text is parsed again, `x` is replaced by `5`. The text, `[0,6 ,3e+5]`, is JSON, and is accepted with an empty table, but
the second reparse rejects it. (The first reparse takes `,3` from the table and joins it with the new `,6 `. The entry for both does
not know that for `,3` the machine looked at `e`, `+`, and `x`.) -/
theorem C28_json_memo_false : ∃ code T T₁ T₂ T₃ T₄, CompiledAt 1 jsonMemoGram.grammar code ∧
    Leaves code twice₀ (TreeTable.new 0) false T ∧ Edited T twice₀ true T₁ twice₁ ∧
    Leaves code twice₁ T₁ false T₂ ∧ Edited T₂ twice₁ true T₃ twice₂ ∧
    Leaves code twice₂ T₃ false T₄ ∧
    Json rfc .element twice₂ ∧ ∃ T, Leaves code twice₂ (TreeTable.new 0) true T := by
  have h := twiceRun_ok
  split at h
  · rename_i raw cst' hr
    cases he : encode (optimize raw) with
    | none => rw [he] at h; cases h
    | some code =>
      rw [he] at h
      have h : twiceRun code = true := h
      unfold twiceRun at h
      split at h
      · rename_i T h0
        split at h
        · rename_i T2 h1
          split at h
          · rename_i T4 h2
            refine ⟨code, T, _, T2, _, T4, ⟨30, ⟨0, 1, true⟩, _, cst', rfl, cm_bind.2 ⟨raw, cst', hr, rfl⟩, he⟩, runT_sound h0,
              .edit ⟨3, 4, [54]⟩ .none (by decide) (by decide) (fun h => by cases h), runT_sound h1,
              .edit ⟨9, 10, [53]⟩ .none (by decide) (by decide) (fun h => by cases h), runT_sound h2, ?_, ?_⟩
            · refine .element (sp := []) (sp' := []) (w := twice₂) (by simp [Ws]) (.arr (w := [48, 44, 54, 32, 44, 51, 101, 43, 53]) ?_) (by simp [Ws])
              refine .moreElements (w := [48]) (.element (sp := []) (sp' := []) (w := [48]) (by simp [Ws]) (.number ?_) (by simp [Ws]))
                (.moreElements (w := [54, 32]) (.element (sp := []) (sp' := [32]) (w := [54]) (by simp [Ws]) (.number ?_) (by simp [Ws, rfc]))
                (.oneElement (.element (sp := []) (sp' := []) (w := [51, 101, 43, 53]) (by simp [Ws]) (.number ?_) (by simp [Ws]))))
              · exact .mk (s := []) (i := [48]) (f := []) (e := []) .no .zero .no .no
              · exact .mk (s := []) (i := [54]) (f := []) (e := []) .no (.pos (by decide) (by decide) (by simp)) .no .no
              · exact .mk (s := []) (i := [51]) (f := []) (e := [101, 43, 53]) .no (.pos (by decide) (by decide) (by simp)) .no
                  (.signed (.inl rfl) (.inl rfl) ⟨by simp, by simp [digit]⟩)
            · cases hx : runT code 2000 twice₂ (TreeTable.new 0) with
              | none => rw [hx] at h; cases h
              | some x =>
                obtain ⟨ok, T'⟩ := x
                rw [hx] at h
                obtain rfl : ok = true := h
                exact ⟨T', runT_sound hx⟩
          · cases h
        · cases h
      · cases h
  · cases h

end Gpeg
