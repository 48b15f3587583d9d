import Verif.Lang
import Verif.Props.Files
/-!
# Machines and languages

What a machine with a compiled pattern of the `re` syntax returns, in terms of `Eats`.
-/
namespace Gpeg.Re

theorem top_plainTop (top : Top) (m : Nat) : (top.pat m).1.PlainTop := by
  match top with
  | .expr e =>
    have := expr_plain e m
    show ((Expr.pat e m).1).PlainTop
    cases hq : (Expr.pat e m).1 with
    | grammar s ds => rw [hq] at this; exact this.elim
    | _ => rw [hq] at this; exact this
  | .gram [] => trivial
  | .gram ((n, e) :: g) => exact gram_plain ((n, e) :: g) m

/-- A grammar of the syntax, as a relation of texts. -/
theorem ford_top {top : Top} {m : Nat} {s : List UInt8} {x : Option (Nat × List CTree)} (h : Ford s [] (top.pat m).1 0 x) :
    Eats [] (top.pat m).1 s (x.map fun y => s.drop y.1) := eats_of_ford (top_plainTop top m) h

/-- The machine stops; if the pattern leaves `r` of the text, it returns the match of all bytes before `r`, and fails if the pattern does. -/
theorem run_top {σ : Type} {code : Code} {chk : CheckFn σ} {bufsz : Nat} {st : σ} {top : Top} {m : Nat}
    (hw : (top.pat m).1.WellFormed []) (hc : Compiled (top.pat m).1 code) (hchk : CheckOK chk) (hb : 0 < bufsz) (data : List UInt8) :
    (∃ r, RunsTo chk none code bufsz data st r) ∧ ∀ r, RunsTo chk none code bufsz data st r →
      (∃ w v ch src, data = w ++ v ∧ Eats [] (top.pat m).1 data (some v) ∧ src.pos = w.length ∧
        r = .done true (some (.dummy 0 w.length ch)) src [] () st) ∨
      (Eats [] (top.pat m).1 data none ∧ ∃ src, r = .done false none src [] () st) := by
  obtain ⟨hp, hd, hs⟩ := top_plain top m
  obtain ⟨x, hf⟩ := C55_total hw hp data
  refine ⟨(C16_terminates_iff_ford hp hc hd hs hchk hb).2 ⟨_, hf⟩, fun r hr => ?_⟩
  obtain ⟨⟨res, far, w⟩, he, hx⟩ := (exec_evals (iv := none) (data := data) (st := st) hc hd hs hchk hb).2 _ hr
  obtain ⟨x', hx1, hx2, hf'⟩ := evals_pure hp (fun _ h => by cases h) he
  simp only at hx1 hx2
  subst hx1 hx2
  have := hf.det hf'
  subst this
  have he := ford_top hf
  cases x with
  | none => obtain ⟨src, tbl, rfl⟩ := hx; exact .inr ⟨he, src, rfl⟩
  | some y =>
    obtain ⟨a, b, ch, src, tbl, rfl, hpos, htr, hab⟩ := hx
    obtain ⟨rfl, rfl⟩ := hab rfl
    have hn := ((eats_aux hf (.inr (top_plainTop top m)) (fun _ h => by cases h) (Nat.zero_le _)).1 y.1 y.2 rfl).1
    refine .inl ⟨data.take y.1, data.drop y.1, ch, src, (List.take_append_drop _ _).symm, he, ?_, ?_⟩
    · rw [List.length_take, Nat.min_eq_left hn]; exact hpos
    · rw [List.length_take, Nat.min_eq_left hn]

/-- A grammar matches what its start symbol matches. -/
theorem grammar_eats {n : String} {ds : Defs} {s : List UInt8} {x : Option (List UInt8)} (h : Eats [] (.grammar n ds) s x) :
    Eats [ds] (.nonterm n) s x := by
  cases h with
  | grammar hb h =>
    refine .nonterm (env' := [ds]) ?_ h
    show (match Defs.find n ds with | some p => some (p, [ds]) | none => lookupNT n []) = _
    rw [hb]

/-- A test for texts that are not matched; the first number bounds the depth of the evaluation. -/
def refuses (n : Nat) (p : Pat) (s : List UInt8) : Bool :=
  match eval n (⟨s, fun _ st _ _ _ _ _ => (none, st), false⟩ : Ctx Unit) [] p 0 ⟨[], ()⟩ with
  | some (.fail, _, _) => true
  | _ => false

theorem refuses_sound {n m : Nat} {top : Top} {s : List UInt8} (h : refuses n (top.pat m).1 s = true) : Eats [] (top.pat m).1 s none := by
  unfold refuses at h
  split at h
  · rename_i he
    obtain ⟨x, h1, _, hf⟩ := evals_pure (top_plain top m).1 (fun _ h => by cases h) ⟨n, he⟩
    simp only at h1
    have := ford_top hf
    cases x with
    | none => exact this
    | some y => cases h1
  · cases h

end Gpeg.Re
