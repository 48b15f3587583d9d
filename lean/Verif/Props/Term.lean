import Verif.WellFormed
import Verif.Props.Incremental
import Verif.Props.Re
/-!
# C55: well-formed patterns always stop

`Pat.WellFormed` (`WellFormed.lean`) speaks about the pattern only: in no part is something repeated that may succeed
without consuming, and no non-terminal reaches itself before something is consumed.
-/
namespace Gpeg
open Re
section
variable {σ : Type} {p : Pat} {code : Code} {chk : CheckFn σ} {data : List UInt8} {bufsz : Nat} {iv : Option Interval} {st : σ}

theorem CheckOK.ctx (hchk : CheckOK chk) : ChkOK ⟨data, chk, false⟩ := fun k st m _ _ _ _ _ => hchk k st m _ _ _ _ _ _

theorem wf_evals (hw : p.WellFormed []) (hchk : CheckOK chk) (data : List UInt8) (w : World σ) :
    ∃ e, Evals ⟨data, chk, false⟩ [] p 0 w e :=
  Pat.WellFormed.ends hchk.ctx data.length 0 rfl (Nat.zero_le _) [] p trivial hw w

/-- **C55**. The machine running a compiled well-formed pattern stops on every text, in whatever chunks it is read and
whatever the captures are restricted to, and does not panic. -/
theorem C55_stops (hw : p.WellFormed []) (hc : Compiled p code) (hd : p.Dots1) (hs : p.Scoped) (hchk : CheckOK chk)
    (hb : 0 < bufsz) :
    ∃ ok cap src errs st', RunsTo chk iv code bufsz data st (.done ok cap src errs () st') := by
  obtain ⟨⟨res, far, w⟩, he⟩ := wf_evals hw hchk data ⟨[], st⟩
  obtain ⟨r, hr, hx⟩ := (exec_evals (iv := iv) hc hd hs hchk hb).1 _ he
  cases res with
  | ok i cs => obtain ⟨a, b, ch, src, tbl, rfl, _⟩ := hx; exact ⟨_, _, _, _, _, hr⟩
  | fail => obtain ⟨src, tbl, rfl⟩ := hx; exact ⟨_, _, _, _, _, hr⟩
  | abort i => obtain ⟨cap, src, tbl, rfl, _⟩ := hx; exact ⟨_, _, _, _, _, hr⟩

/-- **C55**, with a memo table filled by earlier runs on the text. -/
theorem C55_stops_memo {top : Int} (hw : p.WellFormed []) (hc : CompiledAt top p code) (hd : p.Dots1) (hs : p.Scoped)
    (hchk : CheckOK chk) (hm : p.MemosOK chk top) (hb : 0 < bufsz) {T : TreeTable} (hT : Warm chk code data T) :
    ∃ ok cap src errs T' st', RunsTree chk code bufsz data T st (.done ok cap src errs T' st') := by
  have hc' : Compiled p code := by
    obtain ⟨k, cst, prog, cst', _, h⟩ := hc
    exact ⟨k, cst, prog, cst', h⟩
  obtain ⟨ok, cap, src, errs, st', hr⟩ := C55_stops (iv := none) (data := data) (st := st) hw hc' hd hs hchk hb
  obtain ⟨r, hr', hv⟩ := (C27_memo_transparent_partial hc hd hs hchk hm hb hT).2 _ hr
  cases r with
  | panic => cases ok <;> cases hv
  | done ok' cap' src' errs' T' st'' => exact ⟨_, _, _, _, _, _, hr'⟩

/-- **C55**, after a parse and edits of the text. -/
theorem C55_stops_reparse {top : Int} {bufsz₀ : Nat} {d₀ d : List UInt8} {st₀ st₁ : σ} (hw : p.WellFormed [])
    (hc : CompiledAt top p code) (hd : p.Dots1) (hs : p.Scoped) (hchk : CheckOK chk) (hm : p.MemosOK chk top)
    (hl : ∀ o ∈ p.memos [], Covered chk o.env o.q) (hb₀ : 0 < bufsz₀) (hb : 0 < bufsz) {th : Int} {T T' : TreeTable} {ok : Bool} {cap : Option Capture} {src : Input}
    {errs : List PErr} {edited : Bool}
    (h₀ : RunsTree chk code bufsz₀ d₀ (TreeTable.new th) st₀ (.done ok cap src errs T st₁)) (hed : Edited T d₀ edited T' d) :
    ∃ ok cap src errs T'' st', RunsTree chk code bufsz d T' st (.done ok cap src errs T'' st') := by
  have hc' : Compiled p code := by
    obtain ⟨k, cst, prog, cst', _, h⟩ := hc
    exact ⟨k, cst, prog, cst', h⟩
  obtain ⟨ok, cap, src, errs, st', hr⟩ := C55_stops (iv := none) (data := d) (st := st) hw hc' hd hs hchk hb
  obtain ⟨r, hr', hv⟩ := (C28_reparse_partial hc hd hs hchk hm hl hb₀ hb h₀ hed).2 _ hr
  cases r with
  | panic => cases ok <;> cases hv
  | done ok' cap' src' errs' T' st'' => exact ⟨_, _, _, _, _, _, hr'⟩

/-- A well-formed pattern has an outcome on every text. -/
theorem C55_total (hw : p.WellFormed []) (hp : p.Pure) (data : List UInt8) : ∃ x, Ford data [] p 0 x := by
  have hchk : CheckOK noChk := fun _ _ _ _ _ _ _ _ _ _ h => by cases h
  obtain ⟨e, he⟩ := wf_evals hw hchk data ⟨[], ()⟩
  obtain ⟨x, _, _, hf⟩ := evals_pure hp (fun _ h => by cases h) he
  exact ⟨x, hf⟩

/-- The grammar of `re` is well-formed. -/
theorem reGrammar_wf : reGrammar.WellFormed [] := Pat.wfB_sound 40 _ _ (by decide +kernel)

/-- **C55**. `re.Compile` finishes parsing every text. -/
theorem C55_re_stops (hc : Compiled reGrammar code) (hchk : CheckOK chk) (hb : 0 < bufsz) (text : List UInt8) :
    ∃ ok cap src st', RunsTo chk none code bufsz text st (.done ok cap src [] () st') := by
  obtain ⟨hp, hd, hs⟩ := reGrammar_ok
  obtain ⟨x, hf⟩ := C55_total reGrammar_wf hp text
  obtain ⟨far, he⟩ := hf.evals (chk := chk) (w := ⟨[], st⟩)
  obtain ⟨r, hr, hx⟩ := (exec_evals (iv := none) hc hd hs hchk hb).1 _ he
  cases x with
  | none => obtain ⟨src, tbl, rfl⟩ := hx; exact ⟨_, _, _, _, hr⟩
  | some x => obtain ⟨a, b, ch, src, tbl, rfl, _⟩ := hx; exact ⟨_, _, _, _, hr⟩

/-! ## What is excluded does not stop -/

theorem star_loops {env : Env} {p : Pat} {i : Nat} {cs : List CTree} (hp : Ford data env p i (some (i, cs))) :
    ∀ {q : Pat} {x : Option (Nat × List CTree)} {j : Nat} {env' : Env}, Ford data env' q j x → q = .star p → j = i → env' = env →
      False := by
  intro q x j env' h
  induction h with
  | starEnd h1 =>
    rintro hq rfl rfl
    cases hq
    cases h1.det hp
  | starStep h1 h2 _ ih =>
    rintro hq rfl rfl
    cases hq
    cases h1.det hp
    exact ih rfl rfl rfl
  | _ => intro hq; cases hq

/-- **C55**, the condition on repetitions. The repetition of a pattern that succeeds without consuming never stops. -/
theorem C55_empty_loop (hp : p.Pure) {cs : List CTree} (hf : Ford data [] p 0 (some (0, cs))) (hc : Compiled (.star p) code)
    (hd : p.Dots1) (hs : p.Scoped) (hchk : CheckOK chk) (hb : 0 < bufsz) : ¬ ∃ r, RunsTo chk iv code bufsz data st r := by
  rw [C16_terminates_iff_ford (p := .star p) (by simpa [Pat.Pure, Pat.leaves] using hp) hc
    (by simpa [Pat.Dots1, Pat.leaves] using hd) (by simpa [Pat.Scoped] using hs) hchk hb]
  rintro ⟨x, hx⟩
  exact star_loops hf hx rfl rfl rfl

/-- **C55**, the condition on recursion. A grammar whose start begins with itself never stops, whatever follows. -/
theorem C55_left_recursion {q r : Pat} {name : String}
    (hc : Compiled (.grammar name (.cons name (.alt (.seq (.nonterm name) q) r) .nil)) code)
    (hd : q.Dots1 ∧ r.Dots1) (hs : (Pat.grammar name (.cons name (.alt (.seq (.nonterm name) q) r) .nil)).Scoped)
    (hchk : CheckOK chk) (hb : 0 < bufsz) : ¬ ∃ r, RunsTo chk iv code bufsz data st r := by
  have hd' : (Pat.grammar name (.cons name (.alt (.seq (.nonterm name) q) r) .nil)).Dots1 := by
    intro n hn
    simp only [Pat.leaves, Defs.leaves, List.nil_append, List.append_nil, List.mem_append] at hn
    exact hn.elim (hd.1 n) (hd.2 n)
  rw [C16_terminates_iff hc hd' hs hchk hb]
  rintro ⟨e, he⟩
  obtain ⟨b, h1, h2⟩ := evals_grammar.1 he
  simp only [Defs.find, if_pos] at h1
  cases h1
  have key : ∀ n i w, eval n ⟨data, chk, false⟩ [.cons name (.alt (.seq (.nonterm name) q) r) .nil] (.alt (.seq (.nonterm name) q) r) i w
      = none := by
    intro n
    induction n using Nat.strongRecOn with
    | ind n ih =>
      intro i w
      match n with
      | 0 => rfl
      | 1 => simp [eval]
      | 2 => simp [eval]
      | n + 3 =>
        have := ih n (by omega) i w
        simp [eval, lookupNT, Defs.find, this]
  obtain ⟨n, hn⟩ := h2
  rw [key] at hn
  cases hn

end

/-! ## Examples -/

/-- Sums of digits and bracketed sums, with blanks and a memo. -/
def sums : Pat := .grammar "S" (.cons "S" (.seq (.nonterm "T") (.star (.seq (.lit [43]) (.nonterm "T"))))
  (.cons "T" (.memo (.seq (.star (.lit [32])) (.alt (.plus (.cls (CSet.range 48 57))) (.seq (.lit [40]) (.seq (.nonterm "S") (.lit [41])))))
    0) .nil))

theorem sums_wf : sums.WellFormed [] := Pat.wfB_sound 30 _ _ (by decide +kernel)

example : ∃ code, CompiledAt 0 sums code := ⟨_, 30, ⟨0, 0, true⟩, _, _, rfl, rfl, rfl⟩
example : sums.leaves = [] ∧ sums.Dots1 ∧ sums.Pure ∧ sums.Scoped :=
  ⟨rfl, by intro n hn; simp [sums, Pat.leaves, Defs.leaves] at hn, ⟨by decide, by decide⟩,
    by simp [sums, Pat.Scoped, Defs.Scoped, Pat.nts, Defs.nts, Pat.noCap, Defs.noCap]⟩
example : sums.MemosOK noChk 0 := Pat.memosOK_of_pure ⟨by decide, by decide⟩ (by decide) (by decide)
/-- An optional sign repeated: it succeeds on `a` without consuming, so that its repetition does not stop. -/
example : (∃ code, Compiled (.star (.opt (.lit [45]))) code) ∧ ∃ cs, Ford [97] [] (.opt (.lit [45])) 0 (some (0, cs)) :=
  ⟨⟨_, 30, ⟨0, 0, true⟩, _, _, rfl, rfl⟩, _, .optNone (.litFail (by decide))⟩
/-- `S <- S '+' [0-9] / [0-9]`. -/
example : (∃ code, Compiled (.grammar "S" (.cons "S" (.alt (.seq (.nonterm "S") (.seq (.lit [43]) (.cls (CSet.range 48 57))))
      (.cls (CSet.range 48 57))) .nil)) code) ∧
    (Pat.grammar "S" (.cons "S" (.alt (.seq (.nonterm "S") (.seq (.lit [43]) (.cls (CSet.range 48 57))))
      (.cls (CSet.range 48 57))) .nil)).Scoped :=
  ⟨⟨_, 30, ⟨0, 0, true⟩, _, _, rfl, rfl⟩, by simp [Pat.Scoped, Defs.Scoped, Pat.nts, Defs.nts, Pat.noCap, Defs.noCap]⟩

end Gpeg
