import Verif.BenchEditsLemmas
import Verif.Props.BenchTwice
/-!
# C80: the edits that `GenerateEdits` makes

See `BenchEdits` for the model and for what is meant by the edits (`Meant`).
-/
namespace Gpeg
namespace Bench
open Linerope

section
variable {tbl : Nat → Checker} {top : Int} {code : Code} {data : Bytes} {bufsz : Nat} {st : Nat → Symbols}

/-- The parse of the text in the rope returns its tokens. -/
def Tells (tbl : Nat → Checker) (code : Code) (bufsz : Nat) (st : Nat → Symbols) (s : Sess) : Prop :=
  ∀ t r, s.rope.value = some t → RunsTree (checkers tbl) code bufsz t s.tbl st r → r.view = Tokens t st

theorem iter_ok {s : Sess} {t : Bytes} (hr : DefWF s.rope t) (hg : Tells tbl code bufsz st s) {o : Option Sess}
    (h : Round (checkers tbl) code bufsz st s o) :
    (o = none ∧ 10 ∉ t) ∨ ∃ ast src errs T st', RunsTree (checkers tbl) code bufsz t s.tbl st (.done true (some ast) src errs T st') ∧
      (o = some ⟨s.rope, T, s.edits⟩ ∨ ∃ e r, Meant t e ∧ DefWF r (t.take e.start ++ e.text ++ t.drop e.stop) ∧
        o = some ⟨r, T.applyEdit ⟨e.start, e.stop, e.text.length⟩, s.edits ++ [e]⟩) := by
  have hv := hr.value
  have key : ∀ {u ok cap src errs T st'}, s.rope.value = some u →
      RunsTree (checkers tbl) code bufsz u s.tbl st (.done ok cap src errs T st') →
      u = t ∧ ok = true ∧ ∃ a n ch, cap = some (.dummy a n ch) ∧ (Capture.dummy a n ch).trees = lex t := by
    intro u ok cap src errs T st' hu hx
    rw [hv] at hu
    cases hu
    have := hg _ _ hv hx
    cases ok with
    | false =>
      simp only [XRes.view, Tokens, Option.some.injEq, Prod.mk.injEq] at this
      cases this.1
    | true =>
      obtain ⟨a, n, ch, rfl⟩ := runsTree_root hx
      simp only [XRes.view, Tokens, Option.some.injEq, Prod.mk.injEq] at this
      exact ⟨rfl, rfl, a, n, ch, rfl, this.2.1.2⟩
  cases h with
  | valueBad h => rw [hv] at h; cases h
  | execBad h hx =>
    rw [hv] at h
    cases h
    cases hg _ _ hv hx
  | astBad h hx =>
    obtain ⟨_, _, _, _, _, h1, _⟩ := key h hx
    cases h1
  | genBad h hx hgen =>
    obtain ⟨rfl, rfl, a, n, ch, h1, h2⟩ := key h hx
    cases h1
    exact .inl ⟨rfl, (gen_meant hr h2 hgen).1 rfl⟩
  | again h hx hgen =>
    obtain ⟨rfl, rfl, a, n, ch, h1, h2⟩ := key h hx
    cases h1
    exact .inr ⟨_, _, _, _, _, hx, .inl rfl⟩
  | edit h hx hgen hed =>
    obtain ⟨rfl, rfl, a, n, ch, h1, h2⟩ := key h hx
    cases h1
    have hm := (gen_meant hr h2 hgen).2 _ rfl
    obtain ⟨r', h3, h4⟩ := edit_rope hr hm.range
    rw [h3] at hed
    cases hed
    exact .inr ⟨_, _, _, _, _, hx, .inr ⟨_, _, hm, h4, rfl⟩⟩
  | editBad h hx hgen hed =>
    obtain ⟨rfl, rfl, a, n, ch, h1, h2⟩ := key h hx
    cases h1
    have hm := (gen_meant hr h2 hgen).2 _ rfl
    obtain ⟨r', h3, h4⟩ := edit_rope hr hm.range
    rw [h3] at hed
    cases hed

/-- Every edit of the list is meant for the text that the edits in front of it make. -/
def AllMeant (data : Bytes) (es : List Linerope.Edit) : Prop :=
  ∀ pre e post, es = pre ++ e :: post → ∃ u, pre.foldlM Edit.apply data = some u ∧ Meant u e

theorem AllMeant.snoc {es : List Linerope.Edit} {e : Linerope.Edit} {t : Bytes} (h : AllMeant data es)
    (ht : es.foldlM Edit.apply data = some t) (he : Meant t e) : AllMeant data (es ++ [e]) := by
  intro pre e' post heq
  rcases List.eq_nil_or_concat post with rfl | ⟨post', x, rfl⟩
  · obtain ⟨rfl, h2⟩ := List.append_inj' heq rfl
    cases h2
    exact ⟨t, ht, he⟩
  · rw [List.concat_eq_append, ← List.cons_append, ← List.append_assoc] at heq
    exact h _ _ _ (List.append_inj' heq rfl).1

theorem apply_snoc {es : List Linerope.Edit} {e : Linerope.Edit} {t : Bytes} (ht : es.foldlM Edit.apply data = some t)
    (he : e.start ≤ e.stop ∧ e.stop ≤ t.length) :
    (es ++ [e]).foldlM Edit.apply data = some (t.take e.start ++ e.text ++ t.drop e.stop) := by
  rw [List.foldlM_append, ht]
  show (e.apply t).bind pure = _
  rw [Edit.apply, if_pos he]
  rfl

theorem session {s : Sess} {l : List Sess} (h : Generates (checkers tbl) code bufsz st data (s :: l))
    (hg : ∀ s' ∈ l, Tells tbl code bufsz st s') : ∃ t, DefWF s.rope t ∧ s.edits.foldlM Edit.apply data = some t ∧ AllMeant data s.edits := by
  generalize hl : s :: l = l' at h
  induction h generalizing s l with
  | start hr =>
    cases hl
    obtain ⟨r, h1, h2⟩ := Rope.newWithOpts_wf (P := (· = ropeOpts)) rfl (by decide) data
    rw [h1] at hr
    cases hr
    exact ⟨data, h2, rfl, fun pre e post h => by cases pre <;> cases h⟩
  | @next s₀ s₁ l₀ hgen hi ih =>
    cases hl
    obtain ⟨t, h1, h2, h3⟩ := ih (fun s' hs => hg s' (List.mem_cons_of_mem _ hs)) rfl
    rcases iter_ok h1 (hg _ List.mem_cons_self) hi with ⟨h, _⟩ | ⟨ast, src, errs, T, st', _, h | ⟨e, r, hm, hr, h⟩⟩
    · cases h
    · cases h
      exact ⟨t, h1, h2, h3⟩
    · cases h
      exact ⟨_, hr, apply_snoc h2 hm.range, h3.snoc h2 hm⟩

/-- Tables before the first edit. -/
theorem warm_first {s : Sess} {l : List Sess} (htop : 0 ≤ top) (hc : CompiledAt top grammar code) (htbl : tbl 0 = .map quals) (hb : 0 < bufsz)
    (h : Generates (checkers tbl) code bufsz st data (s :: l)) (he : s.edits = []) :
    Warm (checkers tbl) code data s.tbl ∧ DefWF s.rope data := by
  generalize hl : s :: l = l' at h
  induction h generalizing s l with
  | start hr =>
    cases hl
    obtain ⟨r, h1, h2⟩ := Rope.newWithOpts_wf (P := (· = ropeOpts)) rfl (by decide) data
    rw [h1] at hr
    cases hr
    exact ⟨.new 512, h2⟩
  | @next s₀ s₁ l₀ hgen hi ih =>
    cases hl
    have he₀ : s₀.edits = [] := by
      cases hi with
      | again => exact he
      | edit => simp at he
    obtain ⟨h1, h2⟩ := ih he₀ rfl
    have hg : Tells tbl code bufsz st s₀ := by
      intro t r ht hr
      rw [h2.value] at ht
      cases ht
      exact (C77_tokens htop hc htbl hb h1).2.2.2 r hr
    rcases iter_ok h2 hg hi with ⟨h, _⟩ | ⟨ast, src, errs, T, st', hx, h | ⟨e, r, hm, hr, h⟩⟩
    · cases h
    · cases h
      exact ⟨.run h1 hb hx, h2⟩
    · cases h
      simp at he

theorem good_first {s : Sess} {l : List Sess} (htop : 0 ≤ top) (hc : CompiledAt top grammar code) (htbl : tbl 0 = .map quals) (hb : 0 < bufsz)
    (h : Generates (checkers tbl) code bufsz st data (s :: l)) (he : s.edits = []) : Tells tbl code bufsz st s := by
  intro t r ht hr
  obtain ⟨h1, h2⟩ := warm_first htop hc htbl hb h he
  rw [h2.value] at ht
  cases ht
  exact (C77_tokens htop hc htbl hb h1).2.2.2 r hr

theorem good_second {s s₀ : Sess} (htop : 0 ≤ top) (hc : CompiledAt top grammar code) (htbl : tbl 0 = .map quals) (hb : 0 < bufsz)
    (h : Generates (checkers tbl) code bufsz st data [s, s₀]) : Tells tbl code bufsz st s := by
  intro t r ht hr
  cases h with
  | next h hi =>
    cases h with
    | @start r₀ hr₀ =>
      have hs : Generates (checkers tbl) code bufsz st data [⟨r₀, TreeTable.new 512, []⟩] := .start hr₀
      obtain ⟨_, h2⟩ := warm_first htop hc htbl hb hs rfl
      rcases iter_ok h2 (good_first htop hc htbl hb hs rfl) hi with ⟨h, _⟩ | ⟨ast, src, errs, T, st', hx, h | ⟨e, r', hm, hw, h⟩⟩
      · cases h
      · cases h
        have h2 : DefWF r₀ data := h2
        have ht : r₀.value = some t := ht
        rw [h2.value] at ht
        cases ht
        exact (C77_tokens htop hc htbl hb (.run (.new 512) hb hx)).2.2.2 r hr
      · cases h
        have ht : r'.value = some t := ht
        rw [hw.value] at ht
        cases ht
        exact (C77_reparse_partial htop hc htbl hb hb hx
          (.edit ⟨e.start, e.stop, e.text⟩ .none hm.range.1 hm.range.2 (fun h => by cases h))).2 r hr

end
end Bench

open Bench Linerope in
/-- **C80**. Whatever the random numbers are: as long as the parses return the tokens of the text (see C77), every edit that
`GenerateEdits` returns is what is meant by it, for the text made by the edits in front of it; it lies within that text; the rope holds
the text made by all of them; and the function panics only if that text has no newline. Missing: parses after the second need not return
the tokens (`C77_false`), and then edits need not be what is meant (`C80_false`). -/
theorem C80_session_partial {tbl : Nat → Checker} {code : Code} {data : Bytes} {bufsz : Nat} {st : Nat → Symbols} {s : Sess} {l : List Sess}
    (h : Generates (checkers tbl) code bufsz st data (s :: l)) (hg : ∀ s' ∈ l, Tells tbl code bufsz st s') :
    ∃ t, s.rope.value = some t ∧ s.edits.foldlM Edit.apply data = some t ∧ AllMeant data s.edits ∧
      (Tells tbl code bufsz st s → Round (checkers tbl) code bufsz st s none → 10 ∉ t) := by
  obtain ⟨t, h1, h2, h3⟩ := session h hg
  refine ⟨t, h1.value, h2, h3, fun hs hi => ?_⟩
  rcases iter_ok h1 hs hi with ⟨_, h⟩ | ⟨_, _, _, _, _, _, h | ⟨_, _, _, _, h⟩⟩
  · exact h
  · cases h
  · cases h

open Bench Linerope in
/-- **C80**, the first edit, and the second if every turn made an edit. No hypothesis on the parses is needed. -/
theorem C80_first {tbl : Nat → Checker} {top : Int} {code : Code} {data : Bytes} {bufsz : Nat} {st : Nat → Symbols} {s : Sess} {l : List Sess}
    (htop : 0 ≤ top) (hc : CompiledAt top grammar code) (htbl : tbl 0 = .map quals) (hb : 0 < bufsz)
    (h : Generates (checkers tbl) code bufsz st data (s :: l)) (hl : (∀ s' ∈ l, s'.edits = []) ∨ l.length ≤ 2) :
    ∃ t, s.rope.value = some t ∧ s.edits.foldlM Edit.apply data = some t ∧ AllMeant data s.edits ∧
      (s.edits = [] ∨ l.length ≤ 1 → Round (checkers tbl) code bufsz st s none → 10 ∉ t) := by
  have suffix : ∀ {x : Sess} {m : List Sess}, (x :: m) <:+ s :: l → Generates (checkers tbl) code bufsz st data (x :: m) := by
    intro x m hx
    clear hl
    generalize s :: l = l' at h hx
    induction h with
    | start hr =>
      rcases List.suffix_cons_iff.1 hx with e | e
      · rw [e]; exact .start hr
      · cases List.suffix_nil.1 e
    | next h1 hi ih =>
      rcases List.suffix_cons_iff.1 hx with e | e
      · rw [e]; exact .next h1 hi
      · exact ih e
  have short : ∀ {x : Sess} {m : List Sess}, Generates (checkers tbl) code bufsz st data (x :: m) → m.length ≤ 1 →
      Tells tbl code bufsz st x := by
    intro x m hx hm
    match m, hm with
    | [], _ => exact good_first htop hc htbl hb hx (by cases hx; rfl)
    | [y], _ => exact good_second htop hc htbl hb hx
  have hg : ∀ s' ∈ l, Tells tbl code bufsz st s' := by
    intro s' hs
    obtain ⟨l₁, l₂, rfl⟩ := List.append_of_mem hs
    have hsuf := suffix (x := s') (m := l₂) ⟨s :: l₁, by simp⟩
    rcases hl with hl | hl
    · exact good_first htop hc htbl hb hsuf (hl s' hs)
    · refine short hsuf ?_
      simp only [List.length_append, List.length_cons] at hl
      omega
  obtain ⟨t, h1, h2, h3, h4⟩ := C80_session_partial h hg
  refine ⟨t, h1, h2, h3, fun hs hi => h4 ?_ hi⟩
  rcases hs with hs | hs
  · exact good_first htop hc htbl hb h hs
  · exact short h hs

open Bench Linerope in
/-- **C80**, a finding: on every text without a newline the function can panic at once, because `rand.Intn(0)` does. (The test
file of the benchmark has newlines, but the edits can remove them.) -/
theorem C80_panic_false {tbl : Nat → Checker} {top : Int} {code : Code} {data : Bytes} {bufsz : Nat} (st : Nat → Symbols)
    (htop : 0 ≤ top) (hc : CompiledAt top grammar code) (htbl : tbl 0 = .map quals) (hb : 0 < bufsz) (hd : 10 ∉ data) :
    ∃ s, Generates (checkers tbl) code bufsz st data [s] ∧ Round (checkers tbl) code bufsz st s none := by
  obtain ⟨r, h1, h2⟩ := Rope.newWithOpts_wf (P := (· = ropeOpts)) rfl (by decide) data
  refine ⟨_, .start h1, ?_⟩
  obtain ⟨_, _, ⟨x, hx⟩, h4⟩ := C77_tokens (st := st) (data := data) htop hc htbl hb (.new 512)
  have hv := h4 x hx
  have hval : r.value = some data := h2.value
  cases x with
  | panic => exact .execBad (s := ⟨r, TreeTable.new 512, []⟩) hval hx
  | done ok cap src errs T st' =>
    cases cap with
    | none => exact .astBad (s := ⟨r, TreeTable.new 512, []⟩) hval hx
    | some ast =>
      refine .genBad (s := ⟨r, TreeTable.new 512, []⟩) hval hx (.lineNone ?_)
      show r.ll.line ≤ 0
      rw [h2.ll defSep]
      show ((data.count 10 : Nat) : Int) ≤ 0
      rw [List.count_eq_zero.2 hd]
      exact Int.le_refl 0

namespace Bench
open Linerope

theorem candidate_of {a n : Nat} {ch : List Capture} {id : Int} {i : Nat} (h : (id, i) ∈ heads (Capture.dummy a n ch).trees) :
    ∃ c ∈ candidates (.dummy a n ch) id, c.start = i := by
  obtain ⟨x, hx, he⟩ := List.mem_map.1 h
  rw [Capture.trees, C35_trees] at hx
  obtain ⟨c, hc, rfl⟩ := List.mem_map.1 hx
  simp only [Prod.mk.injEq] at he
  exact ⟨c, List.mem_filter.2 ⟨hc, by simpa using he.1⟩, he.2⟩

theorem heads_of {id : Int} {i n : Nat} {ch l : List CTree} (h : CTree.node id i n ch ∈ l) : (id, i) ∈ heads l :=
  List.mem_map.2 ⟨_, h, rfl⟩

end Bench

open Bench Linerope in
/-- **C80** is false without the hypothesis: in the session of `C77_false` the function inserts a newline in front, removes the newline
that closes the comment, and then removes a newline inside that comment, which is no token of the text. -/
theorem C80_false : ∃ code s l e₁ e₂ e₃ u, CompiledAt 1 grammar code ∧ Generates (checkers quTbl) code 4096 quSt bench₀ (s :: l) ∧
    s.edits = [e₁, e₂, e₃] ∧ [e₁, e₂].foldlM Edit.apply bench₀ = some u ∧ ¬ Meant u e₃ := by
  have h := benchRun_ok
  split at h
  · rename_i raw cst' hr
    cases he : encode (optimize raw) with
    | none => rw [he] at h; cases h
    | some code =>
      rw [he] at h
      have h : benchRun code = true := h
      have hc : CompiledAt 1 grammar code := ⟨60, ⟨0, 1, true⟩, _, cst', rfl, cm_bind.2 ⟨raw, cst', hr, rfl⟩, he⟩
      unfold benchRun at h
      split at h
      · rename_i cs₀ T h0
        split at h
        · rename_i cs₁ T₂ h1
          split at h
          · rename_i cs₂ T₄ h2
            obtain ⟨cap₀, src₀, errs₀, st₀, r0, _⟩ := runB_sound h0
            obtain ⟨cap₁, src₁, errs₁, st₁, r1, e1⟩ := runB_sound h1
            obtain ⟨cap₂, src₂, errs₂, st₂, r2, e2⟩ := runB_sound h2
            have hed : Edited T bench₀ true (T.applyEdit edit₁.edit) (edit₁.text bench₀) :=
              .edit edit₁ .none (by decide) (by decide +kernel) (fun h => by cases h)
            have hl : cap₁.trees = lex (edit₁.text bench₀) := by
              have := (C77_reparse_partial (by decide) hc rfl (by decide) (by decide) r0 hed).2 _ r1
              simp only [XRes.view, Tokens, Option.some.injEq, Prod.mk.injEq] at this
              exact this.2.1.2
            -- the ropes
            obtain ⟨p0, hp0, w0⟩ := Rope.newWithOpts_wf (P := (· = ropeOpts)) rfl (by decide) bench₀
            obtain ⟨p1, hp1, w1⟩ := edit_rope (e := ⟨0, 0, [10]⟩) w0 ⟨Nat.le_refl _, Nat.zero_le _⟩
            have w1 : DefWF p1 (edit₁.text bench₀) := w1
            obtain ⟨p2, hp2, w2⟩ := edit_rope (e := ⟨513, 514, []⟩) w1 ⟨by decide, by decide +kernel⟩
            have w2 : DefWF p2 (edit₂.text (edit₁.text bench₀)) := w2
            -- the first edit
            have g0 : Generates (checkers quTbl) code 4096 quSt bench₀ [⟨p0, TreeTable.new 512, []⟩] := .start hp0
            have g1 : Generates (checkers quTbl) code 4096 quSt bench₀
                [⟨p1, T.applyEdit edit₁.edit, [⟨0, 0, [10]⟩]⟩, ⟨p0, TreeTable.new 512, []⟩] := by
              refine .next g0 (.edit (e := ⟨0, 0, [10]⟩) w0.value r0 ?_ hp1)
              refine .line (line := 0) (off := 0) (Int.le_refl _) ?_ ?_ (Int.le_refl _)
              · show 0 < p0.ll.line
                rw [w0.ll defSep]
                decide +kernel
              · exact offset_start (a := []) w0 (.inl rfl)
            -- the second
            obtain ⟨a, n, ch, hd⟩ := runsTree_root r1
            cases hd
            obtain ⟨c₁, hc₁, hs₁⟩ := candidate_of (i := 513) (id := 4) (by rw [hl, lex_bench₁]; decide)
            have hn₁ : c₁.len = 1 := by
              obtain ⟨_, _, _, _, _, _, hk⟩ := candidates_lex hl hc₁
              rcases tokenOf_cases hk with ⟨h, _⟩ | ⟨h, _⟩ | ⟨h, _⟩ | h | ⟨_, _, h⟩
              · cases h
              · cases h
              · cases h
              · cases h
              · exact h
            have g2 : Generates (checkers quTbl) code 4096 quSt bench₀
                [⟨p2, T₂.applyEdit edit₂.edit, [⟨0, 0, [10]⟩, ⟨513, 514, []⟩]⟩, ⟨p1, T.applyEdit edit₁.edit, [⟨0, 0, [10]⟩]⟩,
                  ⟨p0, TreeTable.new 512, []⟩] := by
              refine .next g1 (.edit (e := ⟨513, 514, []⟩) w1.value r1 ?_ hp2)
              have := GenEdit.newline (r := p1) hc₁
              rwa [hs₁, hn₁] at this
            -- the third
            obtain ⟨a₂, n₂, ch₂, hd₂⟩ := runsTree_root r2
            cases hd₂
            obtain ⟨h, hfits⟩ := Bool.and_eq_true_iff.1 h
            have h : heads cs₂ = [(4, 0), (4, 1), (4, 2), (4, 511)] := by simpa using h
            obtain ⟨c₂, hc₂, hs₂⟩ := candidate_of (i := 511) (id := 4) (by rw [e2, h]; decide)
            have hfit : c₂.start + c₂.len ≤ (edit₂.text (edit₁.text bench₀)).length := by
              rw [show (edit₂.text (edit₁.text bench₀)).length = 514 by decide +kernel]
              have hx : CTree.node c₂.id c₂.start c₂.len (Capture.treesL c₂.children) ∈ cs₂ := by
                rw [← e2, Capture.trees, C35_trees]
                exact List.mem_map.2 ⟨c₂, (List.mem_filter.1 hc₂).1, rfl⟩
              simpa [fits] using List.all_eq_true.1 hfits _ hx
            have hbad : ¬ Meant (edit₂.text (edit₁.text bench₀)) ⟨c₂.start, c₂.start + c₂.len, []⟩ := by
              have nm : ∀ {id : Int} {i n : Nat} {ch : List CTree}, CTree.node id i n ch ∈ lex (edit₂.text (edit₁.text bench₀)) →
                  (id, i) ∈ [((4 : Int), 0), (4, 1), (4, 2)] := fun h => by
                rw [← lex_bench₂]
                exact heads_of h
              intro hm
              rw [hs₂] at hm
              generalize hE : (⟨511, 511 + c₂.len, []⟩ : Linerope.Edit) = E at hm
              cases hm with
              | line => simp at hE
              | newline _ hx =>
                simp only [Linerope.Edit.mk.injEq] at hE
                rw [← hE.1] at hx
                exact absurd (nm hx) (by decide)
              | comment _ _ hx =>
                simp only [Linerope.Edit.mk.injEq] at hE
                rw [← hE.1] at hx
                exact absurd (nm hx) (by decide)
              | func _ _ _ _ hx _ =>
                simp only [Linerope.Edit.mk.injEq] at hE
                exact hx hE.2.2.symm
              | qual _ _ _ hx =>
                simp only [Linerope.Edit.mk.injEq] at hE
                rw [← hE.2.2, ← quals_words] at hx
                exact absurd hx (by decide)
            obtain ⟨p3, hp3, _⟩ := edit_rope (e := ⟨c₂.start, c₂.start + c₂.len, []⟩) w2 ⟨Nat.le_add_right _ _, hfit⟩
            have hu := apply_snoc (data := bench₀) (es := [⟨0, 0, [10]⟩]) (e := ⟨513, 514, []⟩) (t := edit₁.text bench₀)
              (apply_snoc (es := []) (e := ⟨0, 0, [10]⟩) rfl ⟨Nat.le_refl _, Nat.zero_le _⟩) ⟨by decide, by decide +kernel⟩
            exact ⟨code, _, _, _, _, _, _, hc, .next g2 (.edit w2.value r2 (.newline hc₂) hp3), rfl, hu, hbad⟩
          · cases h
        · cases h
      · cases h
  · cases h

open Bench Linerope in
/-- The hypotheses of `C80_session_partial` and `C80_first` are met, for example when the line comment that is the whole text is
removed. -/
example : ∃ code s s₀, CompiledAt 1 grammar code ∧ Generates (checkers quTbl) code 4096 quSt [47, 47, 97, 10] [s, s₀] ∧
    s.edits = [⟨0, 4, []⟩] ∧ quTbl 0 = .map quals ∧ Tells quTbl code 4096 quSt s₀ := by
  obtain ⟨code, _, _, _, _, _, _, hc, _⟩ := C80_false
  obtain ⟨r, h1, h2⟩ := Rope.newWithOpts_wf (P := (· = ropeOpts)) rfl (by decide) [47, 47, 97, 10]
  obtain ⟨_, _, ⟨x, hx⟩, h4⟩ := C77_tokens (bufsz := 4096) (st := quSt) (tbl := quTbl) (data := [47, 47, 97, 10]) (by decide) hc rfl (by decide) (.new 512)
  have g0 : Generates (checkers quTbl) code 4096 quSt [47, 47, 97, 10] [⟨r, TreeTable.new 512, []⟩] := .start h1
  have hv := h4 x hx
  cases x with
  | panic => cases hv
  | done ok cap src errs T st' =>
    cases ok with
    | false =>
      simp only [XRes.view, Tokens, Option.some.injEq, Prod.mk.injEq] at hv
      cases hv.1
    | true =>
      obtain ⟨a, n, ch, rfl⟩ := runsTree_root hx
      simp only [XRes.view, Tokens, Option.some.injEq, Prod.mk.injEq] at hv
      obtain ⟨c, hc1, hc2⟩ := candidate_of (a := a) (n := n) (ch := ch) (id := 0) (i := 0) (by rw [hv.2.1.2]; decide +kernel)
      obtain ⟨r', h5, h6⟩ := edit_rope (e := ⟨0, 4, []⟩) h2 (by decide)
      refine ⟨code, _, _, hc, .next g0 (.edit (e := ⟨0, 4, []⟩) h2.value hx ?_ h5), rfl, rfl, good_first (by decide) hc rfl (by decide) g0 rfl⟩
      have hlc := Rope.lineColAt_wf defSep 0 h2 (by decide)
      have := GenEdit.comment (r := r) (l := ⟨0, 0⟩) (off := 4) hc1 (by rw [hc2]; exact hlc)
        (offset_start (a := [47, 47, 97, 10]) (b := []) h2 (.inr ⟨[47, 47, 97], rfl⟩)) (by decide)
      rwa [hc2] at this

end Gpeg
