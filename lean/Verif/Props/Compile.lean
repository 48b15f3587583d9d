import Verif.Correct
import Verif.Ford
/-!
# Properties C15-C21, C24, C25 and C42: compiled patterns

`Ford` (`Verif/Ford.lean`) is the declarative meaning of patterns without errors and checkers,
`Evals` (`Verif/Peg.lean`) the evaluator covering all patterns. The hypotheses are

* `p.Dots1`: `Any(n)` is only used with `n = 1` (C24 is false otherwise),
* `p.Scoped`: no non-terminal is captured by the inliner or by `Search` (C25 is false otherwise),
* `CheckOK chk`: checkers never ask to skip beyond the end of the data.
-/
namespace Gpeg
variable {σ : Type}

/-- `code` is what `vm.Encode` makes of the output of `pattern.Compile`, for some value of the global
counters (and some bound `k` on the recursion depth of the model of `Compile`). -/
def Compiled (p : Pat) (code : Code) : Prop :=
  ∃ k cst prog cst', compile k p cst = .ok (prog, cst') ∧ encode prog = some code

/-- `Exec`/`ExecInterval` with `NoneTable` on `data`, read in chunks of `bufsz` bytes, stops with `r`. -/
abbrev RunsTo (chk : CheckFn σ) (iv : Option Interval) (code : Code) (bufsz : Nat) (data : List UInt8) (st : σ)
    (r : XRes Input Unit σ) : Prop :=
  Execs ⟨chunkedOps, noneTable, chk, iv⟩ code (Input.new bufsz data) () st r

theorem Compiled.raw {p : Pat} {code : Code} (h : Compiled p code) :
    ∃ k cst raw cst', CM.Ok (compileF k p) cst raw cst' ∧ encode (optimize raw) = some code := by
  obtain ⟨k, cst, prog, cst', h, he⟩ := h
  obtain ⟨raw, s1, h1, h2⟩ := cm_bind.1 h
  obtain ⟨rfl, rfl⟩ := cm_pure.1 h2
  exact ⟨k, cst, raw, _, h1, he⟩

/-! ## The captures that meet an interval -/

/-- The range of bytes `[s, e)` meets the interval: they have a byte in common. If one of them has no bytes, it is
strictly inside the other. -/
def Meets (I : Interval) (s e : Nat) : Prop :=
  if s < e ∧ I.low < I.high then ∃ k, s ≤ k ∧ k < e ∧ I.low ≤ k ∧ k < I.high else I.low < e ∧ s < I.high

/-- The second list is what is left of the first when the captures that do not meet the interval are dropped, with
their children. -/
inductive Kept (I : Interval) : List CTree → List CTree → Prop
  | nil : Kept I [] []
  | keep {id : Int} {s n : Nat} {ch ch' cs cs' : List CTree} : Meets I s (s + n) → Kept I ch ch' → Kept I cs cs' →
    Kept I (.node id s n ch :: cs) (.node id s n ch' :: cs')
  | drop {id : Int} {s n : Nat} {ch cs cs' : List CTree} : ¬ Meets I s (s + n) → Kept I cs cs' →
    Kept I (.node id s n ch :: cs) cs'

theorem overlapsIv_meets (I : Interval) (s n : Nat) : overlapsIv (some I) s (s + n) = true ↔ Meets I s (s + n) := by
  simp only [overlapsIv, Bool.and_eq_true, decide_eq_true_eq, Meets]
  split
  · constructor
    · intro h
      refine ⟨max s I.low, ?_⟩
      omega
    · rintro ⟨k, _⟩
      omega
  · rfl

theorem kept_pruneL (I : Interval) : ∀ cs : List CTree, Kept I cs (CTree.pruneL (some I) cs)
  | [] => by
    rw [CTree.pruneL]
    exact .nil
  | .node id s n ch :: cs => by
    have h1 := kept_pruneL I ch
    have h2 := kept_pruneL I cs
    rw [CTree.pruneL, CTree.prune]
    split
    · rename_i h
      exact .keep ((overlapsIv_meets I s n).1 h) h1 h2
    · rename_i h
      exact .drop (fun hm => h ((overlapsIv_meets I s n).2 hm)) h2

section
variable {p : Pat} {code : Code} {chk : CheckFn σ} {data : List UInt8} {bufsz : Nat} {iv : Option Interval} {st : σ}

/-- Every evaluation is reproduced by the machine, and every finished run stems from an evaluation; for
all patterns, including errors and checkers. -/
theorem exec_evals (hc : Compiled p code) (hd : p.Dots1) (hs : p.Scoped) (hchk : CheckOK chk) (hb : 0 < bufsz) :
    (∀ e, Evals ⟨data, chk, false⟩ [] p 0 ⟨[], st⟩ e → ∃ r, RunsTo chk iv code bufsz data st r ∧ ExecRes iv e r) ∧
    (∀ r, RunsTo chk iv code bufsz data st r → ∃ e, Evals ⟨data, chk, false⟩ [] p 0 ⟨[], st⟩ e ∧ ExecRes iv e r) := by
  obtain ⟨k, cst, raw, cst', h, he⟩ := hc.raw
  exact exec_none hchk hd hs h he hb st

/-- **C15**. A compiled pattern matches with end `j` exactly when the parsing expression consumes the
first `j` bytes, and does not match exactly when the parsing expression fails. -/
theorem C15_exec_is_peg (hp : p.Pure) (hc : Compiled p code) (hd : p.Dots1) (hs : p.Scoped) (hchk : CheckOK chk)
    (hb : 0 < bufsz) :
    (∀ j, (∃ cap src errs st', RunsTo chk none code bufsz data st (.done true cap src errs () st') ∧ src.pos = j) ↔
      ∃ cs, Ford data [] p 0 (some (j, cs))) ∧
    ((∃ cap src errs st', RunsTo chk none code bufsz data st (.done false cap src errs () st')) ↔
      Ford data [] p 0 none) := by
  obtain ⟨h1, h2⟩ := exec_evals (iv := none) (data := data) (st := st) hc hd hs hchk hb
  have hpe : Env.Pure [] := fun _ h => by cases h
  refine ⟨fun j => ⟨?_, ?_⟩, ?_, ?_⟩
  · rintro ⟨cap, src, errs, st', hr, rfl⟩
    obtain ⟨⟨res, far, w⟩, he, hx⟩ := h2 _ hr
    obtain ⟨x, hx1, hx2, hf⟩ := evals_pure hp hpe he
    simp only at hx1
    subst hx1
    cases x with
    | none => obtain ⟨s, t, h⟩ := hx; cases h
    | some x =>
      obtain ⟨a, b, ch, s, t, h, hpos, _⟩ := hx
      cases h
      obtain ⟨j, cs⟩ := x
      have hpos : src.pos = j := hpos
      exact ⟨cs, by rw [hpos]; exact hf⟩
  · rintro ⟨cs, hf⟩
    obtain ⟨far, he⟩ := hf.evals (chk := chk) (w := ⟨[], st⟩)
    obtain ⟨r, hr, a, b, ch, s, t, rfl, hpos, _⟩ := h1 _ he
    exact ⟨_, _, _, _, hr, hpos⟩
  · rintro ⟨cap, src, errs, st', hr⟩
    obtain ⟨⟨res, far, w⟩, he, hx⟩ := h2 _ hr
    obtain ⟨x, hx1, hx2, hf⟩ := evals_pure hp hpe he
    simp only at hx1
    subst hx1
    cases x with
    | none => exact hf
    | some x => obtain ⟨a, b, ch, s, t, h, hpos, _⟩ := hx; cases h
  · intro hf
    obtain ⟨far, he⟩ := hf.evals (chk := chk) (w := ⟨[], st⟩)
    obtain ⟨r, hr, s, t, rfl⟩ := h1 _ he
    exact ⟨_, _, _, _, hr⟩

/-- **C16**. The machine stops exactly when the evaluation of the parsing expression does. -/
theorem C16_terminates_iff (hc : Compiled p code) (hd : p.Dots1) (hs : p.Scoped) (hchk : CheckOK chk)
    (hb : 0 < bufsz) :
    (∃ r, RunsTo chk iv code bufsz data st r) ↔ ∃ e, Evals ⟨data, chk, false⟩ [] p 0 ⟨[], st⟩ e := by
  obtain ⟨h1, h2⟩ := exec_evals (iv := iv) (data := data) (st := st) hc hd hs hchk hb
  exact ⟨fun ⟨r, hr⟩ => ⟨_, (h2 r hr).choose_spec.1⟩, fun ⟨e, he⟩ => ⟨_, (h1 e he).choose_spec.1⟩⟩

/-- **C16** for patterns without errors and checkers, with the declarative relation. -/
theorem C16_terminates_iff_ford (hp : p.Pure) (hc : Compiled p code) (hd : p.Dots1) (hs : p.Scoped)
    (hchk : CheckOK chk) (hb : 0 < bufsz) :
    (∃ r, RunsTo chk iv code bufsz data st r) ↔ ∃ x, Ford data [] p 0 x := by
  rw [C16_terminates_iff hc hd hs hchk hb]
  constructor
  · rintro ⟨e, he⟩
    obtain ⟨x, _, _, hf⟩ := evals_pure hp (fun _ h => by cases h) he
    exact ⟨x, hf⟩
  · rintro ⟨x, hf⟩
    obtain ⟨far, he⟩ := hf.evals (chk := chk) (w := ⟨[], st⟩)
    exact ⟨_, he⟩

/-- **C17**. On a match the returned capture tree is the one of the parsing expression: a root spanning
the match whose children are the captures of the successful path. -/
theorem C17_captures (hp : p.Pure) (hc : Compiled p code) (hd : p.Dots1) (hs : p.Scoped) (hchk : CheckOK chk)
    (hb : 0 < bufsz) {cap : Option Capture} {src : Input} {errs : List PErr} {st' : σ}
    (h : RunsTo chk none code bufsz data st (.done true cap src errs () st')) :
    ∃ ch, cap = some (.dummy 0 src.pos ch) ∧ Ford data [] p 0 (some (src.pos, Capture.treesL ch)) := by
  obtain ⟨h1, h2⟩ := exec_evals (iv := none) (data := data) (st := st) hc hd hs hchk hb
  obtain ⟨⟨res, far, w⟩, he, hx⟩ := h2 _ h
  obtain ⟨x, hx1, hx2, hf⟩ := evals_pure hp (fun _ h => by cases h) he
  simp only at hx1
  subst hx1
  cases x with
  | none => obtain ⟨s, t, h⟩ := hx; cases h
  | some x =>
    obtain ⟨j, cs⟩ := x
    obtain ⟨a, b, ch, s, t, h, hpos, htr, hab⟩ := hx
    cases h
    obtain ⟨rfl, rfl⟩ := hab rfl
    rw [pruneL_none] at htr
    refine ⟨ch, by rw [hpos], ?_⟩
    rw [hpos, htr]
    exact hf

/-- **C18**. No run of a compiled pattern panics. -/
theorem C18_no_panic (hc : Compiled p code) (hd : p.Dots1) (hs : p.Scoped) (hchk : CheckOK chk) (hb : 0 < bufsz) :
    ¬ RunsTo chk iv code bufsz data st .panic := by
  intro h
  obtain ⟨⟨res, far, w⟩, _, hx⟩ := (exec_evals hc hd hs hchk hb).2 _ h
  cases res with
  | ok pos cs => obtain ⟨a, b, ch, s, t, h, _⟩ := hx; cases h
  | fail => obtain ⟨s, t, h⟩ := hx; cases h
  | abort pos => obtain ⟨c, s, t, h, _⟩ := hx; cases h

/-- **C19**. The errors returned are those logged by the evaluation, in order; an error without recovery
ends the run without a match at its position. -/
theorem C19_errors (hc : Compiled p code) (hd : p.Dots1) (hs : p.Scoped) (hchk : CheckOK chk) (hb : 0 < bufsz)
    {ok : Bool} {cap : Option Capture} {src : Input} {errs : List PErr} {st' : σ}
    (h : RunsTo chk iv code bufsz data st (.done ok cap src errs () st')) :
    ∃ res far w, Evals ⟨data, chk, false⟩ [] p 0 ⟨[], st⟩ (res, far, w) ∧ errs = w.errs ∧ st' = w.cst ∧
      (ok = true ↔ ∃ j cs, res = .ok j cs) ∧ (∀ q, res = .abort q → src.pos = q) := by
  obtain ⟨⟨res, far, w⟩, he, hx⟩ := (exec_evals hc hd hs hchk hb).2 _ h
  refine ⟨res, far, w, he, ?_⟩
  cases res with
  | ok pos cs =>
    obtain ⟨a, b, ch, s, t, h, _⟩ := hx
    cases h
    exact ⟨rfl, rfl, ⟨fun _ => ⟨_, _, rfl⟩, fun _ => rfl⟩, fun q h => by cases h⟩
  | fail =>
    obtain ⟨s, t, h⟩ := hx
    cases h
    exact ⟨rfl, rfl, ⟨(fun h => by cases h), fun h => by obtain ⟨_, _, h⟩ := h; cases h⟩, fun q h => by cases h⟩
  | abort pos =>
    obtain ⟨c, s, t, h, hpos⟩ := hx
    cases h
    exact ⟨rfl, rfl, ⟨(fun h => by cases h), fun h => by obtain ⟨_, _, h⟩ := h; cases h⟩, fun q h => by cases h; exact hpos⟩

/-- **C19**, the case of one error without recovery after a prefix: it is logged last, at the position
reached by the prefix, and the run fails there. -/
theorem C19_error_aborts {q : Pat} {msg : String} (hc : Compiled (.seq q (.err msg)) code) (hd : q.Dots1)
    (hs : q.Scoped) (hchk : CheckOK chk) (hb : 0 < bufsz) {j : Nat} {cs : List CTree} {far : Nat} {w : World σ}
    (hq : Evals ⟨data, chk, false⟩ [] q 0 ⟨[], st⟩ (.ok j cs, far, w)) :
    ∃ cap src, RunsTo chk iv code bufsz data st (.done false cap src (w.errs ++ [⟨msg, j⟩]) () w.cst) ∧
      src.pos = j := by
  have hd' : (Pat.seq q (.err msg)).Dots1 := by
    intro n hn
    simp only [Pat.leaves, List.mem_append, List.mem_singleton, reduceCtorEq, or_false] at hn
    exact hd n hn
  obtain ⟨r, hr, c, s, t, rfl, hpos⟩ := (exec_evals (iv := iv) (data := data) (st := st) hc hd' ⟨hs, trivial⟩ hchk hb).1
    (.abort j, max far 0, { w with errs := w.errs ++ [⟨msg, j⟩] })
    (evals_seq.2 ⟨_, hq, _, ⟨_, evals_err.2 rfl, rfl⟩, rfl⟩)
  exact ⟨c, s, hr, hpos⟩

/-- **C20**. After any prefix `q`, a check node around `p` calls its checker with exactly the bytes `p`
matched and the position after them; the answer `none` (-1) fails, `some n` succeeds `n` bytes further,
and the checker's new state is kept. -/
theorem C20_check {q : Pat} {ck : Nat} {id flag : Int} (hc : Compiled (.seq q (.check p ck id flag)) code)
    (hd : (Pat.seq q p).Dots1) (hs : (Pat.seq q p).Scoped) (hchk : CheckOK chk) (hb : 0 < bufsz)
    {i j : Nat} {cs cs' : List CTree} {f f' : Nat} {w w' : World σ}
    (hq : Evals ⟨data, chk, false⟩ [] q 0 ⟨[], st⟩ (.ok i cs, f, w))
    (hp : Evals ⟨data, chk, false⟩ [] p i w (.ok j cs', f', w')) :
    match chk ck w'.cst ((data.drop i).take (j - i)) data j id flag with
    | (none, st') => ∃ src, RunsTo chk none code bufsz data st (.done false none src w'.errs () st')
    | (some n, st') => ∃ ch src, RunsTo chk none code bufsz data st
        (.done true (some (.dummy 0 (j + n) ch)) src w'.errs () st') ∧ src.pos = j + n ∧
        Capture.treesL ch = cs ++ cs' := by
  have hd' : (Pat.seq q (.check p ck id flag)).Dots1 := by
    intro n hn
    simp only [Pat.leaves, List.mem_append, List.mem_cons, reduceCtorEq, false_or] at hn
    exact hd n (by simp only [Pat.leaves, List.mem_append]; exact hn)
  obtain ⟨h1, h2⟩ := exec_evals (iv := none) (data := data) (st := st) hc hd' hs hchk hb
  have he : Evals ⟨data, chk, false⟩ [] (.seq q (.check p ck id flag)) 0 ⟨[], st⟩
      ((checkEv ⟨data, chk, false⟩ i ck id flag (.ok j cs', f', w')).1.prepend cs,
        max f (checkEv ⟨data, chk, false⟩ i ck id flag (.ok j cs', f', w')).2.1,
        (checkEv ⟨data, chk, false⟩ i ck id flag (.ok j cs', f', w')).2.2) :=
    evals_seq.2 ⟨_, hq, _, ⟨_, evals_check.2 ⟨_, hp, rfl⟩, rfl⟩, rfl⟩
  obtain ⟨r, hr, hx⟩ := h1 _ he
  rcases hck : chk ck w'.cst ((data.drop i).take (j - i)) data j id flag with ⟨a, st'⟩
  cases a with
  | none =>
    simp only [checkEv, hck, Res.prepend] at hx
    obtain ⟨s, t, rfl⟩ := hx
    exact ⟨s, hr⟩
  | some n =>
    simp only [checkEv, hck, Res.prepend] at hx
    obtain ⟨a, b, ch, s, t, rfl, hpos, htr, hab⟩ := hx
    obtain ⟨rfl, rfl⟩ := hab rfl
    rw [pruneL_none] at htr
    exact ⟨ch, s, hr, hpos, htr⟩

/-! ## Search -/

theorem ford_search_ok {d : List UInt8} {env : Env} {s : Pat} {i : Nat} {x : Option (Nat × List CTree)}
    (h : Ford d env s i x) : ∀ {p}, s = .search p → ∀ {j cs}, x = some (j, cs) → i ≤ d.length →
    ∃ q, i ≤ q ∧ q ≤ d.length ∧ Ford d env p q (some (j, cs)) ∧ ∀ q', i ≤ q' → q' < q → Ford d env p q' none := by
  induction h with
  | searchHere h1 =>
    intro p hp j cs hx hi
    cases hp
    cases hx
    exact ⟨_, Nat.le_refl _, hi, h1, fun q' h1 h2 => by omega⟩
  | @searchNext env p i x h1 hlt h2 _ ih =>
    intro p hp j cs hx hi
    cases hp
    obtain ⟨q, a, b, c, d⟩ := ih rfl hx (by omega)
    refine ⟨q, by omega, b, c, fun q' h3 h4 => ?_⟩
    rcases Nat.eq_or_lt_of_le h3 with rfl | h3
    · exact h1
    · exact d q' h3 h4
  | _ => intro p hp j cs hx; first | (cases hp; done) | cases hx

theorem ford_search_of {d : List UInt8} {env : Env} {p : Pat} {i j q : Nat} {cs : List CTree} (hi : i ≤ q)
    (hq : q ≤ d.length) (h : Ford d env p q (some (j, cs))) (hn : ∀ q', i ≤ q' → q' < q → Ford d env p q' none) :
    Ford d env (.search p) i (some (j, cs)) := by
  obtain ⟨k, rfl⟩ := Nat.exists_eq_add_of_le hi
  clear hi
  induction k generalizing i with
  | zero => exact .searchHere h
  | succ k ih =>
    refine .searchNext (hn i (Nat.le_refl _) (by omega)) (by omega) (ih ?_ ?_ ?_)
    · omega
    · rw [show i + 1 + k = i + (k + 1) by omega]; exact h
    · intro q' h1 h2; exact hn q' (by omega) (by omega)

/-- **C21** at every position: a search succeeds with the match of its body at the least position from
here on at which the body matches. -/
theorem C21_search_least {d : List UInt8} {env : Env} {i j : Nat} {cs : List CTree} (hi : i ≤ d.length) :
    Ford d env (.search p) i (some (j, cs)) ↔ ∃ q, i ≤ q ∧ q ≤ d.length ∧ Ford d env p q (some (j, cs)) ∧
      ∀ q', i ≤ q' → q' < q → Ford d env p q' none :=
  ⟨fun h => ford_search_ok h rfl rfl hi, fun ⟨_, h1, h2, h3, h4⟩ => ford_search_of h1 h2 h3 h4⟩

/-- **C21** for the machine: a compiled `Search(p)` matches with end `j` exactly when `j` is the end of
`p`'s match at the first position at which `p` matches. -/
theorem C21_search_exec (hp : p.Pure) (hc : Compiled (.search p) code) (hd : p.Dots1) (hs : p.Scoped)
    (hS : "S" ∉ p.nts) (hchk : CheckOK chk) (hb : 0 < bufsz) (j : Nat) :
    (∃ cap src errs st', RunsTo chk none code bufsz data st (.done true cap src errs () st') ∧ src.pos = j) ↔
    ∃ q cs, q ≤ data.length ∧ Ford data [] p q (some (j, cs)) ∧ ∀ q' < q, Ford data [] p q' none := by
  have hd' : (Pat.search p).Dots1 := by
    intro n hn
    simp only [Pat.leaves, List.mem_cons, Leaf.dot.injEq] at hn
    rcases hn with rfl | hn
    · rfl
    · exact hd n hn
  have hp' : (Pat.search p).Pure := by
    simp only [Pat.Pure, Pat.leaves, List.mem_cons, reduceCtorEq, false_or]
    exact hp
  rw [(C15_exec_is_peg hp' hc hd' ⟨hS, hs⟩ hchk hb).1 j]
  constructor
  · rintro ⟨cs, h⟩
    obtain ⟨q, _, h2, h3, h4⟩ := (C21_search_least (Nat.zero_le _)).1 h
    exact ⟨q, cs, h2, h3, fun q' h => h4 q' (Nat.zero_le _) h⟩
  · rintro ⟨q, cs, h2, h3, h4⟩
    exact ⟨cs, (C21_search_least (Nat.zero_le _)).2 ⟨q, Nat.zero_le _, h2, h3, fun q' _ h => h4 q' h⟩⟩

/-! ## Intervals -/

/-- **C42**. `ExecInterval` stops exactly when `Exec` does, with the same match flag, position, errors and
checker state, and the captures of `Exec` that overlap the interval (a capture that does not is dropped
with its children). -/
theorem C42_interval (hc : Compiled p code) (hd : p.Dots1) (hs : p.Scoped) (hchk : CheckOK chk) (hb : 0 < bufsz)
    (I : Interval) :
    (∀ r, RunsTo chk none code bufsz data st r → ∃ r', RunsTo chk (some I) code bufsz data st r') ∧
    ∀ ok cap src errs st', RunsTo chk (some I) code bufsz data st (.done ok cap src errs () st') →
      ∃ cap0 src0, RunsTo chk none code bufsz data st (.done ok cap0 src0 errs () st') ∧
        (ok = true → src.pos = src0.pos ∧ ∃ a b ch ch0, cap = some (.dummy a b ch) ∧
          cap0 = some (.dummy 0 src0.pos ch0) ∧
          Kept I (Capture.treesL ch0) (Capture.treesL ch)) := by
  obtain ⟨h1, h2⟩ := exec_evals (iv := none) (data := data) (st := st) hc hd hs hchk hb
  obtain ⟨h3, h4⟩ := exec_evals (iv := some I) (data := data) (st := st) hc hd hs hchk hb
  refine ⟨fun r hr => ?_, fun ok cap src errs st' hr => ?_⟩
  · obtain ⟨e, he, _⟩ := h2 r hr
    obtain ⟨r', hr', _⟩ := h3 e he
    exact ⟨r', hr'⟩
  · obtain ⟨⟨res, far, w⟩, he, hx⟩ := h4 _ hr
    obtain ⟨r0, hr0, hx0⟩ := h1 _ he
    cases res with
    | ok pos cs =>
      obtain ⟨a, b, ch, s, t, h, hpos, htr, _⟩ := hx
      obtain ⟨a0, b0, ch0, s0, t0, rfl, hpos0, htr0, hab⟩ := hx0
      cases h
      obtain ⟨rfl, rfl⟩ := hab rfl
      rw [pruneL_none] at htr0
      refine ⟨_, _, hr0, fun _ => ⟨hpos.trans hpos0.symm, a, b, ch, ch0, rfl, by rw [hpos0], ?_⟩⟩
      rw [htr, htr0]
      exact kept_pruneL I cs
    | fail =>
      obtain ⟨s, t, h⟩ := hx
      obtain ⟨s0, t0, rfl⟩ := hx0
      cases h
      exact ⟨_, _, hr0, fun h => by cases h⟩
    | abort pos =>
      obtain ⟨c, s, t, h, _⟩ := hx
      obtain ⟨c0, s0, t0, rfl, _⟩ := hx0
      cases h
      exact ⟨_, _, hr0, fun h => by cases h⟩

end

/-! ## An instance of the hypotheses: balanced parentheses, captured, after any text -/

/-- `B <- {1: '(' B ')'} B / ''`, searched for from the left until it is followed by `x`. -/
def exPat : Pat := .search (.seq (.grammar "B" (.cons "B" (.alt (.seq (.cap (.seq (.lit [40]) (.seq (.nonterm "B")
  (.lit [41]))) 1) (.nonterm "B")) .empty) .nil)) (.lit [120]))

/-- Its bytecode. -/
def exCode : Code := match compile 20 exPat ⟨0, 0, true⟩ with
  | .ok (p, _) => (encode p).getD ⟨[], [], [], []⟩
  | .error _ => ⟨[], [], [], []⟩

example : Compiled exPat exCode := ⟨20, ⟨0, 0, true⟩, _, _, rfl, by decide⟩
example : exPat.Pure := ⟨by decide, by decide⟩
example : exPat.Dots1 := by intro n hn; simpa [exPat, Pat.leaves, Defs.leaves] using hn
example : exPat.Scoped := by simp [exPat, Pat.Scoped, Defs.Scoped, Pat.nts, Defs.nts, Pat.noCap, Defs.noCap]
/-- On `)(())x` it matches the last five bytes, with two nested captures. -/
example : ∃ src, RunsTo (fun _ s _ _ _ _ _ => (none, s)) none exCode 3 [41, 40, 40, 41, 41, 120] ()
    (.done true (some (.dummy 0 6 [.node 1 1 4 [.node 1 2 2 []]])) src [] () ()) := ⟨_, 80, _, rfl, rfl⟩

/-! ## C24: `Any(n)` -/

/-- **C24** is false of the code for `n >= 2`: `Or(Any(5), Literal("ab"))` does not match `ab` although
its second alternative does (the failed `Any(5)` leaves the position behind, `vm/vm.go:231-241`). -/
theorem C24_false : ∃ p code, Compiled p code ∧ Ford [97, 98] [] p 0 (some (2, [])) ∧
    ∃ src, RunsTo (fun _ s _ _ _ _ _ => (none, s)) none code 4096 [97, 98] () (.done false none src [] () ()) := by
  refine ⟨.alt (.dot 5) (.lit [97, 98]), _, ⟨10, ⟨0, 0, true⟩, _, _, rfl, rfl⟩, ?_, ⟨_, 10, _, rfl, rfl⟩⟩
  exact .altR (.dotFail (by decide)) (.litOk (s := [97, 98]) (i := 0) (by decide))

/-- **C24** is false of the code for `n = 0`: `Any(0)` fails at the end of the data. -/
theorem C24_false_zero : ∃ code, Compiled (.dot 0) code ∧ Ford [] [] (.dot 0) 0 (some (0, [])) ∧
    ∃ src, RunsTo (fun _ s _ _ _ _ _ => (none, s)) none code 4096 [] () (.done false none src [] () ()) :=
  ⟨_, ⟨10, ⟨0, 0, true⟩, _, _, rfl, rfl⟩, .dotOk (n := 0) (i := 0) (by decide), ⟨_, 10, _, rfl, rfl⟩⟩

/-- **C24** is false of the code across a chunk boundary: here `Any(2)` fails on three bytes read one at
a time. -/
theorem C24_false_chunk : ∃ code, Compiled (.dot 2) code ∧ Ford [1, 2, 3] [] (.dot 2) 0 (some (2, [])) ∧
    ∃ src, RunsTo (fun _ s _ _ _ _ _ => (none, s)) none code 1 [1, 2, 3] () (.done false none src [] () ()) :=
  ⟨_, ⟨10, ⟨0, 0, true⟩, _, _, rfl, rfl⟩, .dotOk (n := 2) (i := 0) (by decide), ⟨_, 10, _, rfl, rfl⟩⟩

section
variable {p : Pat} {code : Code} {chk : CheckFn σ} {data : List UInt8} {bufsz : Nat} {st : σ}

/-- **C24**, the part that holds: `Any(1)` consumes one byte if there is one; where it fails the next
alternative starts from the same position. (Missing: `n = 0` and `n >= 2`, where the statement is false.) -/
theorem C24_any_partial (hp : p.Pure) (hc : Compiled (.alt (.dot 1) p) code) (hd : p.Dots1) (hs : p.Scoped)
    (hchk : CheckOK chk) (hb : 0 < bufsz) (j : Nat) :
    (∃ cap src errs st', RunsTo chk none code bufsz data st (.done true cap src errs () st') ∧ src.pos = j) ↔
    (1 ≤ data.length ∧ j = 1) ∨ (data = [] ∧ ∃ cs, Ford data [] p 0 (some (j, cs))) := by
  have hd' : (Pat.alt (.dot 1) p).Dots1 := by
    intro n hn
    simp only [Pat.leaves, List.cons_append, List.nil_append, List.mem_cons, Leaf.dot.injEq] at hn
    rcases hn with rfl | hn
    · rfl
    · exact hd n hn
  have hp' : (Pat.alt (.dot 1) p).Pure := by
    simp only [Pat.Pure, Pat.leaves, List.cons_append, List.nil_append, List.mem_cons, reduceCtorEq, false_or]
    exact hp
  rw [(C15_exec_is_peg hp' hc hd' ⟨trivial, hs⟩ hchk hb).1 j]
  constructor
  · rintro ⟨cs, h⟩
    cases h with
    | altL h =>
      cases h with
      | dotOk h => exact .inl ⟨by simpa using h, by simp⟩
    | altR h1 h2 =>
      cases h1 with
      | dotFail h =>
        refine .inr ⟨List.length_eq_zero_iff.1 ?_, cs, h2⟩
        have : (1 : UInt8).toNat = 1 := rfl
        omega
  · rintro (⟨h, rfl⟩ | ⟨rfl, cs, h⟩)
    · exact ⟨[], .altL (.dotOk (n := 1) (i := 0) (by simpa using h))⟩
    · exact ⟨cs, .altR (.dotFail (by decide)) h⟩

end

/-! ## C25: scopes -/

/-- **C25** is false of the code: in `A <- B [C <- B; B <- 'b']; B <- 'a'` the inner `B` is overridden by
the outer one, so `ab` is not matched. -/
theorem C25_false_inline : ∃ p code, Compiled p code ∧ Ford [97, 98] [] p 0 (some (2, [])) ∧
    ∃ src, RunsTo (fun _ s _ _ _ _ _ => (none, s)) none code 4096 [97, 98] () (.done false none src [] () ()) := by
  refine ⟨.grammar "A" (.cons "A" (.seq (.nonterm "B") (.grammar "C" (.cons "C" (.nonterm "B")
    (.cons "B" (.lit [98]) .nil)))) (.cons "B" (.lit [97]) .nil)), _, ⟨10, ⟨0, 0, true⟩, _, _, rfl, rfl⟩, ?_,
    ⟨_, 10, _, rfl, rfl⟩⟩
  refine .grammar rfl (.seqOk (cs := []) (cs' := []) (j := 1) (.nonterm rfl ?_) (.grammar rfl (.nonterm rfl ?_)))
  · exact .litOk (s := [97]) (i := 0) (by decide)
  · exact .litOk (s := [98]) (i := 1) (by decide)

/-- **C25** is false of the code: `Search` captures a non-terminal called `S` in its body. The grammar
`S <- 'x' / 'a' Search('b' S)` does not match `abx`. -/
theorem C25_false_search : ∃ p code, Compiled p code ∧ Ford [97, 98, 120] [] p 0 (some (3, [])) ∧
    ∃ src, RunsTo (fun _ s _ _ _ _ _ => (none, s)) none code 4096 [97, 98, 120] ()
      (.done false none src [] () ()) := by
  refine ⟨.grammar "S" (.cons "S" (.alt (.lit [120]) (.seq (.lit [97]) (.search (.seq (.lit [98])
    (.nonterm "S"))))) .nil), _, ⟨10, ⟨0, 0, true⟩, _, _, rfl, rfl⟩, ?_, ⟨_, 40, _, rfl, rfl⟩⟩
  refine .grammar rfl (.altR (.litFail (by decide)) (.seqOk (cs := []) (cs' := []) (j := 1)
    (.litOk (s := [97]) (i := 0) (by decide)) (.searchHere (.seqOk (cs := []) (cs' := []) (j := 2)
      (.litOk (s := [98]) (i := 1) (by decide)) (.nonterm rfl (.altL (.litOk (s := [120]) (i := 2) (by decide))))))))

/-- **C25** is false of the code: a non-terminal of an outer grammar that is not inlined (here because it
is recursive) is not found from within an inner grammar that has other non-terminals. -/
theorem C25_false_notFound : ∃ p k, (∃ x, Ford [97, 98] [] p 0 (some x)) ∧
    ∀ cst, compile k p cst = .error (.notFound "A") := by
  refine ⟨.grammar "A" (.cons "A" (.alt (.seq (.lit [97]) (.grammar "C" (.cons "C" (.alt (.seq (.lit [99])
    (.nonterm "C")) (.nonterm "A")) .nil))) (.lit [98])) .nil), 12, ⟨(2, []), ?_⟩, fun _ => rfl⟩
  refine .grammar rfl (.altL (.seqOk (cs := []) (cs' := []) (j := 1) (.litOk (s := [97]) (i := 0) (by decide))
    (.grammar rfl (.altR (.seqFail1 (.litFail (by decide))) (.nonterm rfl (.altR (.seqFail1 (.litFail (by decide)))
      (.litOk (s := [98]) (i := 1) (by decide))))))))

/-- **C25**, the part that holds: for grammars in which no non-terminal is captured the machine resolves
every non-terminal to the innermost enclosing definition (`lookupNT`, used by the rule for non-terminals of
`Ford`). (Missing: grammars that are not `Scoped`, where the statement is false.) -/
theorem C25_scoped_partial {start : String} {defs : Defs} {code : Code} {chk : CheckFn σ} {data : List UInt8}
    {bufsz : Nat} {st : σ} (hp : defs.Pure) (hc : Compiled (.grammar start defs) code)
    (hd : (Pat.grammar start defs).Dots1) (hs : defs.noCap defs.names ∧ defs.Scoped) (hchk : CheckOK chk)
    (hb : 0 < bufsz) (j : Nat) :
    (∃ cap src errs st', RunsTo chk none code bufsz data st (.done true cap src errs () st') ∧ src.pos = j) ↔
      ∃ b cs, defs.find start = some b ∧ Ford data [defs] b 0 (some (j, cs)) := by
  rw [(C15_exec_is_peg (p := .grammar start defs) hp hc hd hs hchk hb).1 j]
  constructor
  · rintro ⟨cs, h⟩
    cases h with
    | grammar hf h => exact ⟨_, cs, hf, h⟩
  · rintro ⟨b, cs, hf, h⟩
    exact ⟨cs, .grammar hf h⟩

end Gpeg
