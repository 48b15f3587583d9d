import Verif.PegLemmas
import Verif.Leaves
/-!
# Parsing expressions in Ford's style

An inductive definition of matching for patterns without error and check nodes, the form in which
parsing expression grammars are usually given: `Ford d env p i (some (j, cs))` says that `p` matches
bytes `i` to `j` of `d` with captures `cs`, `Ford d env p i none` that `p` fails at `i`. It agrees with
the evaluator `eval` (which also counts fuel, tracks the bytes looked at, errors and checkers).
-/
namespace Gpeg
variable {σ : Type}

/-- The matching relation. -/
inductive Ford (d : List UInt8) : Env → Pat → Nat → Option (Nat × List CTree) → Prop
  | empty {env i} : Ford d env .empty i (some (i, []))
  | litOk {env s i} : s <+: d.drop i → Ford d env (.lit s) i (some (i + s.length, []))
  | litFail {env s i} : ¬ s <+: d.drop i → Ford d env (.lit s) i none
  | clsOk {env cs i b} : d[i]? = some b → cs.has b = true → Ford d env (.cls cs) i (some (i + 1, []))
  | clsFail {env cs i} : (∀ b, d[i]? = some b → cs.has b = false) → Ford d env (.cls cs) i none
  | dotOk {env n i} : i + n.toNat ≤ d.length → Ford d env (.dot n) i (some (i + n.toNat, []))
  | dotFail {env n i} : d.length < i + n.toNat → Ford d env (.dot n) i none
  | opOk {env op i} : assertAt d i op = true → Ford d env (.emptyOp op) i (some (i, []))
  | opFail {env op i} : assertAt d i op = false → Ford d env (.emptyOp op) i none
  | seqOk {env l r i j k cs cs'} : Ford d env l i (some (j, cs)) → Ford d env r j (some (k, cs')) →
      Ford d env (.seq l r) i (some (k, cs ++ cs'))
  | seqFail1 {env l r i} : Ford d env l i none → Ford d env (.seq l r) i none
  | seqFail2 {env l r i j cs} : Ford d env l i (some (j, cs)) → Ford d env r j none →
      Ford d env (.seq l r) i none
  | altL {env l r i x} : Ford d env l i (some x) → Ford d env (.alt l r) i (some x)
  | altR {env l r i x} : Ford d env l i none → Ford d env r i x → Ford d env (.alt l r) i x
  | starEnd {env p i} : Ford d env p i none → Ford d env (.star p) i (some (i, []))
  | starStep {env p i j k cs cs'} : Ford d env p i (some (j, cs)) → Ford d env (.star p) j (some (k, cs')) →
      Ford d env (.star p) i (some (k, cs ++ cs'))
  | plusFail {env p i} : Ford d env p i none → Ford d env (.plus p) i none
  | plusOk {env p i j k cs cs'} : Ford d env p i (some (j, cs)) → Ford d env (.star p) j (some (k, cs')) →
      Ford d env (.plus p) i (some (k, cs ++ cs'))
  | optSome {env p i x} : Ford d env p i (some x) → Ford d env (.opt p) i (some x)
  | optNone {env p i} : Ford d env p i none → Ford d env (.opt p) i (some (i, []))
  | notOk {env p i} : Ford d env p i none → Ford d env (.not p) i (some (i, []))
  | notFail {env p i x} : Ford d env p i (some x) → Ford d env (.not p) i none
  | andOk {env p i j cs} : Ford d env p i (some (j, cs)) → Ford d env (.and p) i (some (i, cs))
  | andFail {env p i} : Ford d env p i none → Ford d env (.and p) i none
  | capOk {env p id i j cs} : Ford d env p i (some (j, cs)) →
      Ford d env (.cap p id) i (some (j, [.node id i (j - i) cs]))
  | capFail {env p id i} : Ford d env p i none → Ford d env (.cap p id) i none
  | memo {env p id i x} : Ford d env p i x → Ford d env (.memo p id) i x
  | inl {env p n i x} : Ford d env p i x → Ford d env (.inl n p) i x
  | grammar {env start defs b i x} : defs.find start = some b → Ford d (defs :: env) b i x →
      Ford d env (.grammar start defs) i x
  | nonterm {env n b env' i x} : lookupNT n env = some (b, env') → Ford d env' b i x →
      Ford d env (.nonterm n) i x
  | searchHere {env p i x} : Ford d env p i (some x) → Ford d env (.search p) i (some x)
  | searchNext {env p i x} : Ford d env p i none → i < d.length → Ford d env (.search p) (i + 1) x →
      Ford d env (.search p) i x
  | searchEnd {env p i} : Ford d env p i none → d.length ≤ i → Ford d env (.search p) i none

theorem star_not_none {d : List UInt8} {env : Env} {p q : Pat} {i : Nat} {x : Option (Nat × List CTree)}
    (hq : q = .star p) (hx : x = none) : ¬ Ford d env q i x := by
  intro h
  subst hq hx
  cases h

/-- A Ford result as a result of `eval`. -/
def toRes : Option (Nat × List CTree) → Res
  | some (j, cs) => .ok j cs
  | none => .fail

theorem toRes_inj {x y : Option (Nat × List CTree)} (h : toRes x = toRes y) : x = y := by
  cases x with
  | none => cases y with
    | none => rfl
    | some y => cases h
  | some x => cases y with
    | none => cases h
    | some y =>
      obtain ⟨a, b⟩ := x
      obtain ⟨a', b'⟩ := y
      cases h; rfl

theorem evalLit_prefix (d : List UInt8) : ∀ (s : List UInt8) (i : Nat),
    (evalLit d i s).1 = if s <+: d.drop i then some (i + s.length) else none := by
  intro s
  induction s with
  | nil => intro i; simp [evalLit]
  | cons b s ih =>
    intro i
    unfold evalLit
    by_cases hb : d[i]? = some b
    · rw [if_pos hb]
      have hi : i < d.length := by
        rcases Nat.lt_or_ge i d.length with h | h
        · exact h
        · rw [List.getElem?_eq_none h] at hb; cases hb
      have hd : d.drop i = b :: d.drop (i + 1) := by
        rw [List.drop_eq_getElem_cons hi]
        rw [List.getElem?_eq_getElem hi] at hb
        rw [Option.some.inj hb]
      simp only
      rw [ih]
      simp only [hd, List.cons_prefix_cons, true_and, List.length_cons]
      split
      · congr 1; omega
      · rfl
    · rw [if_neg hb, if_neg]
      rintro ⟨t, ht⟩
      apply hb
      rw [← List.head?_drop, ← ht]; rfl

section
variable {d : List UInt8} {chk : CheckFn σ} {w : World σ}

theorem Ford.evals {env : Env} {p : Pat} {i : Nat} {x : Option (Nat × List CTree)} (h : Ford d env p i x) :
    ∃ far, Evals ⟨d, chk, false⟩ env p i w (toRes x, far, w) := by
  induction h with
  | empty => exact ⟨_, evals_empty.2 rfl⟩
  | @litOk env s i hp =>
    refine ⟨_, (evals_lit (e := (_, (evalLit d i s).2, w))).2 ?_⟩
    unfold litEv
    have := evalLit_prefix d s i
    rw [if_pos hp] at this
    show _ = match evalLit d i s with | (some pos', f) => _ | (none, f) => _
    rcases h : evalLit d i s with ⟨a, f⟩
    rw [h] at this
    simp only at this
    subst this
    rfl
  | @litFail env s i hp =>
    refine ⟨_, (evals_lit (e := (_, (evalLit d i s).2, w))).2 ?_⟩
    unfold litEv
    have := evalLit_prefix d s i
    rw [if_neg hp] at this
    show _ = match evalLit d i s with | (some pos', f) => _ | (none, f) => _
    rcases h : evalLit d i s with ⟨a, f⟩
    rw [h] at this
    simp only at this
    subst this
    rfl
  | @clsOk env cs i b h1 h2 =>
    refine ⟨_, (evals_cls (e := (_, i + 1, w))).2 ?_⟩
    have : inSet d i cs = true := by unfold inSet; rw [h1]; exact h2
    unfold clsEv
    rw [if_pos this]; rfl
  | @clsFail env cs i h1 =>
    refine ⟨_, (evals_cls (e := (_, i + 1, w))).2 ?_⟩
    have : inSet d i cs = false := by
      unfold inSet
      split
      · rename_i b hb; exact h1 b hb
      · rfl
    unfold clsEv
    rw [show inSet (⟨d, chk, false⟩ : Ctx σ).data i cs = false from this]; rfl
  | @dotOk env n i h1 =>
    refine ⟨_, (evals_dot (e := (_, 0, w))).2 ?_⟩
    unfold dotEv
    rw [if_pos h1]; rfl
  | @dotFail env n i h1 =>
    refine ⟨_, (evals_dot (e := (_, 0, w))).2 ?_⟩
    unfold dotEv
    rw [if_neg (by show ¬ i + n.toNat ≤ d.length; omega)]; rfl
  | @opOk env op i h1 =>
    refine ⟨_, (evals_emptyOp (e := (_, i + 1, w))).2 ?_⟩
    unfold opEv
    rw [show assertAt (⟨d, chk, false⟩ : Ctx σ).data i op = true from h1]; rfl
  | @opFail env op i h1 =>
    refine ⟨_, (evals_emptyOp (e := (_, i + 1, w))).2 ?_⟩
    unfold opEv
    rw [show assertAt (⟨d, chk, false⟩ : Ctx σ).data i op = false from h1]; rfl
  | seqOk _ _ ih1 ih2 =>
    obtain ⟨f1, h1⟩ := ih1
    obtain ⟨f2, h2⟩ := ih2
    exact ⟨_, evals_seq.2 ⟨_, h1, _, ⟨_, h2, rfl⟩, rfl⟩⟩
  | seqFail1 _ ih1 =>
    obtain ⟨f1, h1⟩ := ih1
    exact ⟨_, evals_seq.2 ⟨_, h1, rfl⟩⟩
  | seqFail2 _ _ ih1 ih2 =>
    obtain ⟨f1, h1⟩ := ih1
    obtain ⟨f2, h2⟩ := ih2
    exact ⟨_, evals_seq.2 ⟨_, h1, _, ⟨_, h2, rfl⟩, rfl⟩⟩
  | altL _ ih1 =>
    obtain ⟨f1, h1⟩ := ih1
    exact ⟨_, evals_alt.2 ⟨_, h1, rfl⟩⟩
  | altR _ _ ih1 ih2 =>
    obtain ⟨f1, h1⟩ := ih1
    obtain ⟨f2, h2⟩ := ih2
    exact ⟨_, evals_alt.2 ⟨_, h1, _, h2, rfl⟩⟩
  | starEnd _ ih1 =>
    obtain ⟨f1, h1⟩ := ih1
    exact ⟨_, evals_star.2 ⟨_, h1, rfl⟩⟩
  | starStep _ _ ih1 ih2 =>
    obtain ⟨f1, h1⟩ := ih1
    obtain ⟨f2, h2⟩ := ih2
    exact ⟨_, evals_star.2 ⟨_, h1, _, h2, rfl⟩⟩
  | plusFail _ ih1 =>
    obtain ⟨f1, h1⟩ := ih1
    exact ⟨_, evals_plus.2 ⟨_, h1, rfl⟩⟩
  | plusOk _ _ ih1 ih2 =>
    obtain ⟨f1, h1⟩ := ih1
    obtain ⟨f2, h2⟩ := ih2
    exact ⟨_, evals_plus.2 ⟨_, h1, _, ⟨_, h2, rfl⟩, rfl⟩⟩
  | optSome _ ih1 =>
    obtain ⟨f1, h1⟩ := ih1
    exact ⟨_, evals_opt.2 ⟨_, h1, rfl⟩⟩
  | optNone _ ih1 =>
    obtain ⟨f1, h1⟩ := ih1
    exact ⟨_, evals_opt.2 ⟨_, h1, _, rfl, rfl⟩⟩
  | notOk _ ih1 =>
    obtain ⟨f1, h1⟩ := ih1
    exact ⟨_, evals_not.2 ⟨_, h1, rfl⟩⟩
  | notFail _ ih1 =>
    obtain ⟨f1, h1⟩ := ih1
    exact ⟨_, evals_not.2 ⟨_, h1, rfl⟩⟩
  | andOk _ ih1 =>
    obtain ⟨f1, h1⟩ := ih1
    exact ⟨_, evals_and.2 ⟨_, h1, rfl⟩⟩
  | andFail _ ih1 =>
    obtain ⟨f1, h1⟩ := ih1
    exact ⟨_, evals_and.2 ⟨_, h1, rfl⟩⟩
  | capOk _ ih1 =>
    obtain ⟨f1, h1⟩ := ih1
    exact ⟨_, evals_cap.2 ⟨_, h1, rfl⟩⟩
  | capFail _ ih1 =>
    obtain ⟨f1, h1⟩ := ih1
    exact ⟨_, evals_cap.2 ⟨_, h1, rfl⟩⟩
  | memo _ ih1 =>
    obtain ⟨f1, h1⟩ := ih1
    exact ⟨_, (evals_memo_hi rfl).2 h1⟩
  | inl _ ih1 =>
    obtain ⟨f1, h1⟩ := ih1
    exact ⟨_, evals_inl.2 h1⟩
  | grammar hf _ ih1 =>
    obtain ⟨f1, h1⟩ := ih1
    exact ⟨_, evals_grammar.2 ⟨_, hf, h1⟩⟩
  | nonterm hl _ ih1 =>
    obtain ⟨f1, h1⟩ := ih1
    exact ⟨_, evals_nonterm.2 ⟨_, _, hl, h1⟩⟩
  | searchHere _ ih1 =>
    obtain ⟨f1, h1⟩ := ih1
    exact ⟨_, evals_search_iff.2 ⟨_, searchLoop_iff.2 ⟨_, h1, rfl⟩, rfl⟩⟩
  | @searchNext env p i x _ hi _ ih1 ih2 =>
    obtain ⟨f1, h1⟩ := ih1
    obtain ⟨f2, h2⟩ := ih2
    obtain ⟨⟨r, f3, w3⟩, h3, h4⟩ := evals_search_iff.1 h2
    simp only [Ev.unnoted, Prod.mk.injEq] at h4
    obtain ⟨rfl, _, rfl⟩ := h4
    refine ⟨_, evals_search_iff.2 ⟨_, searchLoop_iff.2 ⟨_, h1, (toRes x, f3, _), ?_, rfl⟩, rfl⟩⟩
    · have : (⟨d, chk, false⟩ : Ctx σ).data.length - i = (d.length - (i + 1)) + 1 := by
        show d.length - i = _; omega
      rw [this]
      exact h3
  | @searchEnd env p i _ hi ih1 =>
    obtain ⟨f1, h1⟩ := ih1
    refine ⟨_, evals_search_iff.2 ⟨_, searchLoop_iff.2 ⟨_, h1, (.fail, i + 1, w), ?_, rfl⟩, rfl⟩⟩
    have : (⟨d, chk, false⟩ : Ctx σ).data.length - i = 0 := by show d.length - i = _; omega
    rw [this]

end

/-- No error and no check nodes. -/
def Pat.Pure (p : Pat) : Prop := Leaf.chk ∉ p.leaves ∧ Leaf.err ∉ p.leaves
/-- The same for definitions. -/
def Defs.Pure (ds : Defs) : Prop := Leaf.chk ∉ ds.leaves ∧ Leaf.err ∉ ds.leaves
/-- The same for all enclosing grammars. -/
def Env.Pure (env : Env) : Prop := ∀ ds ∈ env, Defs.Pure ds

theorem Defs.Pure.find {n : String} {b : Pat} : ∀ {ds : Defs}, ds.Pure → ds.find n = some b → b.Pure
  | .nil, _, h => by simp [Defs.find] at h
  | .cons m p rest, hp, h => by
    simp only [Defs.Pure, Defs.leaves, List.mem_append, not_or] at hp
    simp only [Defs.find] at h
    split at h
    · cases h; exact ⟨hp.1.1, hp.2.1⟩
    · exact Defs.Pure.find (ds := rest) ⟨hp.1.2, hp.2.2⟩ h

theorem Env.Pure.lookup {n : String} {b : Pat} {env' : Env} : ∀ {env : Env}, Env.Pure env →
    lookupNT n env = some (b, env') → b.Pure ∧ Env.Pure env'
  | [], _, h => by simp [lookupNT] at h
  | ds :: rest, hp, h => by
    simp only [lookupNT] at h
    split at h
    · rename_i b' hb
      cases h
      exact ⟨(hp ds (List.mem_cons_self ..)).find hb, hp⟩
    · exact Env.Pure.lookup (env := rest) (fun e he => hp e (List.mem_cons_of_mem _ he)) h

section
variable {d : List UInt8} {chk : CheckFn σ}

theorem searchLoop_ford {env : Env} {p : Pat} {ev : Nat → World σ → Option (Ev σ)}
    (hev : ∀ i w e, ev i w = some e → ∃ x, e.1 = toRes x ∧ e.2.2 = w ∧ Ford d env p i x) :
    ∀ (k i : Nat) (w : World σ) (e : Ev σ), k = d.length - i → searchLoop ev k i w = some e →
    ∃ x, e.1 = toRes x ∧ e.2.2 = w ∧ Ford d env (.search p) i x := by
  intro k
  induction k with
  | zero =>
    intro i w e hk h
    simp only [searchLoop, Option.bind_eq_some_iff] at h
    obtain ⟨⟨r, f, w'⟩, h1, h2⟩ := h
    obtain ⟨x, hx, hw, hf⟩ := hev _ _ _ h1
    simp only at hx hw
    subst hx hw
    cases x with
    | none =>
      simp only [toRes, Ev.orElse, Option.map_some, Option.some.injEq] at h2
      subst h2
      exact ⟨none, rfl, rfl, .searchEnd hf (by omega)⟩
    | some x =>
      obtain ⟨j, cs⟩ := x
      simp only [toRes, Ev.orElse, Option.some.injEq] at h2
      subst h2
      exact ⟨some (j, cs), rfl, rfl, .searchHere hf⟩
  | succ k ih =>
    intro i w e hk h
    simp only [searchLoop, Option.bind_eq_some_iff] at h
    obtain ⟨⟨r, f, w'⟩, h1, h2⟩ := h
    obtain ⟨x, hx, hw, hf⟩ := hev _ _ _ h1
    simp only at hx hw
    subst hx hw
    cases x with
    | none =>
      simp only [toRes, Ev.orElse, Option.map_eq_some_iff] at h2
      obtain ⟨⟨r2, f2, w2⟩, h2, rfl⟩ := h2
      obtain ⟨x, hx, hw, hf2⟩ := ih _ _ _ (by omega) h2
      exact ⟨x, hx, hw, .searchNext hf (by omega) hf2⟩
    | some x =>
      obtain ⟨j, cs⟩ := x
      simp only [toRes, Ev.orElse, Option.some.injEq] at h2
      subst h2
      exact ⟨some (j, cs), rfl, rfl, .searchHere hf⟩

theorem eval_ford : ∀ (n : Nat) (env : Env) (p : Pat) (i : Nat) (w : World σ) (e : Ev σ), p.Pure → Env.Pure env →
    eval n ⟨d, chk, false⟩ env p i w = some e → ∃ x, e.1 = toRes x ∧ e.2.2 = w ∧ Ford d env p i x := by
  intro n
  induction n with
  | zero => intro env p i w e _ _ h; simp [eval] at h
  | succ n ih =>
    intro env p i w e hp henv h
    have hseq : ∀ (l r : Pat), l.Pure → r.Pure →
        ((eval n ⟨d, chk, false⟩ env l i w).bind fun e => e.andThen fun pos' cs w' =>
          (eval n ⟨d, chk, false⟩ env r pos' w').map fun (r, f) => (r.prepend cs, f)) = some e →
        e.2.2 = w ∧ ((e.1 = .fail ∧ Ford d env l i none) ∨ (∃ j cs, e.1 = .fail ∧ Ford d env l i (some (j, cs)) ∧ Ford d env r j none)
          ∨ ∃ j cs k cs', e.1 = .ok k (cs ++ cs') ∧ Ford d env l i (some (j, cs)) ∧ Ford d env r j (some (k, cs'))) := by
      intro l r hl hr h
      simp only [Option.bind_eq_some_iff] at h
      obtain ⟨⟨r1, f, w'⟩, h1, h2⟩ := h
      obtain ⟨x, hx, hw, hf⟩ := ih _ _ _ _ _ hl henv h1
      simp only at hx hw
      subst hx hw
      cases x with
      | none =>
        simp only [toRes, Ev.andThen, Option.some.injEq] at h2
        subst h2
        exact ⟨rfl, .inl ⟨rfl, hf⟩⟩
      | some x =>
        obtain ⟨j, cs⟩ := x
        simp only [toRes, Ev.andThen, Option.map_map, Option.map_eq_some_iff] at h2
        obtain ⟨⟨r2, f2, w2⟩, h2, rfl⟩ := h2
        obtain ⟨x, hx, hw, hf2⟩ := ih _ _ _ _ _ hr henv h2
        simp only at hx hw
        subst hx hw
        cases x with
        | none => exact ⟨rfl, .inr (.inl ⟨j, cs, rfl, hf, hf2⟩)⟩
        | some x => exact ⟨rfl, .inr (.inr ⟨j, cs, x.1, x.2, rfl, hf, hf2⟩)⟩
    cases p with
    | empty =>
      simp only [eval, Option.some.injEq] at h
      subst h
      exact ⟨some (i, []), rfl, rfl, .empty⟩
    | lit s =>
      have h' := (evals_lit (c := ⟨d, chk, false⟩) (env := env) (pos := i) (w := w) (e := e)).1 ⟨_, h⟩
      have hl := evalLit_prefix d s i
      unfold litEv at h'
      by_cases hpre : s <+: d.drop i
      · rw [if_pos hpre] at hl
        rcases he : evalLit d i s with ⟨a, f⟩
        rw [he] at hl
        simp only at hl
        subst hl
        refine ⟨some (i + s.length, []), ?_, ?_, .litOk hpre⟩ <;> simp [h', he, toRes]
      · rw [if_neg hpre] at hl
        rcases he : evalLit d i s with ⟨a, f⟩
        rw [he] at hl
        simp only at hl
        subst hl
        refine ⟨none, ?_, ?_, .litFail hpre⟩ <;> simp [h', he, toRes]
    | cls cs =>
      simp only [eval] at h
      split at h
      · rename_i hin
        cases h
        unfold inSet at hin
        split at hin
        · rename_i b hb
          exact ⟨some (i + 1, []), rfl, rfl, .clsOk hb hin⟩
        · cases hin
      · rename_i hin
        cases h
        refine ⟨none, rfl, rfl, .clsFail fun b hb => ?_⟩
        unfold inSet at hin
        rw [show (⟨d, chk, false⟩ : Ctx σ).data[i]? = some b from hb] at hin
        simpa using hin
    | dot k =>
      simp only [eval] at h
      split at h
      · rename_i hin
        cases h
        exact ⟨some (i + k.toNat, []), rfl, rfl, .dotOk hin⟩
      · rename_i hin
        cases h
        exact ⟨none, rfl, rfl, .dotFail (by omega)⟩
    | emptyOp op =>
      simp only [eval] at h
      split at h
      · rename_i hin
        cases h
        exact ⟨some (i, []), rfl, rfl, .opOk hin⟩
      · rename_i hin
        cases h
        exact ⟨none, rfl, rfl, .opFail (by simpa using hin)⟩
    | seq l r =>
      simp only [Pat.Pure, Pat.leaves, List.mem_append, not_or] at hp
      obtain ⟨hw, h⟩ := hseq l r ⟨hp.1.1, hp.2.1⟩ ⟨hp.1.2, hp.2.2⟩ h
      rcases h with ⟨he, h1⟩ | ⟨j, cs, he, h1, h2⟩ | ⟨j, cs, k, cs', he, h1, h2⟩
      · exact ⟨none, he, hw, .seqFail1 h1⟩
      · exact ⟨none, he, hw, .seqFail2 h1 h2⟩
      · exact ⟨some (k, cs ++ cs'), he, hw, .seqOk h1 h2⟩
    | plus q =>
      obtain ⟨hw, h⟩ := hseq q (.star q) hp hp h
      rcases h with ⟨he, h1⟩ | ⟨j, cs, he, h1, h2⟩ | ⟨j, cs, k, cs', he, h1, h2⟩
      · exact ⟨none, he, hw, .plusFail h1⟩
      · exact absurd h2 (star_not_none rfl rfl)
      · exact ⟨some (k, cs ++ cs'), he, hw, .plusOk h1 h2⟩
    | alt l r =>
      simp only [Pat.Pure, Pat.leaves, List.mem_append, not_or] at hp
      simp only [eval, Option.bind_eq_some_iff] at h
      obtain ⟨⟨r1, f, w'⟩, h1, h2⟩ := h
      obtain ⟨x, hx, hw, hf⟩ := ih _ _ _ _ _ ⟨hp.1.1, hp.2.1⟩ henv h1
      simp only at hx hw
      subst hx hw
      cases x with
      | none =>
        simp only [toRes, Ev.orElse, Option.map_eq_some_iff] at h2
        obtain ⟨⟨r2, f2, w2⟩, h2, rfl⟩ := h2
        obtain ⟨x, hx, hw, hf2⟩ := ih _ _ _ _ _ ⟨hp.1.2, hp.2.2⟩ henv h2
        exact ⟨x, hx, hw, .altR hf hf2⟩
      | some x =>
        simp only [toRes, Ev.orElse, Option.some.injEq] at h2
        subst h2
        exact ⟨some x, rfl, rfl, .altL hf⟩
    | opt q =>
      simp only [eval, Option.bind_eq_some_iff] at h
      obtain ⟨⟨r1, f, w'⟩, h1, h2⟩ := h
      obtain ⟨x, hx, hw, hf⟩ := ih _ q _ _ _ hp henv h1
      simp only at hx hw
      subst hx hw
      cases x with
      | none =>
        simp only [toRes, Ev.orElse, Option.map_some, Option.some.injEq] at h2
        subst h2
        exact ⟨some (i, []), rfl, rfl, .optNone hf⟩
      | some x =>
        simp only [toRes, Ev.orElse, Option.some.injEq] at h2
        subst h2
        exact ⟨some x, rfl, rfl, .optSome hf⟩
    | star q =>
      simp only [eval, Option.bind_eq_some_iff] at h
      obtain ⟨⟨r1, f, w'⟩, h1, h2⟩ := h
      obtain ⟨x, hx, hw, hf⟩ := ih _ q _ _ _ hp henv h1
      simp only at hx hw
      subst hx hw
      cases x with
      | none =>
        simp only [toRes, Option.some.injEq] at h2
        subst h2
        exact ⟨some (i, []), rfl, rfl, .starEnd hf⟩
      | some x =>
        obtain ⟨j, cs⟩ := x
        simp only [toRes, Option.map_eq_some_iff] at h2
        obtain ⟨⟨r2, f2, w2⟩, h2, rfl⟩ := h2
        obtain ⟨x, hx, hw, hf2⟩ := ih _ (.star q) _ _ _ hp henv h2
        simp only at hx hw
        subst hx hw
        cases x with
        | none => exact absurd hf2 (star_not_none rfl rfl)
        | some x => exact ⟨some (x.1, cs ++ x.2), rfl, rfl, .starStep hf hf2⟩
    | not q =>
      simp only [eval, Option.map_eq_some_iff] at h
      obtain ⟨⟨r1, f, w'⟩, h1, rfl⟩ := h
      obtain ⟨x, hx, hw, hf⟩ := ih _ q _ _ _ hp henv h1
      simp only at hx hw
      subst hx hw
      cases x with
      | none => exact ⟨some (i, []), rfl, rfl, .notOk hf⟩
      | some x => exact ⟨none, rfl, rfl, .notFail hf⟩
    | and q =>
      simp only [eval, Option.map_eq_some_iff] at h
      obtain ⟨⟨r1, f, w'⟩, h1, rfl⟩ := h
      obtain ⟨x, hx, hw, hf⟩ := ih _ q _ _ _ hp henv h1
      simp only at hx hw
      subst hx hw
      cases x with
      | none => exact ⟨none, rfl, rfl, .andFail hf⟩
      | some x => exact ⟨some (i, x.2), rfl, rfl, .andOk hf⟩
    | cap q id =>
      simp only [eval, Option.map_eq_some_iff] at h
      obtain ⟨⟨r1, f, w'⟩, h1, rfl⟩ := h
      obtain ⟨x, hx, hw, hf⟩ := ih _ q _ _ _ hp henv h1
      simp only at hx hw
      subst hx hw
      cases x with
      | none => exact ⟨none, rfl, rfl, .capFail hf⟩
      | some x => exact ⟨some (x.1, [.node id i (x.1 - i) x.2]), rfl, rfl, .capOk hf⟩
    | memo q id =>
      obtain ⟨x, hx, hw, hf⟩ := ih _ q _ _ _ hp henv ((eval_memo_hi rfl).symm.trans h)
      exact ⟨x, hx, hw, .memo hf⟩
    | inl m q =>
      obtain ⟨x, hx, hw, hf⟩ := ih _ q _ _ _ hp henv h
      exact ⟨x, hx, hw, .inl hf⟩
    | check q k id flag => exact absurd (List.mem_cons_self ..) hp.1
    | err m => exact absurd (List.mem_cons_self ..) hp.2
    | errRec m q => exact absurd (List.mem_cons_self ..) hp.2
    | search q =>
      simp only [Pat.Pure, Pat.leaves, List.mem_cons, not_or] at hp
      obtain ⟨y, hy, rfl⟩ := Option.map_eq_some_iff.1 h
      obtain ⟨x, g1, g2, g3⟩ := searchLoop_ford (fun i w e h => ih _ _ _ _ _ ⟨hp.1.2, hp.2.2⟩ henv h) _ _ _ _ rfl hy
      exact ⟨x, g1, g2, g3⟩
    | grammar start defs =>
      simp only [eval] at h
      split at h
      · rename_i b hb
        obtain ⟨x, hx, hw, hf⟩ := ih (defs :: env) _ _ _ _ (Defs.Pure.find (ds := defs) hp hb) (fun ds hds => by
            rcases List.mem_cons.1 hds with rfl | hds
            · exact hp
            · exact henv _ hds) h
        exact ⟨x, hx, hw, .grammar hb hf⟩
      · cases h
    | nonterm m =>
      simp only [eval] at h
      split at h
      · rename_i b env' hb
        obtain ⟨hb', he'⟩ := henv.lookup hb
        obtain ⟨x, hx, hw, hf⟩ := ih _ _ _ _ _ hb' he' h
        exact ⟨x, hx, hw, .nonterm hb hf⟩
      · cases h

/-- The declarative relation and the evaluator agree. -/
theorem ford_iff {env : Env} {p : Pat} {i : Nat} {x : Option (Nat × List CTree)} (hp : p.Pure)
    (henv : Env.Pure env) (chk : CheckFn σ) (w : World σ) :
    Ford d env p i x ↔ ∃ far, Evals ⟨d, chk, false⟩ env p i w (toRes x, far, w) := by
  constructor
  · exact Ford.evals
  · rintro ⟨far, n, h⟩
    obtain ⟨y, hy, _, hf⟩ := eval_ford n env p i w _ hp henv h
    rw [toRes_inj hy]; exact hf

/-- Evaluation of a pure pattern ends in success or failure and leaves errors and checkers alone. -/
theorem evals_pure {env : Env} {p : Pat} {i : Nat} {w : World σ} {e : Ev σ} (hp : p.Pure) (henv : Env.Pure env)
    (h : Evals ⟨d, chk, false⟩ env p i w e) : ∃ x, e.1 = toRes x ∧ e.2.2 = w ∧ Ford d env p i x := by
  obtain ⟨n, h⟩ := h
  exact eval_ford n env p i w e hp henv h

theorem Ford.det {env : Env} {p : Pat} {i : Nat} {x y : Option (Nat × List CTree)} (h : Ford d env p i x)
    (h' : Ford d env p i y) : x = y := by
  obtain ⟨f, h⟩ := h.evals (chk := fun _ s _ _ _ _ _ => (none, s)) (w := (⟨[], ()⟩ : World Unit))
  obtain ⟨f', h'⟩ := h'.evals (chk := fun _ s _ _ _ _ _ => (none, s)) (w := (⟨[], ()⟩ : World Unit))
  exact toRes_inj (congrArg Prod.fst (h.det h'))

end

end Gpeg
