import Verif.Props.Compile
/-! # Property C26: captures are properly nested -/
namespace Gpeg
variable {σ : Type}

mutual
/-- The capture lies in `[lo, hi]`, and so do its children in its own range. -/
def CTree.In (lo hi : Nat) : CTree → Prop
  | .node _ s n ch => lo ≤ s ∧ s + n ≤ hi ∧ CTree.Chain s (s + n) ch
/-- The captures lie in `[lo, hi]`, ordered and without overlap: each one starts at or after the end of
the previous one. -/
def CTree.Chain (lo hi : Nat) : List CTree → Prop
  | [] => lo ≤ hi
  | .node id s n ch :: cs => CTree.In lo hi (.node id s n ch) ∧ CTree.Chain (s + n) hi cs
end

mutual
/-- No captures, where the non-terminals in `F` are assumed to have none. -/
def Pat.capFree (F : List String) : Pat → Prop
  | .alt l r | .seq l r => l.capFree F ∧ r.capFree F
  | .star p | .plus p | .opt p | .not p | .and p | .memo p _ | .check p _ _ _ | .errRec _ p | .search p
  | .inl _ p => p.capFree F
  | .cap _ _ => False
  | .nonterm n => n ∈ F
  | .grammar _ ds => ds.capFree F
  | .cls _ | .lit _ | .dot _ | .err _ | .emptyOp _ | .empty => True
/-- The same for all definitions. -/
def Defs.capFree (F : List String) : Defs → Prop
  | .nil => True
  | .cons _ p rest => p.capFree F ∧ rest.capFree F
end

mutual
/-- Below `And` there are no captures: neither written there nor through non-terminals, those used below
`And` being in `F` and having no captures in any of their definitions. -/
def Pat.andSafe (F : List String) : Pat → Prop
  | .alt l r | .seq l r => l.andSafe F ∧ r.andSafe F
  | .star p | .plus p | .opt p | .not p | .memo p _ | .check p _ _ _ | .errRec _ p | .search p
  | .inl _ p | .cap p _ => p.andSafe F
  | .and p => p.capFree F ∧ p.andSafe F
  | .grammar _ ds => ds.andSafe F
  | .nonterm _ | .cls _ | .lit _ | .dot _ | .err _ | .emptyOp _ | .empty => True
/-- The same for all definitions. -/
def Defs.andSafe (F : List String) : Defs → Prop
  | .nil => True
  | .cons n p rest => p.andSafe F ∧ (n ∈ F → p.capFree F) ∧ rest.andSafe F
end

theorem chain_le {lo hi : Nat} : ∀ {cs : List CTree}, CTree.Chain lo hi cs → lo ≤ hi
  | [], h => by simpa [CTree.Chain] using h
  | .node id s n ch :: cs, h => by
    simp only [CTree.Chain, CTree.In] at h
    omega

theorem chain_wide {hi hi' : Nat} (hh : hi ≤ hi') : ∀ {lo : Nat} {cs : List CTree}, CTree.Chain lo hi cs →
    CTree.Chain lo hi' cs
  | lo, [], h => by simp only [CTree.Chain] at h ⊢; omega
  | lo, .node id s n ch :: cs, h => by
    simp only [CTree.Chain, CTree.In] at h ⊢
    exact ⟨⟨h.1.1, by omega, h.1.2.2⟩, chain_wide hh h.2⟩

theorem chain_low {lo lo' hi : Nat} (hh : lo' ≤ lo) {cs : List CTree} (h : CTree.Chain lo hi cs) :
    CTree.Chain lo' hi cs := by
  cases cs with
  | nil => simp only [CTree.Chain] at h ⊢; omega
  | cons c cs =>
    cases c
    simp only [CTree.Chain, CTree.In] at h ⊢
    exact ⟨⟨by omega, h.1.2⟩, h.2⟩

theorem chain_append {mid hi : Nat} {b : List CTree} (hb : CTree.Chain mid hi b) : ∀ {lo : Nat} {a : List CTree},
    CTree.Chain lo mid a → CTree.Chain lo hi (a ++ b)
  | lo, [], h => by
    simp only [CTree.Chain] at h
    exact chain_low h hb
  | lo, .node id s n ch :: cs, h => by
    simp only [CTree.Chain, CTree.In, List.cons_append] at h ⊢
    have := chain_le hb
    exact ⟨⟨h.1.1, by omega, h.1.2.2⟩, chain_append hb h.2⟩

/-- All enclosing definitions are fine. -/
def Env.andSafe (F : List String) (env : Env) : Prop := ∀ ds ∈ env, Defs.andSafe F ds

theorem Defs.andSafe.find {F : List String} {n : String} {b : Pat} : ∀ {ds : Defs}, ds.andSafe F →
    ds.find n = some b → b.andSafe F ∧ (n ∈ F → b.capFree F)
  | .nil, _, h => by simp [Defs.find] at h
  | .cons m p rest, hp, h => by
    simp only [Defs.andSafe] at hp
    simp only [Defs.find] at h
    split at h
    · rename_i hm
      cases h; exact ⟨hp.1, by rw [hm] at *; exact hp.2.1⟩
    · exact Defs.andSafe.find (ds := rest) hp.2.2 h

theorem Defs.capFree.find {F : List String} {n : String} {b : Pat} : ∀ {ds : Defs}, ds.capFree F →
    ds.find n = some b → b.capFree F
  | .nil, _, h => by simp [Defs.find] at h
  | .cons m p rest, hp, h => by
    simp only [Defs.capFree] at hp
    simp only [Defs.find] at h
    split at h
    · cases h; exact hp.1
    · exact Defs.capFree.find (ds := rest) hp.2 h

theorem Env.andSafe.lookup {F : List String} {n : String} {b : Pat} {env' : Env} : ∀ {env : Env}, Env.andSafe F env →
    lookupNT n env = some (b, env') → b.andSafe F ∧ (n ∈ F → b.capFree F) ∧ Env.andSafe F env'
  | [], _, h => by simp [lookupNT] at h
  | ds :: rest, hp, h => by
    simp only [lookupNT] at h
    split at h
    · rename_i b' hb
      cases h
      have := (hp ds (List.mem_cons_self ..)).find hb
      exact ⟨this.1, this.2, hp⟩
    · exact Env.andSafe.lookup (env := rest) (fun e he => hp e (List.mem_cons_of_mem _ he)) h

theorem searchLoop_chain {F : Prop} {ev : Nat → World σ → Option (Ev σ)}
    (hev : ∀ i w j cs f w', ev i w = some (.ok j cs, f, w') → CTree.Chain i j cs ∧ (F → cs = [])) :
    ∀ (k i : Nat) (w : World σ) (j : Nat) (cs : List CTree) (f : Nat) (w' : World σ),
    searchLoop ev k i w = some (.ok j cs, f, w') → CTree.Chain i j cs ∧ (F → cs = []) := by
  intro k
  induction k with
  | zero =>
    intro i w j cs f w' h
    simp only [searchLoop, Option.bind_eq_some_iff] at h
    obtain ⟨⟨r, f1, w1⟩, h1, h2⟩ := h
    cases r with
    | ok a b => simp only [Ev.orElse, Option.some.injEq] at h2; cases h2; exact hev _ _ _ _ _ _ h1
    | fail => simp [Ev.orElse] at h2
    | abort q => simp [Ev.orElse] at h2
  | succ k ih =>
    intro i w j cs f w' h
    simp only [searchLoop, Option.bind_eq_some_iff] at h
    obtain ⟨⟨r, f1, w1⟩, h1, h2⟩ := h
    cases r with
    | ok a b => simp only [Ev.orElse, Option.some.injEq] at h2; cases h2; exact hev _ _ _ _ _ _ h1
    | fail =>
      simp only [Ev.orElse, Option.map_eq_some_iff] at h2
      obtain ⟨⟨r, f2, w2⟩, h2, h3⟩ := h2
      cases h3
      have := ih _ _ _ _ _ _ h2
      exact ⟨chain_low (Nat.le_succ _) this.1, this.2⟩
    | abort q => simp [Ev.orElse] at h2

theorem eval_chain {F : List String} {c : Ctx σ} : ∀ (n : Nat) (env : Env) (p : Pat) (i : Nat) (w : World σ)
    (j : Nat) (cs : List CTree) (f : Nat) (w' : World σ), p.andSafe F → Env.andSafe F env →
    eval n c env p i w = some (.ok j cs, f, w') → CTree.Chain i j cs ∧ (p.capFree F → cs = []) := by
  intro n
  induction n with
  | zero => intro env p i w j cs f w' _ _ h; simp [eval] at h
  | succ n ih =>
    intro env p i w j cs f w' hp henv h
    have hseq : ∀ (l r : Pat), l.andSafe F → r.andSafe F →
        ((eval n c env l i w).bind fun e => e.andThen fun pos' cs w' =>
          (eval n c env r pos' w').map fun (r, f) => (r.prepend cs, f)) = some (.ok j cs, f, w') →
        CTree.Chain i j cs ∧ (l.capFree F ∧ r.capFree F → cs = []) := by
      intro l r hl hr h
      simp only [Option.bind_eq_some_iff] at h
      obtain ⟨⟨r1, f1, w1⟩, h1, h2⟩ := h
      cases r1 with
      | ok a cs1 =>
        simp only [Ev.andThen, Option.map_map, Option.map_eq_some_iff] at h2
        obtain ⟨⟨r2, f2, w2⟩, h2, h3⟩ := h2
        cases r2 with
        | ok b cs2 =>
          simp only [Function.comp, Res.prepend] at h3
          cases h3
          have e1 := ih _ _ _ _ _ _ _ _ hl henv h1
          have e2 := ih _ _ _ _ _ _ _ _ hr henv h2
          exact ⟨chain_append e2.1 e1.1, fun hf => by rw [e1.2 hf.1, e2.2 hf.2]; rfl⟩
        | fail => simp [Res.prepend] at h3
        | abort q => simp [Res.prepend] at h3
      | fail => simp [Ev.andThen] at h2
      | abort q => simp [Ev.andThen] at h2
    have nilc : ∀ {a b : Nat}, a ≤ b → CTree.Chain a b [] := fun h => by simp only [CTree.Chain]; exact h
    cases p with
    | empty => simp only [eval] at h; cases h; exact ⟨nilc (Nat.le_refl _), fun _ => rfl⟩
    | lit s =>
      have h' := (evals_lit (c := c) (env := env) (pos := i) (w := w)).1 ⟨_, h⟩
      unfold litEv at h'
      have hl := evalLit_prefix c.data s i
      rcases he : evalLit c.data i s with ⟨a, f1⟩
      rw [he] at h' hl
      cases a with
      | none => cases h'
      | some a =>
        cases h'
        simp only at hl
        split at hl
        · cases hl; exact ⟨nilc (by omega), fun _ => rfl⟩
        · cases hl
    | cls s =>
      simp only [eval] at h
      split at h
      · cases h; exact ⟨nilc (by omega), fun _ => rfl⟩
      · cases h
    | dot k =>
      simp only [eval] at h
      split at h
      · cases h; exact ⟨nilc (by omega), fun _ => rfl⟩
      · cases h
    | emptyOp op =>
      simp only [eval] at h
      split at h
      · cases h; exact ⟨nilc (by omega), fun _ => rfl⟩
      · cases h
    | seq l r => exact hseq l r hp.1 hp.2 h
    | plus q =>
      have := hseq q (.star q) hp hp h
      exact ⟨this.1, fun hf => this.2 ⟨hf, hf⟩⟩
    | alt l r =>
      simp only [eval, Option.bind_eq_some_iff] at h
      obtain ⟨⟨r1, f1, w1⟩, h1, h2⟩ := h
      cases r1 with
      | ok a cs1 =>
        simp only [Ev.orElse, Option.some.injEq] at h2
        cases h2
        have e1 := ih _ _ _ _ _ _ _ _ hp.1 henv h1
        exact ⟨e1.1, fun hf => e1.2 hf.1⟩
      | fail =>
        simp only [Ev.orElse, Option.map_eq_some_iff] at h2
        obtain ⟨⟨r2, f2, w2⟩, h2, h3⟩ := h2
        cases h3
        have e1 := ih _ _ _ _ _ _ _ _ hp.2 henv h2
        exact ⟨e1.1, fun hf => e1.2 hf.2⟩
      | abort q => simp [Ev.orElse] at h2
    | opt q =>
      simp only [eval, Option.bind_eq_some_iff] at h
      obtain ⟨⟨r1, f1, w1⟩, h1, h2⟩ := h
      cases r1 with
      | ok a cs1 =>
        simp only [Ev.orElse, Option.some.injEq] at h2
        cases h2
        exact ih _ q _ _ _ _ _ _ hp henv h1
      | fail =>
        simp only [Ev.orElse, Option.map_some, Option.some.injEq] at h2
        cases h2
        exact ⟨nilc (Nat.le_refl _), fun _ => rfl⟩
      | abort q => simp [Ev.orElse] at h2
    | star q =>
      simp only [eval, Option.bind_eq_some_iff] at h
      obtain ⟨⟨r1, f1, w1⟩, h1, h2⟩ := h
      cases r1 with
      | ok a cs1 =>
        simp only [Option.map_eq_some_iff] at h2
        obtain ⟨⟨r2, f2, w2⟩, h2, h3⟩ := h2
        cases r2 with
        | ok b cs2 =>
          simp only [Res.prepend] at h3
          cases h3
          have e1 := ih _ q _ _ _ _ _ _ hp henv h1
          have e2 := ih _ (.star q) _ _ _ _ _ _ hp henv h2
          exact ⟨chain_append e2.1 e1.1, fun hf => by rw [e1.2 hf, e2.2 hf]; rfl⟩
        | fail => simp [Res.prepend] at h3
        | abort q => simp [Res.prepend] at h3
      | fail =>
        simp only [Option.some.injEq] at h2
        cases h2
        exact ⟨nilc (Nat.le_refl _), fun _ => rfl⟩
      | abort q => simp at h2
    | not q =>
      simp only [eval, Option.map_eq_some_iff] at h
      obtain ⟨⟨r1, f1, w1⟩, h1, h2⟩ := h
      cases r1 with
      | ok a cs1 => cases h2
      | fail => cases h2; exact ⟨nilc (Nat.le_refl _), fun _ => rfl⟩
      | abort q => cases h2
    | and q =>
      simp only [eval, Option.map_eq_some_iff] at h
      obtain ⟨⟨r1, f1, w1⟩, h1, h2⟩ := h
      cases r1 with
      | ok a cs1 =>
        cases h2
        have e1 := (ih _ q _ _ _ _ _ _ hp.2 henv h1).2 hp.1
        rw [e1]
        exact ⟨nilc (Nat.le_refl _), fun _ => rfl⟩
      | fail => cases h2
      | abort q => cases h2
    | cap q id =>
      simp only [eval, Option.map_eq_some_iff] at h
      obtain ⟨⟨r1, f1, w1⟩, h1, h2⟩ := h
      cases r1 with
      | ok a cs1 =>
        cases h2
        have e1 := (ih _ q _ _ _ _ _ _ hp henv h1).1
        have hle := chain_le e1
        refine ⟨?_, fun hf => hf.elim⟩
        have heq : i + (j - i) = j := by omega
        simp only [CTree.Chain, CTree.In, heq]
        exact ⟨⟨Nat.le_refl _, Nat.le_refl _, e1⟩, Nat.le_refl _⟩
      | fail => cases h2
      | abort q => cases h2
    | memo q id =>
      obtain ⟨⟨r1, f1, w1⟩, h1, h2⟩ := Option.map_eq_some_iff.1 h
      rw [Ev.veil_mk] at h2
      cases h2
      exact ih _ q _ _ _ _ _ _ hp henv h1
    | inl m q => exact ih _ q _ _ _ _ _ _ hp henv h
    | check q k id flag =>
      simp only [eval, Option.map_eq_some_iff] at h
      obtain ⟨⟨r1, f1, w1⟩, h1, h2⟩ := h
      cases r1 with
      | ok a cs1 =>
        simp only at h2
        split at h2
        · cases h2
        · cases h2
          have e1 := ih _ q _ _ _ _ _ _ hp henv h1
          exact ⟨chain_wide (Nat.le_add_right _ _) e1.1, e1.2⟩
      | fail => cases h2
      | abort q => cases h2
    | err m => simp only [eval] at h; cases h
    | errRec m q => exact ih _ q _ _ _ _ _ _ hp henv h
    | search q =>
      obtain ⟨⟨r, f', w1⟩, hy, he⟩ := Option.map_eq_some_iff.1 h
      cases he
      exact searchLoop_chain (F := q.capFree F) (fun i w j cs f w' h => ih _ q _ _ _ _ _ _ hp henv h)
        _ _ _ _ _ _ _ hy
    | grammar start defs =>
      simp only [eval] at h
      split at h
      · rename_i b hb
        have hb' := Defs.andSafe.find (ds := defs) hp hb
        have e1 := ih (defs :: env) _ _ _ _ _ _ _ hb'.1 (fun ds hds => by
            rcases List.mem_cons.1 hds with rfl | hds
            · exact hp
            · exact henv _ hds) h
        exact ⟨e1.1, fun hf => e1.2 (Defs.capFree.find (ds := defs) hf hb)⟩
      · cases h
    | nonterm m =>
      simp only [eval] at h
      split at h
      · rename_i b env' hb
        obtain ⟨hb', hf', he'⟩ := henv.lookup hb
        have e1 := ih _ _ _ _ _ _ _ _ hb' he' h
        exact ⟨e1.1, fun hf => e1.2 (hf' hf)⟩
      · cases h

section
variable {p : Pat} {code : Code} {chk : CheckFn σ} {data : List UInt8} {bufsz : Nat} {iv : Option Interval} {st : σ}

/-- **C26**, the part that holds: the captures returned lie inside the match, are ordered and do not
overlap, and the same holds for the children of every capture within their parent, provided there are no
captures under `And`. (Missing: captures under `And`, where the statement is false.) -/
theorem C26_nested_partial (F : List String) (ha : p.andSafe F) (hc : Compiled p code) (hd : p.Dots1) (hs : p.Scoped)
    (hchk : CheckOK chk) (hb : 0 < bufsz) {cap : Option Capture} {src : Input} {errs : List PErr} {st' : σ}
    (h : RunsTo chk none code bufsz data st (.done true cap src errs () st')) :
    ∃ ch, cap = some (.dummy 0 src.pos ch) ∧ CTree.Chain 0 src.pos (Capture.treesL ch) := by
  obtain ⟨⟨res, far, w⟩, he, hx⟩ := (exec_evals hc hd hs hchk hb).2 _ h
  cases res with
  | ok pos cs =>
    obtain ⟨a, b, ch, s, t, h, hpos, htr, hab⟩ := hx
    cases h
    obtain ⟨rfl, rfl⟩ := hab rfl
    rw [pruneL_none] at htr
    refine ⟨ch, by rw [hpos], ?_⟩
    obtain ⟨n, hn⟩ := he
    rw [htr, hpos]
    exact (eval_chain n _ _ _ _ _ _ _ _ ha (fun _ h => by cases h) hn).1
  | fail => obtain ⟨s, t, h⟩ := hx; cases h
  | abort pos => obtain ⟨c, s, t, h, _⟩ := hx; cases h

end

/-- The hypothesis is met by a grammar that looks ahead with a capture-free non-terminal. -/
example : (Pat.grammar "A" (.cons "A" (.seq (.cap (.lit [97]) 1) (.seq (.and (.nonterm "B")) (.nonterm "A")))
    (.cons "B" (.lit [98]) .nil))).andSafe ["B"] := by
  simp [Pat.andSafe, Defs.andSafe, Pat.capFree]

/-- **C26** is false of the code with captures under `And`: for `&{1: 'a'} {2: ''}` both captures are
returned, the first one ending after the match. -/
theorem C26_false : ∃ p code, Compiled p code ∧ ∃ src ch, src.pos = 0 ∧
    RunsTo (fun _ s _ _ _ _ _ => (none, s)) none code 4096 [97] () (.done true (some (.dummy 0 0 ch)) src [] () ()) ∧
    ¬ CTree.Chain 0 src.pos (Capture.treesL ch) := by
  refine ⟨.seq (.and (.cap (.lit [97]) 1)) (.cap .empty 2), _, ⟨10, ⟨0, 0, true⟩, _, _, rfl, rfl⟩, _, _, ?_,
    ⟨20, _, rfl, rfl⟩, ?_⟩
  · rfl
  · intro h
    have := chain_le h
    simp only [Capture.treesL, Capture.trees, CTree.Chain, CTree.In, List.append_nil] at h
    exact absurd h.1.2.1 (by decide)

end Gpeg
