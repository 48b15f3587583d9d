import Verif.Props.Compile
/-! # Property C22: inlining and the order of definitions are unobservable -/
namespace Gpeg
variable {σ : Type}

/-! ## What a caller of `Exec` observes -/

/-- The observable part of a run: match flag, errors, state of the checkers and, on a match, the position
and the captures. `none` for a panic. -/
def XRes.obs : XRes Input Unit σ → Option (Bool × List PErr × σ × Option (Nat × List CTree))
  | .done true (some c) src errs _ st => some (true, errs, st, some (src.pos, c.trees))
  | .done ok _ _ errs _ st => some (ok, errs, st, none)
  | .panic => none

/-- The same for an evaluation. -/
def Ev.obs (iv : Option Interval) : Ev σ → Option (Bool × List PErr × σ × Option (Nat × List CTree))
  | (.ok pos cs, _, w) => some (true, w.errs, w.cst, some (pos, CTree.pruneL iv cs))
  | (_, _, w) => some (false, w.errs, w.cst, none)

theorem ExecRes.obs {iv : Option Interval} {e : Ev σ} {r : XRes Input Unit σ} (h : ExecRes iv e r) :
    r.obs = e.obs iv := by
  obtain ⟨res, far, w⟩ := e
  cases res with
  | ok pos cs =>
    obtain ⟨a, b, ch, src, tbl, rfl, hpos, htr, _⟩ := h
    simp only [XRes.obs, Ev.obs, Capture.trees, hpos, htr]
  | fail => obtain ⟨src, tbl, rfl⟩ := h; rfl
  | abort pos => obtain ⟨cap, src, tbl, rfl, _⟩ := h; rfl

theorem exec_obs {p : Pat} {code : Code} {chk : CheckFn σ} {data : List UInt8} {bufsz : Nat} {iv : Option Interval}
    {st : σ} (hc : Compiled p code) (hd : p.Dots1) (hs : p.Scoped) (hchk : CheckOK chk) (hb : 0 < bufsz)
    (o : Option (Bool × List PErr × σ × Option (Nat × List CTree))) :
    (∃ r, RunsTo chk iv code bufsz data st r ∧ r.obs = o) ↔
    ∃ e, Evals ⟨data, chk, false⟩ [] p 0 ⟨[], st⟩ e ∧ e.obs iv = o := by
  obtain ⟨h1, h2⟩ := exec_evals (iv := iv) (data := data) (st := st) hc hd hs hchk hb
  constructor
  · rintro ⟨r, hr, rfl⟩
    obtain ⟨e, he, hx⟩ := h2 r hr
    exact ⟨e, he, hx.obs.symm⟩
  · rintro ⟨e, he, rfl⟩
    obtain ⟨r, hr, hx⟩ := h1 e he
    exact ⟨r, hr, hx.obs⟩

/-! ## Reordering -/

mutual
/-- The second pattern is the first one with the definitions of its grammars, at any depth, written in
any order. -/
def Pat.Same : Pat → Pat → Prop
  | .alt l r, .alt l' r' | .seq l r, .seq l' r' => l.Same l' ∧ r.Same r'
  | .star p, .star p' | .plus p, .plus p' | .opt p, .opt p' | .not p, .not p' | .and p, .and p'
  | .search p, .search p' => p.Same p'
  | .cap p i, .cap p' i' | .memo p i, .memo p' i' => i = i' ∧ p.Same p'
  | .check p k i f, .check p' k' i' f' => (k = k' ∧ i = i' ∧ f = f') ∧ p.Same p'
  | .errRec m p, .errRec m' p' | .inl m p, .inl m' p' => m = m' ∧ p.Same p'
  | .grammar s ds, .grammar s' ds' => (s = s' ∧ ∀ n, n ∈ ds.names ↔ n ∈ ds'.names) ∧ ds.SameIn ds'
  | .cls c, q => q = .cls c
  | .lit s, q => q = .lit s
  | .nonterm n, q => q = .nonterm n
  | .dot n, q => q = .dot n
  | .err m, q => q = .err m
  | .emptyOp o, q => q = .emptyOp o
  | .empty, q => q = .empty
  | _, _ => False
/-- Every definition is also in `ds'`. -/
def Defs.SameIn : Defs → Defs → Prop
  | .nil, _ => True
  | .cons n p rest, ds' => (∃ q, ds'.find n = some q ∧ p.Same q) ∧ rest.SameIn ds'
end

theorem sameIn_find {ds' : Defs} {n : String} {b : Pat} : ∀ {ds : Defs}, ds.SameIn ds' → ds.find n = some b →
    ∃ q, ds'.find n = some q ∧ b.Same q
  | .nil, _, h => by simp [Defs.find] at h
  | .cons m p rest, hs, h => by
    simp only [Defs.SameIn] at hs
    simp only [Defs.find] at h
    split at h
    · rename_i hm
      cases h; rw [hm] at *; exact hs.1
    · exact sameIn_find (ds := rest) hs.2 h

/-- Definitions written in another order. -/
def Defs.Same (ds ds' : Defs) : Prop := (∀ n, n ∈ ds.names ↔ n ∈ ds'.names) ∧ ds.SameIn ds'

theorem Defs.Same.find {ds ds' : Defs} (h : ds.Same ds') (n : String) :
    (ds.find n = none ∧ ds'.find n = none) ∨ ∃ b b', ds.find n = some b ∧ ds'.find n = some b' ∧ b.Same b' := by
  cases hf : ds.find n with
  | none =>
    refine .inl ⟨rfl, Defs.find_none_of fun hm => ?_⟩
    obtain ⟨b, hb⟩ := Defs.find_some_of ((h.1 n).2 hm)
    rw [hf] at hb; cases hb
  | some b =>
    obtain ⟨q, h1, h2⟩ := sameIn_find h.2 hf
    exact .inr ⟨b, q, rfl, h1, h2⟩

/-- Environments that only differ in the order of definitions. -/
inductive EnvSame : Env → Env → Prop
  | nil : EnvSame [] []
  | cons {ds ds' : Defs} {env env' : Env} : ds.Same ds' → EnvSame env env' → EnvSame (ds :: env) (ds' :: env')

theorem EnvSame.lookup {env env' : Env} (h : EnvSame env env') (n : String) :
    (lookupNT n env = none ∧ lookupNT n env' = none) ∨ ∃ b e b' e', lookupNT n env = some (b, e) ∧
      lookupNT n env' = some (b', e') ∧ b.Same b' ∧ EnvSame e e' := by
  induction h with
  | nil => exact .inl ⟨rfl, rfl⟩
  | @cons ds ds' env env' hd he ih =>
    simp only [lookupNT]
    rcases hd.find n with ⟨h1, h2⟩ | ⟨b, b', h1, h2, h3⟩
    · rw [h1, h2]; exact ih
    · rw [h1, h2]; exact .inr ⟨b, _, b', _, rfl, rfl, h3, .cons hd he⟩

theorem eval_same (c : Ctx σ) : ∀ (n : Nat) (p q : Pat) (env env' : Env) (i : Nat) (w : World σ), p.Same q →
    EnvSame env env' → eval n c env p i w = eval n c env' q i w := by
  intro n
  induction n with
  | zero => intro p q env env' i w _ _; rfl
  | succ n ih =>
    intro p q env env' i w h henv
    have un : ∀ {p q : Pat}, p.Same q → eval n c env p = eval n c env' q := fun h =>
      funext fun i => funext fun w => ih _ _ _ _ i w h henv
    cases p with
    | alt l r =>
      cases q <;> simp only [Pat.Same] at h
      simp only [eval, un h.1, un h.2]
    | seq l r =>
      cases q <;> simp only [Pat.Same] at h
      simp only [eval, un h.1, un h.2]
    | star p =>
      cases q <;> simp only [Pat.Same] at h
      rename_i q
      have hst : (Pat.star p).Same (.star q) := by simp only [Pat.Same]; exact h
      simp only [eval, un h, un hst]
    | plus p =>
      cases q <;> simp only [Pat.Same] at h
      rename_i q
      have hst : (Pat.star p).Same (.star q) := by simp only [Pat.Same]; exact h
      simp only [eval, un h, un hst]
    | opt p => cases q <;> simp only [Pat.Same] at h; simp only [eval, un h]
    | not p => cases q <;> simp only [Pat.Same] at h; simp only [eval, un h]
    | and p => cases q <;> simp only [Pat.Same] at h; simp only [eval, un h]
    | search p => cases q <;> simp only [Pat.Same] at h; simp only [eval, un h]
    | cap p id => cases q <;> simp only [Pat.Same] at h; simp only [eval, un h.2, h.1]
    | memo p id => cases q <;> simp only [Pat.Same] at h; simp only [eval, un h.2]
    | check p k id fl =>
      cases q <;> simp only [Pat.Same] at h; simp only [eval, un h.2, h.1.1, h.1.2.1, h.1.2.2]
    | errRec m p => cases q <;> simp only [Pat.Same] at h; simp only [eval, un h.2, h.1]
    | inl m p => cases q <;> simp only [Pat.Same] at h; simp only [eval, un h.2]
    | grammar s ds =>
      cases q <;> simp only [Pat.Same] at h
      rename_i s' ds'
      obtain ⟨⟨rfl, h1⟩, h2⟩ := h
      have hd : ds.Same ds' := ⟨h1, h2⟩
      simp only [eval]
      rcases hd.find s with ⟨h1, h2⟩ | ⟨b, b', h1, h2, h3⟩
      · rw [h1, h2]
      · rw [h1, h2]; exact ih _ _ _ _ i w h3 (.cons hd henv)
    | nonterm m =>
      have h : q = .nonterm m := by simpa only [Pat.Same] using h
      subst h
      simp only [eval]
      rcases henv.lookup m with ⟨h1, h2⟩ | ⟨b, e, b', e', h1, h2, h3, h4⟩
      · rw [h1, h2]
      · rw [h1, h2]; exact ih _ _ _ _ i w h3 h4
    | cls s => have h : q = .cls s := by simpa only [Pat.Same] using h
               subst h; rfl
    | lit s => have h : q = .lit s := by simpa only [Pat.Same] using h
               subst h; rfl
    | dot s => have h : q = .dot s := by simpa only [Pat.Same] using h
               subst h; rfl
    | err s => have h : q = .err s := by simpa only [Pat.Same] using h
               subst h; rfl
    | emptyOp s => have h : q = .emptyOp s := by simpa only [Pat.Same] using h
                   subst h; rfl
    | empty => have h : q = .empty := by simpa only [Pat.Same] using h
               subst h; rfl

section
variable {code code' : Code} {chk : CheckFn σ} {data : List UInt8} {bufsz : Nat} {iv : Option Interval} {st : σ}

/-- **C22**, order of definitions: two patterns that differ only in the order in which the definitions of
their grammars are listed (the order in which Go ranges over the map of definitions) compile to code with
the same observable behaviour. -/
theorem C22_order {p q : Pat} (h : p.Same q) (hp : Compiled p code) (hq : Compiled q code') (hdp : p.Dots1)
    (hdq : q.Dots1) (hsp : p.Scoped) (hsq : q.Scoped) (hchk : CheckOK chk) (hb : 0 < bufsz)
    (o : Option (Bool × List PErr × σ × Option (Nat × List CTree))) :
    (∃ r, RunsTo chk iv code bufsz data st r ∧ r.obs = o) ↔
    (∃ r, RunsTo chk iv code' bufsz data st r ∧ r.obs = o) := by
  rw [exec_obs hp hdp hsp hchk hb, exec_obs hq hdq hsq hchk hb]
  have : ∀ e, Evals (⟨data, chk, false⟩ : Ctx σ) [] p 0 ⟨[], st⟩ e ↔ Evals ⟨data, chk, false⟩ [] q 0 ⟨[], st⟩ e := fun e =>
    exists_congr fun n => by rw [eval_same _ n p q [] [] 0 _ h .nil]
  simp only [this]

/-- **C22**, inlining: replacing the non-terminals chosen by `f` by their definitions, where `f` may choose
any non-terminals whose definitions have no non-inlined non-terminals themselves (`InlineThreshold` chooses
some of those), does not change the observable behaviour of the compiled grammar. -/
theorem C22_inlining {start : String} {ds : Defs} {f : String → Option Pat}
    (hf : ∀ n b, f n = some b → b.nts = [] ∧ ds.find n = some b) (hp : Compiled (.grammar start ds) code)
    (hq : Compiled (.grammar start (ds.inlineWith f)) code') (hd : (Pat.grammar start ds).Dots1)
    (hs : (Pat.grammar start ds).Scoped) (hchk : CheckOK chk) (hb : 0 < bufsz)
    (o : Option (Bool × List PErr × σ × Option (Nat × List CTree))) :
    (∃ r, RunsTo chk iv code bufsz data st r ∧ r.obs = o) ↔
    (∃ r, RunsTo chk iv code' bufsz data st r ∧ r.obs = o) := by
  simp only [Pat.Scoped] at hs
  have hd' : (Pat.grammar start (ds.inlineWith f)).Dots1 := by
    intro n hn
    rcases Defs.leaves_inlineWith (A := ds.leaves) (fun n b h => Defs.find_leaves (hf n b h).2) ds _ hn with h | h
    · exact hd n h
    · exact hd n h
  have hs' : (Pat.grammar start (ds.inlineWith f)).Scoped := by
    simp only [Pat.Scoped]
    rw [ds.names_inlineWith]
    exact ⟨ds.noCap_inlineWith (fun n b h => (hf n b h).1) hs.1,
      ds.Scoped_inlineWith (fun n b h => (hf n b h).1) (fun n b h => Defs.find_Scoped (hf n b h).2 hs.2) hs.2⟩
  rw [exec_obs hp hd (by simpa only [Pat.Scoped] using hs) hchk hb, exec_obs hq hd' hs' hchk hb]
  have : ∀ e, Evals (⟨data, chk, false⟩ : Ctx σ) [] (.grammar start ds) 0 ⟨[], st⟩ e ↔
      Evals ⟨data, chk, false⟩ [] (.grammar start (ds.inlineWith f)) 0 ⟨[], st⟩ e := fun e =>
    exists_congr fun n => by rw [eval_inlineAny _ hf hs.1]
  simp only [this]

/-- **C22**, the inliner: its result has the meaning of the original grammar, at every position and in every
surrounding grammar. -/
theorem C22_inliner_meaning (c : Ctx σ) {ds : Defs} (h : ds.noCap ds.names) (start : String) (env : Env) (i : Nat)
    (w : World σ) (e : Ev σ) :
    Evals c env (.grammar start ds.inline) i w e ↔ Evals c env (.grammar start ds) i w e :=
  exists_congr fun n => by rw [eval_inline c h]

end

/-- Two orders of a grammar with an inner grammar. -/
example : (Pat.grammar "A" (.cons "A" (.seq (.nonterm "B") (.grammar "C" (.cons "C" (.nonterm "D")
    (.cons "D" (.lit [98]) .nil)))) (.cons "B" (.lit [97]) .nil))).Same
    (.grammar "A" (.cons "B" (.lit [97]) (.cons "A" (.seq (.nonterm "B") (.grammar "C" (.cons "D" (.lit [98])
    (.cons "C" (.nonterm "D") .nil)))) .nil))) := by
  simp [Pat.Same, Defs.SameIn, Defs.names, Defs.find, or_comm]

/-- A choice of non-terminals to inline. -/
example : ∀ n b, (fun n => if n = "B" then some (Pat.lit [97]) else none) n = some b →
    b.nts = [] ∧ (Defs.cons "A" (.seq (.nonterm "B") (.nonterm "A")) (.cons "B" (.lit [97]) .nil)).find n = some b := by
  intro n b h
  simp only at h
  split at h
  · rename_i hn
    cases h
    subst hn
    exact ⟨rfl, rfl⟩
  · cases h

end Gpeg
