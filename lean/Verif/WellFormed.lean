import Verif.PegBounds
import Verif.PegLemmas
/-!
# Patterns whose evaluation always ends

A sufficient condition in the style of Ford: no repetition of a pattern that may succeed without consuming
anything, and no left recursion.
-/
namespace Gpeg

/-- `p` cannot succeed without consuming a byte. -/
inductive Consumes : Env → Pat → Prop
  | lit {env s} : s ≠ [] → Consumes env (.lit s)
  | cls {env cs} : Consumes env (.cls cs)
  | dot {env k} : k ≠ 0 → Consumes env (.dot k)
  | err {env m} : Consumes env (.err m)
  | seqL {env l r} : Consumes env l → Consumes env (.seq l r)
  | seqR {env l r} : Consumes env r → Consumes env (.seq l r)
  | alt {env l r} : Consumes env l → Consumes env r → Consumes env (.alt l r)
  | plus {env p} : Consumes env p → Consumes env (.plus p)
  | cap {env p id} : Consumes env p → Consumes env (.cap p id)
  | memo {env p id} : Consumes env p → Consumes env (.memo p id)
  | check {env p k id flag} : Consumes env p → Consumes env (.check p k id flag)
  | inl {env n p} : Consumes env p → Consumes env (.inl n p)
  | errRec {env m p} : Consumes env p → Consumes env (.errRec m p)
  | search {env p} : Consumes env p → Consumes env (.search p)
  | grammar {env start ds b} : ds.find start = some b → Consumes (ds :: env) b → Consumes env (.grammar start ds)
  | nonterm {env env' n b} : lookupNT n env = some (b, env') → Consumes env' b → Consumes env (.nonterm n)

/-- What `p` reaches before something has been consumed ends: there is no left recursion and no repetition of something that
may consume nothing. The derivation tree is the tree of the calls at the first position. -/
inductive LeftEnds : Env → Pat → Prop
  | empty {env} : LeftEnds env .empty
  | lit {env s} : LeftEnds env (.lit s)
  | cls {env cs} : LeftEnds env (.cls cs)
  | dot {env k} : LeftEnds env (.dot k)
  | emptyOp {env op} : LeftEnds env (.emptyOp op)
  | err {env m} : LeftEnds env (.err m)
  | seqC {env l r} : LeftEnds env l → Consumes env l → LeftEnds env (.seq l r)
  | seq {env l r} : LeftEnds env l → LeftEnds env r → LeftEnds env (.seq l r)
  | alt {env l r} : LeftEnds env l → LeftEnds env r → LeftEnds env (.alt l r)
  | star {env p} : LeftEnds env p → Consumes env p → LeftEnds env (.star p)
  | plus {env p} : LeftEnds env p → Consumes env p → LeftEnds env (.plus p)
  | opt {env p} : LeftEnds env p → LeftEnds env (.opt p)
  | not {env p} : LeftEnds env p → LeftEnds env (.not p)
  | and {env p} : LeftEnds env p → LeftEnds env (.and p)
  | cap {env p id} : LeftEnds env p → LeftEnds env (.cap p id)
  | memo {env p id} : LeftEnds env p → LeftEnds env (.memo p id)
  | check {env p k id flag} : LeftEnds env p → LeftEnds env (.check p k id flag)
  | inl {env n p} : LeftEnds env p → LeftEnds env (.inl n p)
  | errRec {env m p} : LeftEnds env p → LeftEnds env (.errRec m p)
  | search {env p} : LeftEnds env p → LeftEnds env (.search p)
  | grammar {env start ds b} : ds.find start = some b → LeftEnds (ds :: env) b → LeftEnds env (.grammar start ds)
  | nonterm {env env' n b} : lookupNT n env = some (b, env') → LeftEnds env' b → LeftEnds env (.nonterm n)

mutual
/-- All parts of a pattern satisfy `LeftEnds`. -/
def Pat.WellFormed (env : Env) : Pat → Prop
  | .seq l r => LeftEnds env (.seq l r) ∧ l.WellFormed env ∧ r.WellFormed env
  | .alt l r => LeftEnds env (.alt l r) ∧ l.WellFormed env ∧ r.WellFormed env
  | .star p => LeftEnds env (.star p) ∧ p.WellFormed env
  | .plus p => LeftEnds env (.plus p) ∧ p.WellFormed env
  | .opt p => LeftEnds env (.opt p) ∧ p.WellFormed env
  | .not p => LeftEnds env (.not p) ∧ p.WellFormed env
  | .and p => LeftEnds env (.and p) ∧ p.WellFormed env
  | .cap p id => LeftEnds env (.cap p id) ∧ p.WellFormed env
  | .memo p id => LeftEnds env (.memo p id) ∧ p.WellFormed env
  | .check p k id flag => LeftEnds env (.check p k id flag) ∧ p.WellFormed env
  | .inl n p => LeftEnds env (.inl n p) ∧ p.WellFormed env
  | .errRec m p => LeftEnds env (.errRec m p) ∧ p.WellFormed env
  | .search p => LeftEnds env (.search p) ∧ p.WellFormed env
  | .grammar start ds => LeftEnds env (.grammar start ds) ∧ ds.WellFormed (ds :: env)
  | .nonterm n => LeftEnds env (.nonterm n)
  | .empty | .lit _ | .cls _ | .dot _ | .emptyOp _ | .err _ => True
/-- The same for definitions. -/
def Defs.WellFormed (env : Env) : Defs → Prop
  | .nil => True
  | .cons _ p rest => p.WellFormed env ∧ rest.WellFormed env
end

/-- The definitions of the enclosing grammars are well-formed. -/
def EnvWF : Env → Prop
  | [] => True
  | ds :: env => ds.WellFormed (ds :: env) ∧ EnvWF env

theorem Pat.WellFormed.left {env : Env} {p : Pat} (h : p.WellFormed env) : LeftEnds env p := by
  cases p <;> simp only [Pat.WellFormed] at h <;> first | exact h.1 | exact h | constructor

theorem Defs.WellFormed.find {env : Env} {n : String} {b : Pat} : ∀ {ds : Defs}, ds.WellFormed env → ds.find n = some b →
    b.WellFormed env
  | .nil, _, h => by simp [Defs.find] at h
  | .cons m p rest, hw, h => by
    simp only [Defs.WellFormed] at hw
    simp only [Defs.find] at h
    split at h
    · cases h; exact hw.1
    · exact Defs.WellFormed.find hw.2 h

theorem EnvWF.lookup {n : String} {b : Pat} {env' : Env} : ∀ {env : Env}, EnvWF env → lookupNT n env = some (b, env') →
    b.WellFormed env' ∧ EnvWF env'
  | [], _, h => by simp [lookupNT] at h
  | ds :: rest, hw, h => by
    simp only [lookupNT] at h
    split at h
    · rename_i p hp
      cases h
      exact ⟨hw.1.find hp, hw⟩
    · exact EnvWF.lookup hw.2 h

section
variable {σ : Type} {c : Ctx σ}

theorem Consumes.lt (hc : ChkOK c) {env : Env} {p : Pat} (h : Consumes env p) : ∀ {i j : Nat} {w w' : World σ} {cs : List CTree}
    {f : Nat}, i ≤ c.data.length → Evals c env p i w (.ok j cs, f, w') → i < j := by
  induction h with
  | @lit env s hs =>
    intro i j w w' cs f hi he
    rw [evals_lit] at he
    simp only [litEv] at he
    split at he
    · rename_i h
      cases he
      have := (evalLit_bounds _ _ hi h).1
      have := List.length_pos_iff.2 hs
      omega
    · cases he
  | cls =>
    intro i j w w' cs f hi he
    rw [evals_cls] at he
    simp only [clsEv] at he
    split at he <;> cases he
    omega
  | @dot env k hk =>
    intro i j w w' cs f hi he
    rw [evals_dot] at he
    simp only [dotEv] at he
    have : k.toNat ≠ 0 := fun h => hk (by apply UInt8.toNat_inj.1; rw [h]; rfl)
    split at he <;> cases he
    omega
  | err =>
    intro i j w w' cs f hi he
    rw [evals_err] at he
    cases he
  | seqL _ ih =>
    intro i j w w' cs f hi he
    obtain ⟨⟨r, f1, w1⟩, h1, h2⟩ := evals_seq.1 he
    cases r with
    | ok i1 cs1 =>
      obtain ⟨_, ⟨⟨r2, f2, w2⟩, h3, rfl⟩, h4⟩ := h2
      have b := h1.bounds hc hi
      cases r2 <;> cases h4
      have := h3.bounds hc b.2
      have := ih hi h1
      omega
    | fail => cases h2
    | abort => cases h2
  | seqR _ ih =>
    intro i j w w' cs f hi he
    obtain ⟨⟨r, f1, w1⟩, h1, h2⟩ := evals_seq.1 he
    cases r with
    | ok i1 cs1 =>
      obtain ⟨_, ⟨⟨r2, f2, w2⟩, h3, rfl⟩, h4⟩ := h2
      have b := h1.bounds hc hi
      cases r2 <;> cases h4
      have := ih b.2 h3
      omega
    | fail => cases h2
    | abort => cases h2
  | alt _ _ ih1 ih2 =>
    intro i j w w' cs f hi he
    obtain ⟨⟨r, f1, w1⟩, h1, h2⟩ := evals_alt.1 he
    cases r with
    | ok i1 cs1 => cases h2; exact ih1 hi h1
    | fail => obtain ⟨⟨r2, f2, w2⟩, h3, h4⟩ := h2; cases h4; exact ih2 hi h3
    | abort => cases h2
  | plus _ ih =>
    intro i j w w' cs f hi he
    obtain ⟨⟨r, f1, w1⟩, h1, h2⟩ := evals_plus.1 he
    cases r with
    | ok i1 cs1 =>
      obtain ⟨_, ⟨⟨r2, f2, w2⟩, h3, rfl⟩, h4⟩ := h2
      have b := h1.bounds hc hi
      cases r2 <;> cases h4
      have := h3.bounds hc b.2
      have := ih hi h1
      omega
    | fail => cases h2
    | abort => cases h2
  | cap _ ih =>
    intro i j w w' cs f hi he
    obtain ⟨⟨r, f1, w1⟩, h1, h2⟩ := evals_cap.1 he
    cases r <;> cases h2
    exact ih hi h1
  | memo _ ih =>
    intro i j w w' cs f hi he
    obtain ⟨f', h⟩ := evals_memo_ok he
    exact ih hi h
  | inl _ ih => intro i j w w' cs f hi he; exact ih hi (evals_inl.1 he)
  | errRec _ ih => intro i j w w' cs f hi he; exact ih hi (evals_errRec.1 he)
  | check _ ih =>
    intro i j w w' cs f hi he
    obtain ⟨⟨r, f1, w1⟩, h1, h2⟩ := evals_check.1 he
    cases r with
    | ok i1 cs1 =>
      have := ih hi h1
      simp only [checkEv] at h2
      split at h2 <;> cases h2
      omega
    | fail => cases h2
    | abort => cases h2
  | @search env p _ ih =>
    intro i j w w' cs f hi he
    have key : ∀ k i w f, i + k = c.data.length → (∃ n, searchLoop (eval n c env p) k i w = some (.ok j cs, f, w')) → i < j := by
      clear he hi
      intro k
      induction k with
      | zero =>
        intro i w f hk h
        obtain ⟨⟨r, f1, w1⟩, h1, h2⟩ := searchLoop_iff.1 h
        cases r with
        | ok i1 cs1 => cases h2; exact ih (by omega) h1
        | fail => obtain ⟨y, h3, h4⟩ := h2; simp only at h3; subst h3; cases h4
        | abort => cases h2
      | succ k ihk =>
        intro i w f hk h
        obtain ⟨⟨r, f1, w1⟩, h1, h2⟩ := searchLoop_iff.1 h
        cases r with
        | ok i1 cs1 => cases h2; exact ih (by omega) h1
        | fail =>
          obtain ⟨⟨r2, f2, w2⟩, h3, h4⟩ := h2
          cases h4
          have := ihk (i + 1) _ _ (by omega) h3
          omega
        | abort => cases h2
    obtain ⟨⟨r, f', w1⟩, h1, h2⟩ := evals_search_iff.1 he
    cases h2
    exact key _ i w _ (by omega) h1
  | grammar hb _ ih =>
    intro i j w w' cs f hi he
    obtain ⟨b', h1, h2⟩ := evals_grammar.1 he
    rw [hb] at h1
    cases h1
    exact ih hi h2
  | nonterm hb _ ih =>
    intro i j w w' cs f hi he
    obtain ⟨b', env', h1, h2⟩ := evals_nonterm.1 he
    rw [hb] at h1
    cases h1
    exact ih hi h2

/-- At one position, given that everything ends at later positions. -/
theorem LeftEnds.ends (hc : ChkOK c) {i : Nat} (hi : i ≤ c.data.length)
    (hlater : ∀ i', i < i' → i' ≤ c.data.length → ∀ env p, EnvWF env → p.WellFormed env → ∀ w, ∃ e, Evals c env p i' w e)
    {env : Env} {p : Pat} (h : LeftEnds env p) : EnvWF env → p.WellFormed env → ∀ w, ∃ e, Evals c env p i w e := by
  have hseq : ∀ {env : Env} {l r : Pat}, EnvWF env → r.WellFormed env → (∀ w, ∃ e, Evals c env l i w e) →
      (Consumes env l ∨ ∀ w, ∃ e, Evals c env r i w e) → ∀ w, ∃ e, Evals c env (.seq l r) i w e := by
    intro env l r he hr hl hor w
    obtain ⟨⟨x, f, w'⟩, h1⟩ := hl w
    cases x with
    | ok j cs =>
      have b := h1.bounds hc hi
      have : ∃ e, Evals c env r j w' e := by
        by_cases hj : i < j
        · exact hlater j hj b.2 env r he hr w'
        · rcases hor with hor | hor
          · exact absurd (hor.lt hc hi h1) hj
          · have : i = j := by omega
            subst this
            exact hor w'
      obtain ⟨e, h2⟩ := this
      exact ⟨_, evals_seq.2 ⟨_, h1, _, ⟨_, h2, rfl⟩, rfl⟩⟩
    | fail => exact ⟨_, evals_seq.2 ⟨_, h1, rfl⟩⟩
    | abort q => exact ⟨_, evals_seq.2 ⟨_, h1, rfl⟩⟩
  have hstar : ∀ {env : Env} {p : Pat}, EnvWF env → (Pat.star p).WellFormed env → Consumes env p →
      (∀ w, ∃ e, Evals c env p i w e) → ∀ w, ∃ e, Evals c env (.star p) i w e := by
    intro env p he hw hp hl w
    obtain ⟨⟨x, f, w'⟩, h1⟩ := hl w
    cases x with
    | ok j cs =>
      have b := h1.bounds hc hi
      obtain ⟨e, h2⟩ := hlater j (hp.lt hc hi h1) b.2 env (.star p) he hw w'
      exact ⟨_, evals_star.2 ⟨_, h1, _, h2, rfl⟩⟩
    | fail => exact ⟨_, evals_star.2 ⟨_, h1, rfl⟩⟩
    | abort q => exact ⟨_, evals_star.2 ⟨_, h1, rfl⟩⟩
  induction h with
  | empty => intro _ _ w; exact ⟨_, evals_empty.2 rfl⟩
  | lit => intro _ _ w; exact ⟨_, evals_lit.2 rfl⟩
  | cls => intro _ _ w; exact ⟨_, evals_cls.2 rfl⟩
  | dot => intro _ _ w; exact ⟨_, evals_dot.2 rfl⟩
  | emptyOp => intro _ _ w; exact ⟨_, evals_emptyOp.2 rfl⟩
  | err => intro _ _ w; exact ⟨_, evals_err.2 rfl⟩
  | seqC _ hcon ih =>
    intro he hw
    simp only [Pat.WellFormed] at hw
    exact hseq he hw.2.2 (ih he hw.2.1) (.inl hcon)
  | seq _ _ ih1 ih2 =>
    intro he hw
    simp only [Pat.WellFormed] at hw
    exact hseq he hw.2.2 (ih1 he hw.2.1) (.inr (ih2 he hw.2.2))
  | alt _ _ ih1 ih2 =>
    intro he hw w
    simp only [Pat.WellFormed] at hw
    obtain ⟨⟨x, f, w'⟩, h1⟩ := ih1 he hw.2.1 w
    cases x with
    | ok j cs => exact ⟨_, evals_alt.2 ⟨_, h1, rfl⟩⟩
    | fail =>
      obtain ⟨e, h2⟩ := ih2 he hw.2.2 w'
      exact ⟨_, evals_alt.2 ⟨_, h1, _, h2, rfl⟩⟩
    | abort q => exact ⟨_, evals_alt.2 ⟨_, h1, rfl⟩⟩
  | star _ hcon ih =>
    intro he hw
    have hw' := hw
    simp only [Pat.WellFormed] at hw
    exact hstar he hw' hcon (ih he hw.2)
  | @plus env p hl hcon ih =>
    intro he hw w
    simp only [Pat.WellFormed] at hw
    have hs : (Pat.star p).WellFormed env := by
      simp only [Pat.WellFormed]
      exact ⟨.star hl hcon, hw.2⟩
    obtain ⟨e, h⟩ := hseq (r := .star p) he hs (ih he hw.2) (.inl hcon) w
    exact ⟨e, evals_plus.2 (evals_seq.1 h)⟩
  | opt _ ih =>
    intro he hw w
    simp only [Pat.WellFormed] at hw
    obtain ⟨⟨x, f, w'⟩, h1⟩ := ih he hw.2 w
    cases x with
    | ok j cs => exact ⟨_, evals_opt.2 ⟨_, h1, rfl⟩⟩
    | fail => exact ⟨_, evals_opt.2 ⟨_, h1, _, rfl, rfl⟩⟩
    | abort q => exact ⟨_, evals_opt.2 ⟨_, h1, rfl⟩⟩
  | not _ ih =>
    intro he hw w
    simp only [Pat.WellFormed] at hw
    obtain ⟨x, h1⟩ := ih he hw.2 w
    exact ⟨_, evals_not.2 ⟨_, h1, rfl⟩⟩
  | and _ ih =>
    intro he hw w
    simp only [Pat.WellFormed] at hw
    obtain ⟨x, h1⟩ := ih he hw.2 w
    exact ⟨_, evals_and.2 ⟨_, h1, rfl⟩⟩
  | cap _ ih =>
    intro he hw w
    simp only [Pat.WellFormed] at hw
    obtain ⟨x, h1⟩ := ih he hw.2 w
    exact ⟨_, evals_cap.2 ⟨_, h1, rfl⟩⟩
  | check _ ih =>
    intro he hw w
    simp only [Pat.WellFormed] at hw
    obtain ⟨x, h1⟩ := ih he hw.2 w
    exact ⟨_, evals_check.2 ⟨_, h1, rfl⟩⟩
  | memo _ ih =>
    intro he hw w
    simp only [Pat.WellFormed] at hw
    obtain ⟨x, h1⟩ := ih he hw.2 w
    exact ⟨_, evals_memo.2 ⟨_, h1, rfl⟩⟩
  | inl _ ih =>
    intro he hw w
    simp only [Pat.WellFormed] at hw
    obtain ⟨x, h1⟩ := ih he hw.2 w
    exact ⟨_, evals_inl.2 h1⟩
  | errRec _ ih =>
    intro he hw w
    simp only [Pat.WellFormed] at hw
    obtain ⟨x, h1⟩ := ih he hw.2 _
    exact ⟨_, evals_errRec.2 h1⟩
  | @search env p _ ih =>
    intro he hw w
    simp only [Pat.WellFormed] at hw
    have hall : ∀ i', i ≤ i' → i' ≤ c.data.length → ∀ w, ∃ e, Evals c env p i' w e := by
      intro i' h1 h2 w
      by_cases h : i = i'
      · subst h; exact ih he hw.2 w
      · exact hlater i' (by omega) h2 env p he hw.2 w
    have key : ∀ k i' w, i ≤ i' → i' + k = c.data.length → ∃ e n, searchLoop (eval n c env p) k i' w = some e := by
      intro k
      induction k with
      | zero =>
        intro i' w h1 h2
        obtain ⟨⟨x, f, w'⟩, h3⟩ := hall i' h1 (by omega) w
        cases x with
        | fail => exact ⟨_, searchLoop_iff.2 ⟨_, h3, _, rfl, rfl⟩⟩
        | ok j cs => exact ⟨_, searchLoop_iff.2 ⟨_, h3, rfl⟩⟩
        | abort q => exact ⟨_, searchLoop_iff.2 ⟨_, h3, rfl⟩⟩
      | succ k ihk =>
        intro i' w h1 h2
        obtain ⟨⟨x, f, w'⟩, h3⟩ := hall i' h1 (by omega) w
        cases x with
        | fail =>
          obtain ⟨e, he⟩ := ihk (i' + 1) w' (by omega) (by omega)
          exact ⟨_, searchLoop_iff.2 ⟨_, h3, _, he, rfl⟩⟩
        | ok j cs => exact ⟨_, searchLoop_iff.2 ⟨_, h3, rfl⟩⟩
        | abort q => exact ⟨_, searchLoop_iff.2 ⟨_, h3, rfl⟩⟩
    obtain ⟨e, n, h⟩ := key (c.data.length - i) i w (Nat.le_refl _) (by omega)
    exact ⟨_, evals_search_iff.2 ⟨e, ⟨n, h⟩, rfl⟩⟩
  | grammar hb _ ih =>
    intro he hw w
    simp only [Pat.WellFormed] at hw
    obtain ⟨x, h1⟩ := ih ⟨hw.2, he⟩ (hw.2.find hb) w
    exact ⟨_, evals_grammar.2 ⟨_, hb, h1⟩⟩
  | nonterm hb _ ih =>
    intro he hw w
    obtain ⟨hb', he'⟩ := he.lookup hb
    obtain ⟨x, h1⟩ := ih he' hb' w
    exact ⟨_, evals_nonterm.2 ⟨_, _, hb, h1⟩⟩

/-- The evaluation of a well-formed pattern ends, on every text. -/
theorem Pat.WellFormed.ends (hc : ChkOK c) : ∀ (n i : Nat), c.data.length - i = n → i ≤ c.data.length → ∀ env p, EnvWF env →
    p.WellFormed env → ∀ w, ∃ e, Evals c env p i w e := by
  intro n
  induction n using Nat.strongRecOn with
  | ind n ih =>
    intro i hn hi env p he hw w
    exact hw.left.ends hc hi (fun i' h1 h2 env p he hw w => ih (c.data.length - i') (by omega) i' rfl h2 env p he hw w) he hw w
end

/-! ## Deciding it -/

/-- A sufficient test for `Consumes`; the number bounds the depth of calls. -/
def consumesB : Nat → Env → Pat → Bool
  | 0, _, _ => false
  | n + 1, env, p => match p with
    | .lit s => !s.isEmpty
    | .cls _ | .err _ => true
    | .dot k => k != 0
    | .seq l r => consumesB n env l || consumesB n env r
    | .alt l r => consumesB n env l && consumesB n env r
    | .plus p | .cap p _ | .memo p _ | .check p _ _ _ | .inl _ p | .errRec _ p | .search p => consumesB n env p
    | .grammar start ds => match ds.find start with
      | some b => consumesB n (ds :: env) b
      | none => false
    | .nonterm m => match lookupNT m env with
      | some (b, env') => consumesB n env' b
      | none => false
    | .empty | .emptyOp _ | .star _ | .opt _ | .not _ | .and _ => false

theorem consumesB_sound : ∀ (n : Nat) (env : Env) (p : Pat), consumesB n env p = true → Consumes env p := by
  intro n
  induction n with
  | zero => intro env p h; cases h
  | succ n ih =>
    intro env p h
    cases p with
    | lit s => exact .lit (by intro hs; subst hs; simp [consumesB] at h)
    | cls => exact .cls
    | err => exact .err
    | dot k => exact .dot (by simpa [consumesB] using h)
    | seq l r =>
      simp only [consumesB, Bool.or_eq_true] at h
      exact h.elim (fun h => .seqL (ih _ _ h)) (fun h => .seqR (ih _ _ h))
    | alt l r =>
      simp only [consumesB, Bool.and_eq_true] at h
      exact .alt (ih _ _ h.1) (ih _ _ h.2)
    | plus p => exact .plus (ih _ _ h)
    | cap p id => exact .cap (ih _ _ h)
    | memo p id => exact .memo (ih _ _ h)
    | check p k id flag => exact .check (ih _ _ h)
    | inl m p => exact .inl (ih _ _ h)
    | errRec m p => exact .errRec (ih _ _ h)
    | search p => exact .search (ih _ _ h)
    | grammar start ds =>
      simp only [consumesB] at h
      split at h
      · rename_i b hb; exact .grammar hb (ih _ _ h)
      · cases h
    | nonterm m =>
      simp only [consumesB] at h
      split at h
      · rename_i b env' hb; exact .nonterm hb (ih _ _ h)
      · cases h
    | empty | emptyOp | star | opt | not | and => cases h

/-- A sufficient test for `LeftEnds`; the number bounds the depth of calls. -/
def leftEndsB : Nat → Env → Pat → Bool
  | 0, _, _ => false
  | n + 1, env, p => match p with
    | .empty | .lit _ | .cls _ | .dot _ | .emptyOp _ | .err _ => true
    | .seq l r => leftEndsB n env l && (consumesB n env l || leftEndsB n env r)
    | .alt l r => leftEndsB n env l && leftEndsB n env r
    | .star p | .plus p => leftEndsB n env p && consumesB n env p
    | .opt p | .not p | .and p | .cap p _ | .memo p _ | .check p _ _ _ | .inl _ p | .errRec _ p | .search p => leftEndsB n env p
    | .grammar start ds => match ds.find start with
      | some b => leftEndsB n (ds :: env) b
      | none => false
    | .nonterm m => match lookupNT m env with
      | some (b, env') => leftEndsB n env' b
      | none => false

theorem leftEndsB_sound : ∀ (n : Nat) (env : Env) (p : Pat), leftEndsB n env p = true → LeftEnds env p := by
  intro n
  induction n with
  | zero => intro env p h; cases h
  | succ n ih =>
    intro env p h
    cases p with
    | empty => exact .empty
    | lit => exact .lit
    | cls => exact .cls
    | dot => exact .dot
    | emptyOp => exact .emptyOp
    | err => exact .err
    | seq l r =>
      simp only [leftEndsB, Bool.and_eq_true, Bool.or_eq_true] at h
      exact h.2.elim (fun h2 => .seqC (ih _ _ h.1) (consumesB_sound _ _ _ h2)) (fun h2 => .seq (ih _ _ h.1) (ih _ _ h2))
    | alt l r =>
      simp only [leftEndsB, Bool.and_eq_true] at h
      exact .alt (ih _ _ h.1) (ih _ _ h.2)
    | star p =>
      simp only [leftEndsB, Bool.and_eq_true] at h
      exact .star (ih _ _ h.1) (consumesB_sound _ _ _ h.2)
    | plus p =>
      simp only [leftEndsB, Bool.and_eq_true] at h
      exact .plus (ih _ _ h.1) (consumesB_sound _ _ _ h.2)
    | opt p => exact .opt (ih _ _ h)
    | not p => exact .not (ih _ _ h)
    | and p => exact .and (ih _ _ h)
    | cap p id => exact .cap (ih _ _ h)
    | memo p id => exact .memo (ih _ _ h)
    | check p k id flag => exact .check (ih _ _ h)
    | inl m p => exact .inl (ih _ _ h)
    | errRec m p => exact .errRec (ih _ _ h)
    | search p => exact .search (ih _ _ h)
    | grammar start ds =>
      simp only [leftEndsB] at h
      split at h
      · rename_i b hb; exact .grammar hb (ih _ _ h)
      · cases h
    | nonterm m =>
      simp only [leftEndsB] at h
      split at h
      · rename_i b env' hb; exact .nonterm hb (ih _ _ h)
      · cases h

mutual
/-- A sufficient test for `Pat.WellFormed`. -/
def Pat.wfB (n : Nat) (env : Env) : Pat → Bool
  | .seq l r => leftEndsB n env (.seq l r) && (l.wfB n env && r.wfB n env)
  | .alt l r => leftEndsB n env (.alt l r) && (l.wfB n env && r.wfB n env)
  | .star p => leftEndsB n env (.star p) && p.wfB n env
  | .plus p => leftEndsB n env (.plus p) && p.wfB n env
  | .opt p => leftEndsB n env (.opt p) && p.wfB n env
  | .not p => leftEndsB n env (.not p) && p.wfB n env
  | .and p => leftEndsB n env (.and p) && p.wfB n env
  | .cap p id => leftEndsB n env (.cap p id) && p.wfB n env
  | .memo p id => leftEndsB n env (.memo p id) && p.wfB n env
  | .check p k id flag => leftEndsB n env (.check p k id flag) && p.wfB n env
  | .inl m p => leftEndsB n env (.inl m p) && p.wfB n env
  | .errRec m p => leftEndsB n env (.errRec m p) && p.wfB n env
  | .search p => leftEndsB n env (.search p) && p.wfB n env
  | .grammar start ds => leftEndsB n env (.grammar start ds) && ds.wfB n (ds :: env)
  | .nonterm m => leftEndsB n env (.nonterm m)
  | .empty | .lit _ | .cls _ | .dot _ | .emptyOp _ | .err _ => true
/-- The same for definitions. -/
def Defs.wfB (n : Nat) (env : Env) : Defs → Bool
  | .nil => true
  | .cons _ p rest => p.wfB n env && rest.wfB n env
end

mutual
theorem Pat.wfB_sound (n : Nat) (env : Env) : ∀ p : Pat, p.wfB n env = true → p.WellFormed env
  | .seq l r, h | .alt l r, h => by
    simp only [Pat.wfB, Bool.and_eq_true] at h
    simp only [Pat.WellFormed]
    exact ⟨leftEndsB_sound _ _ _ h.1, Pat.wfB_sound n env l h.2.1, Pat.wfB_sound n env r h.2.2⟩
  | .star p, h | .plus p, h | .opt p, h | .not p, h | .and p, h | .cap p _, h | .memo p _, h | .check p _ _ _, h | .inl _ p, h
  | .errRec _ p, h | .search p, h => by
    simp only [Pat.wfB, Bool.and_eq_true] at h
    simp only [Pat.WellFormed]
    exact ⟨leftEndsB_sound _ _ _ h.1, Pat.wfB_sound n env p h.2⟩
  | .grammar start ds, h => by
    simp only [Pat.wfB, Bool.and_eq_true] at h
    simp only [Pat.WellFormed]
    exact ⟨leftEndsB_sound _ _ _ h.1, Defs.wfB_sound n _ ds h.2⟩
  | .nonterm m, h => by
    simp only [Pat.wfB] at h
    simp only [Pat.WellFormed]
    exact leftEndsB_sound _ _ _ h
  | .empty, _ | .lit _, _ | .cls _, _ | .dot _, _ | .emptyOp _, _ | .err _, _ => by simp only [Pat.WellFormed]
theorem Defs.wfB_sound (n : Nat) (env : Env) : ∀ ds : Defs, ds.wfB n env = true → ds.WellFormed env
  | .nil, _ => by simp only [Defs.WellFormed]
  | .cons _ p rest, h => by
    simp only [Defs.wfB, Bool.and_eq_true] at h
    simp only [Defs.WellFormed]
    exact ⟨Pat.wfB_sound n env p h.1, Defs.wfB_sound n env rest h.2⟩
end

end Gpeg
