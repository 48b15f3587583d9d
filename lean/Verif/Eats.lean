import Verif.RePlain
/-!
# Matching as a relation of texts

`Eats env p s (some r)`: `p` matches at the beginning of `s` and leaves `r`; `Eats env p s none`: it does not match. This is
Ford's formulation of parsing expressions, without positions and captures. For the patterns of the `re` syntax it agrees with
`Ford` (`eats_of_ford`, `Eats.ford`).
-/
namespace Gpeg

inductive Eats : Env → Pat → List UInt8 → Option (List UInt8) → Prop
  | empty {env s} : Eats env .empty s (some s)
  | litOk {env w s} : Eats env (.lit w) (w ++ s) (some s)
  | litFail {env w s} : ¬ w <+: s → Eats env (.lit w) s none
  | clsOk {env cs b s} : cs.has b = true → Eats env (.cls cs) (b :: s) (some s)
  | clsFail {env cs s} : (∀ b, s.head? = some b → cs.has b = false) → Eats env (.cls cs) s none
  | dotOk {env b s} : Eats env (.dot 1) (b :: s) (some s)
  | dotFail {env} : Eats env (.dot 1) [] none
  | seqOk {env l r s s' x} : Eats env l s (some s') → Eats env r s' x → Eats env (.seq l r) s x
  | seqFail {env l r s} : Eats env l s none → Eats env (.seq l r) s none
  | altL {env l r s x} : Eats env l s (some x) → Eats env (.alt l r) s (some x)
  | altR {env l r s x} : Eats env l s none → Eats env r s x → Eats env (.alt l r) s x
  | starEnd {env p s} : Eats env p s none → Eats env (.star p) s (some s)
  | starStep {env p s s' x} : Eats env p s (some s') → Eats env (.star p) s' x → Eats env (.star p) s x
  | plusFail {env p s} : Eats env p s none → Eats env (.plus p) s none
  | plusOk {env p s s' x} : Eats env p s (some s') → Eats env (.star p) s' x → Eats env (.plus p) s x
  | optSome {env p s x} : Eats env p s (some x) → Eats env (.opt p) s (some x)
  | optNone {env p s} : Eats env p s none → Eats env (.opt p) s (some s)
  | notOk {env p s} : Eats env p s none → Eats env (.not p) s (some s)
  | notFail {env p s x} : Eats env p s (some x) → Eats env (.not p) s none
  | andOk {env p s x} : Eats env p s (some x) → Eats env (.and p) s (some s)
  | andFail {env p s} : Eats env p s none → Eats env (.and p) s none
  | cap {env p id s x} : Eats env p s x → Eats env (.cap p id) s x
  | memo {env p id s x} : Eats env p s x → Eats env (.memo p id) s x
  | grammar {env start defs b s x} : defs.find start = some b → Eats (defs :: env) b s x → Eats env (.grammar start defs) s x
  | nonterm {env n b env' s x} : lookupNT n env = some (b, env') → Eats env' b s x → Eats env (.nonterm n) s x

/-- What is left is the end of the text. -/
theorem Eats.suffix {env : Env} {p : Pat} {s : List UInt8} {x : Option (List UInt8)} (h : Eats env p s x) :
    ∀ r, x = some r → ∃ w, s = w ++ r := by
  induction h with
  | @litOk env w s => rintro r ⟨⟩; exact ⟨w, rfl⟩
  | @clsOk env cs b s _ => rintro r ⟨⟩; exact ⟨[b], rfl⟩
  | @dotOk env b s => rintro r ⟨⟩; exact ⟨[b], rfl⟩
  | seqOk _ _ ih1 ih2 | starStep _ _ ih1 ih2 | plusOk _ _ ih1 ih2 =>
    intro r hr
    obtain ⟨w, rfl⟩ := ih1 _ rfl
    obtain ⟨w', rfl⟩ := ih2 _ hr
    exact ⟨w ++ w', by simp⟩
  | empty | starEnd | optNone | notOk | andOk => rintro r ⟨⟩; exact ⟨[], rfl⟩
  | altL _ ih | optSome _ ih | cap _ ih | memo _ ih | grammar _ _ ih | nonterm _ _ ih => exact ih
  | altR _ _ _ ih => exact ih
  | litFail | clsFail | dotFail | seqFail | plusFail | notFail | andFail => rintro r ⟨⟩

theorem Eats.ford_aux {env : Env} {p : Pat} {s : List UInt8} {x : Option (List UInt8)} (h : Eats env p s x) :
    ∀ pre, (∀ r, x = some r → ∃ w cs, s = w ++ r ∧ Ford (pre ++ s) env p pre.length (some (pre.length + w.length, cs))) ∧
      (x = none → Ford (pre ++ s) env p pre.length none) := by
  have join : ∀ {env l r s s' x q pre}, (Eats env l s (some s')) →
      (∀ i j k cs cs' d, Ford d env l i (some (j, cs)) → Ford d env r j (some (k, cs')) → Ford d env q i (some (k, cs ++ cs'))) →
      (∀ i j cs d, Ford d env l i (some (j, cs)) → Ford d env r j none → Ford d env q i none) →
      (∀ pre, (∀ r, some s' = some r → ∃ w cs, s = w ++ r ∧ Ford (pre ++ s) env l pre.length (some (pre.length + w.length, cs))) ∧
        (some s' = none → Ford (pre ++ s) env l pre.length none)) →
      (∀ pre, (∀ t, x = some t → ∃ w cs, s' = w ++ t ∧ Ford (pre ++ s') env r pre.length (some (pre.length + w.length, cs))) ∧
        (x = none → Ford (pre ++ s') env r pre.length none)) →
      (∀ t, x = some t → ∃ w cs, s = w ++ t ∧ Ford (pre ++ s) env q pre.length (some (pre.length + w.length, cs))) ∧
        (x = none → Ford (pre ++ s) env q pre.length none) := by
    intro env l r s s' x q pre _ h1 h2 ih1 ih2
    obtain ⟨w, cs, rfl, hf⟩ := (ih1 pre).1 _ rfl
    have ih := ih2 (pre ++ w)
    rw [List.append_assoc, List.length_append] at ih
    refine ⟨fun t ht => ?_, fun hx => h2 _ _ _ _ hf (ih.2 hx)⟩
    obtain ⟨w', cs', rfl, hf'⟩ := ih.1 t ht
    refine ⟨w ++ w', cs ++ cs', by simp, ?_⟩
    have := h1 _ _ _ _ _ _ hf hf'
    rw [List.length_append, ← Nat.add_assoc]
    exact this
  induction h with
  | @empty env s => exact fun pre => ⟨fun r hr => by cases hr; exact ⟨[], _, rfl, .empty⟩, fun h => by cases h⟩
  | @litOk env w s =>
    exact fun pre => ⟨fun r hr => by cases hr; exact ⟨w, _, rfl, .litOk (by simp)⟩, fun h => by cases h⟩
  | litFail h => exact fun pre => ⟨fun r hr => (by cases hr), fun _ => .litFail (by simpa using h)⟩
  | @clsOk env cs b s h =>
    exact fun pre => ⟨fun r hr => by cases hr; exact ⟨[b], _, rfl, .clsOk (b := b) (by simp) h⟩, fun h => by cases h⟩
  | @clsFail env cs s h =>
    refine fun pre => ⟨fun r hr => (by cases hr), fun _ => .clsFail fun b hb => h b ?_⟩
    rw [List.getElem?_append_right (Nat.le_refl _), Nat.sub_self] at hb
    rw [← hb, List.head?_eq_getElem?]
  | @dotOk env b s =>
    exact fun pre => ⟨fun r hr => by cases hr; exact ⟨[b], _, rfl, .dotOk (by simp)⟩, fun h => by cases h⟩
  | dotFail => exact fun pre => ⟨fun r hr => (by cases hr), fun _ => .dotFail (by simp)⟩
  | seqOk h1 _ ih1 ih2 =>
    exact fun pre => join h1 (fun _ _ _ _ _ _ => .seqOk) (fun _ _ _ _ => .seqFail2) ih1 ih2
  | seqFail _ ih => exact fun pre => ⟨fun r hr => (by cases hr), fun _ => .seqFail1 ((ih pre).2 rfl)⟩
  | altL _ ih =>
    refine fun pre => ⟨fun r hr => ?_, fun h => by cases h⟩
    obtain ⟨w, cs, e, hf⟩ := (ih pre).1 r hr
    exact ⟨w, cs, e, .altL hf⟩
  | altR _ _ ih1 ih2 =>
    refine fun pre => ⟨fun r hr => ?_, fun h => .altR ((ih1 pre).2 rfl) ((ih2 pre).2 h)⟩
    obtain ⟨w, cs, e, hf⟩ := (ih2 pre).1 r hr
    exact ⟨w, cs, e, .altR ((ih1 pre).2 rfl) hf⟩
  | starEnd _ ih =>
    exact fun pre => ⟨fun r hr => by cases hr; exact ⟨[], _, rfl, .starEnd ((ih pre).2 rfl)⟩, fun h => by cases h⟩
  | starStep h1 _ ih1 ih2 =>
    exact fun pre => join h1 (fun _ _ _ _ _ _ => .starStep) (fun _ _ _ _ _ h => (star_not_none rfl rfl h).elim) ih1 ih2
  | plusFail _ ih => exact fun pre => ⟨fun r hr => (by cases hr), fun _ => .plusFail ((ih pre).2 rfl)⟩
  | plusOk h1 _ ih1 ih2 =>
    exact fun pre => join h1 (fun _ _ _ _ _ _ => .plusOk) (fun _ _ _ _ _ h => (star_not_none rfl rfl h).elim) ih1 ih2
  | optSome _ ih =>
    refine fun pre => ⟨fun r hr => ?_, fun h => by cases h⟩
    obtain ⟨w, cs, e, hf⟩ := (ih pre).1 r hr
    exact ⟨w, cs, e, .optSome hf⟩
  | optNone _ ih =>
    exact fun pre => ⟨fun r hr => by cases hr; exact ⟨[], _, rfl, .optNone ((ih pre).2 rfl)⟩, fun h => by cases h⟩
  | notOk _ ih =>
    exact fun pre => ⟨fun r hr => by cases hr; exact ⟨[], _, rfl, .notOk ((ih pre).2 rfl)⟩, fun h => by cases h⟩
  | notFail _ ih =>
    refine fun pre => ⟨fun r hr => (by cases hr), fun _ => ?_⟩
    obtain ⟨w, cs, e, hf⟩ := (ih pre).1 _ rfl
    exact .notFail hf
  | andOk _ ih =>
    refine fun pre => ⟨fun r hr => ?_, fun h => by cases h⟩
    obtain ⟨w, cs, e, hf⟩ := (ih pre).1 _ rfl
    cases hr
    exact ⟨[], _, rfl, .andOk hf⟩
  | andFail _ ih => exact fun pre => ⟨fun r hr => (by cases hr), fun _ => .andFail ((ih pre).2 rfl)⟩
  | cap _ ih =>
    refine fun pre => ⟨fun r hr => ?_, fun h => .capFail ((ih pre).2 h)⟩
    obtain ⟨w, cs, e, hf⟩ := (ih pre).1 r hr
    exact ⟨w, _, e, .capOk hf⟩
  | memo _ ih =>
    refine fun pre => ⟨fun r hr => ?_, fun h => .memo ((ih pre).2 h)⟩
    obtain ⟨w, cs, e, hf⟩ := (ih pre).1 r hr
    exact ⟨w, _, e, .memo hf⟩
  | grammar hb _ ih =>
    refine fun pre => ⟨fun r hr => ?_, fun h => .grammar hb ((ih pre).2 h)⟩
    obtain ⟨w, cs, e, hf⟩ := (ih pre).1 r hr
    exact ⟨w, _, e, .grammar hb hf⟩
  | nonterm hb _ ih =>
    refine fun pre => ⟨fun r hr => ?_, fun h => .nonterm hb ((ih pre).2 h)⟩
    obtain ⟨w, cs, e, hf⟩ := (ih pre).1 r hr
    exact ⟨w, _, e, .nonterm hb hf⟩

theorem Eats.ford {env : Env} {p : Pat} {w r : List UInt8} (h : Eats env p (w ++ r) (some r)) :
    ∃ cs, Ford (w ++ r) env p 0 (some (w.length, cs)) := by
  obtain ⟨w', cs, e, hf⟩ := (h.ford_aux []).1 r rfl
  have := List.append_cancel_right e
  subst this
  exact ⟨cs, by simpa using hf⟩

theorem Eats.ford_none {env : Env} {p : Pat} {s : List UInt8} (h : Eats env p s none) : Ford s env p 0 none := (h.ford_aux []).2 rfl

/-- All enclosing definitions are plain. -/
def Env.Plain (env : Env) : Prop := ∀ ds ∈ env, Defs.Plain ds

theorem Env.Plain.lookup {n : String} {b : Pat} {env' : Env} : ∀ {env : Env}, Env.Plain env →
    lookupNT n env = some (b, env') → b.Plain ∧ Env.Plain env'
  | [], _, h => by simp [lookupNT] at h
  | ds :: rest, hp, h => by
    simp only [lookupNT] at h
    split at h
    · rename_i b' hb
      cases h
      exact ⟨(hp ds (by simp)).find hb, hp⟩
    · exact Env.Plain.lookup (env := rest) (fun ds' h' => hp ds' (by simp [h'])) h

/-- Plain patterns, or a grammar of them. -/
def Pat.PlainTop : Pat → Prop
  | .grammar _ ds => ds.Plain
  | p => p.Plain

theorem eats_aux {d : List UInt8} {env : Env} {p : Pat} {i : Nat} {x : Option (Nat × List CTree)} (h : Ford d env p i x) :
    p.Plain ∨ p.PlainTop → Env.Plain env → i ≤ d.length →
      (∀ j cs, x = some (j, cs) → j ≤ d.length ∧ Eats env p (d.drop i) (some (d.drop j))) ∧
      (x = none → Eats env p (d.drop i) none) := by
  have pt : ∀ {p : Pat}, p.Plain → p.Plain ∨ p.PlainTop := fun h => .inl h
  have un : ∀ {p : Pat}, (∀ s ds, p ≠ .grammar s ds) → p.Plain ∨ p.PlainTop → p.Plain := by
    intro p hn h
    refine h.elim id fun h => ?_
    cases p with
    | grammar s ds => exact (hn s ds rfl).elim
    | _ => exact h
  induction h with
  | empty => exact fun _ _ hi => ⟨fun j cs h => by cases h; exact ⟨hi, .empty⟩, fun h => by cases h⟩
  | @litOk env s i h =>
    refine fun _ _ hi => ⟨fun j cs hx => ?_, fun h => by cases h⟩
    cases hx
    obtain ⟨r, hr⟩ := h
    have hl : s.length + r.length = d.length - i := by rw [← List.length_append, hr, List.length_drop]
    refine ⟨by omega, ?_⟩
    have e : d.drop (i + s.length) = r := by rw [← List.drop_drop, ← hr, List.drop_left]
    rw [e, ← hr]
    exact .litOk
  | litFail h => exact fun _ _ hi => ⟨fun j cs hx => (by cases hx), fun _ => .litFail h⟩
  | @clsOk env cs i b h1 h2 =>
    refine fun _ _ hi => ⟨fun j cs hx => ?_, fun h => by cases h⟩
    cases hx
    obtain ⟨hi', e⟩ := List.getElem?_eq_some_iff.1 h1
    refine ⟨hi', ?_⟩
    rw [List.drop_eq_getElem_cons hi', e]
    exact .clsOk h2
  | clsFail h =>
    refine fun _ _ hi => ⟨fun j cs hx => (by cases hx), fun _ => .clsFail fun b hb => h b ?_⟩
    rw [List.head?_drop] at hb
    exact hb
  | @dotOk env n i h =>
    refine fun hp _ hi => ⟨fun j cs hx => ?_, fun h => by cases h⟩
    have : n = 1 := un (by simp) hp
    subst this
    cases hx
    have h : i + 1 ≤ d.length := h
    refine ⟨h, ?_⟩
    rw [List.drop_eq_getElem_cons h]
    exact .dotOk
  | @dotFail env n i h =>
    refine fun hp _ hi => ⟨fun j cs hx => (by cases hx), fun _ => ?_⟩
    have : n = 1 := un (by simp) hp
    subst this
    have h : d.length < i + 1 := h
    rw [List.drop_eq_nil_of_le (by omega)]
    exact .dotFail
  | opOk | opFail => exact fun hp => (un (by simp) hp).elim
  | inl | searchHere | searchNext | searchEnd => exact fun hp => (un (by simp) hp).elim
  | seqOk _ _ ih1 ih2 =>
    intro hp he hi
    have hp := un (by simp) hp
    obtain ⟨hj, h1⟩ := (ih1 (pt hp.1) he hi).1 _ _ rfl
    refine ⟨fun j cs hx => ?_, fun h => by cases h⟩
    cases hx
    obtain ⟨hk, h2⟩ := (ih2 (pt hp.2) he hj).1 _ _ rfl
    exact ⟨hk, .seqOk h1 h2⟩
  | seqFail1 _ ih =>
    intro hp he hi
    have hp := un (by simp) hp
    exact ⟨fun j cs hx => (by cases hx), fun _ => .seqFail ((ih (pt hp.1) he hi).2 rfl)⟩
  | seqFail2 _ _ ih1 ih2 =>
    intro hp he hi
    have hp := un (by simp) hp
    obtain ⟨hj, h1⟩ := (ih1 (pt hp.1) he hi).1 _ _ rfl
    exact ⟨fun j cs hx => (by cases hx), fun _ => .seqOk h1 ((ih2 (pt hp.2) he hj).2 rfl)⟩
  | altL _ ih =>
    intro hp he hi
    have hp := un (by simp) hp
    refine ⟨fun j cs hx => ?_, fun h => by cases h⟩
    obtain ⟨hj, h1⟩ := (ih (pt hp.1) he hi).1 _ _ hx
    exact ⟨hj, .altL h1⟩
  | altR _ _ ih1 ih2 =>
    intro hp he hi
    have hp := un (by simp) hp
    have h1 := (ih1 (pt hp.1) he hi).2 rfl
    refine ⟨fun j cs hx => ?_, fun h => .altR h1 ((ih2 (pt hp.2) he hi).2 h)⟩
    obtain ⟨hj, h2⟩ := (ih2 (pt hp.2) he hi).1 _ _ hx
    exact ⟨hj, .altR h1 h2⟩
  | starEnd _ ih =>
    intro hp he hi
    have hp' := un (by simp) hp
    exact ⟨fun j cs hx => by cases hx; exact ⟨hi, .starEnd ((ih (pt hp') he hi).2 rfl)⟩, fun h => by cases h⟩
  | starStep _ _ ih1 ih2 =>
    intro hp he hi
    have hp' := un (by simp) hp
    obtain ⟨hj, h1⟩ := (ih1 (pt hp') he hi).1 _ _ rfl
    refine ⟨fun j cs hx => ?_, fun h => by cases h⟩
    cases hx
    obtain ⟨hk, h2⟩ := (ih2 hp he hj).1 _ _ rfl
    exact ⟨hk, .starStep h1 h2⟩
  | plusFail _ ih =>
    intro hp he hi
    have hp' := un (by simp) hp
    exact ⟨fun j cs hx => (by cases hx), fun _ => .plusFail ((ih (pt hp') he hi).2 rfl)⟩
  | @plusOk _ p _ _ _ _ _ _ _ ih1 ih2 =>
    intro hp he hi
    have hp' := un (by simp) hp
    obtain ⟨hj, h1⟩ := (ih1 (pt hp') he hi).1 _ _ rfl
    refine ⟨fun j cs hx => ?_, fun h => by cases h⟩
    cases hx
    obtain ⟨hk, h2⟩ := (ih2 (pt (p := .star p) hp') he hj).1 _ _ rfl
    exact ⟨hk, .plusOk h1 h2⟩
  | optSome _ ih =>
    intro hp he hi
    have hp' := un (by simp) hp
    refine ⟨fun j cs hx => ?_, fun h => by cases h⟩
    obtain ⟨hj, h1⟩ := (ih (pt hp') he hi).1 _ _ hx
    exact ⟨hj, .optSome h1⟩
  | optNone _ ih =>
    intro hp he hi
    have hp' := un (by simp) hp
    exact ⟨fun j cs hx => by cases hx; exact ⟨hi, .optNone ((ih (pt hp') he hi).2 rfl)⟩, fun h => by cases h⟩
  | notOk _ ih =>
    intro hp he hi
    have hp' := un (by simp) hp
    exact ⟨fun j cs hx => by cases hx; exact ⟨hi, .notOk ((ih (pt hp') he hi).2 rfl)⟩, fun h => by cases h⟩
  | @notFail _ _ _ x _ ih =>
    intro hp he hi
    have hp' := un (by simp) hp
    exact ⟨fun j cs hx => (by cases hx), fun _ => .notFail ((ih (pt hp') he hi).1 x.1 x.2 rfl).2⟩
  | andOk _ ih =>
    intro hp he hi
    have hp' := un (by simp) hp
    exact ⟨fun j cs hx => by cases hx; exact ⟨hi, .andOk ((ih (pt hp') he hi).1 _ _ rfl).2⟩, fun h => by cases h⟩
  | andFail _ ih =>
    intro hp he hi
    have hp' := un (by simp) hp
    exact ⟨fun j cs hx => (by cases hx), fun _ => .andFail ((ih (pt hp') he hi).2 rfl)⟩
  | capOk _ ih =>
    intro hp he hi
    have hp' := un (by simp) hp
    refine ⟨fun j cs hx => ?_, fun h => by cases h⟩
    cases hx
    obtain ⟨hj, h1⟩ := (ih (pt hp') he hi).1 _ _ rfl
    exact ⟨hj, .cap h1⟩
  | capFail _ ih =>
    intro hp he hi
    have hp' := un (by simp) hp
    exact ⟨fun j cs hx => (by cases hx), fun _ => .cap ((ih (pt hp') he hi).2 rfl)⟩
  | memo _ ih =>
    intro hp he hi
    have hp' := un (by simp) hp
    refine ⟨fun j cs hx => ?_, fun h => .memo ((ih (pt hp') he hi).2 h)⟩
    obtain ⟨hj, h1⟩ := (ih (pt hp') he hi).1 _ _ hx
    exact ⟨hj, .memo h1⟩
  | @grammar env start ds b i x hb _ ih =>
    intro hp he hi
    have hds : ds.Plain := hp.elim (fun h => h.elim) id
    have hp' := hds.find hb
    have he' : Env.Plain (ds :: env) := fun ds' h' => by
      rcases List.mem_cons.1 h' with rfl | h'
      · exact hds
      · exact he ds' h'
    refine ⟨fun j cs hx => ?_, fun h => .grammar hb ((ih (pt hp') he' hi).2 h)⟩
    obtain ⟨hj, h1⟩ := (ih (pt hp') he' hi).1 _ _ hx
    exact ⟨hj, .grammar hb h1⟩
  | nonterm hb _ ih =>
    intro hp he hi
    obtain ⟨hp', he'⟩ := he.lookup hb
    refine ⟨fun j cs hx => ?_, fun h => .nonterm hb ((ih (pt hp') he' hi).2 h)⟩
    obtain ⟨hj, h1⟩ := (ih (pt hp') he' hi).1 _ _ hx
    exact ⟨hj, .nonterm hb h1⟩

/-- For the patterns of the `re` syntax the two relations agree. -/
theorem eats_of_ford {p : Pat} {s : List UInt8} {x : Option (Nat × List CTree)} (hp : p.PlainTop) (h : Ford s [] p 0 x) :
    Eats [] p s (x.map fun y => s.drop y.1) := by
  have := eats_aux h (.inr hp) (fun _ h => by cases h) (Nat.zero_le _)
  cases x with
  | none => exact this.2 rfl
  | some y => exact (this.1 y.1 y.2 rfl).2

/-- The result is unique. -/
theorem Eats.det {env : Env} {p : Pat} {s : List UInt8} {x y : Option (List UInt8)} (h : Eats env p s x) (h' : Eats env p s y) : x = y := by
  have a := h.ford_aux []
  have b := h'.ford_aux []
  cases x with
  | none =>
    cases y with
    | none => rfl
    | some y =>
      obtain ⟨_, _, _, hf⟩ := b.1 _ rfl
      cases hf.det (a.2 rfl)
  | some x =>
    obtain ⟨w, _, e, hf⟩ := a.1 _ rfl
    cases y with
    | none => cases hf.det (b.2 rfl)
    | some y =>
      obtain ⟨w', _, e', hf'⟩ := b.1 _ rfl
      have := hf.det hf'
      simp only [List.length_nil, Nat.zero_add, Option.some.injEq, Prod.mk.injEq] at this
      rw [e] at e'
      rw [(List.append_inj e' this.1).2]

end Gpeg
