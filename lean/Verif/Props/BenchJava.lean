import Verif.BenchJava
import Verif.Props.Charset
import Verif.Props.Session
import Verif.Props.Checker
import Verif.Calm
/-!
# C77. The grammar of `bench/java.go`

`bench.GenerateEdits` looks for tokens with a memoized grammar that has a `MapChecker` inside the memoized part.
-/
namespace Gpeg
variable {σ : Type}

namespace Bench

/-! ## Evaluations that leave the world alone -/

/-- Nothing, or an end and captures. -/
def outcome : Option (Nat × List CTree) → Res
  | none => .fail
  | some (x, cs) => .ok x cs

/-- In every world the pattern at `pos` has this outcome. -/
def Gives (chk : CheckFn σ) (data : List UInt8) (env : Env) (p : Pat) (pos : Nat) (r : Option (Nat × List CTree)) : Prop :=
  ∀ w, ∃ f, Evals ⟨data, chk, false⟩ env p pos w (outcome r, f, w)

section
variable {chk : CheckFn σ} {data : List UInt8} {env : Env} {p q : Pat} {pos : Nat}

theorem Gives.lit (s : List UInt8) : Gives chk data env (.lit s) pos (if s <+: data.drop pos then some (pos + s.length, []) else none) := by
  intro w
  have h := evalLit_prefix data s pos
  split
  · rename_i hs
    rw [if_pos hs] at h
    exact ⟨(evalLit data pos s).2, evals_lit.2 (by unfold litEv; simp only []; generalize evalLit data pos s = x at *; obtain ⟨r, f⟩ := x; subst h; rfl)⟩
  · rename_i hs
    rw [if_neg hs] at h
    exact ⟨(evalLit data pos s).2, evals_lit.2 (by unfold litEv; simp only []; generalize evalLit data pos s = x at *; obtain ⟨r, f⟩ := x; subst h; rfl)⟩

theorem Gives.cls (cs : CSet) : Gives chk data env (.cls cs) pos (if (data.drop pos).head?.any cs.has then some (pos + 1, []) else none) := by
  intro w
  refine ⟨pos + 1, evals_cls.2 ?_⟩
  have : inSet data pos cs = (data.drop pos).head?.any cs.has := by
    unfold inSet
    rw [List.head?_drop]
    cases data[pos]? <;> rfl
  unfold clsEv
  simp only [this]
  split <;> rfl

theorem Gives.dot : Gives chk data env (.dot 1) pos (if data.drop pos = [] then none else some (pos + 1, [])) := by
  intro w
  refine ⟨0, evals_dot.2 ?_⟩
  unfold dotEv
  simp only [show (1 : UInt8).toNat = 1 from rfl, List.drop_eq_nil_iff]
  by_cases h : data.length ≤ pos
  · rw [if_pos h, if_neg (by omega)]; rfl
  · rw [if_neg h, if_pos (by omega)]; rfl

theorem Gives.seq {y : Nat} {cs : List CTree} {r : Option (Nat × List CTree)} (h1 : Gives chk data env p pos (some (y, cs)))
    (h2 : Gives chk data env q y r) : Gives chk data env (.seq p q) pos (r.map fun x => (x.1, cs ++ x.2)) := by
  intro w
  obtain ⟨f, h1⟩ := h1 w
  obtain ⟨g, h2⟩ := h2 w
  refine ⟨max f g, evals_seq.2 ⟨_, h1, _, ⟨_, h2, rfl⟩, ?_⟩⟩
  cases r <;> rfl

theorem Gives.seqF (h : Gives chk data env p pos none) : Gives chk data env (.seq p q) pos none := by
  intro w
  obtain ⟨f, h⟩ := h w
  exact ⟨f, evals_seq.2 ⟨_, h, rfl⟩⟩

theorem Gives.altL {x : Nat × List CTree} (h : Gives chk data env p pos (some x)) : Gives chk data env (.alt p q) pos (some x) := by
  intro w
  obtain ⟨f, h⟩ := h w
  exact ⟨f, evals_alt.2 ⟨_, h, rfl⟩⟩

theorem Gives.altR {r : Option (Nat × List CTree)} (h : Gives chk data env p pos none) (h2 : Gives chk data env q pos r) :
    Gives chk data env (.alt p q) pos r := by
  intro w
  obtain ⟨f, h⟩ := h w
  obtain ⟨g, h2⟩ := h2 w
  exact ⟨max f g, evals_alt.2 ⟨_, h, _, h2, rfl⟩⟩

theorem Gives.alt {r r' : Option (Nat × List CTree)} (h : Gives chk data env p pos r) (h2 : Gives chk data env q pos r') :
    Gives chk data env (.alt p q) pos (r.or r') := by
  cases r with
  | none => exact h.altR h2
  | some x => exact h.altL

theorem Gives.starStep {y z : Nat} {cs cs' : List CTree} (h : Gives chk data env p pos (some (y, cs)))
    (h2 : Gives chk data env (.star p) y (some (z, cs'))) : Gives chk data env (.star p) pos (some (z, cs ++ cs')) := by
  intro w
  obtain ⟨f, h⟩ := h w
  obtain ⟨g, h2⟩ := h2 w
  exact ⟨max f g, evals_star.2 ⟨_, h, _, h2, rfl⟩⟩

theorem Gives.starEnd (h : Gives chk data env p pos none) : Gives chk data env (.star p) pos (some (pos, [])) := by
  intro w
  obtain ⟨f, h⟩ := h w
  exact ⟨f, evals_star.2 ⟨_, h, rfl⟩⟩

theorem Gives.not {r : Option (Nat × List CTree)} (h : Gives chk data env p pos r) :
    Gives chk data env (.not p) pos (if r.isSome then none else some (pos, [])) := by
  intro w
  obtain ⟨f, h⟩ := h w
  refine ⟨f, evals_not.2 ⟨_, h, ?_⟩⟩
  cases r <;> rfl

theorem Gives.cap {r : Option (Nat × List CTree)} (id : Int) (h : Gives chk data env p pos r) :
    Gives chk data env (.cap p id) pos (r.map fun x => (x.1, [.node id pos (x.1 - pos) x.2])) := by
  intro w
  obtain ⟨f, h⟩ := h w
  refine ⟨f, evals_cap.2 ⟨_, h, ?_⟩⟩
  cases r <;> rfl

theorem Gives.memo {r : Option (Nat × List CTree)} (id : Int) (h : Gives chk data env p pos r) : Gives chk data env (.memo p id) pos r := by
  intro w
  obtain ⟨f, h⟩ := h w
  exact ⟨f, (evals_memo_hi rfl).2 h⟩

theorem Gives.check {strs : List (List UInt8)} {k : Nat} {id flag : Int} (hk : ∀ st m d pos, chk k st m d pos id flag = (mapCheck strs m, st))
    {r : Option (Nat × List CTree)} (h : Gives chk data env p pos r) : Gives chk data env (.check p k id flag) pos
      (r.bind fun x => if (data.drop pos).take (x.1 - pos) ∈ strs then some x else none) := by
  intro w
  obtain ⟨f, h⟩ := h w
  refine ⟨f, evals_check.2 ⟨_, h, ?_⟩⟩
  cases r with
  | none => rfl
  | some x =>
    simp only [outcome, checkEv, hk, mapCheck, List.contains_iff_mem, Option.bind_some]
    by_cases hm : (data.drop pos).take (x.1 - pos) ∈ strs
    · simp [hm]
    · simp [hm]

theorem Gives.nonterm {n : String} {env' : Env} {r : Option (Nat × List CTree)} (hl : lookupNT n env = some (p, env'))
    (h : Gives chk data env' p pos r) : Gives chk data env (.nonterm n) pos r := by
  intro w
  obtain ⟨f, h⟩ := h w
  exact ⟨f, evals_nonterm.2 ⟨_, _, hl, h⟩⟩

theorem Gives.grammar {s : String} {ds : Defs} {r : Option (Nat × List CTree)} (hl : ds.find s = some p)
    (h : Gives chk data (ds :: env) p pos r) : Gives chk data env (.grammar s ds) pos r := by
  intro w
  obtain ⟨f, h⟩ := h w
  exact ⟨f, evals_grammar.2 ⟨_, hl, h⟩⟩

end

/-! ## The parts of tokens -/

section
variable {chk : CheckFn σ} {data : List UInt8} {env : Env} {t : List UInt8}

theorem drop_next {pos : Nat} {b : UInt8} (h : data.drop pos = b :: t) : data.drop (pos + 1) = t := by
  rw [← List.drop_drop, h]; rfl

/-- `(!e .)*` stops in front of the first `e`, or at the end. -/
theorem until_gives {e : List UInt8} (he : e ≠ []) : ∀ {t : List UInt8} {pos : Nat}, data.drop pos = t →
    ∃ k, Gives chk data env (.star (.seq (.not (.lit e)) (.dot 1))) pos (some (pos + k, [])) ∧
      (∀ n, upTo e t = some n → e <+: t.drop k ∧ n = k + e.length) ∧ (upTo e t = none → ¬ e <+: t.drop k) := by
  intro t
  induction t with
  | nil =>
    intro pos h
    have hn : ¬ e <+: [] := fun hp => he (List.prefix_nil.1 hp)
    refine ⟨0, Gives.starEnd ?_, fun n hn' => by simp [upTo, he] at hn', fun _ => by simpa using hn⟩
    have h1 : Gives chk data env (.not (.lit e)) pos (some (pos, [])) := by
      have := (Gives.lit (chk := chk) (data := data) (env := env) (pos := pos) e).not
      rwa [h, if_neg hn] at this
    have h2 : Gives chk data env (.dot 1) pos none := by
      have := Gives.dot (chk := chk) (data := data) (env := env) (pos := pos)
      rwa [if_pos h] at this
    exact h1.seq h2
  | cons b t ih =>
    intro pos h
    by_cases hp : e <+: b :: t
    · refine ⟨0, Gives.starEnd (Gives.seqF ?_), fun n hn => ?_, fun hn => ?_⟩
      · have := (Gives.lit (chk := chk) (data := data) (env := env) (pos := pos) e).not
        rwa [h, if_pos hp] at this
      · simp only [upTo, if_pos hp, Option.some.injEq] at hn
        exact ⟨hp, by omega⟩
      · simp [upTo, hp] at hn
    · obtain ⟨k, h1, h2, h3⟩ := ih (drop_next h)
      have h4 : Gives chk data env (.seq (.not (.lit e)) (.dot 1)) pos (some (pos + 1, [])) := by
        have a1 : Gives chk data env (.not (.lit e)) pos (some (pos, [])) := by
          have := (Gives.lit (chk := chk) (data := data) (env := env) (pos := pos) e).not
          rwa [h, if_neg hp] at this
        have a2 : Gives chk data env (.dot 1) pos (some (pos + 1, [])) := by
          have := Gives.dot (chk := chk) (data := data) (env := env) (pos := pos)
          rwa [if_neg (by rw [h]; simp)] at this
        exact a1.seq a2
      refine ⟨k + 1, ?_, fun n hn => ?_, fun hn => ?_⟩
      · have := h4.starStep h1
        rwa [show pos + 1 + k = pos + (k + 1) by omega] at this
      · simp only [upTo, if_neg hp, Option.map_eq_some_iff] at hn
        obtain ⟨m, hm, rfl⟩ := hn
        obtain ⟨g1, g2⟩ := h2 m hm
        exact ⟨g1, by omega⟩
      · simp only [upTo, if_neg hp, Option.map_eq_none_iff] at hn
        exact h3 hn

/-- Comments. -/
theorem block_gives {s e : List UInt8} (he : e ≠ []) {pos : Nat} : Gives chk data env (blockPatt s e none) pos
    (if s <+: data.drop pos then (upTo e (data.drop (pos + s.length))).map fun n => (pos + (n + s.length), []) else none) := by
  show Gives chk data env (.seq (.seq (.lit s) (.star (.seq (.not (.lit e)) (.dot 1)))) (.lit e)) pos _
  have h0 := Gives.lit (chk := chk) (data := data) (env := env) (pos := pos) s
  by_cases hs : s <+: data.drop pos
  · rw [if_pos hs] at h0 ⊢
    obtain ⟨k, h1, h2, h3⟩ := until_gives (chk := chk) (env := env) he (rfl : data.drop (pos + s.length) = _)
    have h4 := Gives.lit (chk := chk) (data := data) (env := env) (pos := pos + s.length + k) e
    rw [← List.drop_drop] at h4
    have h5 := (h0.seq h1).seq h4
    cases hu : upTo e (data.drop (pos + s.length)) with
    | none =>
      rw [if_neg (h3 hu)] at h5
      exact h5
    | some n =>
      obtain ⟨g1, rfl⟩ := h2 n hu
      rw [if_pos g1] at h5
      simp only [Option.map_some, List.append_nil] at h5 ⊢
      rwa [show pos + (k + e.length + s.length) = pos + s.length + k + e.length by omega]
  · rw [if_neg hs] at h0 ⊢
    exact h0.seqF.seqF

theorem alnum_has (b : UInt8) : (((CSet.range 65 90).add (CSet.range 97 122)).add (CSet.range 48 57)).has b = (isWordByte b && b != 95) := by
  rw [Bool.eq_iff_iff]
  simp only [CSet.has_add, CSet.has_range, isWordByte, isLetter, Bool.or_eq_true, Bool.and_eq_true, decide_eq_true_eq, beq_iff_eq, bne_iff_ne, ne_eq]
  constructor
  · intro h
    refine ⟨by grind, fun hb => ?_⟩
    subst hb
    revert h
    decide
  · grind

theorem alpha_has (b : UInt8) : ((CSet.range 65 90).add (CSet.range 97 122)).has b = (isLetter b && b != 95) := by
  rw [Bool.eq_iff_iff]
  simp only [CSet.has_add, CSet.has_range, isLetter, Bool.or_eq_true, Bool.and_eq_true, decide_eq_true_eq, beq_iff_eq, bne_iff_ne, ne_eq]
  constructor
  · intro h
    refine ⟨by grind, fun hb => ?_⟩
    subst hb
    revert h
    decide
  · grind

/-- A class or an underscore. -/
theorem under_gives {cs : CSet} {g : UInt8 → Bool} (hg : ∀ b, cs.has b = (g b && b != 95)) (h95 : g 95 = true) {pos : Nat} :
    Gives chk data env (.alt (.cls cs) (.lit [95])) pos (if (data.drop pos).head?.any g then some (pos + 1, []) else none) := by
  have h1 := Gives.cls (chk := chk) (data := data) (env := env) (pos := pos) cs
  have h2 := Gives.lit (chk := chk) (data := data) (env := env) (pos := pos) [95]
  have h3 := h1.alt h2
  cases hd : data.drop pos with
  | nil => rw [hd] at h3; simpa using h3
  | cons b t =>
    rw [hd] at h3
    simp only [List.head?_cons, Option.any_some, hg, List.cons_prefix_cons, List.nil_prefix, and_true, List.length_singleton] at h3 ⊢
    by_cases hb : (95 : UInt8) = b
    · subst hb
      simpa [h95] using h3
    · have hb' : ¬ b = 95 := fun h => hb h.symm
      by_cases hgb : g b = true
      · simpa [hgb, hb, hb'] using h3
      · simpa [hgb, hb, hb'] using h3

theorem run_gives {p : Pat} {g : UInt8 → Bool} (hp : ∀ pos, Gives chk data env p pos (if (data.drop pos).head?.any g then some (pos + 1, []) else none)) :
    ∀ {t : List UInt8} {pos : Nat}, data.drop pos = t → Gives chk data env (.star p) pos (some (pos + (t.takeWhile g).length, [])) := by
  intro t
  induction t with
  | nil =>
    intro pos h
    have := hp pos
    rw [h] at this
    exact Gives.starEnd this
  | cons b t ih =>
    intro pos h
    have h1 := hp pos
    rw [h] at h1
    simp only [List.head?_cons, Option.any_some] at h1
    by_cases hb : g b = true
    · simp only [hb, ↓reduceIte] at h1
      have h2 := h1.starStep (ih (drop_next h))
      rw [List.takeWhile_cons, if_pos hb, List.length_cons]
      rwa [show pos + 1 + (t.takeWhile g).length = pos + ((t.takeWhile g).length + 1) by omega] at h2
    · simp only [hb, Bool.false_eq_true, ↓reduceIte] at h1
      rw [List.takeWhile_cons, if_neg hb]
      exact Gives.starEnd h1

theorem word_gives {pos : Nat} : Gives chk data env word pos
    (if wordOf (data.drop pos) = [] then none else some (pos + (wordOf (data.drop pos)).length, [])) := by
  show Gives chk data env (.seq (.alt alpha (.lit [95])) (.star (.alt alnum (.lit [95])))) pos _
  have h1 := under_gives (chk := chk) (data := data) (env := env) alpha_has rfl (pos := pos)
  have h2 := fun pos => under_gives (chk := chk) (data := data) (env := env) alnum_has rfl (pos := pos)
  unfold wordOf
  cases hd : data.drop pos with
  | nil => rw [hd] at h1; exact h1.seqF
  | cons b t =>
    rw [hd] at h1
    simp only [List.head?_cons, Option.any_some] at h1 ⊢
    by_cases hb : isLetter b = true
    · have hb' : isWordByte b = true := by simp [isWordByte, hb]
      simp only [hb, ↓reduceIte] at h1
      simp only [if_pos hb, List.takeWhile_cons, if_pos hb', List.cons_ne_nil, if_false, List.length_cons]
      have h3 := h1.seq (run_gives h2 (drop_next hd))
      simp only [Option.map_some, List.append_nil] at h3
      rwa [show pos + 1 + (t.takeWhile isWordByte).length = pos + ((t.takeWhile isWordByte).length + 1) by omega] at h3
    · simp only [hb, Bool.false_eq_true, ↓reduceIte] at h1 ⊢
      exact h1.seqF

theorem wordOf_prefix (t : List UInt8) : wordOf t <+: t := by
  unfold wordOf
  split
  · exact List.takeWhile_prefix _
  · exact List.nil_prefix

theorem quals_words : quals = qualWords := by decide +kernel

theorem qual_gives (hk : ∀ st m d pos, chk 0 st m d pos 0 0 = (mapCheck quals m, st)) {pos : Nat} : Gives chk data env (.cap wordMatch 2) pos
    (if wordOf (data.drop pos) ∈ quals then
      some (pos + (wordOf (data.drop pos)).length, [.node 2 pos (wordOf (data.drop pos)).length []]) else none) := by
  have h := (Gives.check hk (word_gives (chk := chk) (data := data) (env := env) (pos := pos))).cap 2
  by_cases hw : wordOf (data.drop pos) = []
  · rw [if_pos hw] at h
    rw [if_neg (by rw [hw]; decide)]
    exact h
  · rw [if_neg hw] at h
    have ht : (data.drop pos).take (wordOf (data.drop pos)).length = wordOf (data.drop pos) := (List.prefix_iff_eq_take.1 (wordOf_prefix _)).symm
    simp only [Option.bind_some, Nat.add_sub_cancel_left, ht] at h
    by_cases hq : wordOf (data.drop pos) ∈ quals
    · rw [if_pos hq] at h ⊢
      simpa [wordMatch] using h
    · rw [if_neg hq] at h ⊢
      exact h

theorem escape_has (b : UInt8) : (CSet.new [39, 34, 116, 110, 98, 102, 114, 92]).has b = isEscape b := by
  rw [Bool.eq_iff_iff, CSet.has_new]
  simp [isEscape]

theorem escape_gives {pos : Nat} : Gives chk data env (concatPat [.lit [92], .cls (CSet.new [39, 34, 116, 110, 98, 102, 114, 92])]) pos
    (if (data.drop pos).head? = some 92 ∧ (data.drop (pos + 1)).head?.any isEscape then some (pos + 2, []) else none) := by
  show Gives chk data env (.seq (.lit [92]) (.cls _)) pos _
  have h1 := Gives.lit (chk := chk) (data := data) (env := env) (pos := pos) [92]
  have h2 := Gives.cls (chk := chk) (data := data) (env := env) (pos := pos + 1) (CSet.new [39, 34, 116, 110, 98, 102, 114, 92])
  have he : (CSet.new [39, 34, 116, 110, 98, 102, 114, 92]).has = isEscape := funext escape_has
  rw [he] at h2
  have hp : ([92] <+: data.drop pos) ↔ (data.drop pos).head? = some 92 := by
    cases data.drop pos <;> simp [eq_comm]
  by_cases hb : (data.drop pos).head? = some 92
  · rw [if_pos (hp.2 hb)] at h1
    have h3 := h1.seq h2
    by_cases hc : (data.drop (pos + 1)).head?.any isEscape = true
    · rw [if_pos hc] at h3
      rw [if_pos ⟨hb, hc⟩]
      exact h3
    · rw [if_neg hc] at h3
      rw [if_neg (fun h => hc h.2)]
      exact h3
  · rw [if_neg (fun h => hb (hp.1 h))] at h1
    rw [if_neg (fun h => hb h.1)]
    exact h1.seqF

/-- `(Escape / !'"' .)*` stops in front of the closing quote, or at the end. -/
theorem inside_gives {p : Pat} (hp : ∀ pos, Gives chk data env p pos
      (if (data.drop pos).head? = some 92 ∧ (data.drop (pos + 1)).head?.any isEscape then some (pos + 2, []) else none)) :
    ∀ (n : Nat) {t : List UInt8} {pos : Nat}, t.length ≤ n → data.drop pos = t →
    ∃ k, Gives chk data env (.star (.alt p (.seq (.not (.lit [34])) (.dot 1)))) pos (some (pos + k, [])) ∧
      (∀ n, stringEnd t = some n → [34] <+: t.drop k ∧ n = k + 1) ∧ (stringEnd t = none → ¬ [34] <+: t.drop k) := by
  intro n
  induction n with
  | zero =>
    intro t pos ht h
    obtain rfl : t = [] := List.length_eq_zero_iff.1 (by omega)
    have h1 := hp pos
    rw [h] at h1
    refine ⟨0, Gives.starEnd (h1.altR ?_), fun n hn => by simp [stringEnd] at hn, fun _ => by simp⟩
    have a1 := (Gives.lit (chk := chk) (data := data) (env := env) (pos := pos) [34]).not
    have a2 := Gives.dot (chk := chk) (data := data) (env := env) (pos := pos)
    rw [h] at a1
    rw [if_pos h] at a2
    exact a1.seq a2
  | succ n ih =>
    intro t pos ht h
    match t, ht, h with
    | [], _, h => exact ih (Nat.zero_le _) h
    | b :: t, ht, h =>
      have h1 := hp pos
      rw [h, drop_next h] at h1
      simp only [List.head?_cons] at h1
      have a1 := (Gives.lit (chk := chk) (data := data) (env := env) (pos := pos) [34]).not
      have a2 := Gives.dot (chk := chk) (data := data) (env := env) (pos := pos)
      rw [h] at a1
      rw [if_neg (by rw [h]; simp)] at a2
      have hpre : ([34] <+: b :: t) ↔ b = 34 := by simp [eq_comm]
      by_cases he : some b = some 92 ∧ t.head?.any isEscape = true
      · simp only [he, and_self, ↓reduceIte] at h1
        match t, he, ht, h with
        | c :: t, he, ht, h =>
          have hd : data.drop (pos + 2) = t := drop_next (drop_next h)
          obtain ⟨k, g1, g2, g3⟩ := ih (t := t) (pos := pos + 2) (by simp only [List.length_cons] at ht; omega) hd
          have hb : b = 92 ∧ isEscape c = true := ⟨Option.some.inj he.1, he.2⟩
          refine ⟨k + 2, ?_, fun m hm => ?_, fun hm => ?_⟩
          · have := (h1.altL (q := .seq (.not (.lit [34])) (.dot 1))).starStep g1
            rwa [show pos + 2 + k = pos + (k + 2) by omega] at this
          · simp only [stringEnd, if_pos hb, Option.map_eq_some_iff] at hm
            obtain ⟨m', hm', rfl⟩ := hm
            obtain ⟨x1, x2⟩ := g2 m' hm'
            exact ⟨x1, by omega⟩
          · simp only [stringEnd, if_pos hb, Option.map_eq_none_iff] at hm
            exact g3 hm
      · simp only [he, ↓reduceIte] at h1
        have hs : stringEnd (b :: t) = if b = 34 then some 1 else (stringEnd t).map (· + 1) := by
          cases t with
          | nil => simp [stringEnd]
          | cons c t =>
            rw [stringEnd, if_neg]
            rintro ⟨rfl, hc⟩
            exact he ⟨rfl, hc⟩
        by_cases hb : b = 34
        · rw [if_pos (hpre.2 hb)] at a1
          refine ⟨0, Gives.starEnd (h1.altR (Gives.seqF a1)), fun m hm => ?_, fun hm => ?_⟩
          · rw [hs, if_pos hb] at hm
            cases hm
            exact ⟨hpre.2 hb, rfl⟩
          · rw [hs, if_pos hb] at hm
            cases hm
        · rw [if_neg (fun hh => hb (hpre.1 hh))] at a1
          obtain ⟨k, g1, g2, g3⟩ := ih (t := t) (pos := pos + 1) (by simp only [List.length_cons] at ht; omega) (drop_next h)
          have a3 := h1.altR (Gives.seq a1 a2)
          refine ⟨k + 1, ?_, fun m hm => ?_, fun hm => ?_⟩
          · have := a3.starStep g1
            rwa [show pos + 1 + k = pos + (k + 1) by omega] at this
          · rw [hs, if_neg hb, Option.map_eq_some_iff] at hm
            obtain ⟨m', hm', rfl⟩ := hm
            obtain ⟨x1, x2⟩ := g2 m' hm'
            exact ⟨x1, by omega⟩
          · rw [hs, if_neg hb, Option.map_eq_none_iff] at hm
            exact g3 hm

theorem string_gives {p : Pat} (hp : ∀ pos, Gives chk data env p pos
      (if (data.drop pos).head? = some 92 ∧ (data.drop (pos + 1)).head?.any isEscape then some (pos + 2, []) else none)) {pos : Nat} :
    Gives chk data env (blockPatt [34] [34] (some p)) pos
      (if (data.drop pos).head? = some 34 then (stringEnd (data.drop (pos + 1))).map fun n => (pos + (n + 1), []) else none) := by
  show Gives chk data env (.seq (.seq (.lit [34]) (.star (.alt p (.seq (.not (.lit [34])) (.dot 1))))) (.lit [34])) pos _
  have h0 := Gives.lit (chk := chk) (data := data) (env := env) (pos := pos) [34]
  have hpre : ([34] <+: data.drop pos) ↔ (data.drop pos).head? = some 34 := by
    cases data.drop pos <;> simp [eq_comm]
  by_cases hs : (data.drop pos).head? = some 34
  · rw [if_pos (hpre.2 hs)] at h0
    rw [if_pos hs]
    obtain ⟨k, h1, h2, h3⟩ := inside_gives hp _ (Nat.le_refl _) (rfl : data.drop (pos + 1) = _)
    have h4 := Gives.lit (chk := chk) (data := data) (env := env) (pos := pos + 1 + k) [34]
    rw [← List.drop_drop] at h4
    have h5 := (h0.seq h1).seq h4
    cases hu : stringEnd (data.drop (pos + 1)) with
    | none =>
      rw [if_neg (h3 hu)] at h5
      exact h5
    | some n =>
      obtain ⟨g1, rfl⟩ := h2 n hu
      rw [if_pos g1] at h5
      simp only [Option.map_some, List.append_nil] at h5 ⊢
      rwa [show pos + (k + 1 + 1) = pos + 1 + k + [(34 : UInt8)].length by simp only [List.length_singleton]; omega]
  · rw [if_neg (fun h => hs (hpre.1 h))] at h0
    rw [if_neg hs]
    exact h0.seqF.seqF
end

/-! ## Tokens -/

/-- The end and the captures of a token at `pos`. -/
def tokenAt (t : List UInt8) (pos : Nat) : Option (Nat × List CTree) :=
  (tokenOf t).map fun x => (pos + x.1, x.2.toList.map fun c => .node c.1 pos c.2 [])

section
variable {chk : CheckFn σ} {data : List UInt8}

theorem find_gives {n : String} {p : Pat} {pos : Nat} {r : Option (Nat × List CTree)} (hl : defs.find n = some p)
    (h : Gives chk data [defs] p pos r) : Gives chk data [defs] (.nonterm n) pos r := by
  refine Gives.nonterm (env' := [defs]) ?_ h
  simp [lookupNT, hl]

theorem token_gives (hk : ∀ st m d pos, chk 0 st m d pos 0 0 = (mapCheck quals m, st)) {pos : Nat} :
    Gives chk data [defs] (.nonterm "Token") pos (tokenAt (data.drop pos) pos) := by
  have hline := ((block_gives (chk := chk) (data := data) (env := [defs]) (s := [47, 47]) (e := [10]) (by simp) (pos := pos)).cap 0)
  have hlong := (block_gives (chk := chk) (data := data) (env := [defs]) (s := [47, 42]) (e := [42, 47]) (by simp) (pos := pos))
  have hqual := qual_gives (data := data) (env := [defs]) hk (pos := pos)
  have hword := (word_gives (chk := chk) (data := data) (env := [defs]) (pos := pos))
  have hstr := (string_gives (fun pos => find_gives (n := "Escape") rfl (escape_gives (chk := chk) (data := data) (pos := pos))) (pos := pos)).cap 3
  have hnl := (Gives.lit (chk := chk) (data := data) (env := [defs]) (pos := pos) [10]).cap 4
  have hname : Gives chk data [defs] (concatPat [.cap (.nonterm "Identifier") 1, .lit [40]]) pos
      (if wordOf (data.drop pos) ≠ [] ∧ ((data.drop pos).drop (wordOf (data.drop pos)).length).head? = some 40 then
        some (pos + ((wordOf (data.drop pos)).length + 1), [.node 1 pos (wordOf (data.drop pos)).length []]) else none) := by
    show Gives chk data [defs] (.seq _ _) pos _
    have h1 := (find_gives (n := "Identifier") rfl hword).cap 1
    by_cases hw : wordOf (data.drop pos) = []
    · rw [if_pos hw] at h1
      rw [if_neg (fun h => h.1 hw)]
      exact h1.seqF
    · rw [if_neg hw] at h1
      have h2 := h1.seq (Gives.lit (chk := chk) (data := data) (env := [defs]) (pos := pos + (wordOf (data.drop pos)).length) [40])
      rw [← List.drop_drop] at h2
      have hpre : ([40] <+: (data.drop pos).drop (wordOf (data.drop pos)).length) ↔
          ((data.drop pos).drop (wordOf (data.drop pos)).length).head? = some 40 := by
        cases (data.drop pos).drop (wordOf (data.drop pos)).length <;> simp [eq_comm]
      by_cases hc : ((data.drop pos).drop (wordOf (data.drop pos)).length).head? = some 40
      · rw [if_pos (hpre.2 hc)] at h2
        rw [if_pos ⟨hw, hc⟩]
        simp only [Option.map_some, Nat.add_sub_cancel_left, List.append_nil, List.length_singleton] at h2
        rwa [← Nat.add_assoc]
      · rw [if_neg (fun h => hc (hpre.1 h))] at h2
        rw [if_neg (fun h => hc h.2)]
        exact h2
  have hcom := find_gives (n := "Comment") rfl
    (Gives.alt (find_gives (n := "LineComment") rfl hline) (find_gives (n := "LongComment") rfl hlong))
  have hall := find_gives (n := "Token") rfl (hcom.alt ((find_gives (n := "FuncQual") rfl hqual).alt
    ((find_gives (n := "FuncName") rfl hname).alt ((find_gives (n := "String") rfl hstr).alt (find_gives (n := "Newline") rfl hnl)))))
  refine (congrArg (Gives chk data [defs] (.nonterm "Token") pos) ?_).mp hall
  clear hall hcom hname hnl hstr hword hqual hlong hline
  simp only [← List.drop_drop]
  generalize data.drop pos = t
  cases t with
  | nil => simp [tokenAt, tokenOf, wordOf, ← quals_words]
  | cons b t =>
    have hw0 : isLetter b = false → wordOf (b :: t) = [] := fun h => by simp [wordOf, h]
    have hnil : ¬ ([] : List UInt8) ∈ quals := by decide
    unfold tokenAt tokenOf
    rw [← quals_words]
    by_cases h1 : [47, 47] <+: b :: t
    · have hb : 47 = b := (List.cons_prefix_cons.1 h1).1
      have h2 : ¬ [47, 42] <+: b :: t := by
        intro h2
        have a := (List.cons_prefix_cons.1 h1).2
        have c := (List.cons_prefix_cons.1 h2).2
        cases t with
        | nil => simp at a
        | cons x t =>
          have a := (List.cons_prefix_cons.1 a).1
          have c := (List.cons_prefix_cons.1 c).1
          rw [← a] at c
          exact absurd c (by decide)
      subst hb
      simp only [if_pos h1, if_neg h2, hw0 (by decide), if_neg hnil]
      cases upTo [10] (List.drop 2 (47 :: t)) <;> simp
    · by_cases h2 : [47, 42] <+: b :: t
      · have hb : 47 = b := (List.cons_prefix_cons.1 h2).1
        subst hb
        simp only [if_neg h1, if_pos h2, hw0 (by decide), if_neg hnil]
        cases upTo [42, 47] (List.drop 2 (47 :: t)) <;> simp
      · simp only [if_neg h1, if_neg h2]
        by_cases h3 : wordOf (b :: t) ∈ quals
        · simp [h3]
        · simp only [if_neg h3]
          by_cases h4 : wordOf (b :: t) ≠ [] ∧ (List.drop (wordOf (b :: t)).length (b :: t)).head? = some 40
          · simp only [if_pos h4]
            simp
          · simp only [if_neg h4]
            by_cases h5 : b = 34
            · subst h5
              simp
              cases stringEnd t <;> simp
            · by_cases h6 : b = 10
              · subst h6; simp
              · simp [h5, h6, eq_comm]

theorem upTo_bounds {e : List UInt8} : ∀ {t : List UInt8} {n : Nat}, upTo e t = some n → n ≤ t.length
  | [], n, h => by
    unfold upTo at h
    split at h
    · cases h; exact Nat.le_refl _
    · cases h
  | b :: t, n, h => by
    unfold upTo at h
    split at h
    · rename_i hp
      cases h
      exact hp.length_le
    · obtain ⟨m, hm, rfl⟩ := Option.map_eq_some_iff.1 h
      exact Nat.succ_le_succ (upTo_bounds hm)

theorem stringEnd_bounds : ∀ {t : List UInt8} {n : Nat}, stringEnd t = some n → n ≤ t.length
  | [], n, h => by cases h
  | [b], n, h => by
    simp only [stringEnd] at h
    split at h
    · cases h; exact Nat.le_refl _
    · cases h
  | b :: c :: t, n, h => by
    simp only [stringEnd] at h
    split at h
    · obtain ⟨m, hm, rfl⟩ := Option.map_eq_some_iff.1 h
      have := stringEnd_bounds hm
      simp only [List.length_cons]; omega
    · split at h
      · cases h
        simp
      · obtain ⟨m, hm, rfl⟩ := Option.map_eq_some_iff.1 h
        have := stringEnd_bounds hm
        simp only [List.length_cons] at this ⊢; omega

theorem tokenOf_bounds {t : List UInt8} {n : Nat} {c : Option (Int × Nat)} (h : tokenOf t = some (n, c)) : 1 ≤ n ∧ n ≤ t.length := by
  have hw := (wordOf_prefix t).length_le
  have hne : ∀ {b : UInt8}, t.head? = some b → 1 ≤ t.length := by
    intro b hb
    cases t with
    | nil => cases hb
    | cons _ _ => simp
  unfold tokenOf at h
  rw [← quals_words] at h
  split at h
  · rename_i hp
    obtain ⟨m, hm, h⟩ := Option.map_eq_some_iff.1 h
    cases h
    have h1 := upTo_bounds hm
    have h2 := hp.length_le
    simp only [List.length_drop, List.length_cons, List.length_nil] at h1 h2
    omega
  split at h
  · rename_i hp
    obtain ⟨m, hm, h⟩ := Option.map_eq_some_iff.1 h
    cases h
    have h1 := upTo_bounds hm
    have h2 := hp.length_le
    simp only [List.length_drop, List.length_cons, List.length_nil] at h1 h2
    omega
  split at h
  · rename_i hq
    cases h
    refine ⟨?_, hw⟩
    have : wordOf t ≠ [] := fun h0 => by rw [h0] at hq; exact absurd hq (by decide)
    exact List.length_pos_iff.2 this
  split at h
  · rename_i hq
    cases h
    refine ⟨by omega, ?_⟩
    have := hq.2
    rw [List.head?_drop] at this
    exact (List.getElem?_eq_some_iff.1 this).1
  split at h
  · rename_i hq
    obtain ⟨m, hm, h⟩ := Option.map_eq_some_iff.1 h
    cases h
    have h1 := stringEnd_bounds hm
    have h2 := hne hq
    rw [List.length_drop] at h1
    omega
  split at h
  · rename_i hq
    cases h
    exact ⟨Nat.le_refl _, hne hq⟩
  · cases h

/-! ## Texts -/

theorem tokenAt_nil (pos : Nat) : tokenAt [] pos = none := by
  unfold tokenAt
  rw [show tokenOf [] = none by decide +kernel]
  rfl

/-- `(!Token .)*` goes to the next token; nothing of what it skips is one. -/
theorem skip_gives (hk : ∀ st m d pos, chk 0 st m d pos 0 0 = (mapCheck quals m, st)) : ∀ {t : List UInt8} {pos : Nat}, data.drop pos = t →
    ∃ k, k ≤ t.length ∧ Gives chk data [defs] (.star (.seq (.not (.nonterm "Token")) (.dot 1))) pos (some (pos + k, [])) ∧
      ∀ n, t.length ≤ n → lexF n pos t = lexF (n - k) (pos + k) (t.drop k) := by
  intro t
  induction t with
  | nil =>
    intro pos h
    refine ⟨0, Nat.le_refl _, Gives.starEnd ?_, fun n _ => rfl⟩
    have h1 := (token_gives (data := data) hk (pos := pos)).not
    have h2 := Gives.dot (chk := chk) (data := data) (env := [defs]) (pos := pos)
    rw [if_pos h] at h2
    rw [h, tokenAt_nil] at h1
    exact h1.seq h2
  | cons b t ih =>
    intro pos h
    have h1 := (token_gives (data := data) hk (pos := pos)).not
    rw [h] at h1
    cases ht : tokenOf (b :: t) with
    | some x =>
      rw [show tokenAt (b :: t) pos = some _ by unfold tokenAt; rw [ht]; rfl] at h1
      exact ⟨0, Nat.zero_le _, Gives.starEnd (Gives.seqF h1), fun n _ => rfl⟩
    | none =>
      rw [show tokenAt (b :: t) pos = none by unfold tokenAt; rw [ht]; rfl] at h1
      have h2 := Gives.dot (chk := chk) (data := data) (env := [defs]) (pos := pos)
      rw [if_neg (by rw [h]; simp)] at h2
      obtain ⟨k, g0, g1, g2⟩ := ih (drop_next h)
      refine ⟨k + 1, Nat.succ_le_succ g0, ?_, fun n hn => ?_⟩
      · have := Gives.starStep (Gives.seq h1 h2) g1
        rwa [show pos + 1 + k = pos + (k + 1) by omega] at this
      · obtain ⟨m, rfl⟩ : ∃ m, n = m + 1 := ⟨n - 1, by simp only [List.length_cons] at hn; omega⟩
        rw [lexF, ht]
        simp only [List.drop_succ_cons]
        rw [g2 m (by simp only [List.length_cons] at hn; omega), show pos + (k + 1) = pos + 1 + k by omega, Nat.add_sub_add_right]

theorem items_give (hk : ∀ st m d pos, chk 0 st m d pos 0 0 = (mapCheck quals m, st)) : ∀ (n : Nat) {t : List UInt8} {pos : Nat},
    t.length ≤ n → data.drop pos = t → pos + t.length = data.length →
    Gives chk data [defs] (.star (.memo item 0)) pos (some (data.length, lexF n pos t)) := by
  intro n
  induction n using Nat.strongRecOn with
  | _ n ih =>
    intro t pos hn hd hp
    have h1 := token_gives (data := data) hk (pos := pos)
    rw [hd] at h1
    cases t with
    | nil =>
      have h2 := Gives.dot (chk := chk) (data := data) (env := [defs]) (pos := pos)
      rw [if_pos hd] at h2
      have h3 : Gives chk data [defs] item pos none :=
        Gives.altR (by rwa [tokenAt_nil] at h1) (Gives.seqF h2)
      have h4 := Gives.starEnd (h3.memo 0)
      rw [show pos = data.length by simpa using hp] at h4
      rw [show pos = data.length by simpa using hp, show lexF n data.length [] = [] by cases n <;> rfl]
      exact h4
    | cons b t =>
      obtain ⟨m, rfl⟩ : ∃ m, n = m + 1 := ⟨n - 1, by simp only [List.length_cons] at hn; omega⟩
      rw [lexF]
      simp only [List.length_cons] at hn hp
      cases ht : tokenOf (b :: t) with
      | some x =>
        obtain ⟨l, c⟩ := x
        obtain ⟨hl1, hl2⟩ := tokenOf_bounds ht
        simp only [List.length_cons] at hl2
        rw [show tokenAt (b :: t) pos = some (pos + l, c.toList.map fun x => .node x.1 pos x.2 []) by unfold tokenAt; rw [ht]; rfl] at h1
        have h3 : Gives chk data [defs] item pos _ := Gives.altL h1
        refine Gives.starStep (h3.memo 0) (ih m (by omega) ?_ ?_ ?_)
        · simp only [List.length_drop, List.length_cons]; omega
        · rw [← List.drop_drop, hd]
        · simp only [List.length_drop, List.length_cons]; omega
      | none =>
        rw [show tokenAt (b :: t) pos = none by unfold tokenAt; rw [ht]; rfl] at h1
        have h2 := Gives.dot (chk := chk) (data := data) (env := [defs]) (pos := pos)
        rw [if_neg (by rw [hd]; simp)] at h2
        obtain ⟨k, g0, g1, g2⟩ := skip_gives (data := data) hk (drop_next hd)
        have h3 : Gives chk data [defs] item pos (some (pos + 1 + k, [])) := Gives.altR h1 (Gives.seq h2 g1)
        simp only []
        rw [g2 m (by omega)]
        refine Gives.starStep (cs := []) (h3.memo 0) (ih (m - k) (by omega) ?_ ?_ ?_)
        · simp only [List.length_drop]; omega
        · rw [← List.drop_drop, drop_next hd]
        · simp only [List.length_drop]; omega

theorem grammar_gives (hk : ∀ st m d pos, chk 0 st m d pos 0 0 = (mapCheck quals m, st)) :
    Gives chk data [] grammar 0 (some (data.length, lex data)) :=
  Gives.grammar (p := .star (.memo item 0)) rfl (items_give hk _ (Nat.le_refl _) rfl (by simp))
end

/-! ## Memoized parts -/

/-- The checker of the grammar. -/
def quKey (k : Nat) (id flag : Int) : Bool := k == 0 && id == 0 && flag == 0

theorem quKey_eq {k : Nat} {id flag : Int} (h : quKey k id flag = true) : k = 0 ∧ id = 0 ∧ flag = 0 := by
  simpa [quKey, and_assoc] using h

theorem grammar_dots : grammar.Dots1 := by
  simp [grammar, defs, item, word, wordMatch, blockPatt, alpha, alnum, orPat, concatPat, Pat.leaves, Defs.leaves, Pat.Dots1]
theorem grammar_scoped : grammar.Scoped := by
  simp [grammar, defs, item, word, wordMatch, blockPatt, alpha, alnum, orPat, concatPat, Pat.Scoped, Defs.Scoped, Defs.noCap, Pat.noCap]

theorem memosOK {chk : CheckFn σ} (hk : ∀ st m d pos, chk 0 st m d pos 0 0 = (mapCheck quals m, st)) {top : Int} (ht : 0 ≤ top) :
    grammar.MemosOK chk top := by
  have hone : grammar.memos [] = [⟨0, false, item, [defs]⟩] := rfl
  refine ⟨?_, ?_, ?_⟩
  · intro o ho
    rw [hone] at ho
    obtain rfl := List.mem_singleton.1 ho
    refine Occ.quiet_of_calm (K := quKey) (fun k id flag h => ?_) (by decide) (by decide)
    obtain ⟨rfl, rfl, rfl⟩ := quKey_eq h
    exact ⟨fun m _ _ => mapCheck quals m, fun st m d pos => hk st m d pos⟩
  · intro o ho o' ho' _
    rw [hone] at ho ho'
    obtain rfl := List.mem_singleton.1 ho
    obtain rfl := List.mem_singleton.1 ho'
    exact ⟨rfl, fun _ _ _ _ => rfl⟩
  · intro o ho
    rw [hone] at ho
    obtain rfl := List.mem_singleton.1 ho
    exact ht

theorem memos_cov {chk : CheckFn σ} (hk : ∀ st m d pos, chk 0 st m d pos 0 0 = (mapCheck quals m, st)) :
    ∀ o ∈ grammar.memos [], Covered chk o.env o.q := by
  refine memos_covered_of_tests (S := fun n => n != "S") (P := fun n => n != "S") (K := quKey) (by decide +kernel) (fun k id flag h => ?_)
    (by decide +kernel) (by decide +kernel)
  obtain ⟨rfl, rfl, rfl⟩ := quKey_eq h
  refine ⟨fun m => quals.contains m, fun st m d pos => ?_⟩
  rw [hk]
  rfl

end Bench

/-! ## The theorems -/

section
open Bench
variable {tbl : Nat → Checker} {top : Int} {code : Code} {data d d₀ : List UInt8} {bufsz bufsz₀ : Nat} {st st₀ st₁ : Nat → Symbols}

theorem quals_check (htbl : tbl 0 = .map quals) : ∀ st m d pos, checkers tbl 0 st m d pos 0 0 = (mapCheck quals m, st) := by
  intro st m d pos
  unfold checkers
  rw [htbl]

/-- What parses of a text should return. -/
def Tokens (data : List UInt8) (st : Nat → Symbols) : Option (Bool × Option (Nat × List CTree) × List PErr × (Nat → Symbols)) :=
  some (true, some (data.length, lex data), [], st)

theorem tokens_of {τ : Type} {f : Nat} {r : XRes Input τ (Nat → Symbols)}
    (h : ExecRes none (outcome (some (data.length, lex data)), f, ⟨[], st⟩) r) : r.view = Tokens data st := by
  obtain ⟨a, b, ch, src, tbl, rfl, h1, h2, h3⟩ := h
  simp only [XRes.view, Capture.trees, h1, h2, Tokens, pruneL_none]

/-- **C77**. The grammar of `bench/java.go` finds the tokens of a text. With no table, and with every table that arises from parses
of the text (though there is a checker inside the memoized part), the machine stops, and it returns: a match, all of the text, the
captures of `lex`, no errors, and the checkers as they were. `lex` is as in the comments of the file: comments up to the end of the
line or to `*/`, the words of `FuncQual`, identifiers that stand in front of a parenthesis, strings with escapes, newlines. -/
theorem C77_tokens (htop : 0 ≤ top) (hc : CompiledAt top grammar code) (htbl : tbl 0 = .map quals) (hb : 0 < bufsz) {T : TreeTable}
    (hT : Warm (checkers tbl) code data T) :
    (∃ r, RunsTo (checkers tbl) none code bufsz data st r) ∧
    (∀ r, RunsTo (checkers tbl) none code bufsz data st r → r.view = Tokens data st) ∧
    (∃ r, RunsTree (checkers tbl) code bufsz data T st r) ∧
    ∀ r, RunsTree (checkers tbl) code bufsz data T st r → r.view = Tokens data st := by
  have hk := quals_check htbl
  obtain ⟨f, hg⟩ := grammar_gives (data := data) hk ⟨[], st⟩
  have h2 : (∃ r, RunsTo (checkers tbl) none code bufsz data st r) ∧
      ∀ r, RunsTo (checkers tbl) none code bufsz data st r → r.view = Tokens data st := by
    obtain ⟨k, cst, raw, cst', rfl, hc, he⟩ := hc.raw
    obtain ⟨h3, h4⟩ := exec_none (data := data) (iv := none) (checkers_ok tbl) grammar_dots grammar_scoped hc he hb st
    refine ⟨?_, fun r hr => ?_⟩
    · obtain ⟨r, hr, _⟩ := h3 _ hg
      exact ⟨r, hr⟩
    · obtain ⟨e, he, hx⟩ := h4 r hr
      rw [he.det hg] at hx
      exact tokens_of hx
  obtain ⟨h5, h6⟩ := C27_memo_transparent_partial (st := st) hc grammar_dots grammar_scoped (checkers_ok tbl) (memosOK hk htop) hb hT
  refine ⟨h2.1, h2.2, ?_, fun r hr => ?_⟩
  · obtain ⟨r, hr⟩ := h2.1
    obtain ⟨r', hr', _⟩ := h6 r hr
    exact ⟨r', hr'⟩
  · obtain ⟨r', hr', hv⟩ := h5 r hr
    rw [hv]
    exact h2.2 r' hr'

/-- **C77**, the first reparse. A text is parsed with an empty table, edited (see `C28_reparse_partial`), and parsed again with the
table: the captures are those of the new text. It is partial, as the edits after the first do not make the text shorter. For more
parses see `C77_false`. -/
theorem C77_reparse_partial (htop : 0 ≤ top) (hc : CompiledAt top grammar code) (htbl : tbl 0 = .map quals) (hb₀ : 0 < bufsz₀) (hb : 0 < bufsz)
    {th : Int} {T T' : TreeTable} {ok : Bool} {cap : Option Capture} {src : Input} {errs : List PErr} {edited : Bool}
    (h₀ : RunsTree (checkers tbl) code bufsz₀ d₀ (TreeTable.new th) st₀ (.done ok cap src errs T st₁)) (hed : Edited T d₀ edited T' d) :
    (∃ r, RunsTree (checkers tbl) code bufsz d T' st r) ∧
    ∀ r, RunsTree (checkers tbl) code bufsz d T' st r → r.view = Tokens d st := by
  have hk := quals_check htbl
  obtain ⟨h1, h2, -, -⟩ := C77_tokens (data := d) (st := st) htop hc htbl hb (.new 0)
  obtain ⟨h3, h4⟩ := C28_reparse_partial (st := st) hc grammar_dots grammar_scoped (checkers_ok tbl) (memosOK hk htop) (memos_cov hk) hb₀ hb h₀ hed
  refine ⟨?_, fun r hr => ?_⟩
  · obtain ⟨r, hr⟩ := h1
    obtain ⟨r', hr', _⟩ := h4 r hr
    exact ⟨r', hr'⟩
  · obtain ⟨r', hr', hv⟩ := h3 r hr
    rw [hv]
    exact h2 r' hr'

end

end Gpeg
