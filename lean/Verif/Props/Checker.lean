import Verif.Checker
import Verif.Props.Compile
import Verif.Props.Incremental
/-!
# Property C54: the checkers of the library

`Check(p, MapChecker)` matches what `p` matches if that is one of the listed words. `BackReference`: a use matches the
text of the latest definition of its id. "Latest" is the order in which the parser works: definitions made in
alternatives that are given up count (`C54_abandoned_false`).
-/
namespace Gpeg

/-- The bytes at `i`, ..., `j - 1` occur (again) at `m`. -/
def Occurs (d : List UInt8) (i j m : Nat) : Prop :=
  m + (j - i) ≤ d.length ∧ ∀ x, x < j - i → d[m + x]? = d[i + x]?

/-- The compiled program matches, ending at `j`, and leaves the checkers in state `st'`. -/
def MatchesTo {σ : Type} (chk : CheckFn σ) (code : Code) (bufsz : Nat) (data : List UInt8) (st : σ) (j : Nat) (st' : σ) :
    Prop :=
  ∃ cap src errs, RunsTo chk none code bufsz data st (.done true cap src errs () st') ∧ src.pos = j

/-- The compiled program stops without a match. -/
def NoMatch {σ : Type} (chk : CheckFn σ) (code : Code) (bufsz : Nat) (data : List UInt8) (st : σ) : Prop :=
  ∃ cap src errs st', RunsTo chk none code bufsz data st (.done false cap src errs () st')

section
variable {σ : Type} {p : Pat} {code : Code} {chk : CheckFn σ} {data : List UInt8} {bufsz : Nat} {st : σ}

theorem matchesTo_iff (hc : Compiled p code) (hd : p.Dots1) (hs : p.Scoped) (hchk : CheckOK chk) (hb : 0 < bufsz)
    {j : Nat} {st' : σ} : MatchesTo chk code bufsz data st j st' ↔
    ∃ cs f w, Evals ⟨data, chk, false⟩ [] p 0 ⟨[], st⟩ (.ok j cs, f, w) ∧ w.cst = st' := by
  obtain ⟨h1, h2⟩ := exec_evals (iv := none) (data := data) (st := st) hc hd hs hchk hb
  constructor
  · rintro ⟨cap, src, errs, hr, rfl⟩
    obtain ⟨⟨res, far, w⟩, he, hx⟩ := h2 _ hr
    cases res with
    | ok pos cs =>
      obtain ⟨a, b, ch, s, t, h, hpos, _⟩ := hx
      cases h
      exact ⟨cs, far, w, by rw [hpos]; exact he, rfl⟩
    | fail => obtain ⟨s, t, h⟩ := hx; cases h
    | abort q => obtain ⟨cp, s, t, h, _⟩ := hx; cases h
  · rintro ⟨cs, f, w, he, rfl⟩
    obtain ⟨r, hr, a, b, ch, s, t, rfl, hpos, _⟩ := h1 _ he
    exact ⟨_, _, _, hr, hpos⟩

theorem noMatch_iff (hc : Compiled p code) (hd : p.Dots1) (hs : p.Scoped) (hchk : CheckOK chk) (hb : 0 < bufsz) :
    NoMatch chk code bufsz data st ↔
    ∃ e, Evals ⟨data, chk, false⟩ [] p 0 ⟨[], st⟩ e ∧ ∀ j cs, e.1 ≠ .ok j cs := by
  obtain ⟨h1, h2⟩ := exec_evals (iv := none) (data := data) (st := st) hc hd hs hchk hb
  constructor
  · rintro ⟨cap, src, errs, st', hr⟩
    obtain ⟨⟨res, far, w⟩, he, hx⟩ := h2 _ hr
    refine ⟨_, he, ?_⟩
    rintro j cs hj
    simp only at hj
    subst hj
    obtain ⟨a, b, ch, s, t, h, hpos, _⟩ := hx
    cases h
  · rintro ⟨⟨res, far, w⟩, he, hn⟩
    obtain ⟨r, hr, hx⟩ := h1 _ he
    cases res with
    | ok pos cs => exact absurd rfl (hn pos cs)
    | fail => obtain ⟨s, t, rfl⟩ := hx; exact ⟨_, _, _, _, hr⟩
    | abort q => obtain ⟨cp, s, t, rfl, _⟩ := hx; exact ⟨_, _, _, _, hr⟩
end

theorem chkOK_checkers (tbl : Nat → Checker) (data : List UInt8) : ChkOK ⟨data, checkers tbl, false⟩ :=
  fun k st m pos id flag n st' hp h => checkers_ok tbl k st m data pos id flag n st' hp h

theorem take_occurs {d : List UInt8} {i j m : Nat} (hj : j ≤ d.length) (hm : m ≤ d.length) :
    (d.drop m).take ((d.drop i).take (j - i)).length = (d.drop i).take (j - i) ↔ Occurs d i j m := by
  have hl : ((d.drop i).take (j - i)).length = j - i := by
    rw [List.length_take, List.length_drop]; omega
  rw [hl]
  constructor
  · intro h
    have h1 := congrArg List.length h
    rw [hl, List.length_take, List.length_drop] at h1
    refine ⟨?_, fun x hx => ?_⟩
    · omega
    · have := congrArg (fun l => l[x]?) h
      simpa [List.getElem?_take, hx] using this
  · rintro ⟨h1, h2⟩
    apply List.ext_getElem?
    intro x
    simp only [List.getElem?_take, List.getElem?_drop]
    split
    · rename_i hx; exact h2 x hx
    · rfl

section
variable {tbl : Nat → Checker} {data : List UInt8} {bufsz : Nat} {code : Code} {env : Env}

theorem check_map_eval {p : Pat} {k : Nat} {id flag : Int} {strs : List (List UInt8)} (hk : tbl k = .map strs) {i j : Nat}
    {cs : List CTree} {f : Nat} {w w' : World (Nat → Symbols)}
    (h : Evals ⟨data, checkers tbl, false⟩ env p i w (.ok j cs, f, w')) :
    Evals ⟨data, checkers tbl, false⟩ env (.check p k id flag) i w
      (if (data.drop i).take (j - i) ∈ strs then (.ok j cs, f, w') else (.fail, f, w')) := by
  refine evals_check.2 ⟨_, h, ?_⟩
  simp only [checkEv, checkers, hk, mapCheck, List.contains_iff_mem]
  by_cases hm : (data.drop i).take (j - i) ∈ strs
  · simp [hm]
  · simp [hm]

theorem check_fail_eval {p : Pat} {k : Nat} {id flag : Int} {i : Nat} {f : Nat} {w w' : World (Nat → Symbols)}
    (h : Evals ⟨data, checkers tbl, false⟩ env p i w (.fail, f, w')) :
    Evals ⟨data, checkers tbl, false⟩ env (.check p k id flag) i w (.fail, f, w') :=
  evals_check.2 ⟨_, h, rfl⟩

/-- **C54**, word lists. After any prefix `q`, `Check(p, MapChecker)` matches exactly what `p` matches if that is one of
the words, and fails if `p` fails or the text is not listed. The state of the other checkers stays as it is. -/
theorem C54_map {q p : Pat} {k : Nat} {id flag : Int} {strs : List (List UInt8)} {st : Nat → Symbols}
    (hk : tbl k = .map strs) (hq : q.Pure) (hp : p.Pure) (hc : Compiled (.seq q (.check p k id flag)) code)
    (hd : (Pat.seq q p).Dots1) (hs : (Pat.seq q p).Scoped) (hb : 0 < bufsz) :
    (∀ j st', MatchesTo (checkers tbl) code bufsz data st j st' ↔ st' = st ∧ ∃ i cs cs',
      Ford data [] q 0 (some (i, cs)) ∧ Ford data [] p i (some (j, cs')) ∧ (data.drop i).take (j - i) ∈ strs) ∧
    (NoMatch (checkers tbl) code bufsz data st ↔ Ford data [] q 0 none ∨ ∃ i cs, Ford data [] q 0 (some (i, cs)) ∧
      (Ford data [] p i none ∨
        ∃ j cs', Ford data [] p i (some (j, cs')) ∧ (data.drop i).take (j - i) ∉ strs)) := by
  have hd' : (Pat.seq q (.check p k id flag)).Dots1 := by
    intro n hn
    simp only [Pat.leaves, List.mem_append, List.mem_cons, reduceCtorEq, false_or] at hn
    exact hd n (by simp only [Pat.leaves, List.mem_append]; exact hn)
  have hs' : (Pat.seq q (.check p k id flag)).Scoped := hs
  have hpe : Env.Pure [] := fun _ h => by cases h
  have key : ∀ e, Evals ⟨data, checkers tbl, false⟩ [] (.seq q (.check p k id flag)) 0 ⟨[], st⟩ e →
      (∃ f, e = (.fail, f, ⟨[], st⟩) ∧ (Ford data [] q 0 none ∨ ∃ i cs, Ford data [] q 0 (some (i, cs)) ∧
        (Ford data [] p i none ∨ ∃ j cs', Ford data [] p i (some (j, cs')) ∧ (data.drop i).take (j - i) ∉ strs))) ∨
      ∃ i j cs cs' f, e = (.ok j (cs ++ cs'), f, ⟨[], st⟩) ∧ Ford data [] q 0 (some (i, cs)) ∧
        Ford data [] p i (some (j, cs')) ∧ (data.drop i).take (j - i) ∈ strs := by
    intro e he
    obtain ⟨⟨r1, f1, w1⟩, h1, h2⟩ := evals_seq.1 he
    obtain ⟨x, hx, hw, hf⟩ := evals_pure hq hpe h1
    simp only at hx hw
    subst hx hw
    cases x with
    | none =>
      have h2 : e = (.fail, f1, _) := h2
      exact .inl ⟨f1, h2, .inl hf⟩
    | some x =>
      obtain ⟨i, cs⟩ := x
      obtain ⟨_, ⟨z, hz, rfl⟩, rfl⟩ := h2
      obtain ⟨⟨r2, f2, w2⟩, h3, h4⟩ := evals_check.1 hz
      obtain ⟨y, hy, hw, hg⟩ := evals_pure hp hpe h3
      simp only at hy hw
      subst hy hw
      cases y with
      | none =>
        rw [show checkEv ⟨data, checkers tbl, false⟩ i k id flag (toRes none, f2, _) = (.fail, f2, _) from rfl] at h4
        subst h4
        exact .inl ⟨_, rfl, .inr ⟨i, cs, hf, .inl hg⟩⟩
      | some y =>
        obtain ⟨j, cs'⟩ := y
        have h5 := hz.det (check_map_eval (id := id) (flag := flag) hk h3)
        subst h5
        by_cases hm : (data.drop i).take (j - i) ∈ strs
        · refine .inr ⟨i, j, cs, cs', max f1 f2, ?_, hf, hg, hm⟩
          simp only [hm, if_true, Res.prepend]
        · refine .inl ⟨max f1 f2, ?_, .inr ⟨i, cs, hf, .inr ⟨j, cs', hg, hm⟩⟩⟩
          simp only [hm, if_false, Res.prepend]
  refine ⟨fun j st' => ?_, ?_⟩
  · rw [matchesTo_iff hc hd' hs' (checkers_ok tbl) hb]
    constructor
    · rintro ⟨cs, f, w, he, rfl⟩
      rcases key _ he with ⟨f, h, _⟩ | ⟨i, j, cs, cs', f, h, h1, h2, h3⟩
      · cases h
      · cases h
        exact ⟨rfl, i, cs, cs', h1, h2, h3⟩
    · rintro ⟨rfl, i, cs, cs', h1, h2, h3⟩
      obtain ⟨f1, h1⟩ := h1.evals (chk := checkers tbl) (w := ⟨[], st'⟩)
      obtain ⟨f2, h2⟩ := h2.evals (chk := checkers tbl) (w := ⟨[], st'⟩)
      have h4 := check_map_eval (id := id) (flag := flag) hk h2
      rw [if_pos h3] at h4
      exact ⟨_, _, _, evals_seq.2 ⟨_, h1, _, ⟨_, h4, rfl⟩, rfl⟩, rfl⟩
  · rw [noMatch_iff hc hd' hs' (checkers_ok tbl) hb]
    constructor
    · rintro ⟨e, he, hn⟩
      rcases key _ he with ⟨f, _, h⟩ | ⟨i, j, cs, cs', f, rfl, _⟩
      · exact h
      · exact absurd rfl (hn _ _)
    · rintro (h | ⟨i, cs, h1, h⟩)
      · obtain ⟨f1, h1⟩ := h.evals (chk := checkers tbl) (w := ⟨[], st⟩)
        exact ⟨_, evals_seq.2 ⟨_, h1, rfl⟩, fun _ _ h => nomatch h⟩
      · obtain ⟨f1, h1⟩ := h1.evals (chk := checkers tbl) (w := ⟨[], st⟩)
        rcases h with h | ⟨j, cs', h2, h3⟩
        · obtain ⟨f2, h2⟩ := h.evals (chk := checkers tbl) (w := ⟨[], st⟩)
          exact ⟨_, evals_seq.2 ⟨_, h1, _, ⟨_, check_fail_eval h2, rfl⟩, rfl⟩, fun _ _ h => nomatch h⟩
        · obtain ⟨f2, h2⟩ := h2.evals (chk := checkers tbl) (w := ⟨[], st⟩)
          have h4 := check_map_eval (id := id) (flag := flag) hk h2
          rw [if_neg h3] at h4
          exact ⟨_, evals_seq.2 ⟨_, h1, _, ⟨_, h4, rfl⟩, rfl⟩, fun _ _ h => nomatch h⟩

/-! ## Back-references -/

theorem use_eval {p : Pat} {k o : Nat} {id : Int} (hk : tbl k = .backRef o) {i j : Nat}
    {cs : List CTree} {f : Nat} {w w' : World (Nat → Symbols)}
    (h : Evals ⟨data, checkers tbl, false⟩ env p i w (.ok j cs, f, w')) :
    Evals ⟨data, checkers tbl, false⟩ env (.check p k id 1) i w
      (if (data.drop j).take ((w'.cst o).get id).length = (w'.cst o).get id
        then (.ok (j + ((w'.cst o).get id).length) cs, f, w') else (.fail, f, w')) := by
  refine evals_check.2 ⟨_, h, ?_⟩
  have hid : ∀ (g : Nat → Symbols), (fun r' => if r' = o then g o else g r') = g := by
    intro g; funext r'; split
    · rename_i h; rw [h]
    · rfl
  simp only [checkEv, checkers, hk, backRefCheck_use]
  by_cases hm : (data.drop j).take ((w'.cst o).get id).length = (w'.cst o).get id
  · simp only [hm, if_true, hid]
  · simp only [hm, if_false, hid]

/-- The state after `bytes` have been stored under `id` in object `o`. -/
def defined (st : Nat → Symbols) (o : Nat) (id : Int) (bytes : List UInt8) : Nat → Symbols :=
  fun r' => if r' = o then (st o).set id bytes else st r'

theorem def_eval {p : Pat} {k o : Nat} {id : Int} (hk : tbl k = .backRef o) {i j : Nat}
    {cs : List CTree} {f : Nat} {w w' : World (Nat → Symbols)}
    (h : Evals ⟨data, checkers tbl, false⟩ env p i w (.ok j cs, f, w')) :
    Evals ⟨data, checkers tbl, false⟩ env (.check p k id 0) i w
      (.ok j cs, f, { w' with cst := defined w'.cst o id ((data.drop i).take (j - i)) }) := by
  refine evals_check.2 ⟨_, h, ?_⟩
  simp only [checkEv, checkers, hk, backRefCheck]
  rfl

theorem get_defined (st : Nat → Symbols) (o : Nat) (id : Int) (bytes : List UInt8) :
    ((defined st o id bytes) o).get id = bytes := by
  simp only [defined, if_true, Symbols.get_set]

/-- No check node of the pattern stores something under `id` in object `o`. -/
def Pat.NoDef (tbl : Nat → Checker) (o : Nat) (id : Int) (p : Pat) : Prop :=
  ∀ a ∈ p.checks, tbl a.1 = .backRef o → a.2.1 = id → a.2.2 % 256 ≠ 0

theorem noDef_get {o : Nat} {id : Int} {p : Pat} {i : Nat} {w : World (Nat → Symbols)} {e : Ev (Nat → Symbols)}
    (hp : p.NoDef tbl o id) (h : Evals ⟨data, checkers tbl, false⟩ [] p i w e) :
    (e.2.2.cst o).get id = (w.cst o).get id := by
  obtain ⟨n, h⟩ := h
  refine eval_inv (c := ⟨data, checkers tbl, false⟩) (A := p.checks) (I := fun st => (st o).get id = (w.cst o).get id) ?_ n []
    p i w e (fun a h => h) (fun _ h => nomatch h) h rfl
  rintro ⟨k, id', flag⟩ ha st m d pos hst
  have := hp _ ha
  simp only at this
  show ((checkers tbl k st m d pos id' flag).2 o).get id = _
  simp only [checkers]
  split
  · exact hst
  · rename_i r hr
    simp only
    by_cases ho : o = r
    · subst ho
      rw [if_pos rfl]
      simp only [backRefCheck]
      split
      · rename_i hf
        rw [Symbols.get_set, if_neg (fun h => this hr h hf)]
        exact hst
      · split
        · split <;> exact hst
        · exact hst
    · rw [if_neg ho]
      exact hst

/-- **C54**, back-references. A use after a definition, with no other definition of the same id in between (neither in `r`
nor in `s`), matches exactly when the bytes the definition matched occur again, and consumes them. -/
theorem C54_backref {q p r s : Pat} {k k' o : Nat} {id : Int} {st : Nat → Symbols} (hk : tbl k = .backRef o)
    (hk' : tbl k' = .backRef o)
    (hc : Compiled (.seq (.seq (.seq q (.check p k id 0)) r) (.check s k' id 1)) code)
    (hd : (Pat.seq (.seq (.seq q p) r) s).Dots1) (hs : (Pat.seq (.seq (.seq q p) r) s).Scoped) (hb : 0 < bufsz)
    (hr : r.NoDef tbl o id) (hs' : s.NoDef tbl o id)
    {i j m l : Nat} {c₁ c₂ c₃ c₄ : List CTree} {f₁ f₂ f₃ f₄ : Nat} {w₁ w₂ w₃ w₄ : World (Nat → Symbols)}
    (h₁ : Evals ⟨data, checkers tbl, false⟩ [] q 0 ⟨[], st⟩ (.ok i c₁, f₁, w₁))
    (h₂ : Evals ⟨data, checkers tbl, false⟩ [] p i w₁ (.ok j c₂, f₂, w₂))
    (h₃ : Evals ⟨data, checkers tbl, false⟩ [] (.seq (.seq q (.check p k id 0)) r) 0 ⟨[], st⟩ (.ok m c₃, f₃, w₃))
    (h₄ : Evals ⟨data, checkers tbl, false⟩ [] s m w₃ (.ok l c₄, f₄, w₄)) :
    (Occurs data i j l → MatchesTo (checkers tbl) code bufsz data st (l + (j - i)) w₄.cst) ∧
    (¬ Occurs data i j l → NoMatch (checkers tbl) code bufsz data st) := by
  have hd' : (Pat.seq (.seq (.seq q (.check p k id 0)) r) (.check s k' id 1)).Dots1 := by
    intro n hn
    simp only [Pat.leaves, List.mem_append, List.mem_cons, reduceCtorEq, false_or] at hn
    exact hd n (by simp only [Pat.leaves, List.mem_append]; exact hn)
  have hsc : (Pat.seq (.seq (.seq q (.check p k id 0)) r) (.check s k' id 1)).Scoped := hs
  have hC := chkOK_checkers tbl data
  have b1 := h₁.bounds hC (Nat.zero_le _)
  have b2 := h₂.bounds hC b1.2
  have b3 := h₃.bounds hC (Nat.zero_le _)
  have b4 := h₄.bounds hC b3.2
  have hdef := evals_seq.2 ⟨_, h₁, _, ⟨_, def_eval (id := id) hk h₂, rfl⟩, rfl⟩
  obtain ⟨x, hx, h3⟩ := evals_seq.1 h₃
  have := hx.det hdef
  subst this
  obtain ⟨_, ⟨z, hz, rfl⟩, h5⟩ := h3
  have hg : (w₄.cst o).get id = (data.drop i).take (j - i) := by
    have e1 := noDef_get hs' h₄
    have e2 := noDef_get hr hz
    simp only at e1 e2
    rw [get_defined] at e2
    simp only [Prod.mk.injEq] at h5
    rw [e1, h5.2.2]
    exact e2
  have hl : ((data.drop i).take (j - i)).length = j - i := by
    have := b2.2
    simp only at this
    rw [List.length_take, List.length_drop]; omega
  have hu := use_eval (id := id) hk' h₄
  rw [hg] at hu
  have ht := take_occurs (d := data) (i := i) (j := j) (m := l) b2.2 b4.2
  constructor
  · intro ho
    rw [if_pos (ht.2 ho), hl] at hu
    exact (matchesTo_iff hc hd' hsc (checkers_ok tbl) hb).2 ⟨_, _, _, evals_seq.2 ⟨_, h₃, _, ⟨_, hu, rfl⟩, rfl⟩, rfl⟩
  · intro ho
    rw [if_neg (fun h => ho (ht.1 h))] at hu
    exact (noMatch_iff hc hd' hsc (checkers_ok tbl) hb).2
      ⟨_, evals_seq.2 ⟨_, h₃, _, ⟨_, hu, rfl⟩, rfl⟩, fun _ _ h => nomatch h⟩
/-- A use of an id that nothing has been stored under matches the empty string. -/
theorem C54_undefined {q s : Pat} {k o : Nat} {id : Int} {st : Nat → Symbols} (hk : tbl k = .backRef o)
    (hc : Compiled (.seq q (.check s k id 1)) code) (hd : (Pat.seq q s).Dots1) (hs : (Pat.seq q s).Scoped) (hb : 0 < bufsz)
    (hst : (st o).get id = []) (hq : q.NoDef tbl o id) (hs' : s.NoDef tbl o id) {i j : Nat} {c₁ c₂ : List CTree}
    {f₁ f₂ : Nat} {w₁ w₂ : World (Nat → Symbols)}
    (h₁ : Evals ⟨data, checkers tbl, false⟩ [] q 0 ⟨[], st⟩ (.ok i c₁, f₁, w₁))
    (h₂ : Evals ⟨data, checkers tbl, false⟩ [] s i w₁ (.ok j c₂, f₂, w₂)) :
    MatchesTo (checkers tbl) code bufsz data st j w₂.cst := by
  have hd' : (Pat.seq q (.check s k id 1)).Dots1 := by
    intro n hn
    simp only [Pat.leaves, List.mem_append, List.mem_cons, reduceCtorEq, false_or] at hn
    exact hd n (by simp only [Pat.leaves, List.mem_append]; exact hn)
  have hsc : (Pat.seq q (.check s k id 1)).Scoped := hs
  have hg : (w₂.cst o).get id = [] := by
    have e1 := noDef_get hs' h₂
    have e2 := noDef_get hq h₁
    simp only at e1 e2
    rw [e1, e2, hst]
  have hu := use_eval (id := id) hk h₂
  rw [hg, if_pos (by simp)] at hu
  exact (matchesTo_iff hc hd' hsc (checkers_ok tbl) hb).2 ⟨_, _, _, evals_seq.2 ⟨_, h₁, _, ⟨_, hu, rfl⟩, rfl⟩, rfl⟩

/-- The pattern of `TestBackReference` (`gpeg_test.go:266-276`), for any opening delimiter `p`: the delimiter, any text not
containing it, the same delimiter. -/
def delimited (p : Pat) (k : Nat) (id : Int) : Pat :=
  concatPat [.check p k id 0, .star (concatPat [.not (.check .empty k id 1), .dot 1]), .check .empty k id 1]

theorem skip_eval {k o : Nat} {id : Int} (hk : tbl k = .backRef o) {t : List UInt8} {w : World (Nat → Symbols)}
    (hw : (w.cst o).get id = t) : ∀ (n m : Nat), data.length - m = n → m ≤ data.length → ∃ f m',
    Evals ⟨data, checkers tbl, false⟩ env (.star (.seq (.not (.check .empty k id 1)) (.dot 1))) m w (.ok m' [], f, w) ∧
    m ≤ m' ∧ m' ≤ data.length ∧ (∀ x, m ≤ x → x < m' → (data.drop x).take t.length ≠ t) ∧
    ((data.drop m').take t.length = t ∨ m' = data.length) := by
  intro n
  induction n with
  | zero =>
    intro m hn hm
    have he := use_eval (env := env) (id := id) hk (evals_empty (c := ⟨data, checkers tbl, false⟩) (env := env) (pos := m) (w := w).2 rfl)
    rw [hw] at he
    by_cases ho : (data.drop m).take t.length = t
    · rw [if_pos ho] at he
      have h1 := evals_seq (r := .dot 1).2 ⟨_, evals_not.2 ⟨_, he, rfl⟩, rfl⟩
      exact ⟨_, m, evals_star.2 ⟨_, h1, rfl⟩, Nat.le_refl _, hm, fun x h1 h2 => by omega, .inl ho⟩
    · rw [if_neg ho] at he
      have h1 := evals_seq.2 ⟨_, evals_not.2 ⟨_, he, rfl⟩, _, ⟨_, evals_dot (k := 1).2 rfl, rfl⟩, rfl⟩
      simp only [dotEv] at h1
      rw [if_neg (by show ¬ m + 1 ≤ data.length; omega)] at h1
      exact ⟨_, m, evals_star.2 ⟨_, h1, rfl⟩, Nat.le_refl _, hm, fun x h1 h2 => by omega, .inr (by omega)⟩
  | succ n ih =>
    intro m hn hm
    have he := use_eval (env := env) (id := id) hk (evals_empty (c := ⟨data, checkers tbl, false⟩) (env := env) (pos := m) (w := w).2 rfl)
    rw [hw] at he
    by_cases ho : (data.drop m).take t.length = t
    · rw [if_pos ho] at he
      have h1 := evals_seq (r := .dot 1).2 ⟨_, evals_not.2 ⟨_, he, rfl⟩, rfl⟩
      exact ⟨_, m, evals_star.2 ⟨_, h1, rfl⟩, Nat.le_refl _, hm, fun x h1 h2 => by omega, .inl ho⟩
    · rw [if_neg ho] at he
      have h1 := evals_seq.2 ⟨_, evals_not.2 ⟨_, he, rfl⟩, _, ⟨_, evals_dot (k := 1).2 rfl, rfl⟩, rfl⟩
      simp only [dotEv] at h1
      rw [if_pos (by show m + 1 ≤ data.length; omega)] at h1
      obtain ⟨f, m', h2, h3, h4, h5, h6⟩ := ih (m + 1) (by omega) (by omega)
      refine ⟨_, m', evals_star.2 ⟨_, h1, _, h2, rfl⟩, by omega, h4, ?_, h6⟩
      intro x hx1 hx2
      by_cases hx : x = m
      · rw [hx]; exact ho
      · exact h5 x (by omega) hx2

/-- **C54**, the pattern of `TestBackReference`: it matches, up to `n`, exactly when its delimiter pattern matches the first `j`
bytes and the first later occurrence of these bytes ends at `n`; it fails exactly when the delimiter pattern does or
there is no later occurrence. -/
theorem C54_delimited {p : Pat} {k o : Nat} {id : Int} {st : Nat → Symbols} (hk : tbl k = .backRef o)
    (hc : Compiled (delimited p k id) code) (hp : p.Pure) (hd : p.Dots1) (hs : p.Scoped) (hb : 0 < bufsz) :
    (∀ n, (∃ st', MatchesTo (checkers tbl) code bufsz data st n st') ↔ ∃ j cs m, Ford data [] p 0 (some (j, cs)) ∧
      j ≤ m ∧ Occurs data 0 j m ∧ (∀ x, j ≤ x → x < m → ¬ Occurs data 0 j x) ∧ n = m + j) ∧
    (NoMatch (checkers tbl) code bufsz data st ↔ Ford data [] p 0 none ∨ ∃ j cs, Ford data [] p 0 (some (j, cs)) ∧
      ∀ x, j ≤ x → ¬ Occurs data 0 j x) := by
  have hd' : (delimited p k id).Dots1 := by
    intro n hn
    simp only [delimited, concatPat, List.foldl, Pat.leaves, List.mem_append, List.mem_cons, reduceCtorEq, false_or,
      List.not_mem_nil, or_false, Leaf.dot.injEq] at hn
    exact hn.elim (hd n) (fun h => h)
  have hsc : (delimited p k id).Scoped := by
    simp only [delimited, concatPat, List.foldl, Pat.Scoped]
    exact ⟨⟨hs, trivial, trivial⟩, trivial⟩
  have hpe : Env.Pure [] := fun _ h => by cases h
  have hC := chkOK_checkers tbl data
  -- the evaluation, given that of `p`
  have key : ∀ j cs, Ford data [] p 0 (some (j, cs)) → ∃ m, j ≤ m ∧
      (∀ x, j ≤ x → x < m → ¬ Occurs data 0 j x) ∧
      ((Occurs data 0 j m ∧ ∃ cs' f w', Evals ⟨data, checkers tbl, false⟩ [] (delimited p k id) 0 ⟨[], st⟩ (.ok (m + j) cs', f, w')) ∨
       ((∀ x, j ≤ x → ¬ Occurs data 0 j x) ∧
        ∃ f w', Evals ⟨data, checkers tbl, false⟩ [] (delimited p k id) 0 ⟨[], st⟩ (.fail, f, w'))) := by
    intro j cs hf
    obtain ⟨f, he⟩ := hf.evals (chk := checkers tbl) (w := ⟨[], st⟩)
    have b := he.bounds hC (Nat.zero_le _)
    have hdef := def_eval (id := id) hk he
    have hl : ((data.drop 0).take (j - 0)).length = j := by
      have := b.2
      simp only at this
      rw [List.length_take, List.length_drop]; omega
    obtain ⟨f', m, h2, h3, h4, h5, h6⟩ := skip_eval (env := []) hk (w := ⟨[], defined st o id ((data.drop 0).take (j - 0))⟩)
      (get_defined _ _ _ _) _ j rfl b.2
    have h4 : m ≤ data.length := h4
    have h6 : _ ∨ m = data.length := h6
    have ht : ∀ x, x ≤ data.length → ((data.drop x).take ((data.drop 0).take (j - 0)).length = (data.drop 0).take (j - 0) ↔
        Occurs data 0 j x) := fun x hx => take_occurs b.2 hx
    have hno : ∀ x, j ≤ x → x < m → ¬ Occurs data 0 j x := fun x h1 h2 ho =>
      h5 x h1 h2 ((ht x (Nat.le_of_lt (Nat.lt_of_lt_of_le h2 h4))).2 ho)
    have hpre := evals_seq.2 ⟨_, hdef, _, ⟨_, h2, rfl⟩, rfl⟩
    have hu := use_eval (env := []) (id := id) hk (evals_empty (c := ⟨data, checkers tbl, false⟩) (env := []) (pos := m)
      (w := ⟨[], defined st o id ((data.drop 0).take (j - 0))⟩).2 rfl)
    rw [get_defined] at hu
    refine ⟨m, h3, hno, ?_⟩
    by_cases ho : Occurs data 0 j m
    · rw [if_pos ((ht m h4).2 ho), hl] at hu
      exact .inl ⟨ho, _, _, _, evals_seq.2 ⟨_, hpre, _, ⟨_, hu, rfl⟩, rfl⟩⟩
    · rw [if_neg (fun h => ho ((ht m h4).1 h))] at hu
      refine .inr ⟨?_, _, _, evals_seq.2 ⟨_, hpre, _, ⟨_, hu, rfl⟩, rfl⟩⟩
      intro x hx hox
      by_cases hxm : x < m
      · exact hno x hx hxm hox
      · rcases h6 with h6 | h6
        · exact ho ((ht m h4).1 h6)
        · have h1 := hox.1
          have : j = 0 := by omega
          subst this
          exact ho ⟨by omega, fun x hx => by omega⟩
  have keyF : Ford data [] p 0 none → ∃ f w', Evals ⟨data, checkers tbl, false⟩ [] (delimited p k id) 0 ⟨[], st⟩ (.fail, f, w') := by
    intro hf
    obtain ⟨f, he⟩ := hf.evals (chk := checkers tbl) (w := ⟨[], st⟩)
    exact ⟨_, _, evals_seq.2 ⟨_, evals_seq.2 ⟨_, check_fail_eval he, rfl⟩, rfl⟩⟩
  have keyP : ∀ e, Evals ⟨data, checkers tbl, false⟩ [] (delimited p k id) 0 ⟨[], st⟩ e → ∃ x, Ford data [] p 0 x := by
    intro e he
    obtain ⟨_, h1, _⟩ := evals_seq.1 he
    obtain ⟨_, h1, _⟩ := evals_seq.1 h1
    obtain ⟨_, h1, _⟩ := evals_check.1 h1
    obtain ⟨x, _, _, hx⟩ := evals_pure hp hpe h1
    exact ⟨x, hx⟩
  refine ⟨fun n => ?_, ?_⟩
  · constructor
    · rintro ⟨st', hm⟩
      obtain ⟨cs', f, w, he, _⟩ := (matchesTo_iff hc hd' hsc (checkers_ok tbl) hb).1 hm
      obtain ⟨x, hx⟩ := keyP _ he
      cases x with
      | none =>
        obtain ⟨f, w', h⟩ := keyF hx
        cases he.det h
      | some x =>
        obtain ⟨j, cs⟩ := x
        obtain ⟨m, h1, h2, ⟨h3, cs', f, w', h4⟩ | ⟨h3, f, w', h4⟩⟩ := key j cs hx
        · cases he.det h4
          exact ⟨j, cs, m, hx, h1, h3, h2, rfl⟩
        · cases he.det h4
    · rintro ⟨j, cs, m, hx, h1, h3, h2, rfl⟩
      obtain ⟨m', h1', h2', ⟨h3', cs', f, w', h4⟩ | ⟨h3', f, w', h4⟩⟩ := key j cs hx
      · have : m = m' := by
          by_cases hlt : m < m'
          · exact absurd h3 (h2' m h1 hlt)
          · by_cases hgt : m' < m
            · exact absurd h3' (h2 m' h1' hgt)
            · omega
        subst this
        exact ⟨_, (matchesTo_iff hc hd' hsc (checkers_ok tbl) hb).2 ⟨_, _, _, h4, rfl⟩⟩
      · exact absurd h3 (h3' m h1)
  · rw [noMatch_iff hc hd' hsc (checkers_ok tbl) hb]
    constructor
    · rintro ⟨e, he, hn⟩
      obtain ⟨x, hx⟩ := keyP _ he
      cases x with
      | none => exact .inl hx
      | some x =>
        obtain ⟨j, cs⟩ := x
        obtain ⟨m, h1, h2, ⟨h3, cs', f, w', h4⟩ | ⟨h3, f, w', h4⟩⟩ := key j cs hx
        · have := he.det h4
          subst this
          exact absurd rfl (hn _ _)
        · exact .inr ⟨j, cs, hx, h3⟩
    · rintro (h | ⟨j, cs, hx, h⟩)
      · obtain ⟨f, w', h⟩ := keyF h
        exact ⟨_, h, fun _ _ h => nomatch h⟩
      · obtain ⟨m, h1, h2, ⟨h3, cs', f, w', h4⟩ | ⟨h3, f, w', h4⟩⟩ := key j cs hx
        · exact absurd h3 (h m h1)
        · exact ⟨_, h4, fun _ _ h => nomatch h⟩
end

/-! ## Examples and what does not hold -/

/-- One `BackReference` object. -/
abbrev oneRef : Nat → Checker := fun _ => .backRef 0
/-- Nothing stored yet. -/
abbrev noSyms : Nat → Symbols := fun _ => []

/-- The program of `TestBackReference`, `"/"+` as the delimiter. -/
def exDelim : Pat := delimited (.plus (.lit [47])) 0 0
/-- Its code. -/
def exDelimCode : Code := match compile 20 exDelim ⟨0, 0, true⟩ with
  | .ok (prog, _) => (encode prog).getD ⟨[], [], [], []⟩
  | .error _ => ⟨[], [], [], []⟩

example : Compiled exDelim exDelimCode := ⟨20, ⟨0, 0, true⟩, _, _, rfl, by decide⟩
example : (Pat.plus (.lit [47])).Pure ∧ (Pat.plus (.lit [47])).Dots1 ∧ (Pat.plus (.lit [47])).Scoped :=
  ⟨by simp [Pat.Pure, Pat.leaves], by intro n hn; simp [Pat.leaves] at hn, trivial⟩
/-- `//a//b` is matched up to 5, with the delimiter stored. -/
example : ∃ st, MatchesTo (checkers oneRef) exDelimCode 3 [47, 47, 97, 47, 47, 98] noSyms 5 st ∧ (st 0).get 0 = [47, 47] :=
  ⟨_, ⟨_, _, _, ⟨80, _, rfl, rfl⟩, rfl⟩, rfl⟩
/-- `//a/b` is not matched. -/
example : NoMatch (checkers oneRef) exDelimCode 3 [47, 47, 97, 47, 98] noSyms := ⟨_, _, _, _, ⟨80, _, rfl, rfl⟩⟩

/-- Words of one or more `a`, `b`, of which `ab` and `ba` are listed, after a blank. -/
example : ∃ code, Compiled (.seq (.lit [32]) (.check (.plus (.cls (CSet.new [97, 98]))) 0 0 0)) code ∧
    (∃ st, MatchesTo (checkers fun _ => .map [[97, 98], [98, 97]]) code 3 [32, 98, 97, 32] noSyms 3 st) ∧
    NoMatch (checkers fun _ => .map [[97, 98], [98, 97]]) code 3 [32, 98, 97, 97] noSyms :=
  ⟨_, ⟨20, ⟨0, 0, true⟩, _, _, rfl, rfl⟩, ⟨_, _, _, _, ⟨30, _, rfl, rfl⟩, rfl⟩, _, _, _, _, ⟨30, _, rfl, rfl⟩⟩

/-- The hypotheses of `C54_backref`, with another definition and another use in between: `Def0('a'/'b') Def1(.) Use1() Use0()`. -/
example : ∃ code, Compiled (.seq (.seq (.seq .empty (.check (.cls (CSet.new [97, 98])) 0 0 0))
      (.seq (.check (.dot 1) 0 1 0) (.check .empty 0 1 1))) (.check .empty 0 0 1)) code ∧
    Pat.NoDef oneRef 0 0 (.seq (.check (.dot 1) 0 1 0) (.check .empty 0 1 1)) ∧ Pat.NoDef oneRef 0 0 .empty ∧
    ∃ st, MatchesTo (checkers oneRef) code 3 [98, 99, 99, 98] noSyms 4 st := by
  refine ⟨_, ⟨20, ⟨0, 0, true⟩, _, _, rfl, rfl⟩, ?_, ?_, _, _, _, _, ⟨30, _, rfl, rfl⟩, rfl⟩
  · intro a ha
    simp only [Pat.checks, List.cons_append, List.nil_append, List.mem_cons, List.not_mem_nil, or_false] at ha
    rcases ha with rfl | rfl <;> simp
  · intro a ha; simp [Pat.checks] at ha

/-- One would expect an alternative that fails to have no effect on what follows. It does: `Def("a") "x"` fails on `aa`, but
`(Def("a") "x" / "a") Use()` matches both bytes, `"a" Use()` only the first one. -/
theorem C54_abandoned_false : ∃ l r s c₁ c₂ c₃, Compiled l c₁ ∧ Compiled (.seq (.alt l r) s) c₂ ∧ Compiled (.seq r s) c₃ ∧
    NoMatch (checkers oneRef) c₁ 4096 [97, 97] noSyms ∧
    (∃ st, MatchesTo (checkers oneRef) c₂ 4096 [97, 97] noSyms 2 st) ∧
    ∃ st, MatchesTo (checkers oneRef) c₃ 4096 [97, 97] noSyms 1 st :=
  ⟨.seq (.check (.lit [97]) 0 0 0) (.lit [120]), .lit [97], .check .empty 0 0 1, _, _, _,
    ⟨20, ⟨0, 0, true⟩, _, _, rfl, rfl⟩, ⟨20, ⟨0, 0, true⟩, _, _, rfl, rfl⟩, ⟨20, ⟨0, 0, true⟩, _, _, rfl, rfl⟩,
    ⟨_, _, _, _, ⟨30, _, rfl, rfl⟩⟩, ⟨_, _, _, _, ⟨30, _, rfl, rfl⟩, rfl⟩, ⟨_, _, _, _, ⟨30, _, rfl, rfl⟩, rfl⟩⟩

/-- Two runs of the same program are not independent either: the object keeps what the first run stored. `Use() "b" Def("c")`
matches `bc`, and does not match it again. -/
theorem C54_rerun_false : ∃ p code st, Compiled p code ∧ MatchesTo (checkers oneRef) code 4096 [98, 99] noSyms 2 st ∧
    NoMatch (checkers oneRef) code 4096 [98, 99] st :=
  ⟨.seq (.check .empty 0 0 1) (.seq (.lit [98]) (.check (.lit [99]) 0 0 0)), _, _, ⟨20, ⟨0, 0, true⟩, _, _, rfl, rfl⟩,
    ⟨_, _, _, ⟨30, _, rfl, rfl⟩, rfl⟩, ⟨_, _, _, _, ⟨30, _, rfl, rfl⟩⟩⟩

/-- A use reads the text with `ReadAt`, which does not count as looking at it. `Def("abc") Memo("-" !Use())` is run on `abc-abd`;
then the last byte is replaced by `c`. Without a table the text does not match; with the table it does, the entry of the memoized
part still being there. -/
theorem C54_memo_false : ∃ p code T T' st, CompiledAt 0 p code ∧
    (∃ cap src, RunsTree (checkers oneRef) code 4096 [97, 98, 99, 45, 97, 98, 100] (TreeTable.new 0) noSyms
      (.done true cap src [] T st)) ∧
    Edited T [97, 98, 99, 45, 97, 98, 100] true T' [97, 98, 99, 45, 97, 98, 99] ∧
    NoMatch (checkers oneRef) code 4096 [97, 98, 99, 45, 97, 98, 99] noSyms ∧
    ∃ cap src T'' st', RunsTree (checkers oneRef) code 4096 [97, 98, 99, 45, 97, 98, 99] T' noSyms
      (.done true cap src [] T'' st') :=
  ⟨.seq (.check (.lit [97, 98, 99]) 0 0 0) (.memo (.seq (.lit [45]) (.not (.check .empty 0 0 1))) 0), _, _, _, _,
    ⟨20, ⟨0, 0, true⟩, _, _, rfl, rfl, rfl⟩, ⟨_, _, ⟨30, _, rfl, rfl⟩⟩,
    .edit ⟨6, 7, [99]⟩ .none (by decide) (by decide) (fun h => by cases h),
    ⟨_, _, _, _, ⟨30, _, rfl, rfl⟩⟩, _, _, _, _, ⟨30, _, rfl, rfl⟩⟩

end Gpeg
