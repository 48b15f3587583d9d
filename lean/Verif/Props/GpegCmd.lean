import Verif.Props.Listing
import Verif.Props.ProgSize
import Verif.Props.Compile
import Verif.EncTotal
import Verif.Asserts
import Verif.RePlain
import Verif.Props.Re
import Verif.Props.Rx
import Verif.Props.ReConv
/-!
# Property C87: what the command `gpeg` prints tells the language of the grammar (`cmd/gpeg/main.go:40-54`)
-/
namespace Gpeg

/-- `cmd/gpeg/main.go:49-53`: the pattern is compiled to the program `prog`, which is printed; `code` is its bytecode. The values of the
counters for labels and memo entries are those left by what was done before. -/
def Makes (p : Pat) (prog : Program) (code : Code) : Prop :=
  (∃ k cst cst', compile k p cst = .ok (prog, cst')) ∧ encode prog = some code

theorem Makes.compiled {p : Pat} {prog : Program} {code : Code} (h : Makes p prog code) : Compiled p code := by
  obtain ⟨⟨k, cst, cst', h⟩, he⟩ := h
  exact ⟨k, cst, prog, cst', h, he⟩

theorem labelOffs_nops (l : Nat) : ∀ (p : Program) (n d : Nat), labelOffs l p n d = labelOffs l (p.filter (· != .nop)) n d
  | [], _, _ => rfl
  | i :: p, n, d => by
    have ih := labelOffs_nops l p
    by_cases h : i = .nop
    · subst h
      simp [labelOffs, Insn.size, ih]
    · rw [List.filter_cons_of_pos (by simpa using h)]
      cases i <;> simp [labelOffs, ih]

theorem resolved_nops (p : Program) : p.resolved = Program.resolved (p.filter (· != .nop)) := by
  unfold Program.resolved
  rw [List.filter_filter]
  congr 1
  · funext l
    cases l <;> simp [Insn.retarget, ← labelOffs_nops]
  · apply List.filter_congr
    intro i _
    cases i <;> simp [Insn.Marks]

/-- What `Optimize` leaves in a program was there or is one of these. -/
theorem optimize_mem {p : Program} {i : Insn} (h : i ∈ optimize p) :
    i ∈ p ∨ i = .nop ∨ (∃ b l, i = .testChar b l) ∨ (∃ s l, i = .testSet s l) ∨ ∃ n l, i = .testAny n l := by
  have step : ∀ (lb : Nat → Nat) (q : Program) (k : Nat) (i : Insn), i ∈ optStep lb q k →
      i ∈ q ∨ i = .nop ∨ (∃ b l, i = .testChar b l) ∨ (∃ s l, i = .testSet s l) ∨ ∃ n l, i = .testAny n l := by
    intro lb q k i h
    have key : ∀ {y : Insn}, i ∈ (q.set k y).set (k + 1) .nop → i ∈ q ∨ i = .nop ∨ i = y := by
      intro y h
      rcases List.mem_or_eq_of_mem_set h with h | h
      · rcases List.mem_or_eq_of_mem_set h with h | h
        · exact .inl h
        · exact .inr (.inr h)
      · exact .inr (.inl h)
    unfold optStep at h
    split at h
    · split at h
      · rcases key h with h | h | h
        · exact .inl h
        · exact .inr (.inl h)
        · exact .inr (.inr (.inl ⟨_, _, h⟩))
      · rcases key h with h | h | h
        · exact .inl h
        · exact .inr (.inl h)
        · exact .inr (.inr (.inr (.inl ⟨_, _, h⟩)))
      · rcases key h with h | h | h
        · exact .inl h
        · exact .inr (.inl h)
        · exact .inr (.inr (.inr (.inr ⟨_, _, h⟩)))
      · exact .inl h
    · split at h
      · rename_i x hx
        split at h
        · rcases List.mem_or_eq_of_mem_set h with h | rfl
          · exact .inl h
          · exact .inl (List.mem_of_mem_drop (mem_of_nextInsn hx))
        · exact .inl h
      · exact .inl h
    · exact .inl h
  have gen : ∀ (is : List Nat) (lb : Nat → Nat) (q : Program), i ∈ is.foldl (optStep lb) q →
      i ∈ q ∨ i = .nop ∨ (∃ b l, i = .testChar b l) ∨ (∃ s l, i = .testSet s l) ∨ ∃ n l, i = .testAny n l := by
    intro is lb
    induction is with
    | nil => intro q h; exact .inl h
    | cons k is ih =>
      intro q h
      rcases ih _ h with h | h
      · exact step lb q k i h
      · exact .inr h
  exact gen _ _ _ h

/-- The assertions of the pattern have one condition each (`emptyToString`, `isa/isa.go:505-522`), so that none is printed as
`Unknown`. -/
def Pat.Asserts1 (p : Pat) : Prop := ∀ op ∈ p.asserts, op = 1 ∨ op = 2 ∨ op = 4 ∨ op = 8 ∨ op = 16 ∨ op = 32

theorem Makes.shown {p : Pat} {prog : Program} {code : Code} (h : Makes p prog code) (hc : Leaf.chk ∉ p.leaves) (ha : p.Asserts1) :
    ∀ i ∈ prog, i.Shown := by
  intro i hi
  obtain ⟨⟨k, cst, cst', h⟩, he⟩ := h
  obtain ⟨raw, s1, h1, h2⟩ := cm_bind.1 h
  obtain ⟨rfl, rfl⟩ := cm_pure.1 h2
  have hno : ∀ j : Insn, j.leaf? = some .chk → j ∉ raw := fun j hj hm => hc (compile_leaf hj k h1 hm)
  have hopen := encode_openCall he
  cases i with
  | emptyOp op =>
    rcases optimize_mem hi with h | h | ⟨_, _, h⟩ | ⟨_, _, h⟩ | ⟨_, _, h⟩
    · exact ha op (compile_assert (i := .emptyOp op) rfl k h1 h)
    all_goals cases h
  | openCall n => exact absurd hi (hopen n)
  | checkBegin a b =>
    rcases optimize_mem hi with h | h | ⟨_, _, h⟩ | ⟨_, _, h⟩ | ⟨_, _, h⟩
    · exact absurd h (hno _ rfl)
    all_goals cases h
  | checkEnd a =>
    rcases optimize_mem hi with h | h | ⟨_, _, h⟩ | ⟨_, _, h⟩ | ⟨_, _, h⟩
    · exact absurd h (hno _ rfl)
    all_goals cases h
  | _ => trivial

/-- **C87, the code.** If the listings of the programs made of two patterns are the same, so is their bytecode, and with it everything
that can be seen of them at run time. Missing: patterns with checkers, and assertions with several conditions (`C81_false`). -/
theorem C87_code_partial {p q : Pat} {P Q : Program} {c d : Code} (chk : Nat → List Char) (hp : Makes p P c) (hq : Makes q Q d)
    (hcp : Leaf.chk ∉ p.leaves) (hcq : Leaf.chk ∉ q.leaves) (hap : p.Asserts1) (haq : q.Asserts1)
    (h : P.listing chk = Q.listing chk) : c = d := by
  have := C81_listing_partial chk P Q (hp.shown hcp hap) (hq.shown hcq haq) h
  rw [C85_same hp.2 hq.2, resolved_nops P, resolved_nops Q, this]

/-- **C87, the language.** If the listings of the programs made of two patterns are the same, the patterns match the same prefixes of
every text, with the same captures. Missing: patterns with checkers or errors, and assertions with several conditions. -/
theorem C87_language_partial {p q : Pat} {P Q : Program} {c d : Code} (chk : Nat → List Char) (hp : Makes p P c) (hq : Makes q Q d)
    (hpp : p.Pure) (hpq : q.Pure) (hdp : p.Dots1) (hdq : q.Dots1) (hsp : p.Scoped) (hsq : q.Scoped) (hap : p.Asserts1)
    (haq : q.Asserts1) (h : P.listing chk = Q.listing chk) (data : List UInt8) (x : Option (Nat × List CTree)) :
    Ford data [] p 0 x ↔ Ford data [] q 0 x := by
  have hcd := C87_code_partial chk hp hq hpp.1 hpq.1 hap haq h
  subst hcd
  have key : ∀ {p q : Pat} {c : Code} {x : Option (Nat × List CTree)}, Compiled p c → Compiled q c → q.Pure → p.Dots1 → q.Dots1 →
      p.Scoped → q.Scoped → Ford data [] p 0 x → Ford data [] q 0 x := by
    intro p q c x hp hq hpq hdp hdq hsp hsq hf
    let ck : CheckFn Unit := fun _ s _ _ _ _ _ => (none, s)
    have hck : CheckOK ck := fun _ _ _ _ _ _ _ _ _ _ h => by cases h
    obtain ⟨far, hev⟩ := hf.evals (chk := ck) (w := ⟨[], ()⟩)
    obtain ⟨r, hr, hx⟩ := (exec_evals (iv := none) (bufsz := 4096) hp hdp hsp hck (by decide)).1 _ hev
    obtain ⟨e, hev', hx'⟩ := (exec_evals (iv := none) (bufsz := 4096) hq hdq hsq hck (by decide)).2 _ hr
    obtain ⟨y, hy, hw, hf'⟩ := evals_pure hpq (fun _ h => by cases h) hev'
    obtain ⟨res, far', w'⟩ := e
    simp only at hy hw
    subst hy hw
    have : x = y := by
      cases x with
      | none =>
        obtain ⟨src, tbl, rfl⟩ := hx
        cases y with
        | none => rfl
        | some y => obtain ⟨_, _, _, _, _, h, _⟩ := hx'; cases h
      | some x =>
        obtain ⟨a, b, ch, src, tbl, rfl, h1, h2, _⟩ := hx
        cases y with
        | none => obtain ⟨_, _, h⟩ := hx'; cases h
        | some y =>
          obtain ⟨_, _, _, _, _, h, h3, h4, _⟩ := hx'
          cases h
          rw [pruneL_none] at h2 h4
          exact congrArg some (Prod.ext (h1.symm.trans h3) (h2.symm.trans h4))
    rw [this]
    exact hf'
  exact ⟨key hp.compiled hq.compiled hpq hdp hdq hsp hsq, key hq.compiled hp.compiled hpp hdq hdp hsq hsp⟩

theorem Pat.Plain.asserts : ∀ {p : Pat}, p.Plain → p.asserts = []
  | .alt a b, h | .seq a b, h => by
    simp [Pat.asserts, Pat.Plain.asserts (p := a) h.1, Pat.Plain.asserts (p := b) h.2]
  | .star p, h | .plus p, h | .opt p, h | .not p, h | .and p, h | .cap p _, h | .memo p _, h => Pat.Plain.asserts (p := p) h
  | .dot _, _ | .cls _, _ | .lit _, _ | .nonterm _, _ | .empty, _ => by simp [Pat.asserts]

theorem Defs.Plain.asserts : ∀ {ds : Defs}, ds.Plain → ds.asserts = []
  | .nil, _ => rfl
  | .cons _ p rest, h => by simp [Defs.asserts, Pat.Plain.asserts (p := p) h.1, Defs.Plain.asserts (ds := rest) h.2]

theorem Defs.plain_of {ds : Defs} (hn : ds.names.Nodup) (h : ∀ k b, ds.find k = some b → b.Plain) : ds.Plain := by
  induction ds using Defs.rec (motive_1 := fun _ => True) with
  | nil => trivial
  | cons m p rest _ ih =>
    simp only [Defs.names, List.nodup_cons] at hn
    refine ⟨h m p (by simp [Defs.find]), ih hn.2 fun k b hb => h k b ?_⟩
    rw [Defs.find, if_neg, hb]
    rintro rfl
    exact hn.1 (Defs.find_mem_names hb)
  | _ => trivial

theorem lastDef_plain {k : String} {b : Pat} : ∀ {ds : Defs}, ds.Plain → Re.lastDef k ds = some b → b.Plain
  | .nil, _, h => by simp [Re.lastDef] at h
  | .cons k' v rest, hp, h => by
    rw [Re.lastDef] at h
    cases hr : Re.lastDef k rest with
    | some p =>
      rw [hr] at h
      cases h
      exact lastDef_plain hp.2 hr
    | none =>
      rw [hr] at h
      simp only at h
      split at h
      · cases h; exact hp.1
      · cases h

/-! ### Assertions of converted regular expressions -/

theorem Pat.Asserts1.concat {p k : Pat} (hp : p.Asserts1) (hk : k.Asserts1) : (concatPat [p, k]).Asserts1 := by
  intro op h
  exact (List.mem_append.1 h).elim (hp op) (hk op)

theorem Pat.Asserts1.or {ps : List Pat} (h : ∀ p ∈ ps, p.Asserts1) : (orPat ps).Asserts1 := by
  have key : ∀ (ps : List Pat) (p : Pat), p.Asserts1 → (∀ q ∈ ps, q.Asserts1) → (ps.foldl (fun acc q => .alt q acc) p).Asserts1 := by
    intro ps
    induction ps with
    | nil => intro p hp _; exact hp
    | cons q ps ih =>
      intro p hp h
      exact ih _ (fun op ho => (List.mem_append.1 ho).elim (h q (by simp) op) (hp op)) fun x hx => h x (by simp [hx])
  unfold orPat
  have h : ∀ p ∈ ps.reverse, p.Asserts1 := fun p hp => h p (List.mem_reverse.1 hp)
  split
  · intro op h; cases h
  · rename_i p rest e
    rw [e] at h
    exact key rest p (h p (by simp)) fun q hq => h q (by simp [hq])

theorem Pat.Asserts1.star {s : String} {r k : Pat} (hr : r.Asserts1) (hk : k.Asserts1) :
    (Pat.grammar s (.cons s (orPat [r, k]) .nil)).Asserts1 := by
  intro op h
  simp only [Pat.asserts, Defs.asserts, List.append_nil] at h
  refine Pat.Asserts1.or (ps := [r, k]) (fun p hp => ?_) op h
  simp only [List.mem_cons, List.not_mem_nil, or_false] at hp
  rcases hp with rfl | rfl <;> assumption

mutual
theorem Rx.pi_asserts : ∀ (e : Rx) {k p : Pat} {n n' : Nat}, e.pi k n = some (p, n') → k.Asserts1 → p.Asserts1
  | .empty, k, p, n, n', h, hk => by
    simp only [Rx.pi, Option.some.injEq, Prod.mk.injEq] at h
    obtain ⟨rfl, rfl⟩ := h
    exact hk
  | .cls rgs, k, p, n, n', h, hk => by
    simp only [Rx.pi, Option.some.injEq, Prod.mk.injEq] at h
    obtain ⟨rfl, rfl⟩ := h
    apply Pat.Asserts1.or
    intro a ha
    obtain ⟨g, _, ha⟩ := List.mem_flatMap.1 ha
    unfold clsAlts at ha
    split at ha
    · simp only [List.mem_cons, List.not_mem_nil, or_false] at ha
      subst ha; exact .concat (fun op h => by simp [Pat.asserts] at h) hk
    · obtain ⟨_, _, rfl⟩ := List.mem_map.1 ha
      exact .concat (fun op h => by simp [Pat.asserts] at h) hk
  | .lit _ _, k, p, n, n', h, hk | .any, k, p, n, n', h, hk
  | .anyNL, k, p, n, n', h, hk | .bol, k, p, n, n', h, hk | .eol, k, p, n, n', h, hk
  | .bot, k, p, n, n', h, hk | .eot, k, p, n, n', h, hk | .wb, k, p, n, n', h, hk
  | .nwb, k, p, n, n', h, hk => by
    simp only [Rx.pi, Option.some.injEq, Prod.mk.injEq] at h
    obtain ⟨rfl, rfl⟩ := h
    refine .concat (fun op h => ?_) hk
    first
      | (simp [Pat.asserts] at h; done)
      | (simp only [Pat.asserts, List.mem_singleton] at h; subst h; decide)
  | .cat es, k, p, n, n', h, hk => Rxs.piCat_asserts es h hk
  | .alt es, k, p, n, n', h, hk => by
    simp only [Rx.pi, Option.map_eq_some_iff, Prod.mk.injEq] at h
    obtain ⟨⟨ps, m⟩, h, rfl, rfl⟩ := h
    exact .or (Rxs.piAlt_asserts es h hk)
  | .cap e, k, p, n, n', h, hk => Rx.pi_asserts e (by simpa only [Rx.pi] using h) hk
  | .star _ e, k, p, n, n', h, hk => by
    simp only [Rx.pi, Option.map_eq_some_iff, Prod.mk.injEq] at h
    obtain ⟨⟨r, m⟩, h, rfl, rfl⟩ := h
    exact .star (Rx.pi_asserts e h (fun op h => by simp [Pat.asserts] at h)) hk
  | .plus _ e, k, p, n, n', h, hk => by
    simp only [Rx.pi, Option.bind_eq_some_iff] at h
    obtain ⟨⟨r, m⟩, h, h'⟩ := h
    exact Rx.pi_asserts e h' (.star (Rx.pi_asserts e h (fun op h => by simp [Pat.asserts] at h)) hk)
  | .quest _ e, k, p, n, n', h, hk => by
    simp only [Rx.pi, Option.map_eq_some_iff, Prod.mk.injEq] at h
    obtain ⟨⟨r, m⟩, h, rfl, rfl⟩ := h
    apply Pat.Asserts1.or
    intro a ha
    simp only [List.mem_cons, List.not_mem_nil, or_false] at ha
    rcases ha with rfl | rfl
    · exact Rx.pi_asserts e h hk
    · exact hk
  | .other, k, p, n, n', h, hk => by simp [Rx.pi] at h
theorem Rxs.piCat_asserts : ∀ (es : Rxs) {k p : Pat} {n n' : Nat}, es.piCat k n = some (p, n') → k.Asserts1 → p.Asserts1
  | .nil, k, p, n, n', h, hk => by
    simp only [Rxs.piCat, Option.some.injEq, Prod.mk.injEq] at h
    obtain ⟨rfl, rfl⟩ := h
    exact hk
  | .cons e es, k, p, n, n', h, hk => by
    simp only [Rxs.piCat, Option.bind_eq_some_iff] at h
    obtain ⟨⟨r, m⟩, h, h'⟩ := h
    exact Rx.pi_asserts e h' (Rxs.piCat_asserts es h hk)
theorem Rxs.piAlt_asserts : ∀ (es : Rxs) {k : Pat} {ps : List Pat} {n n' : Nat}, es.piAlt k n = some (ps, n') →
    k.Asserts1 → ∀ p ∈ ps, p.Asserts1
  | .nil, k, p, n, n', h, hk => by
    simp only [Rxs.piAlt, Option.some.injEq, Prod.mk.injEq] at h
    obtain ⟨rfl, rfl⟩ := h
    intro _ h; cases h
  | .cons e es, k, p, n, n', h, hk => by
    simp only [Rxs.piAlt, Option.bind_eq_some_iff, Option.map_eq_some_iff, Prod.mk.injEq] at h
    obtain ⟨⟨r, m⟩, h, ⟨ps, m'⟩, h', rfl, rfl⟩ := h
    intro a ha
    rcases List.mem_cons.1 ha with rfl | ha
    · exact Rx.pi_asserts e h hk
    · exact Rxs.piAlt_asserts es h' hk a ha
end

theorem fromRegexp_asserts {e : Rx} {n : Nat} {p : Pat} (h : fromRegexp e n = some p) : p.Asserts1 := by
  unfold fromRegexp at h
  split at h
  · rw [Option.map_eq_some_iff] at h
    obtain ⟨⟨p, n'⟩, h, rfl⟩ := h
    have := Rx.pi_asserts e h (fun op h => by simp [Pat.asserts] at h)
    exact fun op ho => this op ho
  · cases h

/-! ### The command -/

/-- What `gpeg` is given: a text in the syntax of `re`, or with `-r` a regular expression, here as parsed by `regexp/syntax`
(`rxconv/rxconv.go:92-105`). -/
inductive Source
  | re (text : List UInt8)
  | rx (e : Rx)

/-- `cmd/gpeg/main.go:42-46`: the pattern `p` is made of the source. `re.Compile` (`re/re.go:184-194`) parses the text without errors
with the compiled grammar of `re` and makes the pattern of the captures; `FromRegexp` converts the expression. -/
def Source.Pattern : Source → Pat → Prop
  | .re t, p => ∃ (code : Code) (bufsz : Nat) (chk : CheckFn Unit) (ch : List Capture) (n : Nat) (src : Input) (m m' : Nat),
      Compiled Re.reGrammar code ∧ 0 < bufsz ∧ CheckOK chk ∧
      RunsTo chk none code bufsz t () (.done true (some (.dummy 0 n ch)) src [] () ()) ∧
      Re.fromAst false t (Capture.treesL ch) m = (some p, m')
  | .rx e, p => ∃ n, fromRegexp e n = some p

/-- `cmd/gpeg/main.go:42-53`: `gpeg` prints the program `P`, made of the source by way of the pattern `p`. -/
def GpegRun (S : Source) (p : Pat) (P : Program) : Prop := S.Pattern p ∧ ∃ code, Makes p P code

/-- Texts are in the syntax (C51, C56), or they have no octal escapes of 200 and above and no comment behind `[^` that the end of the
text ends; in this case it follows that they are in the syntax. -/
def Source.Ok : Source → Prop
  | .re t => Re.InSyntax t ∨ (Re.Lines t ∧ Re.LowOctal t)
  | .rx _ => True

theorem Source.Pattern.inSyntax {t : List UInt8} {p : Pat} (h : (Source.re t).Pattern p) (ho : (Source.re t).Ok) : Re.InSyntax t := by
  rcases ho with ho | ⟨hl, ho⟩
  · exact ho
  · obtain ⟨code, bufsz, chk, ch, n, src, m, m', hc, hb, hk, hr, hf⟩ := h
    exact ((Re.C56_compile hl ho hc hk hb false m).2 _ hr).1 ⟨n, ch, src, (), rfl, by rw [hf]; simp⟩

theorem Source.Pattern.plain {t : List UInt8} {p : Pat} (h : (Source.re t).Pattern p) (ho : Re.InSyntax t) :
    p.Plain ∨ ∃ s ds, p = .grammar s ds ∧ ds.Plain := by
  obtain ⟨code, bufsz, chk, ch, n, src, m, m', hc, hb, hk, hr, hf⟩ := h
  obtain ⟨sp, t, rfl, hs, ⟨e, he⟩ | ⟨g, hg, hgs⟩⟩ := ho
  · obtain ⟨ch', src', e', h⟩ := (Re.C51_compile (chk := chk) (st := ()) (.expr hs he) hc hk hb).2 _ hr
    cases e'
    rw [h m] at hf
    cases hf
    exact .inl (Re.expr_plain e m)
  · cases g with
    | nil => exact absurd rfl hg
    | cons ne g =>
      obtain ⟨n, e⟩ := ne
      obtain ⟨ch', src', e', h⟩ := (Re.C51_grammar (chk := chk) (st := ()) hs hgs hc hk hb).2 _ hr
      cases e'
      obtain ⟨ds, m1, h1, h2, h3, _⟩ := h m
      rw [h3] at hf
      cases hf
      refine .inr ⟨_, ds, rfl, Defs.plain_of h1 fun k b hb => ?_⟩
      rw [h2] at hb
      exact lastDef_plain (Re.gram_plain _ m) hb

theorem Source.Pattern.ok {S : Source} {p : Pat} (h : S.Pattern p) (ho : S.Ok) : (p.Pure ∧ p.Dots1 ∧ p.Scoped) ∧ p.Asserts1 := by
  have key : ∀ {p : Pat}, (∀ l ∈ p.leaves, l = .dot 1) → p.Scoped → p.Pure ∧ p.Dots1 ∧ p.Scoped := by
    intro p h hs
    refine ⟨⟨fun h' => ?_, fun h' => ?_⟩, fun n hn => ?_, hs⟩
    · cases h _ h'
    · cases h _ h'
    · cases h _ hn; rfl
  cases S with
  | re t =>
    rcases h.plain (h.inSyntax ho) with hp | ⟨s, ds, rfl, hp⟩
    · refine ⟨key hp.leaves hp.scoped, fun op h => ?_⟩
      rw [hp.asserts] at h
      cases h
    · obtain ⟨h1, h2, h3⟩ := hp.all
      refine ⟨key (p := .grammar s ds) h1 ⟨h2 _, h3⟩, fun op h => ?_⟩
      rw [show (Pat.grammar s ds).asserts = ds.asserts from rfl, hp.asserts] at h
      cases h
  | rx e =>
    obtain ⟨n, h⟩ := h
    exact ⟨fromRegexp_ok h, fromRegexp_asserts h⟩

/-- **C87, the command.** Two files for which `gpeg` prints the same, texts for `re` or regular expressions, are made into patterns that
match the same prefixes of every text, with the same captures. -/
theorem C87_gpeg {S S' : Source} (hs : S.Ok) (hs' : S'.Ok) {p q : Pat} {P Q : Program} (chk : Nat → List Char) (hp : GpegRun S p P)
    (hq : GpegRun S' q Q) (h : P.listing chk = Q.listing chk) (data : List UInt8) (x : Option (Nat × List CTree)) :
    Ford data [] p 0 x ↔ Ford data [] q 0 x := by
  obtain ⟨hp, c, hP⟩ := hp
  obtain ⟨hq, d, hQ⟩ := hq
  obtain ⟨⟨h1, h2, h3⟩, ha⟩ := hp.ok hs
  obtain ⟨⟨h4, h5, h6⟩, ha'⟩ := hq.ok hs'
  exact C87_language_partial chk hP hQ h1 h4 h2 h5 h3 h6 ha ha' h data x

/-- **C87, regular expressions.** If `gpeg -r` prints the same for two regular expressions, a search for them finds the same in every
ASCII text. Missing: what is missing in C45. -/
theorem C87_regexp_partial {e e' : Rx} {p q : Pat} {P Q : Program} (chk : Nat → List Char) (hp : GpegRun (.rx e) p P)
    (hq : GpegRun (.rx e') q Q) (h : P.listing chk = Q.listing chk) {d : List UInt8} (ha : Ascii d) (hpl : e.Plain) (hpl' : e'.Plain)
    (hpr : e.Progress (runes d)) (hpr' : e'.Progress (runes d)) : e.search (runes d) = e'.search (runes d) := by
  obtain ⟨n, hn⟩ := hp.1
  obtain ⟨n', hn'⟩ := hq.1
  have h1 := C45_search_partial ha hpl hpr hn
  have h2 := C45_search_partial ha hpl' hpr' hn'
  have h3 := ((C87_gpeg (S := .rx e) (S' := .rx e') trivial trivial chk hp hq h d _).1 h1).det h2
  cases hx : e.search (runes d) with
  | none => cases hy : e'.search (runes d) with
    | none => rfl
    | some y => rw [hx, hy] at h3; cases h3
  | some x => cases hy : e'.search (runes d) with
    | none => rw [hx, hy] at h3; cases h3
    | some y =>
      rw [hx, hy] at h3
      obtain ⟨a, b⟩ := x
      obtain ⟨a', b'⟩ := y
      simp only [found, Option.some.injEq, Prod.mk.injEq, List.cons.injEq, CTree.node.injEq] at h3
      simp only [Option.some.injEq, Prod.mk.injEq]
      exact ⟨h3.2.1.2.1, h3.1⟩

/-- `('a' 'b')*` and `('ab')*`. -/
def abSeq : Pat := .star (.seq (.lit [97]) (.lit [98]))
/-- See `abSeq`. -/
def abLit : Pat := .star (.lit [97, 98])

/-- The programs. -/
def abProg : Program := match compile 5 abSeq ⟨0, 0, true⟩ with | .ok (p, _) => p | .error _ => []
/-- See `abProg`. -/
def abProg' : Program := match compile 5 abLit ⟨0, 0, true⟩ with | .ok (p, _) => p | .error _ => []

/-- The hypotheses of the theorems hold for two different patterns. -/
example (data : List UInt8) (x : Option (Nat × List CTree)) : Ford data [] abSeq 0 x ↔ Ford data [] abLit 0 x := by
  obtain ⟨c, hc⟩ : ∃ c, encode abProg = some c := Option.isSome_iff_exists.1 (by decide +kernel)
  obtain ⟨d, hd⟩ : ∃ d, encode abProg' = some d := Option.isSome_iff_exists.1 (by decide +kernel)
  refine C87_language_partial (fun _ => []) (P := abProg) (Q := abProg') ⟨⟨5, ⟨0, 0, true⟩, _, rfl⟩, hc⟩ ⟨⟨5, ⟨0, 0, true⟩, _, rfl⟩, hd⟩
    (by unfold Pat.Pure; decide) (by unfold Pat.Pure; decide) (by intro n h; simp [abSeq, Pat.leaves] at h) (by intro n h; simp [abLit, Pat.leaves] at h)
    (by simp [abSeq, Pat.Scoped]) (by simp [abLit, Pat.Scoped]) ?_ ?_ (by decide +kernel) data x
  · intro op h
    simp [abSeq, Pat.asserts] at h
  · intro op h
    simp [abLit, Pat.asserts] at h

/-- `gpeg` gets to printing on every file in the syntax whose pattern compiles. -/
theorem gpegRun_of {t : List UInt8} {top : Re.Top} (ht : Re.TopS top t) (m : Nat) {P : Program} {c : Code}
    (h : Makes (top.pat m).1 P c) : GpegRun (.re t) (top.pat m).1 P := by
  refine ⟨?_, c, h⟩
  obtain ⟨code, hc⟩ := Re.C51_grammar_compiles
  have hck : CheckOK (fun _ s _ _ _ _ _ => (none, s) : CheckFn Unit) := fun _ _ _ _ _ _ _ _ _ _ h => by cases h
  obtain ⟨⟨r, hr⟩, h2⟩ := Re.C51_compile (bufsz := 4096) (st := ()) ht hc hck (by decide)
  obtain ⟨ch, src, rfl, h3⟩ := h2 r hr
  exact ⟨code, 4096, _, ch, _, src, m, _, hc, by decide, hck, hr, h3 m⟩

/-- `'a' 'b'` -/
def abTop : Re.Top := .expr (.one (.cons .none (.lit [97]) .none (.cons .none (.lit [98]) .none .nil)))
/-- `'ab'` -/
def abTop' : Re.Top := .expr (.one (.cons .none (.lit [97, 98]) .none .nil))

theorem abTop_text : Re.TopS abTop [39, 97, 39, 32, 39, 98, 39] := by
  have no : ∀ s : List UInt8, Re.Apart s [] := by intro s x y _ hy; simp at hy
  have b : Re.SeqS (.cons .none (.lit [98]) .none .nil) _ :=
    .cons .none (.lit (q := 39) (t := [98, 39]) (.inl rfl) (.cons (t := [98]) (.raw (by decide)) (by simp) .nil) .nil) .none .nil (no _)
  have a : Re.SeqS (.cons .none (.lit [97]) .none (.cons .none (.lit [98]) .none .nil)) _ :=
    .cons .none (.lit (q := 39) (t := [97, 39]) (.inl rfl) (.cons (t := [97]) (.raw (by decide)) (by simp) .nil) (.blank (b := 32) rfl .nil))
      .none b (by intro x y hx; simp at hx; subst hx; exact fun _ => .inl rfl)
  exact .expr (sp := []) .nil (.one a)

theorem abTop'_text : Re.TopS abTop' [39, 97, 98, 39] := by
  have no : ∀ s : List UInt8, Re.Apart s [] := by intro s x y _ hy; simp at hy
  have a : Re.SeqS (.cons .none (.lit [97, 98]) .none .nil) _ :=
    .cons .none (.lit (q := 39) (t := [97, 98, 39]) (.inl rfl) (.cons (t := [97]) (.raw (by decide)) (by simp)
      (.cons (t := [98]) (.raw (by decide)) (by simp) .nil)) .nil) .none .nil (no _)
  exact .expr (sp := []) .nil (.one a)

/-- The hypotheses of `C87_gpeg` for the texts `'a' 'b'` and `'ab'`, which are made into different patterns. -/
example : ∃ p q P Q, p ≠ q ∧ GpegRun (.re [39, 97, 39, 32, 39, 98, 39]) p P ∧ GpegRun (.re [39, 97, 98, 39]) q Q ∧
    P.listing (fun _ => []) = Q.listing (fun _ => []) := by
  obtain ⟨c, hc⟩ : ∃ c, encode [.char 97, .char 98] = some c := Option.isSome_iff_exists.1 (by decide +kernel)
  exact ⟨(abTop.pat 0).1, (abTop'.pat 0).1, [.char 97, .char 98], [.char 97, .char 98], (fun h => by cases h),
    gpegRun_of abTop_text 0 ⟨⟨5, ⟨0, 0, true⟩, _, rfl⟩, hc⟩, gpegRun_of abTop'_text 0 ⟨⟨5, ⟨0, 0, true⟩, _, rfl⟩, hc⟩, rfl⟩

/-- The hypothesis for the regular expression `^a`. -/
example : ∃ p P, GpegRun (.rx (.cat (.cons .bol (.cons (.lit false [97]) .nil)))) p P := by
  let p : Pat := .search (.cap (.seq (.emptyOp 1) (.seq (.lit [97]) .empty)) 0)
  have h : (match compileF 20 p ⟨0, 0, true⟩ with | .ok (raw, _) => fitsTest raw | _ => false) = true := by decide +kernel
  split at h
  · rename_i raw cst' hr
    obtain ⟨L, hL⟩ := fits_of_test h
    obtain ⟨code, k, cst, prog, cst'', h1, h2⟩ := compiled_of_fits hr hL
    exact ⟨p, prog, ⟨0, rfl⟩, _, ⟨k, cst, cst'', h1⟩, h2⟩
  · cases h

/-- The sources of the examples are as in `C87_gpeg`. -/
example : (Source.re [39, 97, 39, 32, 39, 98, 39]).Ok ∧ (Source.re [39, 97, 98, 39]).Ok :=
  ⟨.inr ⟨Re.linesB_sound (by decide +kernel), Re.lowOctalB_sound (by decide +kernel)⟩,
    .inr ⟨Re.linesB_sound (by decide +kernel), Re.lowOctalB_sound (by decide +kernel)⟩⟩

/-- The regular expressions `ab` and `(?:a)(?:b)`, not simplified. -/
def rxLit : Rx := .lit false [97, 98]
/-- See `rxLit`. -/
def rxCat : Rx := .cat (.cons (.lit false [97]) (.cons (.lit false [98]) .nil))

/-- The program of a regular expression. -/
def rxProg (e : Rx) : Program :=
  match fromRegexp e 0 with
  | some p => match compile 20 p ⟨0, 0, true⟩ with | .ok (P, _) => P | .error _ => []
  | none => []

/-- The hypotheses of `C87_regexp_partial`. -/
example : rxLit ≠ rxCat ∧ rxLit.Plain ∧ rxCat.Plain ∧ (∀ l, rxLit.Progress l ∧ rxCat.Progress l) ∧
    (∃ p q, GpegRun (.rx rxLit) p (rxProg rxLit) ∧ GpegRun (.rx rxCat) q (rxProg rxCat)) ∧
    (rxProg rxLit).listing (fun _ => []) = (rxProg rxCat).listing (fun _ => []) := by
  refine ⟨(fun h => by cases h), by simp [rxLit, Rx.Plain], by simp [rxCat, Rx.Plain, Rxs.Plain],
    fun l => ⟨Rx.progress_of_loopsOk _ _ rfl, Rx.progress_of_loopsOk _ _ rfl⟩, ?_, by decide +kernel⟩
  obtain ⟨c, hc⟩ : ∃ c, encode (rxProg rxLit) = some c := Option.isSome_iff_exists.1 (by decide +kernel)
  obtain ⟨d, hd⟩ : ∃ d, encode (rxProg rxCat) = some d := Option.isSome_iff_exists.1 (by decide +kernel)
  exact ⟨_, _, ⟨⟨0, rfl⟩, c, ⟨20, ⟨0, 0, true⟩, _, rfl⟩, hc⟩, ⟨⟨0, rfl⟩, d, ⟨20, ⟨0, 0, true⟩, _, rfl⟩, hd⟩⟩

end Gpeg
