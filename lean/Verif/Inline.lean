import Verif.PegLemmas
/-!
# Inlining does not change the meaning of a grammar

`Scoped` is the hypothesis under which this holds: no non-terminal occurrence refers to a
definition of an inner grammar while an outer grammar defines the same name (the inliner of the
outer grammar would replace it), and no search pattern contains the non-terminal `S`.
-/
namespace Gpeg
variable {σ : Type}

mutual
/-- No inner grammar defines and uses one of the names `ns`. -/
def Pat.noCap (ns : List String) : Pat → Prop
  | .alt l r | .seq l r => l.noCap ns ∧ r.noCap ns
  | .star p | .plus p | .opt p | .not p | .and p | .cap p _ | .memo p _ | .check p _ _ _
  | .search p | .errRec _ p | .inl _ p => p.noCap ns
  | .grammar _ ds => (∀ n ∈ ds.nts, n ∈ ds.names → n ∉ ns) ∧ ds.noCap ns
  | .cls _ | .lit _ | .nonterm _ | .dot _ | .err _ | .emptyOp _ | .empty => True
/-- The same for all definitions. -/
def Defs.noCap (ns : List String) : Defs → Prop
  | .nil => True
  | .cons _ p rest => p.noCap ns ∧ rest.noCap ns
end

mutual
/-- See the header. -/
def Pat.Scoped : Pat → Prop
  | .alt l r | .seq l r => l.Scoped ∧ r.Scoped
  | .star p | .plus p | .opt p | .not p | .and p | .cap p _ | .memo p _ | .check p _ _ _
  | .errRec _ p | .inl _ p => p.Scoped
  | .search p => "S" ∉ p.nts ∧ p.Scoped
  | .grammar _ ds => ds.noCap ds.names ∧ ds.Scoped
  | .cls _ | .lit _ | .nonterm _ | .dot _ | .err _ | .emptyOp _ | .empty => True
/-- The same for all definitions. -/
def Defs.Scoped : Defs → Prop
  | .nil => True
  | .cons _ p rest => p.Scoped ∧ rest.Scoped
end

/-! ## Lookup -/

theorem Defs.find_mem_names {ds : Defs} {n : String} {b : Pat} (h : ds.find n = some b) :
    n ∈ ds.names := by
  induction ds using Defs.rec (motive_1 := fun _ => True) <;> try trivial
  rename_i m p rest _ ih
  unfold Defs.find at h
  unfold Defs.names
  split at h
  · rename_i hm; rw [hm]; exact List.mem_cons_self
  · exact List.mem_cons_of_mem _ (ih h)

theorem Defs.find_none_of {ds : Defs} {n : String} (h : n ∉ ds.names) : ds.find n = none := by
  cases hf : ds.find n with
  | none => rfl
  | some b => exact absurd (find_mem_names hf) h

theorem Defs.find_some_of {ds : Defs} {n : String} (h : n ∈ ds.names) :
    ∃ b, ds.find n = some b := by
  induction ds using Defs.rec (motive_1 := fun _ => True) with
  | nil => cases h
  | cons m p rest _ ih =>
    unfold Defs.find
    split
    · exact ⟨p, rfl⟩
    · rename_i hm
      unfold Defs.names at h
      rcases List.mem_cons.1 h with h | h
      · exact absurd h.symm hm
      · exact ih h
  | _ => trivial

theorem Defs.find_nts {ds : Defs} {n : String} {b : Pat} (h : ds.find n = some b) :
    ∀ m ∈ b.nts, m ∈ ds.nts := by
  induction ds using Defs.rec (motive_1 := fun _ => True) with
  | nil => cases h
  | cons m p rest _ ih =>
    unfold Defs.find at h
    unfold Defs.nts
    intro x hx
    split at h
    · cases h; exact List.mem_append_left _ hx
    · exact List.mem_append_right _ (ih h x hx)
  | _ => trivial

theorem Defs.find_noCap {ns : List String} {ds : Defs} {n : String} {b : Pat}
    (h : ds.find n = some b) (hn : ds.noCap ns) : b.noCap ns := by
  induction ds using Defs.rec (motive_1 := fun _ => True) with
  | nil => cases h
  | cons m p rest _ ih =>
    unfold Defs.find at h
    unfold Defs.noCap at hn
    split at h
    · cases h; exact hn.1
    · exact ih h hn.2
  | _ => trivial

theorem Defs.find_Scoped {ds : Defs} {n : String} {b : Pat}
    (h : ds.find n = some b) (hn : ds.Scoped) : b.Scoped := by
  induction ds using Defs.rec (motive_1 := fun _ => True) with
  | nil => cases h
  | cons m p rest _ ih =>
    unfold Defs.find at h
    unfold Defs.Scoped at hn
    split at h
    · cases h; exact hn.1
    · exact ih h hn.2
  | _ => trivial

theorem Defs.find_inlineWith (f : String → Option Pat) (ds : Defs) (n : String) :
    (ds.inlineWith f).find n = (ds.find n).map (Pat.inlineWith f) := by
  induction ds using Defs.rec (motive_1 := fun _ => True) with
  | nil => rfl
  | cons m p rest _ ih =>
    unfold Defs.inlineWith Defs.find
    split
    · rfl
    · exact ih
  | _ => trivial

theorem Defs.names_inlineWith (f : String → Option Pat) (ds : Defs) :
    (ds.inlineWith f).names = ds.names := by
  induction ds using Defs.rec (motive_1 := fun _ => True) with
  | nil => rfl
  | cons m p rest _ ih =>
    unfold Defs.inlineWith Defs.names
    rw [ih]
  | _ => trivial

/-! ## Patterns without non-terminals do not depend on the environment -/

theorem eval_closed (c : Ctx σ) (n : Nat) : ∀ (p : Pat) (env env' : Env) (pos : Nat) (w : World σ),
    p.nts = [] → eval n c env p pos w = eval n c env' p pos w := by
  induction n with
  | zero => intro p env env' pos w _; rfl
  | succ n ih =>
    intro p env env' pos w h
    cases p with
    | alt l r =>
      simp only [Pat.nts, List.append_eq_nil_iff] at h
      simp only [eval, fun pos w => ih l env env' pos w h.1, fun pos w => ih r env env' pos w h.2]
    | seq l r =>
      simp only [Pat.nts, List.append_eq_nil_iff] at h
      simp only [eval, fun pos w => ih l env env' pos w h.1, fun pos w => ih r env env' pos w h.2]
    | star p =>
      simp only [Pat.nts] at h
      simp only [eval, fun pos w => ih p env env' pos w h,
        fun pos w => ih (.star p) env env' pos w h]
    | plus p =>
      simp only [Pat.nts] at h
      simp only [eval, fun pos w => ih p env env' pos w h,
        fun pos w => ih (.star p) env env' pos w h]
    | opt p => simp only [Pat.nts] at h; simp only [eval, fun pos w => ih p env env' pos w h]
    | not p => simp only [Pat.nts] at h; simp only [eval, fun pos w => ih p env env' pos w h]
    | and p => simp only [Pat.nts] at h; simp only [eval, fun pos w => ih p env env' pos w h]
    | cap p id => simp only [Pat.nts] at h; simp only [eval, fun pos w => ih p env env' pos w h]
    | memo p id => simp only [Pat.nts] at h; simp only [eval, fun pos w => ih p env env' pos w h]
    | check p k id fl =>
      simp only [Pat.nts] at h; simp only [eval, fun pos w => ih p env env' pos w h]
    | search p =>
      simp only [Pat.nts] at h
      have : (fun pos w => eval n c env p pos w) = fun pos w => eval n c env' p pos w :=
        funext fun pos => funext fun w => ih p env env' pos w h
      show (searchLoop (fun pos w => eval n c env p pos w) _ _ _).map _ = _
      rw [this]; rfl
    | errRec m p => simp only [Pat.nts] at h; simp only [eval, fun pos w => ih p env env' pos w h]
    | inl m p => simp only [Pat.nts] at h; simp only [eval, fun pos w => ih p env env' pos w h]
    | grammar s ds =>
      simp only [Pat.nts] at h
      simp only [eval]
      cases hf : ds.find s with
      | none => rfl
      | some b =>
        apply ih b (ds :: env) (ds :: env') pos w
        have := Defs.find_nts hf
        rw [h] at this
        exact List.eq_nil_iff_forall_not_mem.2 fun a ha => by simpa using this a ha
    | nonterm m => simp [Pat.nts] at h
    | cls | lit | dot | err | emptyOp | empty => rfl

/-! ## One inlining pass -/

section
variable (D : Defs) (post : Env)

/-- The non-terminals of `p` that `D` defines are not defined in `pre`. -/
def PatOK (pre : Env) (p : Pat) : Prop :=
  (∀ m ∈ p.nts, m ∈ D.names → ∀ d ∈ pre, d.find m = none) ∧ p.noCap D.names

/-- The same for all definitions in `pre`. -/
def PreOK : Env → Prop
  | [] => True
  | d :: rest => (∀ m ∈ d.nts, m ∈ D.names → ∀ d' ∈ d :: rest, d'.find m = none) ∧
      d.noCap D.names ∧ PreOK rest

variable {D}

theorem PatOK.sub {pre : Env} {p q : Pat} (h : PatOK D pre p) (hn : ∀ m ∈ q.nts, m ∈ p.nts)
    (hc : q.noCap D.names) : PatOK D pre q := ⟨fun m hm => h.1 m (hn m hm), hc⟩

theorem lookup_inline (f : String → Option Pat) (hD : D.noCap D.names) (m : String) : ∀ (pre : Env), PreOK D pre →
    (∃ suf b, PreOK D suf ∧ PatOK D suf b ∧ lookupNT m (pre ++ D :: post) = some (b, suf ++ D :: post)
      ∧ lookupNT m (pre.map (Defs.inlineWith f) ++ D.inlineWith f :: post) =
        some (b.inlineWith f,
          suf.map (Defs.inlineWith f) ++ D.inlineWith f :: post)) ∨
    lookupNT m (pre.map (Defs.inlineWith f) ++ D.inlineWith f :: post) =
      lookupNT m (pre ++ D :: post) := by
  intro pre
  induction pre with
  | nil =>
    intro _
    simp only [List.map_nil, List.nil_append, lookupNT, Defs.find_inlineWith]
    cases hf : D.find m with
    | none => exact Or.inr rfl
    | some b =>
      refine Or.inl ⟨[], b, trivial, ⟨fun _ _ _ d hd => ?_, Defs.find_noCap hf hD⟩, rfl, rfl⟩
      cases hd
  | cons d rest ih =>
    intro hp
    simp only [List.map_cons, List.cons_append, lookupNT, Defs.find_inlineWith]
    cases hf : d.find m with
    | none => exact ih hp.2.2
    | some b =>
      refine Or.inl ⟨d :: rest, b, hp, ⟨fun x hx => hp.1 x (Defs.find_nts hf x hx),
        Defs.find_noCap hf hp.2.1⟩, rfl, rfl⟩

theorem lookup_skip {m : String} {pre : Env} (h : ∀ d ∈ pre, d.find m = none) (env : Env) :
    lookupNT m (pre ++ env) = lookupNT m env := by
  induction pre with
  | nil => rfl
  | cons d rest ih =>
    simp only [List.cons_append, lookupNT, h d List.mem_cons_self]
    exact ih fun d' hd => h d' (List.mem_cons_of_mem _ hd)

theorem eval_inlineWith (c : Ctx σ) {f : String → Option Pat}
    (hfD : ∀ n b, f n = some b → b.nts = [] ∧ D.find n = some b) (hD : D.noCap D.names) (n : Nat) :
    ∀ (pre : Env) (p : Pat) (pos : Nat) (w : World σ), PreOK D pre → PatOK D pre p →
    eval n c (pre.map (Defs.inlineWith f) ++ D.inlineWith f :: post)
      (p.inlineWith f) pos w = eval n c (pre ++ D :: post) p pos w := by
  induction n with
  | zero => intro pre p pos w _ _; rfl
  | succ n ih =>
    intro pre p pos w hpre hp
    have un : ∀ q : Pat, (∀ m ∈ q.nts, m ∈ p.nts) → q.noCap D.names → ∀ pos w,
        eval n c (pre.map (Defs.inlineWith f) ++ D.inlineWith f :: post)
        (q.inlineWith f) pos w = eval n c (pre ++ D :: post) q pos w :=
      fun q hq hc pos w => ih pre q pos w hpre (hp.sub hq hc)
    cases p with
    | alt l r =>
      have hc := hp.2
      simp only [Pat.noCap] at hc
      have hl := un l (fun m hm => List.mem_append_left _ hm) hc.1
      have hr := un r (fun m hm => List.mem_append_right _ hm) hc.2
      simp only [Pat.inlineWith, eval, hl, hr]
    | seq l r =>
      have hc := hp.2
      simp only [Pat.noCap] at hc
      have hl := un l (fun m hm => List.mem_append_left _ hm) hc.1
      have hr := un r (fun m hm => List.mem_append_right _ hm) hc.2
      simp only [Pat.inlineWith, eval, hl, hr]
    | star p =>
      have hl := un p (fun m hm => hm) hp.2
      have hs := un (.star p) (fun m hm => hm) hp.2
      simp only [Pat.inlineWith] at hs
      simp only [Pat.inlineWith, eval, hl, hs]
    | plus p =>
      have hl := un p (fun m hm => hm) hp.2
      have hs := un (.star p) (fun m hm => hm) hp.2
      simp only [Pat.inlineWith] at hs
      simp only [Pat.inlineWith, eval, hl, hs]
    | opt p => have hl := un p (fun m hm => hm) hp.2; simp only [Pat.inlineWith, eval, hl]
    | not p => have hl := un p (fun m hm => hm) hp.2; simp only [Pat.inlineWith, eval, hl]
    | and p => have hl := un p (fun m hm => hm) hp.2; simp only [Pat.inlineWith, eval, hl]
    | cap p id => have hl := un p (fun m hm => hm) hp.2; simp only [Pat.inlineWith, eval, hl]
    | memo p id => have hl := un p (fun m hm => hm) hp.2; simp only [Pat.inlineWith, eval, hl]
    | check p k id fl =>
      have hl := un p (fun m hm => hm) hp.2; simp only [Pat.inlineWith, eval, hl]
    | search p =>
      have hl := un p (fun m hm => hm) hp.2
      have := funext fun pos => funext fun w => hl pos w
      simp only [Pat.inlineWith, eval]
      show (searchLoop (fun pos w => eval n c _ (p.inlineWith f) pos w) _ _ _).map _ = _
      rw [this]
    | errRec m p => have hl := un p (fun m hm => hm) hp.2; simp only [Pat.inlineWith, eval, hl]
    | inl m p => have hl := un p (fun m hm => hm) hp.2; simp only [Pat.inlineWith, eval, hl]
    | grammar s ds =>
      have hc := hp.2
      simp only [Pat.noCap] at hc
      simp only [Pat.inlineWith, eval, Defs.find_inlineWith]
      cases hf : ds.find s with
      | none => rfl
      | some b =>
        have hpo : PreOK D (ds :: pre) := by
          refine ⟨fun m hm hmD d hd => ?_, hc.2, hpre⟩
          rcases List.mem_cons.1 hd with rfl | hd
          · exact Defs.find_none_of fun hm' => hc.1 m hm hm' hmD
          · exact hp.1 m hm hmD d hd
        exact ih (ds :: pre) b pos w hpo
          ⟨fun m hm => hpo.1 m (Defs.find_nts hf m hm), Defs.find_noCap hf hc.2⟩
    | nonterm m =>
      simp only [Pat.inlineWith]
      cases he : f m with
      | none =>
        simp only [eval]
        rcases lookup_inline post f hD m pre hpre with ⟨suf, b, h1, h2, h3, h4⟩ | h
        · rw [h3, h4]; exact ih suf b pos w h1 h2
        · rw [h]
      | some b =>
        simp only [eval]
        obtain ⟨hb, hf⟩ := hfD m b he
        rw [lookup_skip (fun d hd => hp.1 m (by simp [Pat.nts]) (Defs.find_mem_names hf) d hd)]
        simp only [lookupNT, hf]
        exact eval_closed c n b _ _ pos w hb
    | cls | lit | dot | err | emptyOp | empty => rfl

end

theorem Defs.eligible_nts {ds : Defs} {n : String} {b : Pat} (h : ds.eligible n = some b) :
    b.nts = [] ∧ ds.find n = some b := by
  unfold Defs.eligible at h
  cases hf : ds.find n with
  | none => rw [hf] at h; cases h
  | some b' =>
    rw [hf] at h
    simp only at h
    split at h
    · rename_i hb; cases h; exact ⟨hb.2, rfl⟩
    · cases h

theorem eval_inlineAny (c : Ctx σ) {D : Defs} {f : String → Option Pat}
    (hfD : ∀ n b, f n = some b → b.nts = [] ∧ D.find n = some b) (hD : D.noCap D.names) (n : Nat) (env : Env)
    (s : String) (pos : Nat) (w : World σ) :
    eval n c env (.grammar s (D.inlineWith f)) pos w = eval n c env (.grammar s D) pos w := by
  cases n with
  | zero => rfl
  | succ n =>
    simp only [eval, Defs.find_inlineWith]
    cases hf : D.find s with
    | none => rfl
    | some b =>
      exact eval_inlineWith env c hfD hD n [] b pos w trivial
        ⟨fun _ _ _ d hd => (by cases hd), Defs.find_noCap hf hD⟩

theorem eval_inlineStep (c : Ctx σ) {D : Defs} (hD : D.noCap D.names) (n : Nat) (env : Env)
    (s : String) (pos : Nat) (w : World σ) :
    eval n c env (.grammar s (D.inlineWith D.eligible)) pos w = eval n c env (.grammar s D) pos w :=
  eval_inlineAny c (fun _ _ h => Defs.eligible_nts h) hD n env s pos w

/-! ## Preservation of the side conditions -/

theorem nts_mem_append {m : String} {a b a' b' : List String} (h1 : m ∈ a → m ∈ a')
    (h2 : m ∈ b → m ∈ b') (h : m ∈ a ++ b) : m ∈ a' ++ b' := by
  rcases List.mem_append.1 h with h | h
  · exact List.mem_append_left _ (h1 h)
  · exact List.mem_append_right _ (h2 h)

mutual
theorem Pat.nts_inlineWith {f : String → Option Pat} (hf : ∀ n b, f n = some b → b.nts = []) :
    ∀ (p : Pat) (m : String), m ∈ (p.inlineWith f).nts → m ∈ p.nts
  | .alt l r, m, h | .seq l r, m, h =>
    nts_mem_append (l.nts_inlineWith hf m) (r.nts_inlineWith hf m) h
  | .star p, m, h | .plus p, m, h | .opt p, m, h | .not p, m, h | .and p, m, h | .cap p _, m, h
  | .memo p _, m, h | .check p _ _ _, m, h | .search p, m, h | .errRec _ p, m, h
  | .inl _ p, m, h => p.nts_inlineWith hf m h
  | .grammar _ ds, m, h => ds.nts_inlineWith hf m h
  | .nonterm n, m, h => by
    unfold Pat.inlineWith at h
    cases hn : f n with
    | none => rw [hn] at h; exact h
    | some b =>
      rw [hn] at h
      simp only [Pat.nts, hf n b hn] at h
      cases h
  | .cls _, _, h | .lit _, _, h | .dot _, _, h | .err _, _, h | .emptyOp _, _, h
  | .empty, _, h => by cases h
theorem Defs.nts_inlineWith {f : String → Option Pat} (hf : ∀ n b, f n = some b → b.nts = []) :
    ∀ (ds : Defs) (m : String), m ∈ (ds.inlineWith f).nts → m ∈ ds.nts
  | .nil, _, h => by cases h
  | .cons _ p rest, m, h =>
    nts_mem_append (p.nts_inlineWith hf m) (rest.nts_inlineWith hf m) h
end

mutual
theorem Pat.noCap_closed {ns : List String} : ∀ p : Pat, p.nts = [] → p.noCap ns
  | .alt l r, h | .seq l r, h => by
    simp only [Pat.nts, List.append_eq_nil_iff] at h
    simp only [Pat.noCap]
    exact ⟨l.noCap_closed h.1, r.noCap_closed h.2⟩
  | .star p, h | .plus p, h | .opt p, h | .not p, h | .and p, h | .cap p _, h | .memo p _, h
  | .check p _ _ _, h | .search p, h | .errRec _ p, h | .inl _ p, h => by
    simp only [Pat.noCap]; exact p.noCap_closed h
  | .grammar _ ds, h => by
    simp only [Pat.nts] at h
    simp only [Pat.noCap]
    exact ⟨fun n hn => (by rw [h] at hn; cases hn), ds.noCap_closed h⟩
  | .nonterm _, h => by simp [Pat.nts] at h
  | .cls _, _ | .lit _, _ | .dot _, _ | .err _, _ | .emptyOp _, _ | .empty, _ => by
    simp only [Pat.noCap]
theorem Defs.noCap_closed {ns : List String} : ∀ ds : Defs, ds.nts = [] → ds.noCap ns
  | .nil, _ => trivial
  | .cons _ p rest, h => by
    simp only [Defs.nts, List.append_eq_nil_iff] at h
    exact ⟨p.noCap_closed h.1, rest.noCap_closed h.2⟩
end

mutual
theorem Pat.noCap_inlineWith {ns : List String} {f : String → Option Pat}
    (hf : ∀ n b, f n = some b → b.nts = []) : ∀ p : Pat, p.noCap ns → (p.inlineWith f).noCap ns
  | .alt l r, h | .seq l r, h => by
    simp only [Pat.noCap] at h
    simp only [Pat.inlineWith, Pat.noCap]
    exact ⟨l.noCap_inlineWith hf h.1, r.noCap_inlineWith hf h.2⟩
  | .star p, h | .plus p, h | .opt p, h | .not p, h | .and p, h | .cap p _, h | .memo p _, h
  | .check p _ _ _, h | .search p, h | .errRec _ p, h | .inl _ p, h => by
    simp only [Pat.noCap] at h
    simp only [Pat.inlineWith, Pat.noCap]; exact p.noCap_inlineWith hf h
  | .grammar _ ds, h => by
    simp only [Pat.noCap] at h
    simp only [Pat.inlineWith, Pat.noCap, Defs.names_inlineWith]
    exact ⟨fun n hn => h.1 n (ds.nts_inlineWith hf n hn), ds.noCap_inlineWith hf h.2⟩
  | .nonterm n, h => by
    unfold Pat.inlineWith
    cases hn : f n with
    | none => simp only [Pat.noCap]
    | some b => simp only [Pat.noCap]; exact b.noCap_closed (hf n b hn)
  | .cls _, _ | .lit _, _ | .dot _, _ | .err _, _ | .emptyOp _, _ | .empty, _ => by
    simp only [Pat.inlineWith, Pat.noCap]
theorem Defs.noCap_inlineWith {ns : List String} {f : String → Option Pat}
    (hf : ∀ n b, f n = some b → b.nts = []) : ∀ ds : Defs, ds.noCap ns → (ds.inlineWith f).noCap ns
  | .nil, _ => trivial
  | .cons _ p rest, h => ⟨p.noCap_inlineWith hf h.1, rest.noCap_inlineWith hf h.2⟩
end

mutual
theorem Pat.Scoped_inlineWith {f : String → Option Pat}
    (hf : ∀ n b, f n = some b → b.nts = []) (hs : ∀ n b, f n = some b → b.Scoped) :
    ∀ p : Pat, p.Scoped → (p.inlineWith f).Scoped
  | .alt l r, h | .seq l r, h => by
    simp only [Pat.Scoped] at h
    simp only [Pat.inlineWith, Pat.Scoped]
    exact ⟨l.Scoped_inlineWith hf hs h.1, r.Scoped_inlineWith hf hs h.2⟩
  | .star p, h | .plus p, h | .opt p, h | .not p, h | .and p, h | .cap p _, h | .memo p _, h
  | .check p _ _ _, h | .errRec _ p, h | .inl _ p, h => by
    simp only [Pat.Scoped] at h
    simp only [Pat.inlineWith, Pat.Scoped]; exact p.Scoped_inlineWith hf hs h
  | .search p, h => by
    simp only [Pat.Scoped] at h
    simp only [Pat.inlineWith, Pat.Scoped]
    exact ⟨fun hm => h.1 (p.nts_inlineWith hf _ hm), p.Scoped_inlineWith hf hs h.2⟩
  | .grammar _ ds, h => by
    simp only [Pat.Scoped] at h
    simp only [Pat.inlineWith, Pat.Scoped, Defs.names_inlineWith]
    exact ⟨ds.noCap_inlineWith hf h.1, ds.Scoped_inlineWith hf hs h.2⟩
  | .nonterm n, h => by
    unfold Pat.inlineWith
    cases hn : f n with
    | none => simp only [Pat.Scoped]
    | some b => simp only [Pat.Scoped]; exact hs n b hn
  | .cls _, _ | .lit _, _ | .dot _, _ | .err _, _ | .emptyOp _, _ | .empty, _ => by
    simp only [Pat.inlineWith, Pat.Scoped]
theorem Defs.Scoped_inlineWith {f : String → Option Pat}
    (hf : ∀ n b, f n = some b → b.nts = []) (hs : ∀ n b, f n = some b → b.Scoped) :
    ∀ ds : Defs, ds.Scoped → (ds.inlineWith f).Scoped
  | .nil, _ => trivial
  | .cons _ p rest, h => ⟨p.Scoped_inlineWith hf hs h.1, rest.Scoped_inlineWith hf hs h.2⟩
end

/-- What inlining preserves. -/
structure InlRel (D D' : Defs) : Prop where
  names : D'.names = D.names
  nts : ∀ m ∈ D'.nts, m ∈ D.nts
  noCap : ∀ ns, D.noCap ns → D'.noCap ns
  scp : D.Scoped → D'.Scoped

theorem InlRel.refl (D : Defs) : InlRel D D := ⟨rfl, fun _ h => h, fun _ h => h, fun h => h⟩

theorem InlRel.trans {A B C : Defs} (h : InlRel A B) (h' : InlRel B C) : InlRel A C :=
  ⟨h'.names.trans h.names, fun m hm => h.nts m (h'.nts m hm), fun ns hn => h'.noCap ns (h.noCap ns hn),
   fun hs => h'.scp (h.scp hs)⟩

theorem inlRel_step (D : Defs) : InlRel D (D.inlineWith D.eligible) :=
  ⟨D.names_inlineWith _, D.nts_inlineWith fun _ _ h => (Defs.eligible_nts h).1,
   fun _ h => D.noCap_inlineWith (fun _ _ h => (Defs.eligible_nts h).1) h,
   fun h => D.Scoped_inlineWith (fun _ _ h => (Defs.eligible_nts h).1)
     (fun _ _ hb => Defs.find_Scoped (Defs.eligible_nts hb).2 h) h⟩

theorem inlRel_loop (k : Nat) : ∀ D : Defs, InlRel D (Defs.inlineLoop k D) := by
  induction k with
  | zero => intro D; exact InlRel.refl D
  | succ k ih =>
    intro D
    unfold Defs.inlineLoop Defs.inlineStep
    split
    · rename_i D' hD
      split at hD
      · cases hD; exact (inlRel_step D).trans (ih _)
      · cases hD
    · exact InlRel.refl D

theorem inlRel_inline (D : Defs) : InlRel D D.inline := inlRel_loop _ D

theorem eval_inlineLoop (c : Ctx σ) (k : Nat) : ∀ {D : Defs}, D.noCap D.names → ∀ (n : Nat)
    (env : Env) (s : String) (pos : Nat) (w : World σ),
    eval n c env (.grammar s (Defs.inlineLoop k D)) pos w = eval n c env (.grammar s D) pos w := by
  induction k with
  | zero => intro D _ n env s pos w; rfl
  | succ k ih =>
    intro D hD n env s pos w
    unfold Defs.inlineLoop Defs.inlineStep
    split
    · rename_i D' hD'
      split at hD'
      · cases hD'
        have hr := inlRel_step D
        rw [ih (by rw [hr.names]; exact hr.noCap _ hD), eval_inlineStep c hD]
      · cases hD'
    · rfl

/-- Inlining does not change the meaning of a grammar. -/
theorem eval_inline (c : Ctx σ) {D : Defs} (hD : D.noCap D.names) (n : Nat) (env : Env)
    (s : String) (pos : Nat) (w : World σ) :
    eval n c env (.grammar s D.inline) pos w = eval n c env (.grammar s D) pos w :=
  eval_inlineLoop c _ hD n env s pos w

end Gpeg
