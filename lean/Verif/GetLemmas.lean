import Verif.PegLemmas
/-! # `Get` does not change the meaning of a pattern -/
namespace Gpeg
variable {σ : Type}

theorem litEv_one (c : Ctx σ) (a : UInt8) (pos : Nat) (w : World σ) :
    litEv c [a] pos w = clsEv c (CSet.new [a]) pos w := by
  unfold litEv clsEv inSet evalLit
  cases h : c.data[pos]? with
  | none => simp
  | some b =>
    by_cases hab : b = a
    · subst hab
      simp [evalLit, CSet.has_new]
    · simp [hab, CSet.has_new]

/-- `q` refines `p`: it has the same results, and needs no more fuel. -/
structure RefP (σ : Type) (p q : Pat) : Prop where
  le : ∀ n (c : Ctx σ) env pos w e, eval n c env p pos w = some e → eval n c env q pos w = some e
  ge : ∀ (c : Ctx σ) env pos w e, Evals c env q pos w e → Evals c env p pos w e

theorem RefP.refl (p : Pat) : RefP σ p p := ⟨fun _ _ _ _ _ _ h => h, fun _ _ _ _ _ h => h⟩

theorem RefP.trans {p q r : Pat} (h : RefP σ p q) (h' : RefP σ q r) : RefP σ p r :=
  ⟨fun n c env pos w e x => h'.le n c env pos w e (h.le n c env pos w e x),
   fun c env pos w e x => h.ge c env pos w e (h'.ge c env pos w e x)⟩

theorem RefP.iff {p q : Pat} (h : RefP σ p q) {c : Ctx σ} {env pos w e} :
    Evals c env p pos w e ↔ Evals c env q pos w e :=
  ⟨fun ⟨n, x⟩ => ⟨n, h.le _ _ _ _ _ _ x⟩, h.ge _ _ _ _ _⟩

theorem refP_sub {p q : Pat}
    (h : ∀ n (c : Ctx σ) env pos w, eval (n + 1) c env p pos w = eval n c env q pos w) :
    RefP σ p q := by
  refine ⟨fun n c env pos w e x => ?_, fun c env pos w e x => (evals_sub fun n => h n _ _ _ _).2 x⟩
  cases n with
  | zero => cases x
  | succ n => rw [h] at x; exact eval_succ _ _ _ _ _ _ _ x

theorem refP_inl (n : String) (p : Pat) : RefP σ (.inl n p) p := refP_sub fun _ _ _ _ _ => rfl

theorem refP_alt {l l' r r' : Pat} (hl : RefP σ l l') (hr : RefP σ r r') :
    RefP σ (.alt l r) (.alt l' r') := by
  refine ⟨fun n c env pos w e x => ?_, fun c env pos w e x => ?_⟩
  · cases n with
    | zero => cases x
    | succ n =>
      exact bind_mono (hl.le _ _ _ _ _) (fun a x => orElse_mono fun w x => hr.le _ _ _ _ _ _) x
  · rw [evals_alt] at x ⊢
    obtain ⟨y, hy, h⟩ := x
    refine ⟨y, hl.ge _ _ _ _ _ hy, ?_⟩
    obtain ⟨res, f, w'⟩ := y
    cases res with
    | fail => obtain ⟨z, hz, rfl⟩ := h; exact ⟨z, hr.ge _ _ _ _ _ hz, rfl⟩
    | ok => exact h
    | abort => exact h

theorem refP_seq {l l' r r' : Pat} (hl : RefP σ l l') (hr : RefP σ r r') :
    RefP σ (.seq l r) (.seq l' r') := by
  refine ⟨fun n c env pos w e x => ?_, fun c env pos w e x => ?_⟩
  · cases n with
    | zero => cases x
    | succ n =>
      exact bind_mono (hl.le _ _ _ _ _) (fun a x => andThen_mono fun p cs w x =>
        map_mono (hr.le _ _ _ _ _)) x
  · rw [evals_seq] at x ⊢
    obtain ⟨y, hy, h⟩ := x
    refine ⟨y, hl.ge _ _ _ _ _ hy, ?_⟩
    obtain ⟨res, f, w'⟩ := y
    cases res with
    | fail => exact h
    | ok => obtain ⟨z, ⟨u, hu, rfl⟩, rfl⟩ := h; exact ⟨_, ⟨u, hr.ge _ _ _ _ _ hu, rfl⟩, rfl⟩
    | abort => exact h

theorem refP_not {p p' : Pat} (hp : RefP σ p p') : RefP σ (.not p) (.not p') := by
  refine ⟨fun n c env pos w e x => ?_, fun c env pos w e x => ?_⟩
  · cases n with
    | zero => cases x
    | succ n => exact map_mono (hp.le _ _ _ _ _) x
  · rw [evals_not] at x ⊢
    obtain ⟨y, hy, h⟩ := x
    exact ⟨y, hp.ge _ _ _ _ _ hy, h⟩

/-- A pattern whose value is known, refined by one that computes it in one step. -/
theorem refP_of {p q : Pat} (v : Ctx σ → Env → Nat → World σ → Ev σ)
    (h1 : ∀ c env pos w e, Evals c env p pos w e ↔ e = v c env pos w)
    (h2 : ∀ n c env pos w, eval (n + 1) c env q pos w = some (v c env pos w)) : RefP σ p q := by
  refine ⟨fun n c env pos w e x => ?_, fun c env pos w e x => ?_⟩
  · cases n with
    | zero => cases x
    | succ n => rw [h2, (h1 _ _ _ _ _).1 ⟨_, x⟩]
  · rw [Evals.leaf fun n => h2 n _ _ _ _] at x
    exact (h1 _ _ _ _ _).2 x

theorem refP_alt_emptyL (r : Pat) : RefP σ (.alt .empty r) .empty := by
  refine refP_of (fun _ _ pos w => (.ok pos [], 0, w)) (fun c env pos w e => ?_) fun _ _ _ _ _ => rfl
  rw [evals_alt]
  simp only [evals_empty]
  constructor
  · rintro ⟨x, rfl, h⟩; exact h
  · rintro rfl; exact ⟨_, rfl, rfl⟩

theorem refP_alt_emptyR (l : Pat) : RefP σ (.alt l .empty) (.opt l) := by
  refine ⟨fun n c env pos w e x => ?_, fun c env pos w e x => ?_⟩
  · cases n with
    | zero => cases x
    | succ n =>
      refine bind_mono (fun _ => id) (fun a x => orElse_mono fun w x hx => ?_) x
      rw [show x = _ from evals_empty.1 ⟨_, hx⟩]
  · rw [evals_opt] at x
    rw [evals_alt]
    obtain ⟨y, hy, h⟩ := x
    refine ⟨y, hy, ?_⟩
    obtain ⟨res, f, w'⟩ := y
    cases res with
    | fail => obtain ⟨z, hz, rfl⟩ := h; exact ⟨z, evals_empty.2 hz, rfl⟩
    | ok => exact h
    | abort => exact h

theorem refP_seq_emptyR (l : Pat) : RefP σ (.seq l .empty) l := by
  have key : ∀ (x e : Ev σ), AndThenR x (fun p cs w' y =>
      ∃ z : Ev σ, z = (Res.ok p [], 0, w') ∧ y = (z.1.prepend cs, z.2)) e ↔ e = x := by
    rintro ⟨res, f, w⟩ e
    cases res with
    | ok p cs =>
      simp only [AndThenR]
      constructor
      · rintro ⟨y, ⟨z, rfl, rfl⟩, rfl⟩; simp [Res.prepend]
      · rintro rfl; exact ⟨_, ⟨_, rfl, rfl⟩, by simp [Res.prepend]⟩
    | fail => rfl
    | abort => rfl
  refine ⟨fun n c env pos w e x => ?_, fun c env pos w e x => ?_⟩
  · cases n with
    | zero => cases x
    | succ n =>
      have x' : (eval n c env l pos w).bind (fun e => e.andThen fun pos' cs w' =>
        (eval n c env .empty pos' w').map fun (r, f) => (r.prepend cs, f)) = some e := x
      rw [Option.bind_eq_some_iff] at x'
      obtain ⟨y, hy, h⟩ := x'
      apply eval_succ
      have : e = y := by
        rw [← key y e]
        obtain ⟨res, f, w⟩ := y
        cases res with
        | ok p cs =>
          simp only [Ev.andThen, Option.map_eq_some_iff] at h
          obtain ⟨a, ⟨z, hz, rfl⟩, rfl⟩ := h
          exact ⟨_, ⟨z, evals_empty.1 ⟨n, hz⟩, rfl⟩, rfl⟩
        | fail => exact (Option.some.inj h).symm
        | abort => exact (Option.some.inj h).symm
      rw [this]; exact hy
  · rw [evals_seq]
    refine ⟨e, x, ?_⟩
    simp only [evals_empty]
    exact (key e e).2 rfl

theorem prepend_nil (r : Res) : r.prepend [] = r := by cases r <;> rfl

theorem refP_seq_emptyL (r : Pat) : RefP σ (.seq .empty r) r := by
  refine ⟨fun n c env pos w e x => ?_, fun c env pos w e x => ?_⟩
  · cases n with
    | zero => cases x
    | succ n =>
      have x' : (eval n c env .empty pos w).bind (fun e => e.andThen fun pos' cs w' =>
        (eval n c env r pos' w').map fun (r, f) => (r.prepend cs, f)) = some e := x
      rw [Option.bind_eq_some_iff] at x'
      obtain ⟨y, hy, h⟩ := x'
      rw [show y = _ from evals_empty.1 ⟨n, hy⟩] at h
      simp only [Ev.andThen, Option.map_eq_some_iff] at h
      obtain ⟨a, ⟨z, hz, rfl⟩, rfl⟩ := h
      apply eval_succ
      simp only [prepend_nil, Nat.zero_max]; exact hz
  · rw [evals_seq]
    refine ⟨_, evals_empty.2 rfl, ?_⟩
    refine ⟨_, ⟨e, x, rfl⟩, ?_⟩
    simp only [prepend_nil, Nat.zero_max]

theorem star_not_fail {c : Ctx σ} {env p} : ∀ {n pos w f w'},
    eval n c env (.star p) pos w ≠ some (.fail, f, w') := by
  intro n
  induction n with
  | zero => intro _ _ _ _ h; cases h
  | succ n ih =>
    intro pos w f w' h
    have hh := (evals_star).1 ⟨_, h⟩
    have h' : (eval n c env p pos w).bind (fun e => match e with
        | (.ok pos' cs, f, w') => (eval n c env (.star p) pos' w').map fun (r, f', w'') =>
            (r.prepend cs, max f f', w'')
        | (.fail, f, w') => some (.ok pos [], f, w')
        | (.abort q, f, w') => some (.abort q, f, w')) = some (.fail, f, w') := h
    rw [Option.bind_eq_some_iff] at h'
    obtain ⟨⟨res, f1, w1⟩, hy, h2⟩ := h'
    cases res with
    | ok p1 cs =>
      simp only [Option.map_eq_some_iff] at h2
      obtain ⟨⟨r2, f2, w2⟩, hz, h3⟩ := h2
      cases r2 with
      | ok => simp [Res.prepend] at h3
      | abort => simp [Res.prepend] at h3
      | fail => exact ih hz
    | fail => simp at h2
    | abort => simp at h2

theorem refP_opt_star {q s : Pat} (h : RefP σ q (.star s)) : RefP σ (.opt q) (.star s) := by
  refine ⟨fun n c env pos w e x => ?_, fun c env pos w e x => ?_⟩
  · cases n with
    | zero => cases x
    | succ n =>
      have x' : (eval n c env q pos w).bind (fun e => e.orElse fun w' =>
        some (.ok pos [], 0, w')) = some e := x
      rw [Option.bind_eq_some_iff] at x'
      obtain ⟨⟨res, f1, w1⟩, hy, h2⟩ := x'
      have hs := h.le _ _ _ _ _ _ hy
      apply eval_succ
      cases res with
      | fail => exact absurd hs star_not_fail
      | ok => rw [← Option.some.inj h2]; exact hs
      | abort => rw [← Option.some.inj h2]; exact hs
  · rw [evals_opt]
    refine ⟨e, h.ge _ _ _ _ _ x, ?_⟩
    obtain ⟨res, f, w'⟩ := e
    obtain ⟨n, x⟩ := x
    cases res with
    | fail => exact absurd x star_not_fail
    | ok => rfl
    | abort => rfl

theorem refP_optGet {q g : Pat} (h : RefP σ q g) : RefP σ (.opt q) (optGet (.opt q) g) := by
  unfold optGet
  split
  · rename_i hs
    cases g <;> first | exact refP_opt_star h | cases hs
  · exact RefP.refl _

theorem inSet_add (d : List UInt8) (pos : Nat) (a b : CSet) :
    inSet d pos (a.add b) = (inSet d pos a || inSet d pos b) := by
  unfold inSet; cases d[pos]? <;> simp [CSet.has_add]

theorem new_two (a b : UInt8) : CSet.new [a, b] = (CSet.new [a]).add (CSet.new [b]) := by
  apply CSet.ext_has; intro r
  rw [CSet.has_new, CSet.has_add, CSet.has_new, CSet.has_new]
  rw [Bool.eq_iff_iff]; simp

theorem add_comm' (a b : CSet) : a.add b = b.add a := by
  apply CSet.ext_has; intro r
  rw [CSet.has_add, CSet.has_add, Bool.or_comm]

/-- Single-byte patterns: evaluation is that of a class. -/
def IsCls (σ : Type) (p : Pat) (a : CSet) : Prop :=
  ∀ n (c : Ctx σ) env pos w, eval (n + 1) c env p pos w = some (clsEv c a pos w)

theorem isCls_cls (a : CSet) : IsCls σ (.cls a) a := fun n _ _ _ _ => eval_cls n a
theorem isCls_lit (a : UInt8) : IsCls σ (.lit [a]) (CSet.new [a]) := fun n _ _ _ _ => by
  rw [eval_lit, litEv_one]

theorem IsCls.evals {p : Pat} {a : CSet} (h : IsCls σ p a) {c : Ctx σ} {env pos w e} :
    Evals c env p pos w e ↔ e = clsEv c a pos w := Evals.leaf fun n => h n _ _ _ _

theorem refP_alt_cls {l r : Pat} {a b : CSet} (hl : IsCls σ l a) (hr : IsCls σ r b) :
    RefP σ (.alt l r) (.cls (b.add a)) := by
  refine refP_of (fun c _ pos w => clsEv c (b.add a) pos w) (fun c env pos w e => ?_)
    (fun n c env pos w => eval_cls n _)
  rw [evals_alt]
  simp only [hl.evals, hr.evals]
  unfold clsEv
  rw [inSet_add]
  constructor
  · rintro ⟨x, rfl, h⟩
    cases ha : inSet c.data pos a with
    | true => simp [ha, OrElseR] at h ⊢; exact h
    | false =>
      simp [ha, OrElseR] at h ⊢
      subst h
      cases hb : inSet c.data pos b <;> simp
  · rintro rfl
    refine ⟨_, rfl, ?_⟩
    cases ha : inSet c.data pos a with
    | true => simp [OrElseR]
    | false => cases hb : inSet c.data pos b <;> simp [OrElseR]

theorem refP_combine {l r : Pat} {a : CSet} (h : combine l r = some a) :
    RefP σ (.alt l r) (.cls a) := by
  unfold combine at h
  split at h <;> first | cases h | skip
  · exact refP_alt_cls (isCls_lit _) (isCls_cls _)
  · rw [new_two, add_comm']; exact refP_alt_cls (isCls_lit _) (isCls_lit _)
  · exact refP_alt_cls (isCls_cls _) (isCls_cls _)
  · rw [add_comm']; exact refP_alt_cls (isCls_cls _) (isCls_lit _)

theorem isCls_negSet {q : Pat} {a : CSet} (h : negSet q = some a) : IsCls σ q a := by
  unfold negSet at h
  split at h <;> first | cases h | skip
  · exact isCls_lit _
  · exact isCls_cls _

theorem lt_of_inSet {d : List UInt8} {pos : Nat} {a : CSet} (h : inSet d pos a = true) :
    pos < d.length := by
  unfold inSet at h
  cases hp : d[pos]? with
  | none => rw [hp] at h; cases h
  | some b => exact (List.getElem?_eq_some_iff.1 hp).1

/-- `!q r` where `q` is a single byte pattern and `r` succeeds exactly on a set `b`. -/
theorem refP_not_seq {q r : Pat} {a s : CSet} (hq : IsCls σ q a)
    (v : Ctx σ → Nat → Bool) (g : Nat → Nat) (hg : ∀ pos, g pos ≤ pos + 1)
    (hr : ∀ n (c : Ctx σ) env pos w, eval (n + 1) c env r pos w =
      some (if v c pos then (.ok (pos + 1) [], g pos, w) else (.fail, g pos, w)))
    (hs : ∀ (c : Ctx σ) pos, inSet c.data pos s = (v c pos && !inSet c.data pos a)) :
    RefP σ (.seq (.not q) r) (.cls s) := by
  refine refP_of (fun c _ pos w => clsEv c s pos w) (fun c env pos w e => ?_)
    (fun n c env pos w => eval_cls n _)
  rw [evals_seq]
  simp only [evals_not, hq.evals, Evals.leaf fun n => hr n _ _ _ _]
  have hm : max (pos + 1) (g pos) = pos + 1 := Nat.max_eq_left (hg pos)
  unfold clsEv
  rw [hs]
  constructor
  · rintro ⟨x, ⟨y, rfl, rfl⟩, h⟩
    cases ha : inSet c.data pos a with
    | true => simp [ha, AndThenR, notEv] at h ⊢; exact h
    | false =>
      simp [ha, AndThenR, notEv] at h ⊢
      subst h
      cases hb : v c pos <;> simp [Res.prepend, hm]
  · rintro rfl
    refine ⟨_, ⟨_, rfl, rfl⟩, ?_⟩
    cases ha : inSet c.data pos a with
    | true => simp [AndThenR, notEv]
    | false => cases hb : v c pos <;> simp [AndThenR, notEv, Res.prepend, hb, hm]

theorem refP_negSeq {q r x : Pat} {a : CSet} (hq : IsCls σ q a) (h : negSeq a r = some x) :
    RefP σ (.seq (.not q) r) x := by
  unfold negSeq at h
  split at h <;> first | cases h | skip
  · refine refP_not_seq hq (fun c pos => decide (pos + 1 ≤ c.data.length)) (fun _ => 0) (fun _ => Nat.zero_le _)
      (fun n c env pos w => ?_) (fun c pos => ?_)
    · rw [eval_dot]; unfold dotEv
      simp only [show (1 : UInt8).toNat = 1 from rfl, decide_eq_true_eq]
    · unfold inSet
      cases hp : c.data[pos]? with
      | none =>
        have := List.getElem?_eq_none_iff.1 hp
        simp; omega
      | some b =>
        have := (List.getElem?_eq_some_iff.1 hp).1
        simp [CSet.has_complement]; intro _; omega
  · rename_i cs
    refine refP_not_seq hq (fun c pos => inSet c.data pos cs) (· + 1) (fun _ => Nat.le_refl _)
      (fun n c env pos w => eval_cls n _) (fun c pos => ?_)
    unfold inSet; cases c.data[pos]? <;> simp [CSet.has_sub]
  · rename_i b
    refine refP_not_seq hq (fun c pos => inSet c.data pos (CSet.new [b])) (· + 1) (fun _ => Nat.le_refl _)
      (fun n c env pos w => isCls_lit b n c env pos w) (fun c pos => ?_)
    unfold inSet; cases c.data[pos]? <;> simp [CSet.has_sub]

theorem isEmpty_eq {p : Pat} (h : p.isEmpty = true) : p = .empty := by
  cases p <;> first | rfl | cases h

/-- `Get` refines its argument. -/
theorem refP_getF : ∀ (k : Nat) (p : Pat), RefP σ p (getF k p) := by
  intro k
  induction k with
  | zero => intro p; exact RefP.refl p
  | succ k ih =>
    intro p
    cases p with
    | inl n b => exact refP_inl n b
    | alt l r =>
      show RefP σ (.alt l r) (altGet (.alt l r) (getF k l) (getF k r) (getF k))
      have hc := refP_alt (ih l) (ih r)
      unfold altGet
      split
      · rename_i h
        rw [isEmpty_eq h] at hc ⊢
        exact hc.trans (refP_alt_emptyL _)
      · split
        · rename_i h
          rw [isEmpty_eq h] at hc
          exact (hc.trans (refP_alt_emptyR _)).trans (refP_optGet (ih _))
        · split
          · rename_i h; exact hc.trans (refP_combine h)
          · exact RefP.refl _
    | opt q => exact refP_optGet (ih q)
    | seq l r =>
      show RefP σ (.seq l r) (seqGet (.seq l r) (getF k l) (getF k r) (getF k))
      have hc := refP_seq (ih l) (ih r)
      unfold seqGet
      split
      · rename_i h
        rw [isEmpty_eq h] at hc
        exact hc.trans (refP_seq_emptyR _)
      · split
        · rename_i h
          rw [isEmpty_eq h] at hc
          exact hc.trans (refP_seq_emptyL _)
        · split
          · rename_i q hq
            split
            · rename_i set hset
              cases hn : negSeq set (getF k r) with
              | none => exact RefP.refl _
              | some x =>
                rw [hq] at hc
                have h1 : RefP σ (.seq (.not q) (getF k r)) (.seq (.not (getF k q)) (getF k r)) :=
                  refP_seq (refP_not (ih q)) (RefP.refl _)
                exact (hc.trans h1).trans (refP_negSeq (isCls_negSet hset) hn)
            · exact RefP.refl _
          · exact RefP.refl _
    | _ => exact RefP.refl _

theorem refP_get (p : Pat) : RefP σ p (get p) := refP_getF _ p

end Gpeg
