import Verif.MemoPar
/-!
# Memoized nodes of a pattern

Conditions on a pattern under which the memoization entries of its code do not get mixed up, in terms of the
pattern only. `get` and inlining keep them.
-/
namespace Gpeg
variable {σ : Type}

mutual
/-- The memoized nodes of a pattern that stands in `env`. -/
def Pat.memos (env : Env) : Pat → List Occ
  | .alt l r | .seq l r => l.memos env ++ r.memos env
  | .star p | .plus p | .opt p | .not p | .and p | .cap p _ | .inl _ p
  | .check p _ _ _ | .errRec _ p | .search p => p.memos env
  | .memo p id => ⟨id, false, p, env⟩ :: p.memos env
  | .grammar _ ds => ds.memos (ds :: env)
  | .dot _ | .err _ | .nonterm _ | .cls _ | .lit _ | .emptyOp _ | .empty => []
/-- The same over the definitions of a grammar, `env` including them. -/
def Defs.memos (env : Env) : Defs → List Occ
  | .nil => []
  | .cons _ p rest => p.memos env ++ rest.memos env
end

theorem getF_memos (env : Env) (k : Nat) : ∀ p : Pat, ∀ m ∈ (getF k p).memos env, m ∈ p.memos env := by
  induction k with
  | zero => intro p _ h; exact h
  | succ k ih =>
    intro p
    have hopt : ∀ q x : Pat, (∀ m ∈ x.memos env, m ∈ q.memos env) →
        (∀ m ∈ (optGet (.opt q) x).memos env, m ∈ q.memos env) := by
      intro q x h1
      unfold optGet
      split
      · exact h1
      · exact fun _ h => h
    cases p with
    | inl n b => exact fun _ h => h
    | alt l r =>
      have hl1 := ih l
      have hr1 := ih r
      show (∀ m ∈ (altGet (.alt l r) (getF k l) (getF k r) (getF k)).memos env, m ∈ l.memos env ++ r.memos env)
      unfold altGet
      split
      · exact fun m h => List.mem_append_left _ (hl1 m h)
      · split
        · have h1 := hopt (getF k l) (getF k (getF k l)) (ih _)
          exact fun m h => List.mem_append_left _ (hl1 m (h1 m h))
        · split
          · exact (fun m h => by cases h)
          · exact fun _ h => h
    | opt q =>
      exact hopt q (getF k q) (ih q)
    | seq l r =>
      have hl1 := ih l
      have hr1 := ih r
      show (∀ m ∈ (seqGet (.seq l r) (getF k l) (getF k r) (getF k)).memos env, m ∈ l.memos env ++ r.memos env)
      unfold seqGet
      split
      · exact fun m h => List.mem_append_left _ (hl1 m h)
      · split
        · exact fun m h => List.mem_append_right _ (hr1 m h)
        · split
          · split
            · rename_i set _
              cases hn : negSeq set (getF k r) with
              | none => exact fun _ h => h
              | some x =>
                have : ∃ cs, x = .cls cs := by
                  unfold negSeq at hn
                  split at hn <;> cases hn <;> exact ⟨_, rfl⟩
                obtain ⟨cs, rfl⟩ := this
                exact (fun m h => by cases h)
            · exact fun _ h => h
          · exact fun _ h => h
    | _ => exact fun _ h => h

theorem get_memos {env : Env} {p : Pat} {m : Occ} (h : m ∈ (get p).memos env) : m ∈ p.memos env :=
  getF_memos env _ p m h

theorem Defs.find_memos {env : Env} {ds : Defs} {n : String} {b : Pat} (h : ds.find n = some b) :
    ∀ m ∈ b.memos env, m ∈ ds.memos env := by
  induction ds using Defs.rec (motive_1 := fun _ => True) with
  | nil => cases h
  | cons m p rest _ ih =>
    unfold Defs.find at h
    unfold Defs.memos
    intro x hx
    split at h
    · cases h; exact List.mem_append_left _ hx
    · exact List.mem_append_right _ (ih h x hx)
  | _ => trivial

/-! ## Patterns without non-terminals -/

section
variable {P : Occ → Prop} (hP : ∀ id q e e', q.nts = [] → P ⟨id, false, q, e⟩ → P ⟨id, false, q, e'⟩)
include hP

mutual
theorem Pat.memos_closed : ∀ (p : Pat) (env env' : Env), p.nts = [] → (∀ o ∈ p.memos env, P o) →
    ∀ o ∈ p.memos env', P o
  | .alt l r, env, env', hn, h, o, ho | .seq l r, env, env', hn, h, o, ho => by
    simp only [Pat.nts, List.append_eq_nil_iff] at hn
    rcases List.mem_append.1 ho with ho | ho
    · exact Pat.memos_closed l env env' hn.1 (fun o ho => h o (List.mem_append_left _ ho)) o ho
    · exact Pat.memos_closed r env env' hn.2 (fun o ho => h o (List.mem_append_right _ ho)) o ho
  | .star p, env, env', hn, h, o, ho | .plus p, env, env', hn, h, o, ho | .opt p, env, env', hn, h, o, ho
  | .not p, env, env', hn, h, o, ho | .and p, env, env', hn, h, o, ho | .cap p _, env, env', hn, h, o, ho
  | .inl _ p, env, env', hn, h, o, ho | .check p _ _ _, env, env', hn, h, o, ho
  | .errRec _ p, env, env', hn, h, o, ho | .search p, env, env', hn, h, o, ho =>
    Pat.memos_closed p env env' (by simpa only [Pat.nts] using hn) h o ho
  | .memo p id, env, env', hn, h, o, ho => by
    rcases List.mem_cons.1 ho with rfl | ho
    · exact hP _ _ env env' hn (h _ List.mem_cons_self)
    · exact Pat.memos_closed p env env' hn (fun o ho => h o (List.mem_cons_of_mem _ ho)) o ho
  | .grammar _ ds, env, env', hn, h, o, ho =>
    Defs.memos_closed ds (ds :: env) (ds :: env') hn h o ho
  | .dot _, env, env', _, _, o, ho | .err _, env, env', _, _, o, ho | .nonterm _, env, env', _, _, o, ho
  | .cls _, env, env', _, _, o, ho | .lit _, env, env', _, _, o, ho | .emptyOp _, env, env', _, _, o, ho
  | .empty, env, env', _, _, o, ho => by cases ho
theorem Defs.memos_closed : ∀ (ds : Defs) (env env' : Env), ds.nts = [] → (∀ o ∈ ds.memos env, P o) →
    ∀ o ∈ ds.memos env', P o
  | .nil, _, _, _, _, o, ho => by cases ho
  | .cons _ p rest, env, env', hn, h, o, ho => by
    simp only [Defs.nts, List.append_eq_nil_iff] at hn
    rcases List.mem_append.1 ho with ho | ho
    · exact Pat.memos_closed p env env' hn.1 (fun o ho => h o (List.mem_append_left _ ho)) o ho
    · exact Defs.memos_closed rest env env' hn.2 (fun o ho => h o (List.mem_append_right _ ho)) o ho
end
end

/-! ## Inlining -/

section
variable {D : Defs} {post : Env} {f : String → Option Pat} {P : Occ → Prop}
  (hP : ∀ id q pre, PreOK D pre → PatOK D pre q → P ⟨id, false, q, pre ++ D :: post⟩ →
    P ⟨id, false, q.inlineWith f, pre.map (Defs.inlineWith f) ++ D.inlineWith f :: post⟩)
  (hf : ∀ n b, f n = some b → ∀ env, ∀ o ∈ b.memos env, P o)
include hP hf

mutual
theorem Pat.memos_inlineWith : ∀ (p : Pat) (pre : Env), PreOK D pre → PatOK D pre p →
    (∀ o ∈ p.memos (pre ++ D :: post), P o) →
    ∀ o ∈ (p.inlineWith f).memos (pre.map (Defs.inlineWith f) ++ D.inlineWith f :: post), P o
  | .alt l r, pre, h1, h2, h, o, ho | .seq l r, pre, h1, h2, h, o, ho => by
    have hc := h2.2
    simp only [Pat.noCap] at hc
    rcases List.mem_append.1 ho with ho | ho
    · exact Pat.memos_inlineWith l pre h1 (h2.sub (fun m hm => List.mem_append_left _ hm) hc.1)
        (fun o ho => h o (List.mem_append_left _ ho)) o ho
    · exact Pat.memos_inlineWith r pre h1 (h2.sub (fun m hm => List.mem_append_right _ hm) hc.2)
        (fun o ho => h o (List.mem_append_right _ ho)) o ho
  | .star p, pre, h1, h2, h, o, ho | .plus p, pre, h1, h2, h, o, ho | .opt p, pre, h1, h2, h, o, ho
  | .not p, pre, h1, h2, h, o, ho | .and p, pre, h1, h2, h, o, ho | .cap p _, pre, h1, h2, h, o, ho
  | .inl _ p, pre, h1, h2, h, o, ho | .check p _ _ _, pre, h1, h2, h, o, ho
  | .errRec _ p, pre, h1, h2, h, o, ho | .search p, pre, h1, h2, h, o, ho =>
    Pat.memos_inlineWith p pre h1 (h2.sub (fun m hm => hm) h2.2) h o ho
  | .memo p id, pre, h1, h2, h, o, ho => by
    have h3 : PatOK D pre p := h2.sub (fun m hm => hm) h2.2
    rcases List.mem_cons.1 ho with rfl | ho
    · exact hP _ _ _ h1 h3 (h _ List.mem_cons_self)
    · exact Pat.memos_inlineWith p pre h1 h3 (fun o ho => h o (List.mem_cons_of_mem _ ho)) o ho
  | .grammar _ ds, pre, h1, h2, h, o, ho => by
    have hc := h2.2
    simp only [Pat.noCap] at hc
    have hpo : PreOK D (ds :: pre) := by
      refine ⟨fun m hm hmD d hd => ?_, hc.2, h1⟩
      rcases List.mem_cons.1 hd with rfl | hd
      · exact Defs.find_none_of fun hm' => hc.1 m hm hm' hmD
      · exact h2.1 m hm hmD d hd
    exact Defs.memos_inlineWith ds (ds :: pre) hpo hpo.1 hc.2 h o ho
  | .nonterm n, pre, h1, h2, h, o, ho => by
    unfold Pat.inlineWith at ho
    split at ho
    · rename_i b hb; exact hf n b hb _ o ho
    · cases ho
  | .dot _, _, _, _, _, o, ho | .err _, _, _, _, _, o, ho
  | .cls _, _, _, _, _, o, ho | .lit _, _, _, _, _, o, ho | .emptyOp _, _, _, _, _, o, ho
  | .empty, _, _, _, _, o, ho => by cases ho
theorem Defs.memos_inlineWith : ∀ (ds : Defs) (pre : Env), PreOK D pre →
    (∀ m ∈ ds.nts, m ∈ D.names → ∀ d ∈ pre, d.find m = none) → ds.noCap D.names →
    (∀ o ∈ ds.memos (pre ++ D :: post), P o) →
    ∀ o ∈ (ds.inlineWith f).memos (pre.map (Defs.inlineWith f) ++ D.inlineWith f :: post), P o
  | .nil, _, _, _, _, _, o, ho => by cases ho
  | .cons _ p rest, pre, h1, h2, h3, h, o, ho => by
    rcases List.mem_append.1 ho with ho | ho
    · exact Pat.memos_inlineWith p pre h1 ⟨fun m hm => h2 m (List.mem_append_left _ hm), h3.1⟩
        (fun o ho => h o (List.mem_append_left _ ho)) o ho
    · exact Defs.memos_inlineWith rest pre h1 (fun m hm => h2 m (List.mem_append_right _ hm)) h3.2
        (fun o ho => h o (List.mem_append_right _ ho)) o ho
end
end

/-- The predicate talks about ids and meanings only. -/
def OccInv (σ : Type) (P : Occ → Prop) : Prop :=
  ∀ id q e q' e', (∀ (n : Nat) (c : Ctx σ) (pos : Nat) (w : World σ), eval n c e' q' pos w = eval n c e q pos w) →
    P ⟨id, false, q, e⟩ → P ⟨id, false, q', e'⟩

theorem Defs.memos_inlineLoop {P : Occ → Prop} (hP : OccInv σ P) (env : Env) (k : Nat) : ∀ {D : Defs},
    D.noCap D.names → (∀ o ∈ D.memos (D :: env), P o) →
    ∀ o ∈ (Defs.inlineLoop k D).memos (Defs.inlineLoop k D :: env), P o := by
  induction k with
  | zero => intro D _ h; exact h
  | succ k ih =>
    intro D hD h
    unfold Defs.inlineLoop Defs.inlineStep
    split
    · rename_i D' hD'
      split at hD'
      · cases hD'
        have hr := inlRel_step D
        refine ih (by rw [hr.names]; exact hr.noCap _ hD) ?_
        refine Defs.memos_inlineWith (D := D) (post := env) (pre := []) ?_ ?_ D trivial (fun _ _ _ d hd => by cases hd) hD h
        · intro id q pre h1 h2 h3
          exact hP _ _ _ _ _ (fun n c pos w => eval_inlineWith env c (fun _ _ h => Defs.eligible_nts h) hD n pre q pos w h1 h2) h3
        · intro n b hb env'
          have hb' := Defs.eligible_nts hb
          exact Pat.memos_closed (fun id q e e' hq h => hP _ _ _ _ _ (fun n c pos w => eval_closed c n q e' e pos w hq) h)
            b _ env' hb'.1 (fun o ho => h o (Defs.find_memos hb'.2 o ho))
      · cases hD'
    · exact h

theorem Defs.memos_inline {P : Occ → Prop} (hP : OccInv σ P) {env : Env} {D : Defs}
    (hD : D.noCap D.names) (h : ∀ o ∈ D.memos (D :: env), P o) :
    ∀ o ∈ D.inline.memos (D.inline :: env), P o := Defs.memos_inlineLoop hP env _ hD h

/-! ## Compilation -/

/-- What `memoOcc` lists, given that the nodes satisfy `P`. -/
structure OccsOf (P : Occ → Prop) (s s' : CState) (l : List Occ) : Prop where
  le : s.memo ≤ s'.memo
  plain : ∀ o ∈ l, o.star = false → P o
  star : ∀ o ∈ l, o.star = true → (∃ id, P ⟨id, false, o.q, o.env⟩) ∧ s.memo < o.id ∧ o.id ≤ s'.memo
  dist : l.Pairwise fun o o' => o.star = true → o'.star = true → o.id ≠ o'.id

section
variable {P : Occ → Prop} {s s1 s2 s' : CState} {l l' : List Occ}

theorem OccsOf.nil (h : s.memo ≤ s'.memo) : OccsOf P s s' [] :=
  ⟨h, nofun, nofun, List.Pairwise.nil⟩

theorem OccsOf.weaken (h : OccsOf P s s' l) (h1 : s1.memo ≤ s.memo) (h2 : s'.memo ≤ s2.memo) : OccsOf P s1 s2 l :=
  ⟨by have := h.le; omega, h.plain, fun o ho hs => by
    obtain ⟨a, b, c⟩ := h.star o ho hs
    exact ⟨a, by omega, by omega⟩, h.dist⟩

theorem OccsOf.app (h : OccsOf P s s1 l) (h' : OccsOf P s1 s2 l') : OccsOf P s s2 (l ++ l') := by
  have g := h.le; have g' := h'.le
  refine ⟨by omega, ?_, ?_, ?_⟩
  · intro o ho
    rcases List.mem_append.1 ho with ho | ho
    · exact h.plain o ho
    · exact h'.plain o ho
  · intro o ho hs
    rcases List.mem_append.1 ho with ho | ho
    · obtain ⟨a, b, c⟩ := h.star o ho hs; exact ⟨a, by omega, by omega⟩
    · obtain ⟨a, b, c⟩ := h'.star o ho hs; exact ⟨a, by omega, by omega⟩
  · refine List.pairwise_append.2 ⟨h.dist, h'.dist, fun o ho o' ho' hs hs' => ?_⟩
    have a := (h.star o ho hs).2.2
    have b := (h'.star o' ho' hs').2.1
    omega

theorem OccsOf.cons {o : Occ} (h : OccsOf P s s' l) (hs : o.star = false) (ho : P o) : OccsOf P s s' (o :: l) := by
  refine ⟨h.le, ?_, ?_, List.pairwise_cons.2 ⟨(fun _ _ h => by rw [hs] at h; cases h), h.dist⟩⟩
  · intro x hx
    rcases List.mem_cons.1 hx with rfl | hx
    · exact fun _ => ho
    · exact h.plain x hx
  · intro x hx hxs
    rcases List.mem_cons.1 hx with rfl | hx
    · rw [hs] at hxs; cases hxs
    · exact h.star x hx hxs

theorem OccsOf.consStar {o : Occ} (h : OccsOf P s s1 l) (hs : o.star = true) (ho : ∃ id, P ⟨id, false, o.q, o.env⟩)
    (hid : o.id = s1.memo + 1) (h2 : s'.memo = s1.memo + 1) : OccsOf P s s' (o :: l) := by
  have hle := h.le
  refine ⟨by omega, ?_, ?_, List.pairwise_cons.2 ⟨fun x hx _ hxs => ?_, h.dist⟩⟩
  · intro x hx hxs
    rcases List.mem_cons.1 hx with rfl | hx
    · rw [hs] at hxs; cases hxs
    · exact h.plain x hx hxs
  · intro x hx hxs
    rcases List.mem_cons.1 hx with rfl | hx
    · exact ⟨ho, by omega, by omega⟩
    · obtain ⟨a, b, c⟩ := h.star x hx hxs
      exact ⟨a, b, by omega⟩
  · have := (h.star x hx hxs).2.2
    omega
end

theorem occDefs_of {k : Nat} {P : Occ → Prop} {E : Env} {start : String} {used : List String}
    (hcomp : ∀ v s raw s', CM.Ok (compileF k v) s raw s' → v.Scoped → (∀ o ∈ v.memos E, P o) →
      OccsOf P s s' (memoOcc k E v s)) (ds : Defs) :
    ∀ {s s' : CState} {ls : List (String × Nat)} {code : Program},
    CM.Ok (compileDefs (compileF k) start used ds) s (ls, code) s' → ds.Scoped → (∀ o ∈ ds.memos E, P o) →
    OccsOf P s s' (occDefs (memoOcc k E) (stAfter k) start used ds s) := by
  induction ds using Defs.rec (motive_1 := fun _ => True) with
  | nil =>
    intro s s' ls code h _ _
    obtain ⟨rfl, rfl, rfl⟩ := compDefs_nil h
    exact .nil (Int.le_refl _)
  | cons nm v rest _ ih =>
    intro s s' ls code h hs hm
    unfold occDefs
    by_cases hn : nm ≠ start ∧ nm ∉ used
    · rw [if_pos hn]
      exact ih (compDefs_skip hn h) hs.2 (fun o ho => hm o (List.mem_append_right _ ho))
    · rw [if_neg hn]
      obtain ⟨fn, s1, ls', code', h1, h2, rfl, rfl⟩ := compDefs_cons hn h
      rw [stAfter_eq h1]
      exact ((hcomp _ _ _ _ h1 hs.1 fun o ho => hm o (List.mem_append_left _ ho)).weaken
        (s1 := s) (Int.le_refl _) (Int.le_refl _)).app (ih h2 hs.2 (fun o ho => hm o (List.mem_append_right _ ho)))
  | _ => trivial

theorem memoOcc_of {P : Occ → Prop} (hP : OccInv σ P) (k : Nat) : ∀ {env : Env} {p : Pat} {s s' : CState} {raw : Program},
    CM.Ok (compileF k p) s raw s' → p.Scoped → (∀ o ∈ p.memos env, P o) → OccsOf P s s' (memoOcc k env p s) := by
  induction k using Nat.strongRecOn with
  | _ k ih =>
  cases k with
  | zero => intro env p s s' raw h; exact (comp_zero h).elim
  | succ k =>
    intro env p s s' raw h hsc hm
    have ihk : ∀ {env : Env} {p : Pat} {s s' : CState} {raw : Program},
        CM.Ok (compileF k (get p)) s raw s' → p.Scoped → (∀ o ∈ p.memos env, P o) → OccsOf P s s' (memoOcc k env (get p) s) :=
      fun h1 h2 h3 => ih k (by omega) h1 (get_Scoped h2) fun o ho => h3 o (get_memos ho)
    cases p with
    | alt l r =>
      simp only [memoOcc]
      cases hc : combine (get l) (get r) with
      | some cs =>
        obtain ⟨rfl, rfl⟩ := comp_alt_some hc h
        exact .nil (Int.le_refl _)
      | none =>
        obtain ⟨lc, s1, rc, s2, h1, h2, rfl, rfl⟩ := comp_alt_none hc h
        simp only [stAfter_eq h1]
        exact (ihk h1 hsc.1 fun o ho => hm o (List.mem_append_left _ ho)).app
          ((ihk h2 hsc.2 fun o ho => hm o (List.mem_append_right _ ho)).weaken (Int.le_refl _) (Int.le_refl _))
    | seq l r =>
      obtain ⟨lc, s1, rc, h1, h2, rfl⟩ := comp_seq h
      simp only [memoOcc, stAfter_eq h1]
      exact (ihk h1 hsc.1 fun o ho => hm o (List.mem_append_left _ ho)).app
        (ihk h2 hsc.2 fun o ho => hm o (List.mem_append_right _ ho))
    | star p =>
      simp only [memoOcc]
      rcases comp_star h with ⟨cs, hg, rfl, rfl⟩ | ⟨q, id, hg, sub, s1, h1, rfl, rfl⟩ |
        ⟨hme, hcl, sub, s1, h1, rfl, rfl⟩
      · rw [hg]; exact .nil (Int.le_refl _)
      · have hm' : ∀ o ∈ (Pat.memo q id).memos env, P o := fun o ho => hm o (get_memos (p := p) (by rw [hg]; exact ho))
        have hs' : (Pat.memo q id).Scoped := by rw [← hg]; exact get_Scoped hsc
        rw [hg]
        simp only [stAfter_eq h1]
        exact OccsOf.consStar (ihk h1 hs' fun o ho => hm' o (List.mem_cons_of_mem _ ho)) rfl
          ⟨id, hm' _ List.mem_cons_self⟩ rfl rfl
      · have := (ihk h1 hsc hm).weaken (s2 := s1.bump 2) (Int.le_refl _) (Int.le_refl _)
        split
        · rename_i hg; exact absurd hg (hcl _)
        · rename_i hg; exact absurd hg (hme _ _)
        · exact this
    | plus p =>
      obtain ⟨st, s1, sub, h1, h2, rfl⟩ := comp_plus h
      simp only [memoOcc, stAfter_eq h1]
      exact (ih k (by omega) h1 (get_Scoped hsc) fun o ho => hm o (get_memos (p := p) ho)).app (ihk h2 hsc hm)
    | opt p =>
      simp only [memoOcc]
      rcases comp_opt h with ⟨b, hg, rfl, rfl⟩ | ⟨cs, hg, rfl, rfl⟩ | ⟨hl, hc, h1⟩
      · rw [hg]; exact .nil (Int.le_refl _)
      · rw [hg]; exact .nil (Int.le_refl _)
      · have := ih k (by omega) h1 ⟨get_Scoped hsc, trivial⟩ (env := env) fun o ho => hm o (get_memos (p := p) (by
          rcases List.mem_append.1 ho with ho | ho
          · exact ho
          · cases ho))
        split
        · rename_i hg; exact absurd hg (hl _)
        · rename_i hg; exact absurd hg (hc _)
        · exact this
    | not p =>
      obtain ⟨sub, s1, h1, rfl, rfl⟩ := comp_not h
      exact (ihk h1 hsc hm).weaken (Int.le_refl _) (Int.le_refl _)
    | and p =>
      obtain ⟨sub, s1, h1, rfl, rfl⟩ := comp_and h
      exact (ihk h1 hsc hm).weaken (Int.le_refl _) (Int.le_refl _)
    | cap p id =>
      obtain ⟨sub, h1, rfl⟩ := comp_cap h
      exact ihk h1 hsc hm
    | memo p id =>
      obtain ⟨sub, h1, rfl⟩ := comp_memo h
      exact ((ihk h1 hsc fun o ho => hm o (List.mem_cons_of_mem _ ho)).cons rfl (hm _ List.mem_cons_self)).weaken
        (Int.le_refl _) (Int.le_refl _)
    | check p c id fl =>
      obtain ⟨sub, h1, rfl⟩ := comp_check h
      exact (ihk h1 hsc hm).weaken (Int.le_refl _) (Int.le_refl _)
    | search p =>
      obtain ⟨k2, sub, s1, lc, s2, rc, l1, l2, code, rfl, h1, h2, hrc, hr, hraw, _, _, rfl⟩ := comp_search_code h
      simp only [memoOcc, stAfter_eq h1]
      have g1 := (ihk (env := env) h1 hsc.2 hm).le
      have g2 := ih k2 (by omega) h2 (get_Scoped (get_Scoped hsc.2)) fun o ho => hm o (get_memos (p := p) (get_memos ho))
      exact g2.weaken g1 (Int.le_refl _)
    | grammar start ds =>
      have hr := inlRel_inline ds
      have hm' := Defs.memos_inline hP hsc.1 hm
      have hs' := hr.scp hsc.2
      simp only [memoOcc]
      rcases comp_grammar h with ⟨hu, b, hb, h1⟩ | ⟨hu, labels, fns, code, h1, hr, rfl⟩
      · rw [if_pos hu, hb]
        exact ih k (by omega) h1 (Defs.find_Scoped hb hs') fun o ho => hm' o (Defs.find_memos hb o ho)
      · rw [if_neg hu]
        exact (occDefs_of (fun v s raw s' h1 h2 h3 => ih k (by omega) h1 h2 h3) _ h1 hs' hm').weaken
          (Int.le_refl _) (Int.le_refl _)
    | inl n b => exact ih k (by omega) (comp_inl h) hsc hm
    | errRec m p =>
      obtain ⟨sub, h1, rfl⟩ := comp_errRec h
      exact ihk h1 hsc hm
    | emptyOp _ => obtain ⟨_, rfl⟩ := comp_emptyOp h; exact .nil (Int.le_refl _)
    | cls _ => obtain ⟨_, rfl⟩ := comp_cls h; exact .nil (Int.le_refl _)
    | lit _ => obtain ⟨_, rfl⟩ := comp_lit h; exact .nil (Int.le_refl _)
    | nonterm _ => obtain ⟨_, rfl⟩ := comp_nonterm h; exact .nil (Int.le_refl _)
    | dot _ => obtain ⟨_, rfl⟩ := comp_dot h; exact .nil (Int.le_refl _)
    | err _ => obtain ⟨_, rfl⟩ := comp_err h; exact .nil (Int.le_refl _)
    | empty => obtain ⟨_, rfl⟩ := comp_empty h; exact .nil (Int.le_refl _)

/-! ## The condition on patterns -/

/-- Memoized nodes use no errors and no checkers with a state, two of them with the same id have the same meaning, and ids are
at most `top` (the value of `memoId` when compilation starts). -/
structure Pat.MemosOK (chk : CheckFn σ) (p : Pat) (top : Int) : Prop where
  quiet : ∀ o ∈ p.memos [], o.Quiet chk
  same : ∀ o ∈ p.memos [], ∀ o' ∈ p.memos [], o.id = o'.id → o.Same σ o'
  le : ∀ o ∈ p.memos [], o.id ≤ top

theorem pairwise_forall {α : Type} {R : α → α → Prop} (hs : ∀ a b, R a b → R b a) : ∀ {l : List α}, (∀ x ∈ l, R x x) →
    l.Pairwise R → ∀ {a b : α}, a ∈ l → b ∈ l → R a b := by
  intro l
  induction l with
  | nil => intro _ _ a b h; cases h
  | cons x l ih =>
    intro h1 h2 a b ha hb
    obtain ⟨h3, h4⟩ := List.pairwise_cons.1 h2
    rcases List.mem_cons.1 ha with rfl | ha' <;> rcases List.mem_cons.1 hb with rfl | hb'
    · exact h1 _ List.mem_cons_self
    · exact h3 _ hb'
    · exact hs _ _ (h3 _ ha')
    · exact ih (fun x hx => h1 x (List.mem_cons_of_mem _ hx)) h4 ha' hb'

theorem Occ.Same.symm {o o' : Occ} (h : o.Same σ o') : o'.Same σ o := ⟨h.1.symm, fun n c pos w => (h.2 n c pos w).symm⟩

theorem Occ.Quiet.congr {chk : CheckFn σ} {o o' : Occ} (h : o.Quiet chk) (he : ∀ (n : Nat) (c : Ctx σ) (pos : Nat) (w : World σ),
    eval n c o'.env o'.q pos w = eval n c o.env o.q pos w) : o'.Quiet chk := by
  intro n c pos w e hc hev w2
  rw [he] at hev ⊢
  exact h n c pos w e hc hev w2

theorem occsOK_of {chk : CheckFn σ} {k : Nat} {p : Pat} {s s' : CState} {raw : Program} (hc : CM.Ok (compileF k p) s raw s')
    (hs : p.Scoped) (hm : p.MemosOK chk s.memo) : OccsOK chk (memoOcc k [] p s) := by
  let P : Occ → Prop := fun o => ∃ o0 ∈ p.memos [], o0.id = o.id ∧
    ∀ (n : Nat) (c : Ctx σ) (pos : Nat) (w : World σ), eval n c o.env o.q pos w = eval n c o0.env o0.q pos w
  have hP : OccInv σ P := by
    rintro id q e q' e' he ⟨o0, h0, h1, h2⟩
    exact ⟨o0, h0, h1, fun n c pos w => (he n c pos w).trans (h2 n c pos w)⟩
  have h := memoOcc_of hP k (env := []) hc hs fun o ho => ⟨o, ho, rfl, fun _ _ _ _ => rfl⟩
  refine ⟨?_, ?_⟩
  · intro o ho
    cases hst : o.star with
    | false =>
      obtain ⟨o0, h0, h1, h2⟩ := h.plain o ho hst
      exact (hm.quiet o0 h0).congr h2
    | true =>
      obtain ⟨⟨id, o0, h0, h1, h2⟩, _⟩ := h.star o ho hst
      exact (hm.quiet o0 h0).congr h2
  · have key : ∀ o ∈ memoOcc k [] p s, ∀ o' ∈ memoOcc k [] p s, o.star = false → o.id = o'.id → o.Same σ o' := by
      intro o ho o' ho' hst hid
      obtain ⟨o0, h0, h1, h2⟩ := h.plain o ho hst
      cases hst' : o'.star with
      | false =>
        obtain ⟨o0', h0', h1', h2'⟩ := h.plain o' ho' hst'
        have := (hm.same o0 h0 o0' h0' (by rw [h1, h1', hid])).2
        exact ⟨hst.trans hst'.symm, fun n c pos w => by rw [h2, h2', this]⟩
      | true =>
        have := (h.star o' ho' hst').2.1
        have := hm.le o0 h0
        omega
    intro o ho o' ho' hid
    cases hst : o.star with
    | false => exact key o ho o' ho' hst hid
    | true =>
      cases hst' : o'.star with
      | false => exact (key o' ho' o ho hst' hid.symm).symm
      | true =>
        have := pairwise_forall (R := fun o o' : Occ => o.star = true → o'.star = true → o.id = o'.id → o.Same σ o')
          (fun a b hab h1 h2 h3 => (hab h2 h1 h3.symm).symm) (fun x _ _ _ _ => ⟨rfl, fun _ _ _ _ => rfl⟩)
          (h.dist.imp fun hab h1 h2 h3 => absurd h3 (hab h1 h2)) ho ho'
        exact this hst hst' hid

end Gpeg
