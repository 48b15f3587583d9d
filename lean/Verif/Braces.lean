import Verif.Unmemo
import Verif.RePlain
/-!
# Memoization braces of the `re` syntax

`{{ e }}` compared with `( e )`.
-/
namespace Gpeg.Re

mutual
/-- A primary with `{{ e }}` replaced by `( e )`. -/
def Prim.bare : Prim → Prim
  | .ident n => .ident n
  | .paren e => .paren e.bare
  | .memo e => .paren e.bare
  | .lit bs => .lit bs
  | .cls neg items => .cls neg items
  | .dot => .dot
/-- The same in a sequence. -/
def Seqn.bare : Seqn → Seqn
  | .nil => .nil
  | .cons pre p suf rest => .cons pre p.bare suf rest.bare
/-- The same in an expression. -/
def Expr.bare : Expr → Expr
  | .one s => .one s.bare
  | .alt s rest => .alt s.bare rest.bare
end

/-- The same in a grammar. -/
def Gram.bare (g : Gram) : Gram := g.map fun d => (d.1, d.2.bare)

/-- The same in an argument of `re.Compile`. -/
def Top.bare : Top → Top
  | .expr e => .expr e.bare
  | .gram g => .gram g.bare

/-! ## Patterns -/

theorem foldl_seq_unmemo (ps : List Pat) : ∀ p : Pat, (ps.foldl .seq p).unmemo = (ps.map Pat.unmemo).foldl .seq p.unmemo := by
  induction ps with
  | nil => intro _; rfl
  | cons q ps ih => intro p; exact ih (.seq p q)

theorem concat_unmemo (ps : List Pat) : (concatPat ps).unmemo = concatPat (ps.map Pat.unmemo) := by
  cases ps with
  | nil => rfl
  | cons p ps => exact foldl_seq_unmemo ps p

theorem foldl_alt_unmemo (ps : List Pat) : ∀ p : Pat,
    (ps.foldl (fun acc q => .alt q acc) p).unmemo = (ps.map Pat.unmemo).foldl (fun acc q => .alt q acc) p.unmemo := by
  induction ps with
  | nil => intro _; rfl
  | cons q ps ih => intro p; exact ih (.alt q p)

theorem or_unmemo (ps : List Pat) : (orPat ps).unmemo = orPat (ps.map Pat.unmemo) := by
  unfold orPat
  rw [← List.map_reverse]
  cases ps.reverse with
  | nil => rfl
  | cons p ps => exact foldl_alt_unmemo ps p

theorem pre_unmemo (pre : Pre) (p : Pat) : (pre.apply p).unmemo = pre.apply p.unmemo := by cases pre <;> rfl
theorem suf_unmemo (suf : Suf) (p : Pat) : (suf.apply p).unmemo = suf.apply p.unmemo := by cases suf <;> rfl

mutual
theorem prim_bare : ∀ (p : Prim) (m m' : Nat), (p.bare.pat m').1 = (p.pat m).1.unmemo
  | .ident _, _, _ | .lit _, _, _ | .cls _ _, _, _ | .dot, _, _ => rfl
  | .paren e, m, m' => expr_bare e m m'
  | .memo e, m, m' => expr_bare e m m'
theorem seqn_bare : ∀ (s : Seqn) (m m' : Nat), (s.bare.pats m').1 = (s.pats m).1.map Pat.unmemo
  | .nil, _, _ => rfl
  | .cons pre q suf rest, m, m' => by
    show pre.apply (suf.apply (q.bare.pat m').1) :: _ = (pre.apply (suf.apply (q.pat m).1)).unmemo :: _
    rw [pre_unmemo, suf_unmemo, prim_bare q m m', seqn_bare rest]
theorem alts_bare : ∀ (e : Expr) (m m' : Nat), (e.bare.alts m').1 = (e.alts m).1.map Pat.unmemo
  | .one s, m, m' => by
    show [concatPat (s.bare.pats m').1] = [(concatPat (s.pats m).1).unmemo]
    rw [concat_unmemo, seqn_bare s m m']
  | .alt s rest, m, m' => by
    show concatPat (s.bare.pats m').1 :: _ = (concatPat (s.pats m).1).unmemo :: _
    rw [concat_unmemo, seqn_bare s m m', alts_bare rest]
theorem expr_bare : ∀ (e : Expr) (m m' : Nat), (e.bare.pat m').1 = (e.pat m).1.unmemo
  | .one s, m, m' => by
    show orPat [concatPat (s.bare.pats m').1] = (orPat [concatPat (s.pats m).1]).unmemo
    rw [or_unmemo, List.map_cons, concat_unmemo, seqn_bare s m m', List.map_nil]
  | .alt s rest, m, m' => by
    show orPat (concatPat (s.bare.pats m').1 :: (rest.bare.alts (s.bare.pats m').2).1) =
      (orPat (concatPat (s.pats m).1 :: (rest.alts (s.pats m).2).1)).unmemo
    rw [or_unmemo, List.map_cons, concat_unmemo, seqn_bare s m m', alts_bare rest _ (s.bare.pats m').2]
end

theorem gram_bare : ∀ (g : Gram) (m m' : Nat), (Gram.pats g.bare m').1 = (Gram.pats g m).1.unmemo
  | [], _, _ => rfl
  | (n, e) :: g, m, m' => by
    show Defs.cons _ (e.bare.pat m').1 (Gram.pats (Gram.bare g) (e.bare.pat m').2).1 = .cons _ (e.pat m).1.unmemo _
    rw [expr_bare e m m', gram_bare g]

theorem top_bare (top : Top) (m m' : Nat) : (top.bare.pat m').1 = (top.pat m).1.unmemo := by
  match top with
  | .expr e => exact expr_bare e m m'
  | .gram [] => rfl
  | .gram ((n, e) :: g) =>
    show Pat.grammar _ (Gram.pats (Gram.bare ((n, e) :: g)) m').1 = .grammar _ (Gram.pats ((n, e) :: g) m).1.unmemo
    rw [gram_bare]

/-! ## Numbers of memoized nodes -/

/-- The numbers of the nodes are all different, and from `lo` up to below `hi`. -/
def Numbered (lo hi : Nat) (l : List Occ) : Prop :=
  lo ≤ hi ∧ (∀ o ∈ l, (lo : Int) ≤ o.id ∧ o.id < hi) ∧ (l.map Occ.id).Nodup

theorem Numbered.nil {lo : Nat} : Numbered lo lo [] := ⟨Nat.le_refl _, fun _ h => by (cases h), by simp⟩

theorem Numbered.append {a b c : Nat} {l l' : List Occ} (h : Numbered a b l) (h' : Numbered b c l') : Numbered a c (l ++ l') := by
  refine ⟨Nat.le_trans h.1 h'.1, fun o ho => ?_, ?_⟩
  · have := h.1
    have := h'.1
    rcases List.mem_append.1 ho with ho | ho
    · have := h.2.1 o ho; omega
    · have := h'.2.1 o ho; omega
  · rw [List.map_append, List.nodup_append]
    refine ⟨h.2.2, h'.2.2, ?_⟩
    intro x hx y hy
    obtain ⟨o, ho, rfl⟩ := List.mem_map.1 hx
    obtain ⟨o', ho', rfl⟩ := List.mem_map.1 hy
    have := h.2.1 o ho
    have := h'.2.1 o' ho'
    omega

theorem Numbered.memo {lo hi : Nat} {l : List Occ} {q : Pat} {env : Env} (h : Numbered lo hi l) :
    Numbered lo (hi + 1) (⟨hi, false, q, env⟩ :: l) := by
  refine ⟨Nat.le_succ_of_le h.1, fun o ho => ?_, ?_⟩
  · have := h.1
    rcases List.mem_cons.1 ho with rfl | ho
    · simp only; omega
    · have := h.2.1 o ho; omega
  · rw [List.map_cons, List.nodup_cons]
    refine ⟨fun hx => ?_, h.2.2⟩
    obtain ⟨o, ho, e⟩ := List.mem_map.1 hx
    have := h.2.1 o ho
    have e : o.id = (hi : Int) := e
    omega

theorem concat_memos (env : Env) (ps : List Pat) : (concatPat ps).memos env = ps.flatMap (Pat.memos env) := by
  have key : ∀ (ps : List Pat) (p : Pat), (ps.foldl .seq p).memos env = p.memos env ++ ps.flatMap (Pat.memos env) := by
    intro ps
    induction ps with
    | nil => intro p; simp
    | cons q ps ih => intro p; rw [List.foldl_cons, ih, List.flatMap_cons, Pat.memos, List.append_assoc]
  cases ps with
  | nil => rfl
  | cons p ps => exact key ps p

theorem or_memos (env : Env) (ps : List Pat) : (orPat ps).memos env = ps.flatMap (Pat.memos env) := by
  have key : ∀ (ps : List Pat) (p : Pat), (ps.foldl (fun acc q => .alt q acc) p).memos env =
      ps.reverse.flatMap (Pat.memos env) ++ p.memos env := by
    intro ps
    induction ps with
    | nil => intro p; simp
    | cons q ps ih => intro p; rw [List.foldl_cons, ih, Pat.memos]; simp
  unfold orPat
  cases hr : ps.reverse with
  | nil => rw [List.reverse_eq_nil_iff.1 hr]; rfl
  | cons p rest =>
    have : ps = rest.reverse ++ [p] := by rw [← List.reverse_reverse ps, hr]; simp
    rw [this, List.flatMap_append]
    simpa using key rest p

theorem pre_memos (env : Env) (pre : Pre) (p : Pat) : (pre.apply p).memos env = p.memos env := by cases pre <;> rfl
theorem suf_memos (env : Env) (suf : Suf) (p : Pat) : (suf.apply p).memos env = p.memos env := by cases suf <;> rfl

mutual
theorem prim_numbered (env : Env) : ∀ (p : Prim) (m : Nat), Numbered m (p.pat m).2 ((p.pat m).1.memos env)
  | .ident _, _ | .lit _, _ | .cls _ _, _ | .dot, _ => .nil
  | .paren e, m => expr_numbered env e m
  | .memo e, m => .memo (expr_numbered env e m)
theorem seqn_numbered (env : Env) : ∀ (s : Seqn) (m : Nat), Numbered m (s.pats m).2 ((s.pats m).1.flatMap (Pat.memos env))
  | .nil, _ => .nil
  | .cons pre q suf rest, m => by
    show Numbered _ _ ((pre.apply (suf.apply (q.pat m).1) :: _).flatMap _)
    rw [List.flatMap_cons, pre_memos, suf_memos]
    exact .append (prim_numbered env q m) (seqn_numbered env rest _)
theorem alts_numbered (env : Env) : ∀ (e : Expr) (m : Nat), Numbered m (e.alts m).2 ((e.alts m).1.flatMap (Pat.memos env))
  | .one s, m => by
    show Numbered _ _ ([concatPat (s.pats m).1].flatMap _)
    rw [List.flatMap_cons, List.flatMap_nil, List.append_nil, concat_memos]
    exact seqn_numbered env s m
  | .alt s rest, m => by
    show Numbered _ _ ((concatPat (s.pats m).1 :: _).flatMap _)
    rw [List.flatMap_cons, concat_memos]
    exact .append (seqn_numbered env s m) (alts_numbered env rest _)
theorem expr_numbered (env : Env) : ∀ (e : Expr) (m : Nat), Numbered m (e.pat m).2 ((e.pat m).1.memos env)
  | .one s, m => by
    show Numbered _ _ ((orPat [concatPat (s.pats m).1]).memos env)
    rw [or_memos, List.flatMap_cons, List.flatMap_nil, List.append_nil, concat_memos]
    exact seqn_numbered env s m
  | .alt s rest, m => by
    show Numbered _ _ ((orPat (concatPat (s.pats m).1 :: _)).memos env)
    rw [or_memos, List.flatMap_cons, concat_memos]
    exact .append (seqn_numbered env s m) (alts_numbered env rest _)
end

theorem gram_numbered (env : Env) : ∀ (g : Gram) (m : Nat), Numbered m (Gram.pats g m).2 ((Gram.pats g m).1.memos env)
  | [], _ => .nil
  | (_, e) :: g, m => .append (expr_numbered env e m) (gram_numbered env g _)

theorem top_numbered (env : Env) (top : Top) (m : Nat) : Numbered m (top.pat m).2 ((top.pat m).1.memos env) := by
  match top with
  | .expr e => exact expr_numbered env e m
  | .gram [] => exact .nil
  | .gram ((n, e) :: g) => exact gram_numbered _ ((n, e) :: g) m

/-- Patterns of the syntax, compiled after they have been read, do not mix up their memoization entries. -/
theorem top_memosOK {σ : Type} {chk : CheckFn σ} (top : Top) {m : Nat} {k : Int} (hk : ((top.pat m).2 : Int) ≤ k) : (top.pat m).1.MemosOK chk k := by
  obtain ⟨_, h1, h2⟩ := top_numbered [] top m
  exact Pat.memosOK_of_pure (top_plain top m).1 h2 fun o ho => by have := (h1 o ho).2; omega

/-! ## A test for equal patterns -/

mutual
/-- The patterns are the same, and made of what the syntax offers without `{{ }}`. -/
def _root_.Gpeg.Pat.sameB : Pat → Pat → Bool
  | .alt l r, .alt l' r' => l.sameB l' && r.sameB r'
  | .seq l r, .seq l' r' => l.sameB l' && r.sameB r'
  | .star p, .star p' => p.sameB p'
  | .plus p, .plus p' => p.sameB p'
  | .opt p, .opt p' => p.sameB p'
  | .not p, .not p' => p.sameB p'
  | .and p, .and p' => p.sameB p'
  | .grammar s ds, .grammar s' ds' => s == s' && ds.sameB ds'
  | .cls cs, .cls cs' => cs == cs'
  | .lit w, .lit w' => w == w'
  | .nonterm n, .nonterm n' => n == n'
  | .dot n, .dot n' => n == n'
  | .empty, .empty => true
  | _, _ => false
/-- The definitions are the same. -/
def _root_.Gpeg.Defs.sameB : Defs → Defs → Bool
  | .nil, .nil => true
  | .cons n p rest, .cons n' p' rest' => n == n' && p.sameB p' && rest.sameB rest'
  | _, _ => false
end

mutual
theorem _root_.Gpeg.Pat.sameB_sound : ∀ {p q : Pat}, p.sameB q = true → p = q
  | .alt l r, q, h | .seq l r, q, h => by
    cases q <;> simp [Pat.sameB] at h
    rw [Pat.sameB_sound (p := l) h.1, Pat.sameB_sound (p := r) h.2]
  | .star p, q, h | .plus p, q, h | .opt p, q, h | .not p, q, h | .and p, q, h => by
    cases q <;> simp [Pat.sameB] at h
    rw [Pat.sameB_sound (p := p) h]
  | .grammar s ds, q, h => by
    cases q <;> simp [Pat.sameB] at h
    rw [h.1, Defs.sameB_sound (ds := ds) h.2]
  | .cls _, q, h | .lit _, q, h | .nonterm _, q, h | .dot _, q, h | .empty, q, h => by
    cases q <;> simp [Pat.sameB] at h <;> simp [h]
  | .cap _ _, q, h | .memo _ _, q, h | .check _ _ _ _, q, h | .search _, q, h | .inl _ _, q, h | .err _, q, h | .errRec _ _, q, h
  | .emptyOp _, q, h => by cases q <;> simp [Pat.sameB] at h
theorem _root_.Gpeg.Defs.sameB_sound : ∀ {ds ds' : Defs}, ds.sameB ds' = true → ds = ds'
  | .nil, .nil, _ => rfl
  | .nil, .cons _ _ _, h | .cons _ _ _, .nil, h => absurd h (by simp [Defs.sameB])
  | .cons n p rest, .cons n' p' rest', h => by
    simp only [Defs.sameB, Bool.and_eq_true, beq_iff_eq] at h
    rw [h.1.1, Pat.sameB_sound (p := p) h.1.2, Defs.sameB_sound (ds := rest) h.2]
end

end Gpeg.Re
