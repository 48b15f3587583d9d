import Verif.MemoIds
import Verif.Props.Memo
/-!
# Model of `pattern/pattern.go`: the ids of memoized patterns

`Memo` and `MemoId` take ids from the package-level counter `memoId`, and so does the compilation of a memoized repetition.
-/
namespace Gpeg

/-- `pattern/pattern.go:50-58` `Memo`, with the counter before and after it. -/
def mkMemo (p : Pat) (memoId : Int) : Pat × Int := (.memo p memoId, memoId + 1)

/-- `pattern/pattern.go:39-48` `MemoId`. -/
def mkMemoId (p : Pat) (id memoId : Int) : Pat × Int := (.memo p id, max memoId id + 1)

/-- The patterns of a grammar. -/
def Defs.pats : Defs → List Pat
  | .nil => []
  | .cons _ p rest => p :: rest.pats

/-- A call of a constructor other than `Memo` and `MemoId` (`pattern/pattern.go:12-35,60-234`, `pattern/nodes.go:16-125`) makes the
pattern out of the parts. Constructors of several nodes (`Concat`, `Or`, `Repeat`, ...) are several calls. -/
inductive Node : List Pat → Pat → Prop
  | alt (l r : Pat) : Node [l, r] (.alt l r)
  | seq (l r : Pat) : Node [l, r] (.seq l r)
  | star (p : Pat) : Node [p] (.star p)
  | plus (p : Pat) : Node [p] (.plus p)
  | opt (p : Pat) : Node [p] (.opt p)
  | not (p : Pat) : Node [p] (.not p)
  | and (p : Pat) : Node [p] (.and p)
  | cap (p : Pat) (id : Int) : Node [p] (.cap p id)
  | check (p : Pat) (c : Nat) (id flag : Int) : Node [p] (.check p c id flag)
  | grammar (start : String) (ds : Defs) : Node ds.pats (.grammar start ds)
  | search (p : Pat) : Node [p] (.search p)
  | cls (cs : CSet) : Node [] (.cls cs)
  | lit (s : List UInt8) : Node [] (.lit s)
  | nonterm (n : String) : Node [] (.nonterm n)
  | dot (n : UInt8) : Node [] (.dot n)
  | err (m : String) : Node [] (.err m)
  | errRec (m : String) (p : Pat) : Node [p] (.errRec m p)
  | emptyOp (op : UInt8) : Node [] (.emptyOp op)
  | empty : Node [] .empty

/-- `p` compiled to `code` (`pattern/compile.go:19-29`, `vm/code.go:82-219`), with the counter `memoId` at `t` before and at `t'` after it. -/
def CompiledFrom (t : Int) (p : Pat) (code : Code) (t' : Int) : Prop :=
  ∃ k cst prog cst', cst.memo = t ∧ cst'.memo = t' ∧ compile k p cst = .ok (prog, cst') ∧ encode prog = some code

/-- The id was not taken by a compilation: those between `u.1` and `u.2`, for `u` in the list, were. -/
def Free (us : List (Int × Int)) (id : Int) : Prop := ∀ u ∈ us, ¬ (u.1 < id ∧ id ≤ u.2)

/-- A process makes and compiles patterns, with the counter at `t` now: the patterns of the list `L` were not used as parts of others and not
compiled yet; `ps` are the compiled ones, latest first, and `us` the values of the counter before and after each compilation. Each pattern is
used once; a pattern used in several places is made several times. `Memo` is not called when the counter is at an id that a compilation
took, and `MemoId` is called with ids not used so far. -/
inductive Sess : Int → List (Int × Int) → List Pat → List (Pat × Code) → Prop
  | start (t : Int) : Sess t [] [] []
  | node {t : Int} {us : List (Int × Int)} {parts L : List Pat} {ps : List (Pat × Code)} {q : Pat} : Sess t us (parts ++ L) ps →
      Node parts q → Sess t us (q :: L) ps
  | memo {t : Int} {us : List (Int × Int)} {p : Pat} {L : List Pat} {ps : List (Pat × Code)} : Sess t us (p :: L) ps → Free us t →
      Sess (mkMemo p t).2 us ((mkMemo p t).1 :: L) ps
  | memoId {t : Int} {us : List (Int × Int)} {p : Pat} {L : List Pat} {ps : List (Pat × Code)} (id : Int) : Sess t us (p :: L) ps →
      Free us id → (∀ q ∈ p :: L ++ ps.map (·.1), ∀ o ∈ q.memos [], o.id ≠ id) →
      Sess (mkMemoId p id t).2 us ((mkMemoId p id t).1 :: L) ps
  | compile {t t' : Int} {us : List (Int × Int)} {p : Pat} {L : List Pat} {ps : List (Pat × Code)} {code : Code} : Sess t us (p :: L) ps →
      CompiledFrom t p code t' → Sess t' ((t, t') :: us) L ((p, code) :: ps)
  /-- A pattern is compiled once more. -/
  | again {t t' : Int} {us : List (Int × Int)} {x : Pat × Code} {L : List Pat} {ps : List (Pat × Code)} {code : Code} : Sess t us L ps →
      x ∈ ps → CompiledFrom t x.1 code t' → Sess t' ((t, t') :: us) L ((x.1, code) :: ps)
  | perm {t : Int} {us : List (Int × Int)} {L L' : List Pat} {ps : List (Pat × Code)} : Sess t us L ps → L.Perm L' → Sess t us L' ps
  /-- Other parts of the process call `Memo`, `MemoId` or `Compile`. -/
  | other {t t' : Int} {us : List (Int × Int)} {L : List Pat} {ps : List (Pat × Code)} : Sess t us L ps → t ≤ t' → Sess t' us L ps

/-- The ids of the memoized nodes. -/
def Pat.mids (p : Pat) : List Int := (p.memos []).map Occ.id

mutual
theorem Pat.mids_env (env env' : Env) : ∀ p : Pat, (p.memos env).map Occ.id = (p.memos env').map Occ.id
  | .alt l r | .seq l r => by
    simp only [Pat.memos, List.map_append]
    rw [Pat.mids_env env env' l, Pat.mids_env env env' r]
  | .star p | .plus p | .opt p | .not p | .and p | .cap p _ | .inl _ p | .check p _ _ _ | .errRec _ p | .search p => by
    simp only [Pat.memos]
    exact Pat.mids_env env env' p
  | .memo p id => by
    simp only [Pat.memos, List.map_cons]
    rw [Pat.mids_env env env' p]
  | .grammar _ ds => by
    simp only [Pat.memos]
    exact Defs.mids_env _ _ ds
  | .dot _ | .err _ | .nonterm _ | .cls _ | .lit _ | .emptyOp _ | .empty => rfl
theorem Defs.mids_env (env env' : Env) : ∀ ds : Defs, (ds.memos env).map Occ.id = (ds.memos env').map Occ.id
  | .nil => rfl
  | .cons _ p rest => by
    simp only [Defs.memos, List.map_append]
    rw [Pat.mids_env env env' p, Defs.mids_env env env' rest]
end

theorem Defs.mids_pats (env : Env) : ∀ ds : Defs, (ds.memos env).map Occ.id = ds.pats.flatMap Pat.mids
  | .nil => rfl
  | .cons _ p rest => by
    simp only [Defs.memos, List.map_append, Defs.pats, List.flatMap_cons]
    rw [Defs.mids_pats env rest, Pat.mids, Pat.mids_env env [] p]

theorem Node.mids {parts : List Pat} {q : Pat} (h : Node parts q) : q.mids = parts.flatMap Pat.mids := by
  cases h with
  | grammar st ds => exact Defs.mids_pats _ ds
  | alt | seq => simp [Pat.mids, Pat.memos]
  | _ => simp [Pat.mids, Pat.memos]

theorem CompiledFrom.le {t t' : Int} {p : Pat} {code : Code} (h : CompiledFrom t p code t') (hs : p.Scoped) : t ≤ t' := by
  obtain ⟨k, cst, prog, cst', rfl, rfl, hc, _⟩ := h
  obtain ⟨raw, s1, hF, h4⟩ := cm_bind.1 hc
  obtain ⟨rfl, rfl⟩ := cm_pure.1 h4
  exact (memoOcc_of (σ := Unit) (P := fun _ => True) (fun _ _ _ _ _ _ _ => trivial) k (env := []) hF hs fun _ _ => trivial).le

/-- The memoized nodes have different ids, which are below the counter and were not taken by compilations. -/
structure Ids (t : Int) (us : List (Int × Int)) (L : List Pat) (ps : List (Pat × Code)) (D : List Pat) : Prop where
  nodup : ((L ++ D).flatMap Pat.mids).Nodup
  lt : ∀ i ∈ (L ++ D).flatMap Pat.mids, i < t ∧ Free us i
  le : ∀ u ∈ us, u.2 ≤ t
  sub : ∀ x ∈ ps, x.1 ∈ D
  sup : ∀ q ∈ D, q ∈ ps.map (·.1)

theorem Ids.new {t t' i : Int} {us : List (Int × Int)} {p q : Pat} {L D : List Pat} {ps : List (Pat × Code)} (h : Ids t us (p :: L) ps D)
    (hm : q.mids = i :: p.mids) (hf : Free us i) (hi : i < t') (ht : t ≤ t') (hn : i ∉ (p :: L ++ D).flatMap Pat.mids) : Ids t' us (q :: L) ps D := by
  have e : (q :: L ++ D).flatMap Pat.mids = i :: (p :: L ++ D).flatMap Pat.mids := by simp [hm]
  refine ⟨?_, ?_, fun u hu => Int.le_trans (h.le u hu) ht, h.sub, h.sup⟩
  · rw [e]
    exact List.nodup_cons.2 ⟨hn, h.nodup⟩
  · rw [e]
    intro j hj
    rcases List.mem_cons.1 hj with rfl | hj
    · exact ⟨hi, hf⟩
    · exact ⟨Int.lt_of_lt_of_le (h.lt j hj).1 ht, (h.lt j hj).2⟩

theorem Ids.raise {t t' : Int} {us : List (Int × Int)} {L D : List Pat} {ps : List (Pat × Code)} (h : Ids t us L ps D) (ht : t ≤ t') :
    Ids t' ((t, t') :: us) L ps D := by
  refine ⟨h.nodup, fun i hi => ⟨Int.lt_of_lt_of_le (h.lt i hi).1 ht, ?_⟩, ?_, h.sub, h.sup⟩
  · intro u hu
    rcases List.mem_cons.1 hu with rfl | hu
    · have := (h.lt i hi).1
      simp only []
      omega
    · exact (h.lt i hi).2 u hu
  · intro u hu
    rcases List.mem_cons.1 hu with rfl | hu
    · exact Int.le_refl _
    · exact Int.le_trans (h.le u hu) ht

theorem Ids.perm {t : Int} {us : List (Int × Int)} {L L' D D' : List Pat} {ps ps' : List (Pat × Code)} (h : Ids t us L ps D)
    (hp : (L ++ D).Perm (L' ++ D')) (h1 : ∀ x ∈ ps', x.1 ∈ D') (h2 : ∀ q ∈ D', q ∈ ps'.map (·.1)) : Ids t us L' ps' D' := by
  have := List.Perm.flatMap_right Pat.mids hp
  exact ⟨this.nodup_iff.1 h.nodup, fun i hi => h.lt i (this.mem_iff.2 hi), h.le, h1, h2⟩

theorem Sess.ids {t : Int} {us : List (Int × Int)} {L : List Pat} {ps : List (Pat × Code)} (h : Sess t us L ps)
    (hs : ∀ x ∈ ps, x.1.Scoped) : ∃ D, Ids t us L ps D := by
  induction h with
  | start t => exact ⟨[], List.nodup_nil, nofun, nofun, nofun, nofun⟩
  | @node t us parts L ps q _ hn ih =>
    obtain ⟨D, ih⟩ := ih hs
    have e : (q :: L ++ D).flatMap Pat.mids = (parts ++ L ++ D).flatMap Pat.mids := by simp [hn.mids]
    exact ⟨D, by rw [e]; exact ih.nodup, by rw [e]; exact ih.lt, ih.le, ih.sub, ih.sup⟩
  | @memo t us p L ps _ hf ih =>
    obtain ⟨D, ih⟩ := ih hs
    refine ⟨D, ih.new (i := t) (by simp [mkMemo, Pat.mids, Pat.memos]) hf (by simp only [mkMemo]; omega) (by simp only [mkMemo]; omega) fun h => ?_⟩
    have := (ih.lt t h).1
    omega
  | @memoId t us p L ps id _ hf hid ih =>
    obtain ⟨D, ih⟩ := ih hs
    refine ⟨D, ih.new (i := id) (by simp [mkMemoId, Pat.mids, Pat.memos]) hf (by simp only [mkMemoId]; omega)
      (by simp only [mkMemoId]; omega) fun h => ?_⟩
    obtain ⟨q, hq, h⟩ := List.mem_flatMap.1 h
    obtain ⟨o, ho, h⟩ := List.mem_map.1 h
    refine hid q ?_ o ho h
    rcases List.mem_append.1 hq with hq | hq
    · exact List.mem_append_left _ hq
    · exact List.mem_append_right _ (ih.sup q hq)
  | @compile t t' us p L ps code _ hc ih =>
    obtain ⟨D, ih⟩ := ih fun x hx => hs x (List.mem_cons_of_mem _ hx)
    refine ⟨p :: D, (ih.raise (hc.le (hs _ List.mem_cons_self))).perm List.perm_middle.symm ?_ ?_⟩
    · intro x hx
      rcases List.mem_cons.1 hx with rfl | hx
      · exact List.mem_cons_self
      · exact List.mem_cons_of_mem _ (ih.sub x hx)
    · intro q hq
      rcases List.mem_cons.1 hq with rfl | hq
      · exact List.mem_cons_self
      · exact List.mem_cons_of_mem _ (ih.sup q hq)
  | @again t t' us x L ps code _ hx hc ih =>
    obtain ⟨D, ih⟩ := ih fun x hx => hs x (List.mem_cons_of_mem _ hx)
    refine ⟨D, (ih.raise (hc.le (hs (x.1, code) List.mem_cons_self))).perm (List.Perm.refl _) ?_ ?_⟩
    · intro y hy
      rcases List.mem_cons.1 hy with rfl | hy
      · exact ih.sub x hx
      · exact ih.sub y hy
    · intro q hq
      exact List.mem_cons_of_mem _ (ih.sup q hq)
  | perm _ hp ih =>
    obtain ⟨D, ih⟩ := ih hs
    exact ⟨D, ih.perm (hp.append_right D) ih.sub ih.sup⟩
  | other _ ht ih =>
    obtain ⟨D, ih⟩ := ih hs
    exact ⟨D, ih.nodup, fun i hi => ⟨Int.lt_of_lt_of_le (ih.lt i hi).1 ht, (ih.lt i hi).2⟩, fun u hu => Int.le_trans (ih.le u hu) ht, ih.sub, ih.sup⟩

end Gpeg
