import Verif.PatObj
import Verif.Props.Compile
/-! # C70: non-terminal objects in several places -/
namespace Gpeg

/-! ## Inlining of trees ends -/

mutual
theorem Pat.inlineWith_closed {f : String → Option Pat} : ∀ p : Pat, p.nts = [] → p.inlineWith f = p
  | .alt l r, h | .seq l r, h => by
    simp only [Pat.nts, List.append_eq_nil_iff] at h
    simp only [Pat.inlineWith]
    rw [l.inlineWith_closed h.1, r.inlineWith_closed h.2]
  | .star p, h | .plus p, h | .opt p, h | .not p, h | .and p, h | .cap p _, h | .memo p _, h
  | .check p _ _ _, h | .search p, h | .errRec _ p, h | .inl _ p, h => by
    simp only [Pat.inlineWith]; rw [p.inlineWith_closed h]
  | .grammar _ ds, h => by
    simp only [Pat.inlineWith]; rw [ds.inlineWith_closed h]
  | .nonterm _, h => by simp [Pat.nts] at h
  | .cls _, _ | .lit _, _ | .dot _, _ | .err _, _ | .emptyOp _, _ | .empty, _ => rfl
theorem Defs.inlineWith_closed {f : String → Option Pat} : ∀ ds : Defs, ds.nts = [] → ds.inlineWith f = ds
  | .nil, _ => rfl
  | .cons _ p rest, h => by
    simp only [Defs.nts, List.append_eq_nil_iff] at h
    simp only [Defs.inlineWith]
    rw [p.inlineWith_closed h.1, rest.inlineWith_closed h.2]
end

mutual
theorem Pat.nts_inlineWith_eq {f : String → Option Pat} (hf : ∀ n b, f n = some b → b.nts = []) :
    ∀ p : Pat, (p.inlineWith f).nts = p.nts.filter fun n => (f n).isNone
  | .alt l r | .seq l r => by
    simp only [Pat.inlineWith, Pat.nts, List.filter_append]
    rw [l.nts_inlineWith_eq hf, r.nts_inlineWith_eq hf]
  | .star p | .plus p | .opt p | .not p | .and p | .cap p _ | .memo p _ | .check p _ _ _ | .search p | .errRec _ p | .inl _ p => by
    simp only [Pat.inlineWith, Pat.nts]; exact p.nts_inlineWith_eq hf
  | .grammar _ ds => by
    simp only [Pat.inlineWith, Pat.nts]; exact ds.nts_inlineWith_eq hf
  | .nonterm n => by
    unfold Pat.inlineWith
    cases hn : f n with
    | none => simp [Pat.nts, hn]
    | some b => simp [Pat.nts, hn, hf n b hn]
  | .cls _ | .lit _ | .dot _ | .err _ | .emptyOp _ | .empty => rfl
theorem Defs.nts_inlineWith_eq {f : String → Option Pat} (hf : ∀ n b, f n = some b → b.nts = []) :
    ∀ ds : Defs, (ds.inlineWith f).nts = ds.nts.filter fun n => (f n).isNone
  | .nil => rfl
  | .cons _ p rest => by
    simp only [Defs.inlineWith, Defs.nts, List.filter_append]
    rw [p.nts_inlineWith_eq hf, rest.nts_inlineWith_eq hf]
end

theorem Defs.eligible_closed {ds : Defs} {n : String} {b : Pat} (h : ds.eligible n = some b) : b.nts = [] := by
  unfold Defs.eligible at h
  split at h
  · split at h
    · cases h
      rename_i h
      exact h.2
    · cases h
  · cases h

theorem Defs.inlineStep_lt {ds ds' : Defs} (h : ds.inlineStep = some ds') : ds'.nts.length < ds.nts.length := by
  unfold Defs.inlineStep at h
  split at h
  · rename_i ha
    cases h
    rw [Defs.nts_inlineWith_eq (fun _ _ => Defs.eligible_closed)]
    obtain ⟨n, h1, h2⟩ := List.any_eq_true.1 ha
    refine List.length_filter_lt_length_iff_exists.2 ⟨n, h1, ?_⟩
    cases he : ds.eligible n with
    | none => rw [he] at h2; cases h2
    | some b => simp
  · cases h

theorem Defs.inlineLoop_fix (k : Nat) : ∀ ds : Defs, ds.nts.length ≤ k → (Defs.inlineLoop k ds).inlineStep = none ∧
    ∀ k', ds.nts.length ≤ k' → Defs.inlineLoop k' ds = Defs.inlineLoop k ds := by
  have hnil : ∀ ds : Defs, ds.nts.length ≤ 0 → ds.inlineStep = none := by
    intro ds h
    have : ds.nts = [] := List.length_eq_zero_iff.1 (Nat.le_zero.1 h)
    unfold Defs.inlineStep
    rw [this]; rfl
  have hstop : ∀ (k : Nat) (ds : Defs), ds.inlineStep = none → Defs.inlineLoop k ds = ds := by
    intro k ds h
    cases k with
    | zero => rfl
    | succ k => unfold Defs.inlineLoop; rw [h]
  induction k with
  | zero =>
    intro ds h
    exact ⟨hnil ds h, fun k' _ => hstop k' ds (hnil ds h)⟩
  | succ k ih =>
    intro ds h
    cases hs : ds.inlineStep with
    | none =>
      refine ⟨by rw [hstop _ ds hs]; exact hs, fun k' _ => by rw [hstop _ ds hs, hstop _ ds hs]⟩
    | some ds' =>
      have hlt := Defs.inlineStep_lt hs
      obtain ⟨h1, h2⟩ := ih ds' (by omega)
      have e : Defs.inlineLoop (k + 1) ds = Defs.inlineLoop k ds' := by
        conv => lhs; unfold Defs.inlineLoop
        rw [hs]
      refine ⟨by rw [e]; exact h1, fun k' hk => ?_⟩
      cases k' with
      | zero => omega
      | succ k' =>
        rw [e]
        conv => lhs; unfold Defs.inlineLoop
        rw [hs]
        exact h2 k' (by omega)

theorem Defs.inline_idem (ds : Defs) : ds.inline.inline = ds.inline := by
  have h := (Defs.inlineLoop_fix ds.nts.length ds (Nat.le_refl _)).1
  show Defs.inlineLoop _ ds.inline = ds.inline
  have h : ds.inline.inlineStep = none := h
  cases ds.inline.nts.length with
  | zero => rfl
  | succ k => unfold Defs.inlineLoop; rw [h]

/-- A grammar that is inlined already compiles to the same program. -/
theorem compile_inline (k : Nat) (start : String) (ds : Defs) : compile k (.grammar start ds.inline) = compile k (.grammar start ds) := by
  unfold compile
  cases k with
  | zero => rfl
  | succ k =>
    have : compileF (k + 1) (.grammar start ds.inline) = compileF (k + 1) (.grammar start ds) := by
      unfold compileF
      simp only [Defs.inline_idem]
    rw [this]

/-! ## Objects against trees -/

variable {nm : Nat → String}

theorem OPat.nts_val {σ : Store} (hσ : σ.Closed) : ∀ p : OPat, (p.val nm σ).nts = (p.refs.filter fun r => (σ r).isNone).map nm
  | .alt l r | .seq l r => by
    simp only [OPat.val, Pat.nts, OPat.refs, List.filter_append, List.map_append]
    rw [l.nts_val hσ, r.nts_val hσ]
  | .star p | .plus p | .opt p | .not p | .and p | .cap p _ | .memo p _ | .check p _ _ _ | .search p | .errRec _ p => by
    simp only [OPat.val, Pat.nts, OPat.refs]; exact p.nts_val hσ
  | .ref r => by
    unfold OPat.val
    cases hr : σ r with
    | none => simp [Pat.nts, OPat.refs, hr]
    | some b => simp [Pat.nts, OPat.refs, hr, hσ r b hr]
  | .cls _ | .lit _ | .dot _ | .err _ | .emptyOp _ | .empty => rfl

theorem OPat.val_congr {σ σ' : Store} : ∀ {p : OPat}, (∀ r ∈ p.refs, σ' r = σ r) → p.val nm σ' = p.val nm σ
  | .alt l r, h | .seq l r, h => by
    simp only [OPat.val]
    rw [OPat.val_congr (p := l) fun x hx => h x (List.mem_append_left _ hx), OPat.val_congr (p := r) fun x hx => h x (List.mem_append_right _ hx)]
  | .star p, h | .plus p, h | .opt p, h | .not p, h | .and p, h | .cap p _, h | .memo p _, h | .check p _ _ _, h | .search p, h | .errRec _ p, h => by
    simp only [OPat.val]; rw [OPat.val_congr (p := p) h]
  | .ref r, h => by
    unfold OPat.val
    rw [h r (List.mem_singleton.2 rfl)]
  | .cls _, _ | .lit _, _ | .dot _, _ | .err _, _ | .emptyOp _, _ | .empty, _ => rfl

theorem OPat.val_inline {σ : Store} (hσ : σ.Closed) {f : String → Option Pat} {rs : List Nat} : ∀ {p : OPat}, (∀ r ∈ p.refs, r ∈ rs) →
    p.val nm (fun r => match σ r with
      | some b => some b
      | none => if r ∈ rs then f (nm r) else none) = (p.val nm σ).inlineWith f
  | .alt l r, h | .seq l r, h => by
    simp only [OPat.val, Pat.inlineWith]
    rw [OPat.val_inline hσ (p := l) fun x hx => h x (List.mem_append_left _ hx), OPat.val_inline hσ (p := r) fun x hx => h x (List.mem_append_right _ hx)]
  | .star p, h | .plus p, h | .opt p, h | .not p, h | .and p, h | .cap p _, h | .memo p _, h | .check p _ _ _, h | .search p, h | .errRec _ p, h => by
    simp only [OPat.val, Pat.inlineWith]; rw [OPat.val_inline hσ (p := p) h]
  | .ref r, h => by
    unfold OPat.val
    cases hr : σ r with
    | none =>
      simp only [Pat.inlineWith]
      rw [if_pos (h r (List.mem_singleton.2 rfl))]
      cases f (nm r) <;> rfl
    | some b =>
      simp only [Pat.inlineWith]
      rw [Pat.inlineWith_closed b (hσ r b hr)]
  | .cls _, _ | .lit _, _ | .dot _, _ | .err _, _ | .emptyOp _, _ | .empty, _ => rfl

namespace OGrammar

theorem nts_val {σ : Store} (hσ : σ.Closed) (g : OGrammar) : (g.val nm σ).nts = (g.refs.filter fun r => (σ r).isNone).map nm := by
  obtain ⟨s, ds⟩ := g
  unfold val refs
  induction ds with
  | nil => rfl
  | cons d ds ih =>
    simp only [List.foldr_cons, Defs.nts, List.flatMap_cons, List.filter_append, List.map_append] at ih ⊢
    rw [ih, OPat.nts_val hσ]

theorem val_congr {σ σ' : Store} {g : OGrammar} (h : ∀ r ∈ g.refs, σ' r = σ r) : g.val nm σ' = g.val nm σ := by
  obtain ⟨s, ds⟩ := g
  unfold val refs at *
  induction ds with
  | nil => rfl
  | cons d ds ih =>
    simp only [List.foldr_cons, List.flatMap_cons] at ih h ⊢
    rw [ih fun r hr => h r (List.mem_append_right _ hr), OPat.val_congr fun r hr => h r (List.mem_append_left _ hr)]

theorem val_inline {σ : Store} (hσ : σ.Closed) {f : String → Option Pat} {rs : List Nat} {g : OGrammar} (h : ∀ r ∈ g.refs, r ∈ rs) :
    g.val nm (fun r => match σ r with
      | some b => some b
      | none => if r ∈ rs then f (nm r) else none) = (g.val nm σ).inlineWith f := by
  obtain ⟨s, ds⟩ := g
  unfold val refs at *
  induction ds with
  | nil => rfl
  | cons d ds ih =>
    simp only [List.foldr_cons, List.flatMap_cons, Defs.inlineWith] at ih h ⊢
    rw [ih fun r hr => h r (List.mem_append_right _ hr), OPat.val_inline hσ fun r hr => h r (List.mem_append_left _ hr)]

/-- One pass. -/
theorem step_spec {σ : Store} (hσ : σ.Closed) (g : OGrammar) :
    match g.inlineStep nm σ with
    | none => (g.val nm σ).inlineStep = none
    | some σ' => (g.val nm σ).inlineStep = some (g.val nm σ') ∧ σ'.Closed ∧ ∀ r, r ∉ g.refs → σ' r = σ r := by
  have hc : g.refs.any (fun r => (σ r).isNone && ((g.val nm σ).eligible (nm r)).isSome) =
      (g.val nm σ).nts.any (fun n => ((g.val nm σ).eligible n).isSome) := by
    rw [nts_val hσ, List.any_map, List.any_filter]
    rfl
  unfold inlineStep
  unfold Defs.inlineStep
  rw [hc]
  split
  · rename_i h
    split at h
    · cases h
    · rename_i hn
      rw [if_neg hn]
  · rename_i σ' h
    split at h
    · rename_i hy
      cases h
      rw [if_pos hy]
      refine ⟨congrArg some (val_inline hσ fun _ h => h).symm, ?_, ?_⟩
      · intro r b hb
        simp only [] at hb
        cases hr : σ r with
        | some b' => rw [hr] at hb; cases hb; exact hσ r b hr
        | none =>
          rw [hr] at hb
          simp only [] at hb
          split at hb
          · exact Defs.eligible_closed hb
          · cases hb
      · intro r hr
        simp only []
        cases σ r with
        | some b => rfl
        | none => simp only []; rw [if_neg hr]
    · cases h

theorem loop_spec (g : OGrammar) (k : Nat) : ∀ {σ : Store}, σ.Closed →
    g.val nm (g.inlineLoop nm k σ) = Defs.inlineLoop k (g.val nm σ) ∧ (g.inlineLoop nm k σ).Closed ∧ ∀ r, r ∉ g.refs → g.inlineLoop nm k σ r = σ r := by
  induction k with
  | zero => exact fun hσ => ⟨rfl, hσ, fun _ _ => rfl⟩
  | succ k ih =>
    intro σ hσ
    have h := step_spec (nm := nm) hσ g
    unfold inlineLoop Defs.inlineLoop
    cases hs : g.inlineStep nm σ with
    | none =>
      rw [hs] at h
      have h : (g.val nm σ).inlineStep = none := h
      rw [h]
      exact ⟨rfl, hσ, fun _ _ => rfl⟩
    | some σ' =>
      rw [hs] at h
      obtain ⟨h1, h2, h3⟩ := h
      obtain ⟨e1, e2, e3⟩ := ih h2
      rw [h1]
      exact ⟨e1, e2, fun r hr => (e3 r hr).trans (h3 r hr)⟩

/-- `Inline` on objects is `Inline` on trees; other objects are left alone. -/
theorem inline_spec (g : OGrammar) {σ : Store} (hσ : σ.Closed) :
    g.val nm (g.inline nm σ) = (g.val nm σ).inline ∧ (g.inline nm σ).Closed ∧ ∀ r, r ∉ g.refs → g.inline nm σ r = σ r := by
  obtain ⟨h1, h2, h3⟩ := loop_spec (nm := nm) g g.refs.length hσ
  refine ⟨?_, h2, h3⟩
  show g.val nm (g.inlineLoop nm g.refs.length σ) = _
  rw [h1]
  refine ((Defs.inlineLoop_fix _ _ (Nat.le_refl _)).2 _ ?_)
  rw [nts_val hσ, List.length_map]
  exact List.length_filter_le _ _

end OGrammar

/-- **C70.** Grammars are compiled one after the other, the same one as often as one likes. If no non-terminal object occurs in two different grammars
(in one grammar it may occur many times), every call compiles its grammar to exactly the program that the grammar as a tree has, with fields `Inlined`
that have never been set. -/
theorem C70_unshared_partial (nm : Nat → String) (gs : List OGrammar) (h : ∀ g ∈ gs, ∀ g' ∈ gs, g = g' ∨ ∀ r ∈ g.refs, r ∉ g'.refs) (i : Nat) (g : OGrammar)
    (hg : gs[i]? = some g) : ∃ p, (compiles nm (fun _ => none) gs)[i]? = some p ∧ ∀ k, compile k p = compile k (.grammar g.start (g.val nm fun _ => none)) := by
  suffices key : ∀ (gs' : List OGrammar) (σ : Store), σ.Closed → (∀ g ∈ gs', g ∈ gs) → (∀ g ∈ gs, (g.val nm σ).inline = (g.val nm fun _ => none).inline) →
      ∀ (i : Nat) (g : OGrammar), gs'[i]? = some g → ∃ p, (compiles nm σ gs')[i]? = some p ∧
        ∀ k, compile k p = compile k (.grammar g.start (g.val nm fun _ => none)) from
    key gs _ (fun r b hb => by cases hb) (fun _ h => h) (fun _ _ => rfl) i g hg
  intro gs'
  induction gs' with
  | nil => intro σ _ _ _ i g hg; simp at hg
  | cons a gs' ih =>
    intro σ hσ hsub hval i g hg
    obtain ⟨e1, e2, e3⟩ := a.inline_spec (nm := nm) hσ
    have ha := hsub a List.mem_cons_self
    cases i with
    | zero =>
      cases hg
      refine ⟨_, rfl, fun k => ?_⟩
      rw [e1, hval _ ha]
      exact compile_inline k _ _
    | succ i =>
      refine ih _ e2 (fun g hg => hsub g (List.mem_cons_of_mem _ hg)) (fun g hg => ?_) i g hg
      rcases h a ha g hg with rfl | hd
      · rw [e1, Defs.inline_idem]
        exact hval _ ha
      · rw [OGrammar.val_congr fun r hr => e3 r fun hr' => hd r hr' hr]
        exact hval g hg

/-- The grammar `S <- X X Y; X <- 'a'; Y <- 'b' Y / X` in which all uses of `X` are the one object 0. -/
def sharedX : OGrammar := ⟨"S", [("S", .seq (.ref 0) (.seq (.ref 0) (.ref 1))), ("X", .lit [97]), ("Y", .alt (.seq (.lit [98]) (.ref 1)) (.ref 0))]⟩
/-- Another grammar, with its own objects. -/
def ownX : OGrammar := ⟨"S", [("S", .ref 2), ("X", .lit [98])]⟩
/-- The names of the objects: 1 is `Y`, all others are `X`. -/
def xNames : Nat → String := fun r => if r = 1 then "Y" else "X"

example : ∃ p, (compiles xNames (fun _ => none) [sharedX, ownX, sharedX])[2]? = some p ∧
    ∀ k, compile k p = compile k (.grammar "S" (sharedX.val xNames fun _ => none)) :=
  C70_unshared_partial xNames [sharedX, ownX, sharedX] (by
    intro g hg g' hg'
    simp only [List.mem_cons, List.not_mem_nil, or_false] at hg hg'
    rcases hg with rfl | rfl | rfl <;> rcases hg' with rfl | rfl | rfl <;>
      first | exact .inl rfl | exact .inr (by decide)) 2 sharedX rfl

/-- **C70** is false when two grammars share an object: `S <- X; X <- 'b'`, compiled after `S <- X; X <- 'a'` with the same object for `X`, matches `a`
and does not match `b`, although as a tree it is the other way round. -/
theorem C70_false : ∃ (nm : Nat → String) (g1 g2 : OGrammar) (p : Pat) (code : Code), (compiles nm (fun _ => none) [g1, g2])[1]? = some p ∧ Compiled p code ∧
    Ford [98] [] (.grammar g2.start (g2.val nm fun _ => none)) 0 (some (1, [])) ∧
    (∃ src, RunsTo (fun _ s _ _ _ _ _ => (none, s)) none code 4096 [98] () (.done false none src [] () ())) ∧
    ∃ cap src, RunsTo (fun _ s _ _ _ _ _ => (none, s)) none code 4096 [97] () (.done true cap src [] () ()) := by
  refine ⟨fun _ => "X", ⟨"S", [("S", .ref 0), ("X", .lit [97])]⟩, ⟨"S", [("S", .ref 0), ("X", .lit [98])]⟩, _, _, rfl,
    ⟨10, ⟨0, 0, true⟩, _, _, rfl, rfl⟩, ?_, ⟨_, 10, _, rfl, rfl⟩, ⟨_, _, 10, _, rfl, rfl⟩⟩
  exact .grammar rfl (.nonterm rfl (.litOk (s := [98]) (i := 0) (by decide)))

end Gpeg
