import Verif.CaseSearch
/-! # Compiler correctness: the simulation theorem -/
namespace Gpeg
variable {τ σ : Type} {P : Par τ σ} {m : Mode} {k : Nat}

theorem sim_step (hP : P.Ok) (hy : Hyp P m k) (hmemo : ∀ p id, SimPat P m.succ (k + 1) (.memo p id)) (p : Pat) : SimPat P m.succ (k + 1) p := by
  cases p with
  | alt l r => exact alt_sim hP hy l r
  | seq l r => exact seq_sim hP hy l r
  | star p => exact star_sim hP hy p
  | plus p => exact plus_sim hP hy p
  | opt p => exact opt_sim hP hy p
  | not p => exact not_sim hP hy p
  | and p => exact and_sim hP hy p
  | cap p id => exact cap_sim hP hy p id
  | memo p id => exact hmemo p id
  | check p c id flag => exact check_sim hP hy p c id flag
  | search p => exact search_sim hP hy p
  | emptyOp op => exact emptyOp_sim hP op
  | grammar start ds => exact grammar_sim hP hy start ds
  | cls cs => exact cls_sim hP cs
  | lit s => exact lit_sim hP s
  | nonterm n => exact nonterm_sim hy n
  | inl n b => exact inl_sim hy n b
  | dot n => exact dot_sim hP n
  | err msg => exact err_sim hP msg
  | errRec msg p => exact errRec_sim hP hy msg p
  | empty => exact empty_sim hP

theorem sim_fwd (hP : P.Ok) (hA : ∀ id, P.Ask id) (n : Nat) : ∀ (k : Nat) (p : Pat), SimPat P (.fwd n) k p := by
  induction n with
  | zero =>
    intro k p tl env lbls cst cst' raw a j pos w s _ _ _ _ _ _ _ _ _ e he
    cases he
  | succ n ih =>
    intro k p
    cases k with
    | zero =>
      intro tl env lbls cst cst' raw a j pos w s hc
      exact (comp_zero hc).elim
    | succ k =>
      have hy : Hyp P (.fwd n) k := ⟨fun k' _ q => ih k' q, fun k' q tl => ih k' q tl⟩
      exact sim_step (m := .fwd n) hP hy (memo_sim hP hA hy) p

theorem sim_rev (hP : P.Ok) (hA : ∀ id, P.Ask id) (K : Nat) : ∀ (k : Nat) (p : Pat), SimPat P (.rev K) k p := by
  induction K using Nat.strongRecOn with
  | ind K ihK =>
    have hcall : ∀ k' q, SimPatS P (.rev K) k' q := by
      intro k' q tl env lbls cst cst' raw a j pos w s h1 h2 h3 h4 h5 h6 h7 h8 h9
      exact ⟨fun n => sim_fwd hP hA n k' q tl env lbls cst cst' raw a j pos w s h1 h2 h3 h4 h5 h6 h7 h8 h9,
        fun K' hK => (ihK K' hK k' q tl env lbls cst cst' raw a j pos w s h1 h2 h3 h4 h5 h6 h7 h8 h9).2⟩
    intro k
    induction k using Nat.strongRecOn with
    | ind k ihk =>
      intro p
      cases k with
      | zero =>
        intro tl env lbls cst cst' raw a j pos w s hc
        exact (comp_zero hc).elim
      | succ k =>
        have hy : Hyp P (.rev K) k := ⟨fun k' hk q => ihk k' (Nat.lt_succ_of_le hk) q, hcall⟩
        exact sim_step (m := .rev K) hP hy (memo_sim hP hA hy) p

/-- The code of a pattern, run from its start: results of the evaluation are reached, and if the
machine stops there is one. -/
theorem sim_all (hP : P.Ok) (hA : ∀ id, P.Ask id) {p : Pat} {env : Env} {lbls : String → Option Nat} {cst cst' : CState}
    {raw : Program} {a pos : Nat} {w : World σ} {s : VM Flat τ σ} (hc : CM.Ok (compileF k p) cst raw cst')
    (hg : GOK P env lbls) (ho : ∀ o ∈ memoOcc k env p cst, OccOK P o) (hs : p.Scoped)
    (hseg : Seg P.prog lbls false 0 a raw) (hpre : Pre P s a pos w) :
    (∀ e, Evals P.ctx env p pos w e → ∃ o, Reach P.step (.next s) o ∧
      Good P (Exit false (a + raw.length) s.stk s.capt) s.stk s.capt s.src.furthest e o) ∧
    ((∃ K, StopsIn P.step K (.next s)) → ∃ e, Evals P.ctx env p pos w e) := by
  have h := fun K => sim_rev hP hA K k p false env lbls cst cst' raw a 0 pos w s hc hg ho hs hseg
    (matched_zero _ _ _) hpre (fun _ => noted_start _ _ _) (fun h => by cases h)
  refine ⟨fun e ⟨n, he⟩ => (h 0).1 n e he, fun ⟨K, hK⟩ => ?_⟩
  obtain ⟨n, e, he⟩ := (h K).2 hK
  exact ⟨e, n, he⟩

end Gpeg
