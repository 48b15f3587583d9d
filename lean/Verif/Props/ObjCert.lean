import Verif.ObjCert
import Verif.Props.Obj
/-!
# Property C65 for bytecode whose table entries share no captures
-/
namespace Gpeg.Obj
variable {σ : Type}

/-- With a certificate every session is tight. -/
theorem OSession.own {P : OTab → Edit → Prop} {C : Cert} {chk : CheckFn σ} {code : Code} (hC : C.ok code = true) {b : Bool} {T : OTab}
    {d : List UInt8} (h : OSession P chk code b T d) : OSession Tight chk code b T d ∧ Own T := by
  induction h with
  | new th d => exact ⟨.new th d, own_new th⟩
  | @parse b T T' d bufsz st st' ok cap src errs _ hb hr ih =>
    obtain ⟨h1, h2⟩ := ih
    refine ⟨.parse h1 hb hr, ?_⟩
    obtain ⟨V, φ, -, hV⟩ := h1.value
    obtain ⟨k, o, h3, h4⟩ := hr
    have hi := rel_init (st := st) hV ⟨chunkedOps, chk, none⟩ rfl (Input.new bufsz d)
    have h0 : C.has 0 = true := by
      simp only [Cert.ok, Bool.and_eq_true] at hC
      exact hC.1
    have hz := zRun hC k hi ⟨Input.new_inv hb d, h2, none, rfl, h0⟩ h3
    cases o with
    | next s => cases h4
    | panic => cases h4
    | halt x y s => cases h4; exact hz
  | edit e _ h1 h2 h3 _ ih =>
    obtain ⟨V, φ, -, hV⟩ := ih.1.value
    exact ⟨.edit e ih.1 h1 h2 h3 (ih.2.tight hV.tinv _), ih.2.edit hV.tinv h1⟩

/-- **C65** for bytecode with a certificate (`Cert.ok`: memoized parts are not nested, no `MemoTree*` instructions): in *every*
session the machine with capture objects gives the results of the machine where captures are values. Missing: other
bytecode, of which it is false (`C65_false`). -/
theorem C65_unshared_partial {P : OTab → Edit → Prop} {C : Cert} {chk : CheckFn σ} {code : Code} (hC : C.ok code = true) {b : Bool}
    {T : OTab} {d : List UInt8} {bufsz : Nat} {st : σ} (h : OSession P chk code b T d) : ∃ V, Session chk code b V d ∧
      (∀ r, RunsObj chk code bufsz d T st r → ∃ r', RunsTree chk code bufsz d V st r' ∧ SameRes r r') ∧
      (∀ r', RunsTree chk code bufsz d V st r' → ∃ r, RunsObj chk code bufsz d T st r ∧ SameRes r r') :=
  C65_objects_partial (h.own hC).1

/-- **C65**, with C28, for bytecode with a certificate: the results in every session are those of parses without a table. -/
theorem C65_reparse_partial {P : OTab → Edit → Prop} {C : Cert} {p : Pat} {code : Code} {chk : CheckFn σ} {d : List UInt8} {bufsz : Nat} {st : σ}
    {top : Int} (hC : C.ok code = true) (hc : CompiledAt top p code) (hd : p.Dots1) (hs : p.Scoped) (hchk : CheckOK chk)
    (hm : p.MemosOK chk top) (hl : ∀ o ∈ p.memos [], Covered chk o.env o.q) (hsh : ∀ o ∈ p.memos [], o.Short σ) (hb : 0 < bufsz)
    {edited : Bool} {T : OTab} (h : OSession P chk code edited T d) :
    (∀ r, RunsObj chk code bufsz d T st r → ∃ r', RunsTo chk none code bufsz d st r' ∧ r.view = r'.view) ∧
    (∀ r', RunsTo chk none code bufsz d st r' → ∃ r, RunsObj chk code bufsz d T st r ∧ r.view = r'.view) :=
  C65_session_partial hc hd hs hchk hm hl hsh hb (h.own hC).1

/-! ## Examples -/

/-- `S <- (Memo(< T > ' '?) / ' ')* !.`, `T <- (![ ] .)+` -/
def wordTokens : Pat := .grammar "S" (.cons "S" (.seq (.star (.alt (.memo (.seq (.cap (.nonterm "T") 1) (.opt (.lit [32]))) 0) (.lit [32])))
  (.not (.dot 1))) (.cons "T" (.plus (.seq (.not (.cls (CSet.new [32]))) (.dot 1))) .nil))

/-- A parse, an edit, a parse. -/
def certRun (code : Code) : Bool :=
  (Cert.make code).ok code && match runO code 2000 [97, 98, 32, 97] { threshold := 0 } with
    | some (true, _, T) => (runO code 2000 [97, 98, 32, 98, 98] (T.applyEdit ⟨3, 4, 2⟩)).isSome
    | _ => false

set_option maxRecDepth 100000 in
theorem wordTokens_run : (match compileF 20 wordTokens ⟨0, 0, true⟩ with
    | .ok (raw, _) => (encode (optimize raw)).any certRun
    | _ => false) = true := by
  decide +kernel

/-- Tokens and blanks meet the hypotheses; the text `ab a` is parsed, made `ab bb`, parsed again, and made `cab bb`. -/
example : let p := wordTokens
    (∃ code C, CompiledAt 0 p code ∧ Cert.ok C code = true ∧ ∃ T, OSession (fun _ _ => True) noChk code true T [99, 97, 98, 32, 98, 98]) ∧
      p.Dots1 ∧ p.Scoped ∧ p.MemosOK noChk 0 ∧ (∀ o ∈ p.memos [], Covered noChk o.env o.q) ∧ ∀ o ∈ p.memos [], o.Short Unit := by
  intro p
  refine ⟨?_, ?_, ?_, Pat.memosOK_of_pure ?_ ?_ ?_,
    memos_covered_of_test (S := (· == "T")) (by decide) (by decide),
    memos_short_of_test (S := (· == "T")) (L := fun n => if n = "T" then ⟨some 1, some 1, none⟩ else Look.none) (by decide) (by decide) (by decide)⟩
  · have h := wordTokens_run
    split at h
    · rename_i raw cst' hr
      cases he : encode (optimize raw) with
      | none => rw [he] at h; cases h
      | some code =>
        rw [he] at h
        have h : certRun code = true := h
        unfold certRun at h
        simp only [Bool.and_eq_true] at h
        obtain ⟨h1, h2⟩ := h
        split at h2
        · rename_i T h3
          obtain ⟨⟨ok, cap, T'⟩, h4⟩ := Option.isSome_iff_exists.1 h2
          obtain ⟨_, _, h3⟩ := runO_sound h3
          obtain ⟨_, _, h4⟩ := runO_sound h4
          exact ⟨code, _, ⟨20, ⟨0, 0, true⟩, _, cst', rfl, cm_bind.2 ⟨raw, cst', hr, rfl⟩, he⟩, h1, _,
            .edit ⟨0, 0, [99]⟩ (.parse (.edit ⟨3, 4, [98, 98]⟩ (.parse (.new 0 [97, 98, 32, 97]) (by decide) h3)
              (by decide) (by decide) (fun h => by cases h) trivial) (by decide) h4) (by decide) (by decide) (fun _ => by decide) trivial⟩
        · cases h2
    · cases h
  · simp [p, wordTokens, Pat.leaves, Defs.leaves, Pat.Dots1]
  · simp [p, wordTokens, Pat.Scoped, Defs.Scoped, Defs.noCap, Pat.noCap]
  · simp [p, wordTokens, Pat.Pure, Pat.leaves, Defs.leaves]
  · simp [p, wordTokens, Pat.memos, Defs.memos]
  · simp [p, wordTokens, Pat.memos, Defs.memos]

set_option maxRecDepth 100000 in
/-- The search finds no certificate for the pattern of `C65_false`. -/
example : (match compileF 30 sharing ⟨0, 1, true⟩ with
    | .ok (raw, _) => (encode (optimize raw)).any fun code => !(Cert.make code).ok code
    | _ => false) = true := by
  decide +kernel

end Gpeg.Obj
