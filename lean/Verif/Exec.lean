import Verif.EncodeSim
/-!
# Results of executions
-/
namespace Gpeg
variable {ι τ σ : Type}

/-- What a finished `exec` (`vm/vm.go:54-470`) leaves behind: its results (match flag, captures,
input with final position, errors), the memo table and the state of the checkers; or a panic. -/
inductive XRes (ι τ σ : Type)
  | done (ok : Bool) (cap : Option Capture) (src : ι) (errs : List PErr) (tbl : τ) (cst : σ)
  | panic

/-- The result of a final outcome. -/
def Out.res : Out ι τ σ → Option (XRes ι τ σ)
  | .next _ => none
  | .halt b c s => some (.done b c s.src s.errs s.tbl s.cst)
  | .panic => some .panic

/-- The machine started in `s` stops with result `r`. -/
def Yields (step : VM ι τ σ → Out ι τ σ) (s : VM ι τ σ) (r : XRes ι τ σ) : Prop :=
  ∃ k o, runOut step k s = some o ∧ o.res = some r

/-- `Code.Exec` (`vm/vm.go:31-52`) on bytecode `code` stops with result `r`. -/
def Execs (c : Cfg ι τ σ) (code : Code) (src : ι) (t : τ) (cst : σ) (r : XRes ι τ σ) : Prop :=
  Yields (stepB c code) (initVM c src t cst) r

theorem yields_iff {step : VM ι τ σ → Out ι τ σ} {s : VM ι τ σ} {r : XRes ι τ σ} :
    Yields step s r ↔ ∃ o, Reach step (.next s) o ∧ o.res = some r := by
  constructor
  · rintro ⟨k, o, h, hr⟩
    exact ⟨o, (runOut_iff.1 ⟨k, h⟩).1, hr⟩
  · rintro ⟨o, h, hr⟩
    have hf : o.isNext = false := by cases o <;> first | rfl | cases hr
    obtain ⟨k, hk⟩ := runOut_iff.2 ⟨h, hf⟩
    exact ⟨k, o, hk, hr⟩

theorem Yields.unique {step : VM ι τ σ → Out ι τ σ} {s : VM ι τ σ} {r r' : XRes ι τ σ}
    (h : Yields step s r) (h' : Yields step s r') : r = r' := by
  obtain ⟨o, h1, h2⟩ := yields_iff.1 h
  obtain ⟨o', h1', h2'⟩ := yields_iff.1 h'
  have hf : ∀ {o : Out ι τ σ} {r}, o.res = some r → o.isNext = false := by
    intro o r h; cases o <;> first | rfl | cases h
  have := h1.final_unique h1' (hf h2) (hf h2')
  subst this
  rw [h2] at h2'; cases h2'; rfl

theorem RunEq.yields {A B : VM ι τ σ → Out ι τ σ} {s t : VM ι τ σ} (h : RunEq A s B t Eq) (r : XRes ι τ σ) :
    Yields A s r ↔ Yields B t r := by
  have key : ∀ {x y : Out ι τ σ}, OutRel (ObsRel Eq) x y → x.res = y.res := by
    intro x y h
    cases h with
    | next h => rfl
    | halt b c h => simp only [Out.res, h.src, h.errs, h.tbl, h.cst]
    | panic => rfl
  rw [yields_iff, yields_iff]
  constructor
  · rintro ⟨o, h1, h2⟩
    obtain ⟨y, hy, hxy⟩ := h.fwd o h1 (by cases o <;> first | rfl | cases h2)
    exact ⟨y, hy, (key hxy) ▸ h2⟩
  · rintro ⟨o, h1, h2⟩
    obtain ⟨y, hy, hxy⟩ := h.bwd o h1 (by cases o <;> first | rfl | cases h2)
    exact ⟨y, hy, (key hxy).trans h2⟩

end Gpeg

namespace Gpeg
variable {ι κ τ σ : Type}

/-- The result with the input replaced. -/
def XRes.map (f : ι → κ) : XRes ι τ σ → XRes κ τ σ
  | .done ok cap src errs tbl cst => .done ok cap (f src) errs tbl cst
  | .panic => .panic

/-- The flat cursor corresponding to an input. -/
def Input.flat (i : Input) : Flat := ⟨i.r, i.pos, i.furthest⟩

theorem InputRel.flat {i : Input} {f : Flat} (h : InputRel i f) : i.flat = f := by
  obtain ⟨d, p, g⟩ := f
  obtain ⟨_, h1, h2, h3⟩ := h
  simp only at h1 h2 h3
  subst h1 h2 h3
  rfl

/-- From equivalent runs on a chunked and a flat input: the results correspond. -/
theorem RunEq.yields_chunked {A : VM Input τ σ → Out Input τ σ} {B : VM Flat τ σ → Out Flat τ σ}
    {s : VM Input τ σ} {t : VM Flat τ σ} (h : RunEq A s B t InputRel) (x : XRes Flat τ σ) :
    (∃ r, Yields A s r ∧ r.map Input.flat = x) ↔ Yields B t x := by
  have key : ∀ {x : Out Input τ σ} {y : Out Flat τ σ}, OutRel (ObsRel InputRel) x y →
      x.res.map (XRes.map Input.flat) = y.res := by
    intro x y h
    cases h with
    | next h => rfl
    | halt b c h => simp only [Out.res, Option.map_some, XRes.map, h.src.flat, h.errs, h.tbl, h.cst]
    | panic => rfl
  constructor
  · rintro ⟨r, hr, rfl⟩
    obtain ⟨o, h1, h2⟩ := yields_iff.1 hr
    obtain ⟨y, hy, hxy⟩ := h.fwd o h1 (by cases o <;> first | rfl | cases h2)
    refine yields_iff.2 ⟨y, hy, ?_⟩
    rw [← key hxy, h2]; rfl
  · intro hr
    obtain ⟨o, h1, h2⟩ := yields_iff.1 hr
    obtain ⟨y, hy, hxy⟩ := h.bwd o h1 (by cases o <;> first | rfl | cases h2)
    have := key hxy
    rw [h2, Option.map_eq_some_iff] at this
    obtain ⟨r, hr1, hr2⟩ := this
    exact ⟨r, yields_iff.2 ⟨y, hy, hr1⟩, hr2⟩

end Gpeg
