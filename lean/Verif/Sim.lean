import Verif.Run
import Verif.GetLemmas
/-!
# Simulation between the machine and fuelled evaluations

`Sim step m o F G` relates the machine at outcome `o` with a fuelled computation `F` (monotone in
the fuel). In mode `fwd n`: if `F n` yields `e`, the machine reaches an outcome related to `e` by
`G`. In mode `rev K`: the same for every fuel, and if the machine stops within `K` steps then `F`
yields something for some fuel. Both directions of the compiler correctness proof are carried out
at once with it.
-/
namespace Gpeg
variable {ι τ σ ε : Type}

/-- Direction of the proof. -/
inductive Mode
  | fwd (n : Nat)
  | rev (K : Nat)

/-- Forward part: results of `F n` are reached by the machine. -/
def Fwd (step : VM ι τ σ → Out ι τ σ) (n : Nat) (o : Out ι τ σ) (F : Nat → Option ε)
    (G : ε → Out ι τ σ → Prop) : Prop :=
  ∀ e, F n = some e → ∃ o', Reach step o o' ∧ G e o'

/-- See the header. -/
def Sim (step : VM ι τ σ → Out ι τ σ) (m : Mode) (o : Out ι τ σ) (F : Nat → Option ε)
    (G : ε → Out ι τ σ → Prop) : Prop :=
  match m with
  | .fwd n => Fwd step n o F G
  | .rev K => (∀ n, Fwd step n o F G) ∧ (StopsIn step K o → ∃ n e, F n = some e)

/-- The strict variant, for use after a step of the machine. -/
def SimS (step : VM ι τ σ → Out ι τ σ) (m : Mode) (o : Out ι τ σ) (F : Nat → Option ε)
    (G : ε → Out ι τ σ → Prop) : Prop :=
  match m with
  | .fwd n => Fwd step n o F G
  | .rev K => (∀ n, Fwd step n o F G) ∧ ∀ K' < K, StopsIn step K' o → ∃ n e, F n = some e

/-- `F` is monotone in the fuel. -/
def FMono (F : Nat → Option ε) : Prop := ∀ n m e, n ≤ m → F n = some e → F m = some e

variable {step : VM ι τ σ → Out ι τ σ} {m : Mode} {o o' : Out ι τ σ} {F : Nat → Option ε}
  {G : ε → Out ι τ σ → Prop}

theorem FMono.unique (h : FMono F) {n n' : Nat} {e e' : ε} (hn : F n = some e)
    (hn' : F n' = some e') : e = e' := by
  have a := h _ _ _ (Nat.le_max_left n n') hn
  have b := h _ _ _ (Nat.le_max_right n n') hn'
  exact Option.some.inj (a.symm.trans b)

theorem fmono_const (x : Option ε) : FMono (fun _ => x) := fun _ _ _ _ h => h

theorem fmono_eval (c : Ctx σ) (env : Env) (p : Pat) (pos : Nat) (w : World σ) :
    FMono (fun n => eval n c env p pos w) := fun _ _ _ h => eval_mono h

theorem FMono.shift (h : FMono F) : FMono (fun n => F (n + 1)) :=
  fun _ _ _ hnm he => h _ _ _ (Nat.succ_le_succ hnm) he

theorem FMono.bind {δ : Type} {F2 : ε → Nat → Option δ} (h : FMono F) (h2 : ∀ e, FMono (F2 e)) :
    FMono (fun n => (F n).bind fun e => F2 e n) := by
  intro n m r hnm hr
  exact bind_mono (fun x hx => h _ _ _ hnm hx) (fun a x hx => h2 a _ _ _ hnm hx) hr

theorem FMono.map {δ : Type} {g : ε → δ} (h : FMono F) : FMono (fun n => (F n).map g) := by
  intro n m r hnm hr
  exact map_mono (fun x hx => h _ _ _ hnm hx) hr

namespace Sim

/-- From a forward proof for all fuels and the reverse part. -/
theorem mk_rev {K : Nat} (hf : ∀ n, Sim step (.fwd n) o F G)
    (hr : StopsIn step K o → ∃ n e, F n = some e) : Sim step (.rev K) o F G := ⟨hf, hr⟩

theorem pure (e : ε) (h : G e o) : Sim step m o (fun _ => some e) G := by
  have hf : ∀ n, Fwd step n o (fun _ => some e) G := by
    intro n e' he
    cases he
    exact ⟨o, Reach.refl o, h⟩
  cases m with
  | fwd n => exact hf n
  | rev K => exact ⟨hf, fun _ => ⟨0, e, rfl⟩⟩

/-- A computation known to have a given result. -/
theorem known (hm : FMono F) {n0 : Nat} {e : ε} (he : F n0 = some e) (h : G e o) :
    Sim step m o F G := by
  have hf : ∀ n, Fwd step n o F G := by
    intro n e' he'
    rw [← hm.unique he he']
    exact ⟨o, Reach.refl o, h⟩
  cases m with
  | fwd n => exact hf n
  | rev K => exact ⟨hf, fun _ => ⟨n0, e, he⟩⟩

theorem reach (hr : Reach step o o') (h : Sim step m o' F G) : Sim step m o F G := by
  have hf : ∀ n, Fwd step n o' F G → Fwd step n o F G := by
    intro n hn e he
    obtain ⟨o2, h1, h2⟩ := hn e he
    exact ⟨o2, hr.trans h1, h2⟩
  cases m with
  | fwd n => exact hf n h
  | rev K => exact ⟨fun n => hf n (h.1 n), fun hs => h.2 (hs.reach hr)⟩

theorem step1 {s : VM ι τ σ} (h : Sim step m (step s) F G) : Sim step m (.next s) F G :=
  reach (Reach.one s) h

theorem weaken {G' : ε → Out ι τ σ → Prop} (h : Sim step m o F G)
    (hg : ∀ e o', (∃ n, F n = some e) → G e o' → ∃ o'', Reach step o' o'' ∧ G' e o'') :
    Sim step m o F G' := by
  have hf : ∀ n, Fwd step n o F G → Fwd step n o F G' := by
    intro n hn e he
    obtain ⟨o1, h1, h2⟩ := hn e he
    obtain ⟨o2, h3, h4⟩ := hg e o1 ⟨n, he⟩ h2
    exact ⟨o2, h1.trans h3, h4⟩
  cases m with
  | fwd n => exact hf n h
  | rev K => exact ⟨fun n => hf n (h.1 n), h.2⟩

theorem congr {F' : Nat → Option ε} (h : Sim step m o F G) (he : ∀ n, F' n = F n) :
    Sim step m o F' G := by
  have : F' = F := funext he
  rw [this]; exact h

theorem bind {δ : Type} {F2 : ε → Nat → Option δ} {G2 : δ → Out ι τ σ → Prop}
    (hm : FMono F) (hm2 : ∀ e, FMono (F2 e)) (h1 : Sim step m o F G)
    (h2 : ∀ e o', (∃ n, F n = some e) → G e o' → Sim step m o' (F2 e) G2) :
    Sim step m o (fun n => (F n).bind fun e => F2 e n) G2 := by
  have hf : ∀ n, (Fwd step n o F G) → (∀ e o', (∃ n, F n = some e) → G e o' →
      Fwd step n o' (F2 e) G2) → Fwd step n o (fun n => (F n).bind fun e => F2 e n) G2 := by
    intro n h1 h2 r hr
    obtain ⟨e, he, hr⟩ := Option.bind_eq_some_iff.1 hr
    obtain ⟨o1, hr1, hg⟩ := h1 e he
    obtain ⟨o2, hr2, hg2⟩ := h2 e o1 ⟨n, he⟩ hg r hr
    exact ⟨o2, hr1.trans hr2, hg2⟩
  cases m with
  | fwd n => exact hf n h1 h2
  | rev K =>
    refine ⟨fun n => hf n (h1.1 n) fun e o' hn hg => (h2 e o' hn hg).1 n, fun hs => ?_⟩
    obtain ⟨n, e, he⟩ := h1.2 hs
    obtain ⟨o1, hr1, hg⟩ := h1.1 n e he
    obtain ⟨n2, r, hr⟩ := (h2 e o1 ⟨n, he⟩ hg).2 (hs.reach hr1)
    refine ⟨max n n2, r, ?_⟩
    show (F (max n n2)).bind _ = some r
    rw [hm _ _ _ (Nat.le_max_left n n2) he]
    exact hm2 e _ _ _ (Nat.le_max_right n n2) hr

theorem map {δ : Type} {g : ε → δ} {G2 : δ → Out ι τ σ → Prop} (h1 : Sim step m o F G)
    (h2 : ∀ e o', (∃ n, F n = some e) → G e o' → ∃ o'', Reach step o' o'' ∧ G2 (g e) o'') :
    Sim step m o (fun n => (F n).map g) G2 := by
  have hf : ∀ n, (Fwd step n o F G) → Fwd step n o (fun n => (F n).map g) G2 := by
    intro n h1 r hr
    obtain ⟨e, he, rfl⟩ := Option.map_eq_some_iff.1 hr
    obtain ⟨o1, hr1, hg⟩ := h1 e he
    obtain ⟨o2, hr2, hg2⟩ := h2 e o1 ⟨n, he⟩ hg
    exact ⟨o2, hr1.trans hr2, hg2⟩
  cases m with
  | fwd n => exact hf n h1
  | rev K =>
    refine ⟨fun n => hf n (h1.1 n), fun hs => ?_⟩
    obtain ⟨n, e, he⟩ := h1.2 hs
    exact ⟨n, g e, by show (F n).map g = _; rw [he]; rfl⟩

/-- After a step of the machine the strict variant suffices. -/
theorem of_strict {s : VM ι τ σ} (h : SimS step m (step s) F G) : Sim step m (.next s) F G := by
  have hf : ∀ n, Fwd step n (step s) F G → Fwd step n (.next s) F G := by
    intro n hn e he
    obtain ⟨o2, h1, h2⟩ := hn e he
    exact ⟨o2, (Reach.one s).trans h1, h2⟩
  cases m with
  | fwd n => exact hf n h
  | rev K =>
    refine ⟨fun n => hf n (h.1 n), fun hs => ?_⟩
    cases K with
    | zero => cases hs
    | succ K => exact h.2 K (Nat.lt_succ_self K) hs

end Sim

theorem Sim.toS (h : Sim step m o F G) : SimS step m o F G := by
  cases m with
  | fwd n => exact h
  | rev K => exact ⟨h.1, fun K' hK hs => h.2 (hs.mono (Nat.le_of_lt hK))⟩

theorem SimS.weaken {G' : ε → Out ι τ σ → Prop} (h : SimS step m o F G)
    (hg : ∀ e o', (∃ n, F n = some e) → G e o' → ∃ o'', Reach step o' o'' ∧ G' e o'') :
    SimS step m o F G' := by
  have hf : ∀ n, Fwd step n o F G → Fwd step n o F G' := by
    intro n hn e he
    obtain ⟨o1, h1, h2⟩ := hn e he
    obtain ⟨o2, h3, h4⟩ := hg e o1 ⟨n, he⟩ h2
    exact ⟨o2, h1.trans h3, h4⟩
  cases m with
  | fwd n => exact hf n h
  | rev K => exact ⟨fun n => hf n (h.1 n), h.2⟩

theorem SimS.congr {F' : Nat → Option ε} (h : SimS step m o F G) (he : ∀ n, F' n = F n) :
    SimS step m o F' G := by
  have : F' = F := funext he
  rw [this]; exact h

/-- Forward mode at `n + 1` is forward mode at `n` for the shifted computation; in reverse mode
shifting does not matter. -/
def Mode.succ : Mode → Mode
  | .fwd n => .fwd (n + 1)
  | .rev K => .rev K

theorem Sim.unshift (h0 : F 0 = none) (h : Sim step m o (fun n => F (n + 1)) G) :
    Sim step m.succ o F G := by
  cases m with
  | fwd n => exact h
  | rev K =>
    refine ⟨fun n => ?_, fun hs => ?_⟩
    · cases n with
      | zero => intro e he; rw [h0] at he; cases he
      | succ n => exact h.1 n
    · obtain ⟨n, e, he⟩ := h.2 hs
      exact ⟨n + 1, e, he⟩

/-- The modes whose statements follow from those of a given mode. -/
def Mode.Le : Mode → Mode → Prop
  | .fwd n, .fwd n' => n ≤ n'
  | .fwd _, .rev _ => True
  | .rev K, .rev K' => K ≤ K'
  | .rev _, .fwd _ => False

theorem Mode.Le.refl (m : Mode) : m.Le m := by cases m <;> exact Nat.le_refl _

theorem Sim.down {m' : Mode} (hm : FMono F) (hle : m'.Le m) (h : Sim step m o F G) :
    Sim step m' o F G := by
  cases m with
  | fwd n => cases m' with
    | fwd n' => intro e he; exact h e (hm _ _ _ hle he)
    | rev _ => exact hle.elim
  | rev K => cases m' with
    | fwd n' => exact h.1 n'
    | rev K' => exact ⟨h.1, fun hs => h.2 (hs.mono hle)⟩

theorem SimS.down {m' : Mode} (hm : FMono F) (hle : m'.Le m) (h : SimS step m o F G) :
    SimS step m' o F G := by
  cases m with
  | fwd n => cases m' with
    | fwd n' => intro e he; exact h e (hm _ _ _ hle he)
    | rev _ => exact hle.elim
  | rev K => cases m' with
    | fwd n' => exact h.1 n'
    | rev K' => exact ⟨h.1, fun K'' hlt hs => h.2 K'' (Nat.lt_of_lt_of_le hlt hle) hs⟩

/-- Induction for a family of computations that refer to each other after a step of the machine. -/
theorem Sim.loop {α : Type} {o : α → Out ι τ σ} {F : α → Nat → Option ε}
    {G : α → ε → Out ι τ σ → Prop} (h0 : ∀ a, F a 0 = none)
    (hstep : ∀ m', m'.Le m → (∀ a, SimS step m' (o a) (F a) (G a)) →
      ∀ a, Sim step m' (o a) (fun n => F a (n + 1)) (G a)) :
    ∀ a, Sim step m.succ (o a) (F a) (G a) := by
  have fwd : ∀ n, (∀ n', n' < n → Mode.Le (.fwd n') m) → ∀ a, Fwd step n (o a) (F a) (G a) := by
    intro n
    induction n with
    | zero => intro _ a e he; rw [h0] at he; cases he
    | succ n ih =>
      intro hle a
      exact hstep (.fwd n) (hle n (Nat.lt_succ_self n))
        (fun a => ih (fun n' hn' => hle n' (Nat.lt_succ_of_lt hn')) a) a
  cases m with
  | fwd n => exact fwd (n + 1) fun n' hn' => Nat.le_of_lt_succ hn'
  | rev K =>
    have hf : ∀ n a, Fwd step n (o a) (F a) (G a) := fun n => fwd n fun _ _ => trivial
    have hr : ∀ K', K' ≤ K → ∀ a, StopsIn step K' (o a) → ∃ n e, F a n = some e := by
      intro K'
      induction K' using Nat.strongRecOn with
      | ind K' ih =>
        intro hle a hs
        have := hstep (.rev K') hle (fun a => ⟨fun n => hf n a, fun K'' hlt hs =>
          ih K'' hlt (Nat.le_trans (Nat.le_of_lt hlt) hle) a hs⟩) a
        obtain ⟨n, e, he⟩ := this.2 hs
        exact ⟨n + 1, e, he⟩
    exact fun a => ⟨fun n => hf n a, hr K (Nat.le_refl K) a⟩

/-- A refined pattern may be run instead. -/
theorem Sim.ref {c : Ctx σ} {env : Env} {p q : Pat} {pos : Nat} {w : World σ}
    {G : Ev σ → Out ι τ σ → Prop} (h : RefP σ p q)
    (hs : Sim step m o (fun n => eval n c env q pos w) G) :
    Sim step m o (fun n => eval n c env p pos w) G := by
  cases m with
  | fwd n => intro e he; exact hs e (h.le _ _ _ _ _ _ he)
  | rev K =>
    refine ⟨fun n e he => hs.1 n e (h.le _ _ _ _ _ _ he), fun hst => ?_⟩
    obtain ⟨n, e, he⟩ := hs.2 hst
    obtain ⟨n', he'⟩ := h.ge _ _ _ _ _ ⟨n, he⟩
    exact ⟨n', e, he'⟩

theorem SimS.ref {c : Ctx σ} {env : Env} {p q : Pat} {pos : Nat} {w : World σ}
    {G : Ev σ → Out ι τ σ → Prop} (h : RefP σ p q)
    (hs : SimS step m o (fun n => eval n c env q pos w) G) :
    SimS step m o (fun n => eval n c env p pos w) G := by
  cases m with
  | fwd n => intro e he; exact hs e (h.le _ _ _ _ _ _ he)
  | rev K =>
    refine ⟨fun n e he => hs.1 n e (h.le _ _ _ _ _ _ he), fun K' hK hst => ?_⟩
    obtain ⟨n, e, he⟩ := hs.2 K' hK hst
    obtain ⟨n', he'⟩ := h.ge _ _ _ _ _ ⟨n, he⟩
    exact ⟨n', e, he'⟩

end Gpeg
