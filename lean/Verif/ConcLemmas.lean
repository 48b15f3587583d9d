import Verif.Conc
/-! # A machine with logged calls -/
namespace Gpeg
variable {ι σ : Type}

/-- The table of an outcome; `d` for a panic. -/
def Out.tblD {τ : Type} (d : τ) : Out ι τ σ → τ
  | .next s => s.tbl
  | .halt _ _ s => s.tbl
  | .panic => d

section
variable {inp : InputOps ι} {ans ans' : Answers} {chk : CheckFn σ} {iv : Option Interval}

theorem doFail_ans (s : VM ι (List TEv) σ) (l : List Entry) :
    Cfg.doFail ⟨inp, logTable ans', chk, iv⟩ s l = Cfg.doFail ⟨inp, logTable ans, chk, iv⟩ s l := by
  induction l generalizing s with
  | nil => rfl
  | cons e l ih =>
    unfold Cfg.doFail
    split <;> first | rfl | exact ih _

theorem spanLoop_ans (cs : CSet) (k : Nat) (src : ι) :
    Cfg.spanLoop ⟨inp, logTable ans', chk, iv⟩ cs k src = Cfg.spanLoop ⟨inp, logTable ans, chk, iv⟩ cs k src := by
  induction k generalizing src with
  | zero => rfl
  | succ k ih =>
    unfold Cfg.spanLoop
    simp only []
    split
    · split
      · exact ih _
      · rfl
    · rfl

theorem treeLoop_ans (s : VM ι (List TEv) σ) (passed : List Entry) (accum : Nat) (top : Entry) (l : List Entry) :
    Cfg.treeLoop ⟨inp, logTable ans', chk, iv⟩ s passed accum top l = Cfg.treeLoop ⟨inp, logTable ans, chk, iv⟩ s passed accum top l := by
  induction l generalizing s passed accum top with
  | nil => rfl
  | cons e l ih =>
    unfold Cfg.treeLoop
    split
    · simp only []
      split
      · exact ih _ _ _ _
      · exact ih _ _ _ _
    · rfl

theorem memoize_mono (s : VM ι (List TEv) σ) (id : Int) (pos : Nat) (mlen : Option Nat) (count : Nat) (capt : List Capture) :
    s.tbl <+: (Cfg.memoize ⟨inp, logTable ans, chk, iv⟩ s id pos mlen count capt).tbl := List.prefix_append _ _

theorem doFail_mono (s : VM ι (List TEv) σ) (l : List Entry) (d : List TEv) :
    s.tbl <+: (Cfg.doFail ⟨inp, logTable ans, chk, iv⟩ s l).tblD d := by
  induction l generalizing s with
  | nil => exact List.prefix_rfl
  | cons e l ih =>
    unfold Cfg.doFail
    split
    · exact List.prefix_rfl
    · exact (memoize_mono _ _ _ _ _ _).trans (ih _)
    · exact ih _
    · exact ih _
    · exact ih _
    · exact List.prefix_rfl

theorem treeLoop_mono (s : VM ι (List TEv) σ) (passed : List Entry) (accum : Nat) (top : Entry) (l : List Entry) :
    s.tbl <+: (Cfg.treeLoop ⟨inp, logTable ans, chk, iv⟩ s passed accum top l).tbl := by
  induction l generalizing s passed accum top with
  | nil => exact List.prefix_rfl
  | cons e l ih =>
    unfold Cfg.treeLoop
    split
    · simp only []
      split
      · exact ih _ _ _ _
      · exact (memoize_mono _ _ _ _ _ _).trans (ih _ _ _ _)
    · exact List.prefix_rfl

theorem treeClose_tbl {τ : Type} (id : Int) (s : VM ι τ σ) (l : List Entry) : (Cfg.treeClose id s l).tbl = s.tbl := by
  fun_induction Cfg.treeClose id s l <;> first | rfl | assumption

theorem addCapt_tbl {τ : Type} (s : VM ι τ σ) (cs : List Capture) : (s.addCapt cs).tbl = s.tbl := by
  unfold VM.addCapt; split <;> rfl

theorem exec1_mono (tgt : Nat → Nat) (insn : Insn) (nxt : Nat) (s : VM ι (List TEv) σ) (d : List TEv) (hd : s.tbl <+: d) :
    s.tbl <+: (Cfg.exec1 ⟨inp, logTable ans, chk, iv⟩ tgt insn nxt s).tblD d := by
  have hf : ∀ s' : VM ι (List TEv) σ, s.tbl <+: s'.tbl → s.tbl <+: (Cfg.fail ⟨inp, logTable ans, chk, iv⟩ s').tblD d :=
    fun s' h => h.trans (doFail_mono _ _ _)
  have hm : ∀ (s' : VM ι (List TEv) σ) (id : Int) (pos : Nat) (mlen : Option Nat) (count : Nat) (capt : List Capture), s'.tbl = s.tbl →
      s.tbl <+: (Cfg.memoize ⟨inp, logTable ans, chk, iv⟩ s' id pos mlen count capt).tbl := fun s' _ _ _ _ _ h => h ▸ memoize_mono s' _ _ _ _ _
  cases insn with
  | memoOpen l id =>
    unfold Cfg.exec1
    simp only [logTable]
    split
    · rename_i h; injection h with h1 h2; subst h2
      split
      · exact hf _ (List.prefix_append _ _)
      · simp only [Out.tblD, addCapt_tbl]; exact List.prefix_append _ _
    · rename_i h; injection h with h1 h2; subst h2
      exact List.prefix_append _ _
  | memoTreeOpen l id =>
    unfold Cfg.exec1
    simp only [logTable]
    split
    · rename_i h; injection h with h1 h2; subst h2
      split
      · exact hf _ (List.prefix_append _ _)
      · simp only [Out.tblD, addCapt_tbl, VM.push]; exact List.prefix_append _ _
    · rename_i h; injection h with h1 h2; subst h2
      exact List.prefix_append _ _
  | memoClose =>
    unfold Cfg.exec1
    simp only []
    split
    · exact hd
    · split
      · exact hm _ _ _ _ _ _ (addCapt_tbl _ _)
      · exact hd
  | memoTreeInsert =>
    unfold Cfg.exec1
    simp only []
    split
    · exact hd
    · split
      · exact hm _ _ _ _ _ _ rfl
      · exact hd
  | memoTree =>
    unfold Cfg.exec1
    simp only []
    split
    · exact List.prefix_rfl
    · exact treeLoop_mono _ _ _ _ _
  | _ =>
    unfold Cfg.exec1
    simp only []
    (repeat' split) <;>
    first
    | exact hd
    | exact List.prefix_rfl
    | (apply hf; exact List.prefix_rfl)
    | (apply hf; simp only [addCapt_tbl]; exact List.prefix_rfl)
    | (simp only [Out.tblD, addCapt_tbl, VM.push]; exact List.prefix_rfl)
    | (simp only [Out.tblD, addCapt_tbl, treeClose_tbl, VM.push]; exact List.prefix_rfl)

/-- Two ways to answer: the step is the same, or the first `Get` is answered differently. -/
theorem exec1_or (tgt : Nat → Nat) (insn : Insn) (nxt : Nat) (s : VM ι (List TEv) σ) (d : List TEv) :
    Cfg.exec1 ⟨inp, logTable ans', chk, iv⟩ tgt insn nxt s = Cfg.exec1 ⟨inp, logTable ans, chk, iv⟩ tgt insn nxt s ∨
    ∃ id pos, ans' s.tbl id pos ≠ ans s.tbl id pos ∧
      s.tbl ++ [.get id pos (ans s.tbl id pos)] <+: (Cfg.exec1 ⟨inp, logTable ans, chk, iv⟩ tgt insn nxt s).tblD d := by
  have hfail : ∀ s' : VM ι (List TEv) σ, Cfg.fail ⟨inp, logTable ans', chk, iv⟩ s' = Cfg.fail ⟨inp, logTable ans, chk, iv⟩ s' := fun s' => doFail_ans _ _
  cases insn with
  | memoOpen l id =>
    by_cases h : ans' s.tbl id (inp.pos s.src) = ans s.tbl id (inp.pos s.src)
    · left
      unfold Cfg.exec1
      simp only [logTable, h]
      split
      · split
        · exact hfail _
        · rfl
      · rfl
    · right
      refine ⟨id, inp.pos s.src, h, ?_⟩
      unfold Cfg.exec1
      simp only [logTable]
      split
      · rename_i h; injection h with h1 h2; subst h2
        split
        · exact doFail_mono { s with tbl := s.tbl ++ [.get id (inp.pos s.src) (ans s.tbl id (inp.pos s.src))] } s.stk d
        · simp only [Out.tblD, addCapt_tbl]; exact List.prefix_rfl
      · rename_i h; injection h with h1 h2; subst h2
        exact List.prefix_rfl
  | memoTreeOpen l id =>
    by_cases h : ans' s.tbl id (inp.pos s.src) = ans s.tbl id (inp.pos s.src)
    · left
      unfold Cfg.exec1
      simp only [logTable, h]
      split
      · split
        · exact hfail _
        · rfl
      · rfl
    · right
      refine ⟨id, inp.pos s.src, h, ?_⟩
      unfold Cfg.exec1
      simp only [logTable]
      split
      · rename_i h; injection h with h1 h2; subst h2
        split
        · exact doFail_mono { s with tbl := s.tbl ++ [.get id (inp.pos s.src) (ans s.tbl id (inp.pos s.src))] } s.stk d
        · simp only [Out.tblD, addCapt_tbl, VM.push]; exact List.prefix_rfl
      · rename_i h; injection h with h1 h2; subst h2
        exact List.prefix_rfl
  | memoTree =>
    left
    unfold Cfg.exec1
    simp only [treeLoop_ans (ans := ans) (ans' := ans')]
  | span cs =>
    left
    unfold Cfg.exec1
    simp only [spanLoop_ans (ans := ans) (ans' := ans')]
  | _ =>
    left
    unfold Cfg.exec1
    simp only [hfail]
    try rfl

end

section
variable {inp : InputOps ι} {ans ans' : Answers} {chk : CheckFn σ} {iv : Option Interval} {code : Code}

theorem stepB_mono (s : VM ι (List TEv) σ) (d : List TEv) (hd : s.tbl <+: d) : s.tbl <+: (stepB ⟨inp, logTable ans, chk, iv⟩ code s).tblD d := by
  unfold stepB
  split
  · exact hd
  · exact exec1_mono _ _ _ _ _ hd

theorem stepB_or (s : VM ι (List TEv) σ) (d : List TEv) :
    stepB ⟨inp, logTable ans', chk, iv⟩ code s = stepB ⟨inp, logTable ans, chk, iv⟩ code s ∨
    ∃ id pos, ans' s.tbl id pos ≠ ans s.tbl id pos ∧
      s.tbl ++ [.get id pos (ans s.tbl id pos)] <+: (stepB ⟨inp, logTable ans, chk, iv⟩ code s).tblD d := by
  unfold stepB
  split
  · exact .inl rfl
  · exact exec1_or _ _ _ _ _

theorem after_mono (k : Nat) (s : VM ι (List TEv) σ) : s.tbl <+: (after (stepB ⟨inp, logTable ans, chk, iv⟩ code) k s).tbl := by
  induction k generalizing s with
  | zero => exact List.prefix_rfl
  | succ k ih =>
    have h := stepB_mono (inp := inp) (ans := ans) (chk := chk) (iv := iv) (code := code) s s.tbl List.prefix_rfl
    unfold after
    cases hs : stepB ⟨inp, logTable ans, chk, iv⟩ code s with
    | next s' => rw [hs] at h; exact h.trans (ih s')
    | halt b c s' => rw [hs] at h; exact h
    | panic => exact List.prefix_rfl

theorem runOut_mono {k : Nat} {s : VM ι (List TEv) σ} {o : Out ι (List TEv) σ} (h : runOut (stepB ⟨inp, logTable ans, chk, iv⟩ code) k s = some o)
    (d : List TEv) (hd : o = .panic → s.tbl <+: d) : s.tbl <+: o.tblD d := by
  induction k generalizing s with
  | zero => cases h
  | succ k ih =>
    have hm := stepB_mono (inp := inp) (ans := ans) (chk := chk) (iv := iv) (code := code) s s.tbl List.prefix_rfl
    unfold runOut at h
    cases hs : stepB ⟨inp, logTable ans, chk, iv⟩ code s with
    | next s' =>
      rw [hs] at h hm
      cases o with
      | panic => exact hd rfl
      | next s => exact hm.trans (ih h fun h => nomatch h)
      | halt b c s => exact hm.trans (ih h fun h => nomatch h)
    | halt b c s' => rw [hs] at h hm; cases h; exact hm
    | panic => rw [hs] at h; cases h; exact hd rfl

/-- Up to the calls `E`, the answers are the same. -/
def AgreeOn (E : List TEv) (ans ans' : Answers) : Prop := ∀ L id pos, L ++ [.get id pos (ans L id pos)] <+: E → ans' L id pos = ans L id pos

/-- The calls `E` are made with the other answers too. -/
theorem AgreeOn.after {E : List TEv} (H : AgreeOn E ans ans') {k : Nat} {s : VM ι (List TEv) σ}
    (h : E <+: (Gpeg.after (stepB ⟨inp, logTable ans, chk, iv⟩ code) k s).tbl) : E <+: (Gpeg.after (stepB ⟨inp, logTable ans', chk, iv⟩ code) k s).tbl := by
  induction k generalizing s with
  | zero => exact h
  | succ k ih =>
    by_cases hE : E <+: s.tbl
    · exact hE.trans (after_mono _ _)
    have hstep : stepB ⟨inp, logTable ans', chk, iv⟩ code s = stepB ⟨inp, logTable ans, chk, iv⟩ code s := by
      rcases stepB_or (inp := inp) (ans := ans) (ans' := ans') (chk := chk) (iv := iv) (code := code) s s.tbl with he | ⟨id, pos, hne, hp⟩
      · exact he
      · exfalso
        have hp2 : s.tbl ++ [.get id pos (ans s.tbl id pos)] <+: (Gpeg.after (stepB ⟨inp, logTable ans, chk, iv⟩ code) (k + 1) s).tbl := by
          unfold Gpeg.after
          cases hs : stepB ⟨inp, logTable ans, chk, iv⟩ code s with
          | next s' => rw [hs] at hp; exact hp.trans (after_mono k s')
          | halt b c s' => rw [hs] at hp; exact hp
          | panic => rw [hs] at hp; exact hp
        rcases List.prefix_or_prefix_of_prefix hp2 h with h1 | h1
        · exact hne (H _ _ _ h1)
        · rcases List.prefix_concat_iff.1 h1 with h2 | h2
          · exact hne (H _ _ _ (h2 ▸ List.prefix_rfl))
          · exact hE h2
    unfold Gpeg.after at h ⊢
    rw [hstep]
    cases hs : stepB ⟨inp, logTable ans, chk, iv⟩ code s with
    | next s' => rw [hs] at h; exact ih h
    | halt b c s' => rw [hs] at h; exact h
    | panic => rw [hs] at h; exact h

/-- A state all of whose calls are among `E` is reached with the other answers too. -/
theorem AgreeOn.after_eq {E : List TEv} (H : AgreeOn E ans ans') {k : Nat} {s : VM ι (List TEv) σ}
    (h : (Gpeg.after (stepB ⟨inp, logTable ans, chk, iv⟩ code) k s).tbl <+: E) :
    Gpeg.after (stepB ⟨inp, logTable ans', chk, iv⟩ code) k s = Gpeg.after (stepB ⟨inp, logTable ans, chk, iv⟩ code) k s := by
  induction k generalizing s with
  | zero => rfl
  | succ k ih =>
    have hstep : stepB ⟨inp, logTable ans', chk, iv⟩ code s = stepB ⟨inp, logTable ans, chk, iv⟩ code s := by
      rcases stepB_or (inp := inp) (ans := ans) (ans' := ans') (chk := chk) (iv := iv) (code := code) s s.tbl with he | ⟨id, pos, hne, hp⟩
      · exact he
      · exfalso
        refine hne (H _ _ _ (List.IsPrefix.trans ?_ h))
        unfold Gpeg.after
        cases hs : stepB ⟨inp, logTable ans, chk, iv⟩ code s with
        | next s' => rw [hs] at hp; exact hp.trans (after_mono k s')
        | halt b c s' => rw [hs] at hp; exact hp
        | panic => rw [hs] at hp; exact hp
    unfold Gpeg.after at h ⊢
    rw [hstep]
    cases hs : stepB ⟨inp, logTable ans, chk, iv⟩ code s with
    | next s' => rw [hs] at h; exact ih h
    | halt b c s' => rfl
    | panic => rfl

/-- A step without calls that are not in `E`. -/
theorem AgreeOn.step {E : List TEv} (H : AgreeOn E ans ans') {s : VM ι (List TEv) σ} (h : (stepB ⟨inp, logTable ans, chk, iv⟩ code s).tblD s.tbl <+: E) :
    stepB ⟨inp, logTable ans', chk, iv⟩ code s = stepB ⟨inp, logTable ans, chk, iv⟩ code s := by
  rcases stepB_or (inp := inp) (ans := ans) (ans' := ans') (chk := chk) (iv := iv) (code := code) s s.tbl with he | ⟨id, pos, hne, hp⟩
  · exact he
  · exact absurd (H _ _ _ (hp.trans h)) hne

/-- A run all of whose calls are among `E` is the same with the other answers. -/
theorem AgreeOn.run {E : List TEv} (H : AgreeOn E ans ans') {k : Nat} {s : VM ι (List TEv) σ} {o : Out ι (List TEv) σ} {d : List TEv}
    (h : runOut (stepB ⟨inp, logTable ans, chk, iv⟩ code) k s = some o) (hp : o ≠ .panic) (hE : o.tblD d <+: E) :
    runOut (stepB ⟨inp, logTable ans', chk, iv⟩ code) k s = some o := by
  induction k generalizing s with
  | zero => cases h
  | succ k ih =>
    have hstep : stepB ⟨inp, logTable ans', chk, iv⟩ code s = stepB ⟨inp, logTable ans, chk, iv⟩ code s := by
      refine H.step ?_
      unfold runOut at h
      cases hs : stepB ⟨inp, logTable ans, chk, iv⟩ code s with
      | next s' => rw [hs] at h; exact (runOut_mono h d fun h => absurd h hp).trans hE
      | halt b c s' => rw [hs] at h; cases h; exact hE
      | panic => rw [hs] at h; cases h; exact absurd rfl hp
    unfold runOut at h ⊢
    rw [hstep]
    cases hs : stepB ⟨inp, logTable ans, chk, iv⟩ code s with
    | next s' => rw [hs] at h; exact ih h
    | halt b c s' => rw [hs] at h; exact h
    | panic => rw [hs] at h; exact h

/-- The same for a panic. -/
theorem AgreeOn.panic {E : List TEv} (H : AgreeOn E ans ans') {k : Nat} {s : VM ι (List TEv) σ}
    (h : runOut (stepB ⟨inp, logTable ans, chk, iv⟩ code) k s = some .panic) (hE : (Gpeg.after (stepB ⟨inp, logTable ans, chk, iv⟩ code) k s).tbl <+: E) :
    runOut (stepB ⟨inp, logTable ans', chk, iv⟩ code) k s = some .panic := by
  induction k generalizing s with
  | zero => cases h
  | succ k ih =>
    have hstep : stepB ⟨inp, logTable ans', chk, iv⟩ code s = stepB ⟨inp, logTable ans, chk, iv⟩ code s := by
      refine H.step ?_
      unfold Gpeg.after at hE
      cases hs : stepB ⟨inp, logTable ans, chk, iv⟩ code s with
      | next s' => rw [hs] at hE; exact (after_mono k s').trans hE
      | halt b c s' => rw [hs] at hE; exact hE
      | panic => rw [hs] at hE; exact hE
    unfold runOut at h ⊢
    unfold Gpeg.after at hE
    rw [hstep]
    cases hs : stepB ⟨inp, logTable ans, chk, iv⟩ code s with
    | next s' => rw [hs] at h hE; exact ih h hE
    | halt b c s' => rw [hs] at h; exact h
    | panic => rfl

/-- States reached on the way to the end have made calls that are in the log of the end. -/
theorem after_runOut {k j : Nat} {s : VM ι (List TEv) σ} {o : Out ι (List TEv) σ} (h : runOut (stepB ⟨inp, logTable ans, chk, iv⟩ code) k s = some o)
    (hp : o ≠ .panic) (d : List TEv) : (after (stepB ⟨inp, logTable ans, chk, iv⟩ code) j s).tbl <+: o.tblD d := by
  induction k generalizing s j with
  | zero => cases h
  | succ k ih =>
    cases j with
    | zero => exact runOut_mono h d fun h => absurd h hp
    | succ j =>
      unfold runOut at h
      unfold after
      cases hs : stepB ⟨inp, logTable ans, chk, iv⟩ code s with
      | next s' => rw [hs] at h; exact ih h
      | halt b c s' => rw [hs] at h; cases h; exact List.prefix_rfl
      | panic => rw [hs] at h; cases h; exact absurd rfl hp
end

/-- The answers recorded in `E`, and no entries found after that. -/
def replay (E : List TEv) : Answers := fun L id pos => match E[L.length]? with
  | some (.get id' pos' a) => if id' = id ∧ pos' = pos then a else none
  | _ => none

theorem replay_mem {E L : List TEv} {id : Int} {pos : Nat} {e : MEntry} (h : replay E L id pos = some e) : .get id pos (some e) ∈ E := by
  unfold replay at h
  split at h
  · rename_i id' pos' a hE
    split at h
    · rename_i hc
      obtain ⟨rfl, rfl⟩ := hc
      subst h
      exact List.mem_of_getElem? hE
    · cases h
  · cases h

theorem agreeOn_replay (E : List TEv) (ans : Answers) : AgreeOn E ans (replay E) := by
  intro L id pos h
  obtain ⟨t, rfl⟩ := h
  unfold replay
  simp

/-! ## A machine with one table instead of another -/

section
variable {τ τ' : Type} {inp : InputOps ι} {chk : CheckFn σ} {iv : Option Interval} {tab : TableOps τ} {tab' : TableOps τ'}

/-- The state with another table. -/
def VM.mapT (φ : τ → τ') (s : VM ι τ σ) : VM ι τ' σ := ⟨s.ip, s.stk, s.capt, s.src, φ s.tbl, s.errs, s.cst, s.rng⟩

/-- The outcome with another table. -/
def Out.mapT (φ : τ → τ') : Out ι τ σ → Out ι τ' σ
  | .next s => .next (s.mapT φ)
  | .halt b c s => .halt b c (s.mapT φ)
  | .panic => .panic

/-- `φ` respects the operations of the machine. -/
structure TabHom (tab : TableOps τ) (tab' : TableOps τ') (φ : τ → τ') : Prop where
  get : ∀ t id pos, tab'.get (φ t) id pos = ((tab.get t id pos).1, φ (tab.get t id pos).2)
  put : ∀ t id pos len exam count capt, tab'.put (φ t) id pos len exam count capt = φ (tab.put t id pos len exam count capt)

variable {φ : τ → τ'} (hφ : TabHom tab tab' φ)
include hφ

theorem TabHom.memoize (s : VM ι τ σ) (id : Int) (pos : Nat) (mlen : Option Nat) (count : Nat) (capt : List Capture) :
    Cfg.memoize ⟨inp, tab', chk, iv⟩ (s.mapT φ) id pos mlen count capt = (Cfg.memoize ⟨inp, tab, chk, iv⟩ s id pos mlen count capt).mapT φ := by
  simp only [Cfg.memoize, VM.mapT, hφ.put]

omit hφ in
theorem mapT_addCapt (s : VM ι τ σ) (cs : List Capture) : (s.mapT φ).addCapt cs = (s.addCapt cs).mapT φ := by
  unfold VM.addCapt VM.mapT
  simp only []
  cases s.stk <;> rfl

theorem TabHom.doFail (s : VM ι τ σ) (l : List Entry) :
    Cfg.doFail ⟨inp, tab', chk, iv⟩ (s.mapT φ) l = (Cfg.doFail ⟨inp, tab, chk, iv⟩ s l).mapT φ := by
  induction l generalizing s with
  | nil => rfl
  | cons e l ih =>
    unfold Cfg.doFail
    split
    · rfl
    · rw [hφ.memoize]; exact ih _
    · exact ih _
    · exact ih _
    · exact ih _
    · rfl

omit hφ in
theorem spanLoop_tab (cs : CSet) (k : Nat) (src : ι) :
    Cfg.spanLoop ⟨inp, tab', chk, iv⟩ cs k src = Cfg.spanLoop ⟨inp, tab, chk, iv⟩ cs k src := by
  induction k generalizing src with
  | zero => rfl
  | succ k ih =>
    unfold Cfg.spanLoop
    simp only []
    split
    · split
      · exact ih _
      · rfl
    · rfl

theorem TabHom.treeLoop (s : VM ι τ σ) (passed : List Entry) (accum : Nat) (top : Entry) (l : List Entry) :
    Cfg.treeLoop ⟨inp, tab', chk, iv⟩ (s.mapT φ) passed accum top l = (Cfg.treeLoop ⟨inp, tab, chk, iv⟩ s passed accum top l).mapT φ := by
  induction l generalizing s passed accum top with
  | nil => rfl
  | cons e l ih =>
    unfold Cfg.treeLoop
    split
    · simp only []
      split
      · exact ih _ _ _ _
      · rw [hφ.memoize]; exact ih _ _ _ _
    · rfl

omit hφ in
theorem mapT_treeClose (id : Int) (s : VM ι τ σ) (l : List Entry) : Cfg.treeClose id (s.mapT φ) l = (Cfg.treeClose id s l).mapT φ := by
  fun_induction Cfg.treeClose id s l <;> (conv => lhs; unfold Cfg.treeClose) <;> simp_all [VM.mapT]

theorem TabHom.exec1 (tgt : Nat → Nat) (insn : Insn) (nxt : Nat) (s : VM ι τ σ) :
    Cfg.exec1 ⟨inp, tab', chk, iv⟩ tgt insn nxt (s.mapT φ) = (Cfg.exec1 ⟨inp, tab, chk, iv⟩ tgt insn nxt s).mapT φ := by
  have hf : ∀ s : VM ι τ σ, Cfg.fail ⟨inp, tab', chk, iv⟩ (s.mapT φ) = (Cfg.fail ⟨inp, tab, chk, iv⟩ s).mapT φ := fun s => hφ.doFail s s.stk
  have ha : ∀ (s : VM ι τ σ) cs, (s.mapT φ).addCapt cs = (s.addCapt cs).mapT φ := mapT_addCapt
  obtain ⟨ip, stk, capt, src, tbl, errs, cst, rng⟩ := s
  cases insn with
  | memoOpen l id =>
    simp only [Cfg.exec1, VM.mapT, hφ.get]
    cases hg : tab.get tbl id (inp.pos src) with
    | mk r t =>
      cases r with
      | none => rfl
      | some m =>
        simp only []
        cases m.length with
        | none => exact hf ⟨ip, stk, capt, src, t, errs, cst, rng⟩
        | some n =>
          have := ha ⟨ip, stk, capt, src, t, errs, cst, rng⟩ m.captures
          simp only [VM.mapT] at this
          simp only [this, Out.mapT, VM.mapT]
  | memoTreeOpen l id =>
    simp only [Cfg.exec1, VM.mapT, hφ.get]
    cases hg : tab.get tbl id (inp.pos src) with
    | mk r t =>
      cases r with
      | none => rfl
      | some m =>
        simp only []
        cases m.length with
        | none => exact hf ⟨ip, stk, capt, src, t, errs, cst, rng⟩
        | some n => rfl
  | memoClose =>
    simp only [Cfg.exec1, VM.mapT]
    cases stk with
    | nil => rfl
    | cons e r =>
      simp only []
      split
      · rename_i id pos _
        have h1 := ha ⟨ip, r, capt, src, tbl, errs, cst, rng⟩ e.capt
        have h2 := hφ.memoize (inp := inp) (chk := chk) (iv := iv) (VM.addCapt ⟨ip, r, capt, src, tbl, errs, cst, rng⟩ e.capt) id pos
          (some (inp.pos (VM.addCapt ⟨ip, r, capt, src, tbl, errs, cst, rng⟩ e.capt).src - pos)) 1 e.capt
        rw [← h1] at h2
        simp only [VM.mapT] at h1 h2
        rw [h1] at h2 ⊢
        simp only [h2, Out.mapT, VM.mapT]
      · rfl
  | memoTreeInsert =>
    simp only [Cfg.exec1, VM.mapT]
    cases stk with
    | nil => rfl
    | cons e r =>
      simp only []
      split
      · rename_i id pos count _
        have h2 := hφ.memoize (inp := inp) (chk := chk) (iv := iv) ⟨ip, ⟨.memoTree id pos (count + 1), e.capt⟩ :: r, capt, src, tbl, errs, cst, rng⟩ id pos
          (some (inp.pos src - pos)) (count + 1) e.capt
        simp only [VM.mapT] at h2
        simp only [h2, Out.mapT, VM.mapT]
      · rfl
  | memoTree =>
    simp only [Cfg.exec1, VM.mapT]
    cases stk with
    | nil => rfl
    | cons e r =>
      have h2 := hφ.treeLoop (inp := inp) (chk := chk) (iv := iv) ⟨ip, e :: r, capt, src, tbl, errs, cst, rng⟩ [] 0 e r
      simp only [VM.mapT] at h2
      simp only [h2, Out.mapT, VM.mapT]
  | memoTreeClose id =>
    have h2 := mapT_treeClose (φ := φ) id ⟨ip, stk, capt, src, tbl, errs, cst, rng⟩ stk
    simp only [VM.mapT] at h2
    simp only [Cfg.exec1, VM.mapT, h2, Out.mapT]
  | emptyOp op =>
    have e : ∀ {τ : Type} (tab : TableOps τ) (s : VM ι τ σ), Cfg.exec1 ⟨inp, tab, chk, iv⟩ tgt (.emptyOp op) nxt s =
        if emptyOpContext (inp.peekBefore s.src) (inp.peek s.src).1 &&& op ≠ 0 then .next { s with src := (inp.peek s.src).2, ip := nxt }
        else Cfg.fail ⟨inp, tab, chk, iv⟩ { s with src := (inp.peek s.src).2 } := fun _ _ => rfl
    rw [e, e]
    by_cases h : emptyOpContext (inp.peekBefore src) (inp.peek src).1 &&& op ≠ 0
    · refine Eq.trans (if_pos h) ?_
      rw [if_pos h]; rfl
    · refine Eq.trans (if_neg h) ?_
      rw [if_neg h]; exact hf ⟨ip, stk, capt, (inp.peek src).2, tbl, errs, cst, rng⟩
  | span cs => simp only [Cfg.exec1, VM.mapT, Out.mapT, spanLoop_tab (tab := tab) (tab' := tab')]
  | _ =>
    rcases stk with _ | ⟨e, _ | ⟨e', r⟩⟩ <;> simp only [Cfg.exec1, VM.mapT, VM.addCapt, VM.push] <;> (repeat' split) <;> first
      | rfl
      | exact hf ⟨_, _, _, _, _, _, _, _⟩
      | (simp_all [Out.mapT, VM.mapT]; done)

theorem TabHom.stepB {code : Code} (s : VM ι τ σ) :
    Gpeg.stepB ⟨inp, tab', chk, iv⟩ code (s.mapT φ) = (Gpeg.stepB ⟨inp, tab, chk, iv⟩ code s).mapT φ := by
  unfold Gpeg.stepB
  have e : (s.mapT φ).ip = s.ip := rfl
  rw [e]
  cases decode code s.ip with
  | none => rfl
  | some x => exact hφ.exec1 _ _ _ _

theorem TabHom.runOut {code : Code} (k : Nat) (s : VM ι τ σ) :
    Gpeg.runOut (Gpeg.stepB ⟨inp, tab', chk, iv⟩ code) k (s.mapT φ) = (Gpeg.runOut (Gpeg.stepB ⟨inp, tab, chk, iv⟩ code) k s).map (Out.mapT φ) := by
  induction k generalizing s with
  | zero => rfl
  | succ k ih =>
    unfold Gpeg.runOut
    rw [hφ.stepB]
    cases Gpeg.stepB ⟨inp, tab, chk, iv⟩ code s with
    | next s' => exact ih s'
    | halt b c s' => rfl
    | panic => rfl

end

end Gpeg
