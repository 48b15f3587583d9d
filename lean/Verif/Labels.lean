import Verif.SimMain
/-!
# Labels of compiled code

Every label of compiled code is fresh and defined once, and every label operand refers to a label
of the same code.
-/
namespace Gpeg

/-- How often the label `l` is defined. -/
def lcnt (l : Nat) : Program → Nat
  | [] => 0
  | .label l' :: p => lcnt l p + if l' = l then 1 else 0
  | _ :: p => lcnt l p

theorem lcnt_append (l : Nat) (x y : Program) : lcnt l (x ++ y) = lcnt l x + lcnt l y := by
  induction x with
  | nil => simp [lcnt]
  | cons i x ih => cases i <;> simp only [List.cons_append, lcnt, ih] ; omega

theorem lcnt_cons_label (l l' : Nat) (p : Program) :
    lcnt l (.label l' :: p) = lcnt l p + if l' = l then 1 else 0 := rfl

theorem lcnt_cons {l : Nat} {i : Insn} (p : Program) (h : ∀ l, i ≠ .label l) :
    lcnt l (i :: p) = lcnt l p := by
  cases i <;> first | rfl | exact absurd rfl (h _)

theorem lcnt_pos {l : Nat} {p : Program} (h : .label l ∈ p) : 0 < lcnt l p := by
  induction p with
  | nil => cases h
  | cons i p ih =>
    rcases List.mem_cons.1 h with rfl | h
    · rw [lcnt_cons_label, if_pos rfl]; omega
    · have := ih h
      cases i <;> simp only [lcnt] <;> omega

theorem mem_of_lcnt {l : Nat} {p : Program} (h : 0 < lcnt l p) : .label l ∈ p := by
  induction p with
  | nil => simp [lcnt] at h
  | cons i p ih =>
    by_cases hi : ∃ l', i = .label l'
    · obtain ⟨l', rfl⟩ := hi
      rw [lcnt_cons_label] at h
      by_cases hl : l' = l
      · rw [hl]; exact List.mem_cons_self
      · rw [if_neg hl] at h; exact List.mem_cons_of_mem _ (ih h)
    · rw [lcnt_cons _ fun l h => hi ⟨l, h⟩] at h
      exact List.mem_cons_of_mem _ (ih h)

theorem lcnt_zero {l : Nat} {p : Program} (h : ∀ l, Insn.label l ∉ p) : lcnt l p = 0 := by
  rcases Nat.eq_zero_or_pos (lcnt l p) with h' | h'
  · exact h'
  · exact absurd (mem_of_lcnt h') (h l)

/-- See the header; `s` and `s'` are the states before and after compilation. -/
structure LabOK (s : CState) (raw : Program) (s' : CState) : Prop where
  le : s.lbl ≤ s'.lbl
  one : ∀ l, lcnt l raw ≤ 1
  rng : ∀ l, 0 < lcnt l raw → s.lbl < l ∧ l ≤ s'.lbl
  tgt : ∀ i ∈ raw, ∀ l, i.target? = some l → 0 < lcnt l raw

theorem LabOK.simple {s : CState} {raw : Program} (h1 : ∀ l, Insn.label l ∉ raw)
    (h2 : ∀ i ∈ raw, i.target? = none) : LabOK s raw s := by
  refine ⟨Nat.le_refl _, fun l => ?_, fun l h => ?_, fun i hi l hl => ?_⟩
  · rw [lcnt_zero h1]; omega
  · rw [lcnt_zero h1] at h; omega
  · rw [h2 i hi] at hl; cases hl

theorem LabOK.app {s s1 s2 : CState} {x y : Program} (hx : LabOK s x s1) (hy : LabOK s1 y s2) :
    LabOK s (x ++ y) s2 := by
  have h1 := hx.le
  have h2 := hy.le
  refine ⟨by omega, fun l => ?_, fun l h => ?_, fun i hi l hl => ?_⟩
  · rw [lcnt_append]
    have a := hx.one l
    have b := hy.one l
    have c := hx.rng l
    have d := hy.rng l
    omega
  · rw [lcnt_append] at h
    have c := hx.rng l
    have d := hy.rng l
    omega
  · rw [lcnt_append]
    rcases List.mem_append.1 hi with hi | hi
    · have := hx.tgt i hi l hl; omega
    · have := hy.tgt i hi l hl; omega

/-- The same, in the other order. -/
theorem LabOK.app' {s s1 s2 : CState} {x y : Program} (hx : LabOK s x s1) (hy : LabOK s1 y s2) :
    LabOK s (y ++ x) s2 := by
  have h := hx.app hy
  have hc : ∀ l, lcnt l (y ++ x) = lcnt l (x ++ y) := fun l => by
    rw [lcnt_append, lcnt_append, Nat.add_comm]
  refine ⟨h.le, fun l => ?_, fun l hl => ?_, fun i hi l hl => ?_⟩
  · rw [hc]; exact h.one l
  · rw [hc] at hl; exact h.rng l hl
  · rw [hc]; exact h.tgt i (by simpa [or_comm] using hi) l hl

/-- Compiled in one go, whatever is added around must use new labels. -/
theorem LabOK.wrap {s s1 s' : CState} {sub raw : Program} (h : LabOK s sub s1) (d : Nat → Nat)
    (hcnt : ∀ l, lcnt l raw = lcnt l sub + d l) (hle : s1.lbl ≤ s'.lbl) (hone : ∀ l, d l ≤ 1)
    (hrng : ∀ l, 0 < d l → s1.lbl < l ∧ l ≤ s'.lbl)
    (htgt : ∀ i ∈ raw, i ∈ sub ∨ ∀ l, i.target? = some l → 0 < d l) : LabOK s raw s' := by
  have h1 := h.le
  refine ⟨by omega, fun l => ?_, fun l hl => ?_, fun i hi l hl => ?_⟩
  · rw [hcnt]
    have a := h.one l
    have c := h.rng l
    have e := hone l
    have f := hrng l
    omega
  · rw [hcnt] at hl
    have c := h.rng l
    have f := hrng l
    omega
  · rw [hcnt]
    rcases htgt i hi with h' | h'
    · have := h.tgt i h' l hl; omega
    · have := h' l hl; omega

/-- As `wrap`, the new label having been drawn first. -/
theorem LabOK.wrap1 {s s' : CState} {sub raw : Program} (h : LabOK (s.bump 1) sub s')
    (hcnt : ∀ l, lcnt l raw = lcnt l sub + if s.lbl + 1 = l then 1 else 0)
    (htgt : ∀ i ∈ raw, i ∈ sub ∨ ∀ l, i.target? = some l → l = s.lbl + 1) : LabOK s raw s' := by
  have h1 := h.le
  simp only [CState.bump] at h1
  refine ⟨by omega, fun l => ?_, fun l hl => ?_, fun i hi l hl => ?_⟩
  · rw [hcnt]
    have a := h.one l
    have c := h.rng l
    simp only [CState.bump] at c
    split <;> omega
  · rw [hcnt] at hl
    have c := h.rng l
    simp only [CState.bump] at c
    split at hl <;> omega
  · rw [hcnt]
    rcases htgt i hi with h' | h'
    · have := h.tgt i h' l hl; omega
    · rw [if_pos (h' l hl).symm]; omega

theorem lcnt_capCode (sub : Program) (id : Int) (l : Nat) : lcnt l (capCode sub id) = lcnt l sub := by
  unfold capCode
  simp only
  split
  · simp [lcnt_append, lcnt]
  · split
    · simp [lcnt_append, lcnt]
    · have h := lcnt_append l (sub.take (capPrefix sub).1) (sub.drop (capPrefix sub).1)
      rw [List.take_append_drop] at h
      simp [lcnt_append, lcnt, h]

theorem mem_capCode {sub : Program} {id : Int} {i : Insn} (h : i ∈ capCode sub id) :
    i ∈ sub ∨ (∃ id, i = .captureBegin id) ∨ i = .captureEnd ∨ (∃ b id, i = .captureFull b id) ∨
      ∃ b id, i = .captureLate b id := by
  unfold capCode at h
  simp only at h
  split at h
  · simp only [List.mem_append, List.mem_singleton] at h
    rcases h with (rfl | h) | rfl
    · exact Or.inr (Or.inl ⟨_, rfl⟩)
    · exact Or.inl h
    · exact Or.inr (Or.inr (Or.inl rfl))
  · split at h
    · simp only [List.mem_append, List.mem_singleton] at h
      rcases h with h | rfl
      · exact Or.inl h
      · exact Or.inr (Or.inr (Or.inr (Or.inl ⟨_, _, rfl⟩)))
    · simp only [List.mem_append, List.mem_singleton] at h
      rcases h with ((h | rfl) | h) | rfl
      · exact Or.inl (List.mem_of_mem_take h)
      · exact Or.inr (Or.inr (Or.inr (Or.inr ⟨_, _, rfl⟩)))
      · exact Or.inl (List.mem_of_mem_drop h)
      · exact Or.inr (Or.inr (Or.inl rfl))

/-- The first instruction of the left side of a test. -/
theorem altTest_first {l r : Program} {l1 : Nat} {t : Insn} (hl : Stat l) (h : altTest l r l1 = some t) :
    (∃ b l', l = .char b :: l' ∧ t = .testCharNC b l1) ∨ (∃ cs l', l = .set cs :: l' ∧ t = .testSetNC cs l1) := by
  unfold altTest at h
  split at h
  · rename_i a b h1 h2
    obtain ⟨r, rfl⟩ := hl.head.first h1 nofun
    split at h
    · cases h
    · cases h; exact Or.inr ⟨a, r, rfl, rfl⟩
  · rename_i a b h1 h2
    obtain ⟨r, rfl⟩ := hl.head.first h1 nofun
    split at h
    · cases h
    · cases h; exact Or.inl ⟨a, r, rfl, rfl⟩
  · rename_i a b h1 h2
    obtain ⟨r, rfl⟩ := hl.head.first h1 nofun
    split at h
    · cases h
    · cases h; exact Or.inl ⟨a, r, rfl, rfl⟩
  · cases h

theorem altCode_lab {s s1 s2 : CState} {l r : Program} (hst : Stat l) (hl : LabOK s l s1)
    (hr : LabOK s1 r s2) : LabOK s (altCode l r (s2.lbl + 1) (s2.lbl + 2)) (s2.bump 2) := by
  refine (hl.app hr).wrap (fun x => (if s2.lbl + 1 = x then 1 else 0) + if s2.lbl + 2 = x then 1 else 0)
    ?_ (by simp [CState.bump]) ?_ ?_ ?_
  · intro x
    unfold altCode
    split
    · rename_i t ht
      rcases altTest_first hst ht with ⟨b, l', rfl, rfl⟩ | ⟨b, l', rfl, rfl⟩ <;>
        simp only [List.drop_succ_cons, List.drop_zero, lcnt_append, lcnt] <;> omega
    · simp only [lcnt_append, lcnt]; omega
  · intro x; split <;> split <;> omega
  · intro x; simp only [CState.bump]; split <;> split <;> omega
  · intro i hi
    unfold altCode at hi
    split at hi
    · rename_i t ht
      simp only [List.mem_append, List.mem_singleton] at hi
      rcases hi with ((((rfl | hi) | rfl) | rfl) | hi) | rfl
      · right
        intro x hx
        rcases altTest_first hst ht with ⟨b, l', rfl, rfl⟩ | ⟨b, l', rfl, rfl⟩ <;>
          (cases hx; simp)
      · exact Or.inl (List.mem_append_left _ (List.mem_of_mem_drop hi))
      · right; intro x hx; cases hx; simp
      · right; intro x hx; cases hx
      · exact Or.inl (List.mem_append_right _ hi)
      · right; intro x hx; cases hx
    · simp only [List.mem_append, List.mem_singleton] at hi
      rcases hi with ((((rfl | hi) | rfl) | rfl) | hi) | rfl
      · right; intro x hx; cases hx; simp
      · exact Or.inl (List.mem_append_left _ hi)
      · right; intro x hx; cases hx; simp
      · right; intro x hx; cases hx
      · exact Or.inl (List.mem_append_right _ hi)
      · right; intro x hx; cases hx

theorem lcnt_nopNext (p : Program) (l : Nat) (h : labelBefore p = false) : lcnt l (nopNext p) = lcnt l p := by
  induction p with
  | nil => rfl
  | cons i p ih =>
    cases i with
    | nop => simp only [nopNext, lcnt]; exact ih h
    | label l' => cases h
    | _ => rfl

theorem mem_nopNext {p : Program} {i : Insn} (h : i ∈ nopNext p) : i = .nop ∨ i ∈ p := by
  induction p with
  | nil => exact Or.inr h
  | cons j p ih =>
    have : i = .nop ∨ i ∈ nopNext p ∨ i ∈ p := by
      cases j <;> simp only [nopNext, List.mem_cons] at h <;> rcases h with h | h <;> simp [h]
    rcases this with h | h | h
    · exact Or.inl h
    · exact (ih h).imp_right (List.mem_cons_of_mem _)
    · exact Or.inr (List.mem_cons_of_mem _ h)

/-- Resolution keeps what stands before the first label. -/
theorem labelBefore_resolve {tco : Bool} {labels : List (String × Nat)} {p code : Program}
    (h : resolve tco labels p = .ok code) (hl : labelBefore p = false) : labelBefore code = false := by
  induction p generalizing code with
  | nil => cases h; rfl
  | cons i p ih =>
    by_cases ho : ∃ n, i = .openCall n
    · obtain ⟨n, rfl⟩ := ho
      obtain ⟨l, rest', _, _, rfl⟩ := resolve_open h
      split <;> rfl
    · obtain ⟨rest', hr, rfl⟩ := resolve_cons (fun n hn => ho ⟨n, hn⟩) h
      cases i with
      | nop => exact (show labelBefore rest' = false from ih hr hl)
      | label l => cases hl
      | _ => rfl

theorem lcnt_resolve {tco : Bool} {labels : List (String × Nat)} (l : Nat) {p code : Program}
    (h : resolve tco labels p = .ok code) : lcnt l code = lcnt l p := by
  induction p generalizing code with
  | nil => cases h; rfl
  | cons i p ih =>
    by_cases ho : ∃ n, i = .openCall n
    · obtain ⟨n, rfl⟩ := ho
      obtain ⟨L, rest', _, hr, rfl⟩ := resolve_open h
      have := ih hr
      split
      · split
        · simp only [lcnt]; exact this
        · rename_i hb
          simp only [lcnt]
          rw [lcnt_nopNext _ _ (labelBefore_resolve hr (by simpa using hb))]
          exact this
      · simp only [lcnt]; exact this
    · obtain ⟨rest', hr, rfl⟩ := resolve_cons (fun n hn => ho ⟨n, hn⟩) h
      have := ih hr
      cases i <;> simp only [lcnt, this]

theorem mem_resolve {tco : Bool} {labels : List (String × Nat)} {p code : Program} {i : Insn}
    (h : resolve tco labels p = .ok code) (hi : i ∈ code) :
    i ∈ p ∨ i = .nop ∨ ∃ n L, labels.lookup n = some L ∧ (i = .call L ∨ i = .jump L) := by
  induction p generalizing code with
  | nil => cases h; cases hi
  | cons j p ih =>
    by_cases ho : ∃ n, j = .openCall n
    · obtain ⟨n, rfl⟩ := ho
      obtain ⟨L, rest', hL, hr, rfl⟩ := resolve_open h
      have key : i ∈ rest' → i ∈ .openCall n :: p ∨ i = .nop ∨
          ∃ n L, labels.lookup n = some L ∧ (i = .call L ∨ i = .jump L) := fun hi =>
        (ih hr hi).imp_left (List.mem_cons_of_mem _)
      split at hi
      · rcases List.mem_cons.1 hi with rfl | hi
        · exact Or.inr (Or.inr ⟨n, L, hL, Or.inr rfl⟩)
        · split at hi
          · exact key hi
          · rcases mem_nopNext hi with rfl | hi
            · exact Or.inr (Or.inl rfl)
            · exact key hi
      · rcases List.mem_cons.1 hi with rfl | hi
        · exact Or.inr (Or.inr ⟨n, L, hL, Or.inl rfl⟩)
        · exact key hi
    · obtain ⟨rest', hr, rfl⟩ := resolve_cons (fun n hn => ho ⟨n, hn⟩) h
      rcases List.mem_cons.1 hi with rfl | hi
      · exact Or.inl List.mem_cons_self
      · exact (ih hr hi).imp_left (List.mem_cons_of_mem _)

theorem compDefs_lab {comp : Pat → CM Program} (hcomp : ∀ v s raw s', CM.Ok (comp v) s raw s' → LabOK s raw s')
    {start : String} {used : List String} (ds : Defs) : ∀ {s s' : CState} {ls : List (String × Nat)} {code : Program},
    CM.Ok (compileDefs comp start used ds) s (ls, code) s' →
    LabOK s code s' ∧ ∀ n L, ls.lookup n = some L → 0 < lcnt L code := by
  induction ds using Defs.rec (motive_1 := fun _ => True) with
  | nil =>
    intro s s' ls code h
    obtain ⟨rfl, rfl, rfl⟩ := compDefs_nil h
    exact ⟨.simple (by simp) (by simp), fun n L h => by cases h⟩
  | cons nm v rest _ ih =>
    intro s s' ls code h
    by_cases hn : nm ≠ start ∧ nm ∉ used
    · exact ih (compDefs_skip hn h)
    · obtain ⟨fn, s1, ls', code', h1, h2, rfl, rfl⟩ := compDefs_cons hn h
      obtain ⟨h3, h4⟩ := ih h2
      have hf : LabOK s ([.label (s.lbl + 1)] ++ fn ++ [.ret]) s1 := by
        refine (hcomp _ _ _ _ h1).wrap1 ?_ ?_
        · intro l; simp only [lcnt_append, lcnt]; omega
        · intro i hi
          simp only [List.mem_append, List.mem_singleton] at hi
          rcases hi with (rfl | hi) | rfl
          · right; intro l hl; cases hl
          · exact Or.inl hi
          · right; intro l hl; cases hl
      refine ⟨hf.app h3, fun n L hL => ?_⟩
      rw [List.lookup_cons] at hL
      rw [lcnt_append]
      split at hL
      · cases hL
        simp [lcnt_append, lcnt]
        omega
      · have := h4 n L hL; omega
  | _ => trivial

theorem compile_lab (k : Nat) : ∀ {p : Pat} {s s' : CState} {raw : Program},
    CM.Ok (compileF k p) s raw s' → LabOK s raw s' := by
  induction k with
  | zero => intro p s s' raw h; exact (comp_zero h).elim
  | succ k ih =>
    intro p s s' raw h
    cases p with
    | alt l r =>
      cases hc : combine (get l) (get r) with
      | some cs =>
        obtain ⟨rfl, rfl⟩ := comp_alt_some hc h
        exact .simple (by simp) (by simp [Insn.target?])
      | none =>
        obtain ⟨lc, s1, rc, s2, h1, h2, rfl, rfl⟩ := comp_alt_none hc h
        exact altCode_lab (compile_stat k h1) (ih h1) (ih h2)
    | seq l r =>
      obtain ⟨lc, s1, rc, h1, h2, rfl⟩ := comp_seq h
      exact (ih h1).app (ih h2)
    | star p =>
      rcases comp_star h with ⟨cs, hg, rfl, rfl⟩ | ⟨q, id, hg, sub, s1, h1, rfl, rfl⟩ |
        ⟨hm, hcl, sub, s1, h1, rfl, rfl⟩
      · exact .simple (by simp) (by simp [Insn.target?])
      · refine (ih h1).wrap (fun x => (if s1.lbl + 1 = x then 1 else 0) + (if s1.lbl + 2 = x then 1 else 0) +
          (if s1.lbl + 3 = x then 1 else 0) + if s1.lbl + 4 = x then 1 else 0) ?_ (by simp [CState.bump]) ?_ ?_ ?_
        · intro l; simp only [lcnt_append, lcnt]; omega
        · intro l; split <;> split <;> split <;> split <;> omega
        · intro l; simp only [CState.bump]; split <;> split <;> split <;> split <;> omega
        · intro i hi
          simp only [List.mem_append, List.mem_cons, List.not_mem_nil, or_false] at hi
          rcases hi with ((rfl | rfl | rfl) | hi) | rfl | rfl | rfl | rfl | rfl | rfl | rfl | rfl
          all_goals first
            | exact Or.inl hi
            | (right; intro x hx; cases hx <;> simp)
      · refine (ih h1).wrap (fun x => (if s1.lbl + 1 = x then 1 else 0) + (if s1.lbl + 2 = x then 1 else 0))
          ?_ (by simp [CState.bump]) ?_ ?_ ?_
        · intro l; simp only [lcnt_append, lcnt]; omega
        · intro l; split <;> split <;> omega
        · intro l; simp only [CState.bump]; split <;> split <;> omega
        · intro i hi
          simp only [List.mem_append, List.mem_cons, List.not_mem_nil, or_false] at hi
          rcases hi with ((rfl | rfl) | hi) | rfl | rfl
          all_goals first
            | exact Or.inl hi
            | (right; intro x hx; cases hx <;> simp)
    | plus p =>
      obtain ⟨st, s1, sub, h1, h2, rfl⟩ := comp_plus h
      exact (ih h1).app' (ih h2)
    | opt p =>
      rcases comp_opt h with ⟨b, hg, rfl, rfl⟩ | ⟨cs, hg, rfl, rfl⟩ | ⟨hl, hc, h1⟩
      · refine (LabOK.simple (s := s) (raw := []) (by simp) (by simp)).wrap
          (fun x => if s.lbl + 1 = x then 1 else 0) (fun l => by simp [lcnt]) (by simp [CState.bump]) ?_ ?_ ?_
        · intro l; split <;> omega
        · intro l; simp only [CState.bump]; split <;> omega
        · intro i hi; right; intro l hl
          simp only [List.mem_cons, List.not_mem_nil, or_false] at hi
          rcases hi with rfl | rfl <;> cases hl <;> simp
      · refine (LabOK.simple (s := s) (raw := []) (by simp) (by simp)).wrap
          (fun x => if s.lbl + 1 = x then 1 else 0) (fun l => by simp [lcnt]) (by simp [CState.bump]) ?_ ?_ ?_
        · intro l; split <;> omega
        · intro l; simp only [CState.bump]; split <;> omega
        · intro i hi; right; intro l hl
          simp only [List.mem_cons, List.not_mem_nil, or_false] at hi
          rcases hi with rfl | rfl <;> cases hl <;> simp
      · exact ih h1
    | not p =>
      obtain ⟨sub, s1, h1, rfl, rfl⟩ := comp_not h
      refine (ih h1).wrap (fun x => if s1.lbl + 1 = x then 1 else 0) ?_ (by simp [CState.bump]) ?_ ?_ ?_
      · intro l; simp only [lcnt_append, lcnt]; omega
      · intro l; split <;> omega
      · intro l; simp only [CState.bump]; split <;> omega
      · intro i hi
        simp only [List.mem_append, List.mem_cons, List.not_mem_nil, or_false] at hi
        rcases hi with (rfl | hi) | rfl | rfl
        all_goals first
          | exact Or.inl hi
          | (right; intro x hx; cases hx <;> simp)
    | and p =>
      obtain ⟨sub, s1, h1, rfl, rfl⟩ := comp_and h
      refine (ih h1).wrap (fun x => (if s1.lbl + 1 = x then 1 else 0) + (if s1.lbl + 2 = x then 1 else 0))
        ?_ (by simp [CState.bump]) ?_ ?_ ?_
      · intro l; simp only [lcnt_append, lcnt]; omega
      · intro l; split <;> split <;> omega
      · intro l; simp only [CState.bump]; split <;> split <;> omega
      · intro i hi
        simp only [List.mem_append, List.mem_cons, List.not_mem_nil, or_false] at hi
        rcases hi with (rfl | hi) | rfl | rfl | rfl | rfl
        all_goals first
          | exact Or.inl hi
          | (right; intro x hx; cases hx <;> simp)
    | cap p id =>
      obtain ⟨sub, h1, rfl⟩ := comp_cap h
      refine (ih h1).wrap (fun _ => 0) (fun l => lcnt_capCode _ _ _) (Nat.le_refl _) (fun l => by simp)
        (fun l h => by cases h) ?_
      intro i hi
      rcases mem_capCode hi with h | ⟨_, rfl⟩ | rfl | ⟨_, _, rfl⟩ | ⟨_, _, rfl⟩
      · exact Or.inl h
      all_goals (right; intro x hx; cases hx)
    | memo p id =>
      obtain ⟨sub, h1, rfl⟩ := comp_memo h
      refine (ih h1).wrap1 ?_ ?_
      · intro l; simp only [lcnt_append, lcnt]; omega
      · intro i hi
        simp only [List.mem_append, List.mem_cons, List.not_mem_nil, or_false] at hi
        rcases hi with (rfl | hi) | rfl | rfl
        all_goals first
          | exact Or.inl hi
          | (right; intro x hx; cases hx; rfl)
          | (right; intro x hx; cases hx)
    | check p c id flag =>
      obtain ⟨sub, h1, rfl⟩ := comp_check h
      refine (ih h1).wrap1 ?_ ?_
      · intro l; simp only [lcnt_append, lcnt]; omega
      · intro i hi
        simp only [List.mem_append, List.mem_cons, List.not_mem_nil, or_false] at hi
        rcases hi with (rfl | hi) | rfl | rfl
        all_goals first
          | exact Or.inl hi
          | (right; intro x hx; cases hx)
    | search p =>
      obtain ⟨sub, s1, h1, h2⟩ := comp_search h
      have a := ih h1
      have b := ih h2
      have hle := a.le
      exact ⟨Nat.le_trans hle b.le, b.one, fun l hl => ⟨Nat.lt_of_le_of_lt hle (b.rng l hl).1, (b.rng l hl).2⟩, b.tgt⟩
    | emptyOp op =>
      obtain ⟨rfl, rfl⟩ := comp_emptyOp h; exact .simple (by simp) (by simp [Insn.target?])
    | grammar start ds =>
      rcases comp_grammar h with ⟨hu, b, hb, h1⟩ | ⟨hu, labels, fns, code, h1, hr, rfl⟩
      · exact ih h1
      · obtain ⟨hl, hlk⟩ := compDefs_lab (fun v s raw s' h => ih h) _ h1
        have hc : ∀ l, lcnt l code = lcnt l fns := fun l => by
          rw [lcnt_resolve l hr]; rfl
        have hraw : ∀ l, lcnt l (code ++ [.label (s.lbl + 1)]) = lcnt l fns + if s.lbl + 1 = l then 1 else 0 := by
          intro l; simp only [lcnt_append, lcnt, hc]; omega
        have h1 := hl.le
        simp only [CState.bump] at h1
        refine ⟨by omega, fun l => ?_, fun l h => ?_, fun i hi l hil => ?_⟩
        · rw [hraw]
          have a := hl.one l
          have c := hl.rng l
          simp only [CState.bump] at c
          split <;> omega
        · rw [hraw] at h
          have c := hl.rng l
          simp only [CState.bump] at c
          split at h <;> omega
        · rw [hraw]
          rcases List.mem_append.1 hi with hi | hi
          · rcases mem_resolve hr hi with hi | rfl | ⟨n, L, hL, hi⟩
            · simp only [List.cons_append, List.nil_append, List.mem_cons] at hi
              rcases hi with rfl | rfl | hi
              · cases hil
              · cases hil; rw [if_pos rfl]; omega
              · have := hl.tgt i hi l hil; omega
            · cases hil
            · have := hlk n L hL
              rcases hi with rfl | rfl <;> (cases hil; omega)
          · rw [List.mem_singleton] at hi; subst hi; cases hil
    | cls cs => obtain ⟨rfl, rfl⟩ := comp_cls h; exact .simple (by simp) (by simp [Insn.target?])
    | lit l =>
      obtain ⟨rfl, rfl⟩ := comp_lit h
      refine .simple (by simp) ?_
      intro i hi
      obtain ⟨b, _, rfl⟩ := List.mem_map.1 hi
      rfl
    | nonterm n => obtain ⟨rfl, rfl⟩ := comp_nonterm h; exact .simple (by simp) (by simp [Insn.target?])
    | inl n b => exact ih (comp_inl h)
    | dot n => obtain ⟨rfl, rfl⟩ := comp_dot h; exact .simple (by simp) (by simp [Insn.target?])
    | err m =>
      obtain ⟨rfl, rfl⟩ := comp_err h
      exact .simple (by simp) (by simp [Insn.target?])
    | errRec m p =>
      obtain ⟨sub, h1, rfl⟩ := comp_errRec h
      exact (LabOK.simple (by simp) (by simp [Insn.target?])).app (ih h1)
    | empty => obtain ⟨rfl, rfl⟩ := comp_empty h; exact .simple (by simp) (by simp)

end Gpeg
