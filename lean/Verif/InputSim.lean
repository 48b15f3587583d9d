import Verif.Exec
/-!
# Running on a chunked input is running on a flat cursor

This holds for programs whose `Any`/`TestAny` instructions skip at most one byte (see C07 for why the
others differ).
-/
namespace Gpeg
variable {ι τ σ : Type}

theorem chunked_rel : InpRel InputRel chunkedOps flatOps where
  pos h := h.pos
  furthest h := h.far
  peek1 {i j} h := by
    show i.peek.1 = j.data[j.pos]?
    rw [Input.peek_fst h.inv, h.data, h.pos]
  peek2 {i j} h := by
    show InputRel i.peek.2 _
    rw [Input.peek_snd]
    exact ⟨Input.inv_furthest h.inv _, h.data, h.pos, by show max _ _ = max _ _; rw [h.far, h.pos]⟩
  before {i j} h := by
    show i.peekBefore = j.peekBefore
    rw [Input.peekBefore_eq h.inv, h.data, h.pos]; rfl
  seek {i j} p h := by
    obtain ⟨h1, h2, h3, h4, _⟩ := Input.seekTo_spec h.inv p
    exact ⟨h1, h3.trans h.data, h2, h4.trans h.far⟩
  adv2 {i j} n h := by
    obtain ⟨h1, h2, h3, h4⟩ := Input.advance_spec h.inv n
    show InputRel (i.advance n).2 (j.advance n).2
    rw [h.data, h.pos] at h2
    unfold Flat.advance
    split
    · rename_i hc; rw [if_pos hc] at h2
      exact ⟨h1, h3.trans h.data, h2, h4.trans h.far⟩
    · rename_i hc; rw [if_neg hc] at h2
      exact ⟨h1, h3.trans h.data, h2, h4.trans h.far⟩
  slice {i j} a b h := by
    show i.slice a b = readAt j.data (b - a) a
    unfold Input.slice; rw [h.data]
  data h := h.data

theorem chunked_advance {i : Input} {j : Flat} (h : InputRel i j) {n : Nat} (hn : n ≤ 1) :
    (i.advance n).1 = (j.advance n).1 := by
  have h1 : n = 0 ∨ n = 1 := by omega
  rcases h1 with rfl | rfl
  · have hi := h.inv
    unfold Input.advance Flat.advance
    by_cases he : i.chunk.length = 0
    · have := Input.pos_ge_of_empty hi he
      rw [h.data, h.pos] at this
      rw [if_pos he, if_neg (by omega)]
    · have := Input.pos_lt_of_nonempty hi he
      rw [h.data, h.pos] at this
      rw [if_neg he, if_pos this]
      have ho : i.coff < i.chunk.length := by
        rcases hi.off with ho | ho
        · exact ho
        · rw [ho.1] at he; exact absurd rfl he
      simp only [Nat.add_zero]
      rw [if_neg (by omega), if_neg (by omega), decide_eq_true (by omega)]
  · rw [Input.advance_one_fst h.inv, h.data, h.pos]
    unfold Flat.advance
    split
    · rename_i hc; simp only [decide_eq_true hc]
      rw [decide_eq_true (by omega)]
    · rename_i hc; simp only [decide_eq_false hc]

/-- The `Any` and `TestAny` instructions of the program skip at most one byte. -/
def Dots1 (p : Program) : Prop :=
  ∀ i ∈ p, ∀ n, (i = .any n ∨ ∃ l, i = .testAny n l) → n.toNat ≤ 1

theorem chunked_bisim (tab : TableOps τ) (chk : CheckFn σ) (iv : Option Interval) {p : Program} (hp : Dots1 p) :
    Bisim (stepL ⟨chunkedOps, tab, chk, iv⟩ p) (stepL ⟨flatOps, tab, chk, iv⟩ p) (VRel Eq InputRel) := by
  intro s t hst
  refine ⟨0, 0, ?_⟩
  show OutRel _ (stepL _ p s) (stepL _ p t)
  unfold stepL
  rw [hst.ip]
  cases hx : p[t.ip]? with
  | none => exact .panic
  | some insn =>
    refine exec1_rel chunked_rel (fun _ _ => rfl) rfl ?_ hst
    intro n hn i j hij
    exact chunked_advance hij (hp insn (List.mem_of_getElem? hx) n hn)

theorem chunked_run (tab : TableOps τ) (chk : CheckFn σ) (iv : Option Interval) {p : Program} (hp : Dots1 p)
    {i : Input} {j : Flat} (h : InputRel i j) (t : τ) (cst : σ) :
    RunEq (stepL ⟨chunkedOps, tab, chk, iv⟩ p) (initVM ⟨chunkedOps, tab, chk, iv⟩ i t cst)
      (stepL ⟨flatOps, tab, chk, iv⟩ p) (initVM ⟨flatOps, tab, chk, iv⟩ j t cst) InputRel := by
  refine (chunked_bisim tab chk iv hp).runEq (fun s t h => h.obs) ?_
  cases iv <;> exact ⟨rfl, .nil, rfl, h, rfl, rfl, rfl, rfl⟩

end Gpeg
