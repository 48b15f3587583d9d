import Verif.Vm
/-!
# Runs of the machine

`Reach step o o'`: from outcome `o`, finitely many steps lead to outcome `o'`. Outcomes that are
not `next` are final.
-/
namespace Gpeg
variable {ι τ σ : Type}

/-- The machine goes on. -/
def Out.isNext : Out ι τ σ → Bool
  | .next _ => true
  | _ => false

/-- One step from an outcome. -/
def ostep (step : VM ι τ σ → Out ι τ σ) : Out ι τ σ → Out ι τ σ
  | .next s => step s
  | o => o

/-- `k` steps from an outcome. -/
def oiter (step : VM ι τ σ → Out ι τ σ) : Nat → Out ι τ σ → Out ι τ σ
  | 0, o => o
  | k + 1, o => oiter step k (ostep step o)

/-- Finitely many steps lead from `o` to `o'`. -/
def Reach (step : VM ι τ σ → Out ι τ σ) (o o' : Out ι τ σ) : Prop := ∃ k, oiter step k o = o'

variable {step : VM ι τ σ → Out ι τ σ}

theorem oiter_add (j k : Nat) (o : Out ι τ σ) :
    oiter step (j + k) o = oiter step k (oiter step j o) := by
  induction j generalizing o with
  | zero => rw [Nat.zero_add]; rfl
  | succ j ih => rw [Nat.succ_add]; exact ih _

theorem oiter_final (k : Nat) {o : Out ι τ σ} (h : o.isNext = false) : oiter step k o = o := by
  induction k with
  | zero => rfl
  | succ k ih =>
    cases o with
    | next s => cases h
    | halt b c s => exact ih
    | panic => exact ih

theorem Reach.refl (o : Out ι τ σ) : Reach step o o := ⟨0, rfl⟩

theorem Reach.trans {a b c : Out ι τ σ} (h : Reach step a b) (h' : Reach step b c) :
    Reach step a c := by
  obtain ⟨j, rfl⟩ := h
  obtain ⟨k, rfl⟩ := h'
  exact ⟨j + k, oiter_add j k a⟩

theorem Reach.one (s : VM ι τ σ) : Reach step (.next s) (step s) := ⟨1, rfl⟩

theorem Reach.of_step {s : VM ι τ σ} {o o' : Out ι τ σ} (h : step s = o) (h' : Reach step o o') :
    Reach step (.next s) o' := (Reach.one s).trans (h ▸ h')

/-- From `o` the machine stops within `k` steps. -/
def StopsIn (step : VM ι τ σ → Out ι τ σ) (k : Nat) (o : Out ι τ σ) : Prop :=
  (oiter step k o).isNext = false

theorem StopsIn.mono {j k : Nat} {o : Out ι τ σ} (h : StopsIn step j o) (hjk : j ≤ k) :
    StopsIn step k o := by
  unfold StopsIn at *
  obtain ⟨d, rfl⟩ := Nat.exists_eq_add_of_le hjk
  rw [oiter_add, oiter_final d h]; exact h

/-- Stopping is inherited along a run, with the steps made so far subtracted. -/
theorem StopsIn.sub {j k : Nat} {o o' : Out ι τ σ} (h : StopsIn step k o)
    (hj : oiter step j o = o') : StopsIn step (k - j) o' := by
  unfold StopsIn at *
  subst hj
  rw [← oiter_add]
  by_cases hjk : j ≤ k
  · rw [Nat.add_sub_cancel' hjk]; exact h
  · have : j + (k - j) = k + (j - k) := by omega
    rw [this, oiter_add, oiter_final _ h]; exact h

theorem StopsIn.reach {k : Nat} {o o' : Out ι τ σ} (h : StopsIn step k o)
    (hr : Reach step o o') : StopsIn step k o' := by
  obtain ⟨j, hj⟩ := hr
  exact (h.sub hj).mono (Nat.sub_le _ _)

/-- Reaching the same outcome with the same count of steps. -/
theorem Reach.final_unique {a b c : Out ι τ σ} (h : Reach step a b) (h' : Reach step a c)
    (hb : b.isNext = false) (hc : c.isNext = false) : b = c := by
  obtain ⟨j, rfl⟩ := h
  obtain ⟨k, rfl⟩ := h'
  rcases Nat.le_total j k with hjk | hjk
  · obtain ⟨d, rfl⟩ := Nat.exists_eq_add_of_le hjk
    rw [oiter_add, oiter_final d hb]
  · obtain ⟨d, rfl⟩ := Nat.exists_eq_add_of_le hjk
    rw [oiter_add, oiter_final d hc]

theorem runOut_iff {s : VM ι τ σ} {o : Out ι τ σ} :
    (∃ k, runOut step k s = some o) ↔ Reach step (.next s) o ∧ o.isNext = false := by
  constructor
  · rintro ⟨k, h⟩
    induction k generalizing s with
    | zero => cases h
    | succ k ih =>
      unfold runOut at h
      cases hs : step s with
      | next s' =>
        rw [hs] at h
        exact ⟨Reach.of_step hs (ih h).1, (ih h).2⟩
      | halt b c s' =>
        rw [hs] at h; cases h
        exact ⟨Reach.of_step hs (Reach.refl _), rfl⟩
      | panic =>
        rw [hs] at h; cases h
        exact ⟨Reach.of_step hs (Reach.refl _), rfl⟩
  · rintro ⟨⟨k, hk⟩, ho⟩
    induction k generalizing s with
    | zero => subst hk; cases ho
    | succ k ih =>
      have hk' : oiter step k (step s) = o := hk
      cases hs : step s with
      | next s' =>
        rw [hs] at hk'
        obtain ⟨m, hm⟩ := ih hk'
        exact ⟨m + 1, by unfold runOut; rw [hs]; exact hm⟩
      | halt b c s' =>
        rw [hs, oiter_final k rfl] at hk'
        exact ⟨1, by unfold runOut; rw [hs, ← hk']⟩
      | panic =>
        rw [hs, oiter_final k rfl] at hk'
        exact ⟨1, by unfold runOut; rw [hs, ← hk']⟩

theorem stops_iff {s : VM ι τ σ} : (∃ k o, runOut step k s = some o) ↔
    ∃ k, StopsIn step k (.next s) := by
  constructor
  · rintro ⟨k, o, h⟩
    obtain ⟨⟨j, hj⟩, ho⟩ := runOut_iff.1 ⟨k, h⟩
    exact ⟨j, by unfold StopsIn; rw [hj]; exact ho⟩
  · rintro ⟨k, h⟩
    obtain ⟨m, hm⟩ := runOut_iff.2 ⟨⟨k, rfl⟩, h⟩
    exact ⟨m, _, hm⟩

end Gpeg
