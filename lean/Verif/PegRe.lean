import Verif.PegPegSyn
/-!
# `grammars/peg.peg` and the `re` syntax

The texts of the syntax of `grammars/peg.peg` (`PegText`) and the texts of grammars in the `re` syntax (`GramS`).
-/
namespace Gpeg.PegPeg
open Gpeg.Re (Sp IsName Apart isOct NoOct LowOctal Esc CharS LitS ItemsS CaratS PreS SufS PrimS SeqS ExprS GramS Prim Seqn Expr Gram Pre Suf)

/-- No octal escape of 200 or above, and no `[` in front of `]` or `^`. -/
def Plain (d : List UInt8) : Prop := LowOctal d ∧ ∀ u v x, d = u ++ 91 :: x :: v → x ≠ 93 ∧ x ≠ 94

/-- No backslash in front of `-`. -/
def NoDash (d : List UInt8) : Prop := ∀ u v, d ≠ u ++ 92 :: 45 :: v

theorem Plain.part {a b c d : List UInt8} (h : Plain d) (e : d = a ++ (b ++ c)) : Plain b := by
  refine ⟨fun u v x y e' => h.1 (a ++ u) (v ++ c) x y ?_, fun u v x e' => h.2 (a ++ u) (v ++ c) x ?_⟩ <;> rw [e, e'] <;> simp

theorem NoDash.part {a b c d : List UInt8} (h : NoDash d) (e : d = a ++ (b ++ c)) : NoDash b :=
  fun u v e' => h (a ++ u) (v ++ c) (by rw [e, e']; simp)

/-! ## From `grammars/peg.peg` to `re` -/

theorem chr_re {t rest : List UInt8} (h : Chr t rest) (hp : Plain t) : ∃ b, CharS b t rest := by
  cases h with
  | raw hb => exact ⟨_, .raw hb⟩
  | @esc c _ hc =>
    simp only [List.mem_cons, List.not_mem_nil, or_false] at hc
    rcases hc with rfl | rfl | rfl | rfl | rfl | rfl | rfl | rfl
    · exact ⟨_, .esc .n⟩
    · exact ⟨_, .esc .r⟩
    · exact ⟨_, .esc .t⟩
    all_goals exact ⟨_, .esc (.self (by decide))⟩
  | @oct3 a b c _ ha ha' hb hc =>
    refine ⟨_, .oct3 ha ?_ hb hc⟩
    rcases Nat.lt_or_ge 49 a.toNat with h | h
    · have h1 : a.toNat ≤ 50 := UInt8.le_iff_toNat_le.1 ha'
      have h2 : a = 50 := UInt8.toNat_inj.1 (by show a.toNat = 50; omega)
      subst h2
      rcases hp.1 [] [] b c rfl with h | h
      · rw [hb] at h; cases h
      · rw [hc] at h; cases h
    · exact UInt8.le_iff_toNat_le.2 h
  | @oct2 a b _ ha hb hr =>
    refine ⟨_, .oct2 ha hb (hr.imp_left fun h => ?_)⟩
    have := UInt8.lt_iff_toNat_lt.1 h
    exact UInt8.le_iff_toNat_le.2 this
  | oct1 ha hr => exact ⟨_, .oct1 ha hr⟩

theorem lit_re {q : UInt8} {t : List UInt8} (h : Lit q t) (hp : Plain t) : ∃ bs, LitS q bs t := by
  induction h with
  | nil => exact ⟨[], .nil⟩
  | @cons t rest hc hq _ ih =>
    obtain ⟨b, hb⟩ := chr_re hc (hp.part (a := []) rfl)
    obtain ⟨bs, hbs⟩ := ih (hp.part (a := t) (c := []) (by simp))
    exact ⟨b :: bs, .cons hb hq hbs⟩

theorem items_re {t : List UInt8} (h : Items t) (hp : Plain t) : ∃ its, ItemsS its t := by
  induction h with
  | nil => exact ⟨[], .nil⟩
  | @one t rest hc h1 h2 _ ih =>
    obtain ⟨b, hb⟩ := chr_re hc (hp.part (a := []) rfl)
    obtain ⟨bs, hbs⟩ := ih (hp.part (a := t) (c := []) (by simp))
    exact ⟨_, .one hb h1 h2 hbs⟩
  | @range t u rest hc h1 hu _ ih =>
    obtain ⟨a, ha⟩ := chr_re hc (hp.part (a := []) rfl)
    obtain ⟨b, hb⟩ := chr_re hu (hp.part (a := t ++ [45]) (c := rest) (by simp))
    obtain ⟨bs, hbs⟩ := ih (hp.part (a := t ++ 45 :: u) (c := []) (by simp))
    exact ⟨_, .range ha h1 hb hbs⟩

theorem pre_re {a : List UInt8} (h : Op [38, 33] a) : ∃ p, PreS p a := by
  rcases h with rfl | ⟨b, sp, hb, hsp, rfl⟩
  · exact ⟨_, .none⟩
  · simp only [List.mem_cons, List.not_mem_nil, or_false] at hb
    rcases hb with rfl | rfl
    · exact ⟨_, .and hsp⟩
    · exact ⟨_, .not hsp⟩

theorem suf_re {a : List UInt8} (h : Op [63, 42, 43] a) : ∃ p, SufS p a := by
  rcases h with rfl | ⟨b, sp, hb, hsp, rfl⟩
  · exact ⟨_, .none⟩
  · simp only [List.mem_cons, List.not_mem_nil, or_false] at hb
    rcases hb with rfl | rfl | rfl
    · exact ⟨_, .opt hsp⟩
    · exact ⟨_, .star hsp⟩
    · exact ⟨_, .plus hsp⟩

/-- A text of the category in the `re` syntax. -/
def InRe : Cat → List UInt8 → Prop
  | .prim, t => ∃ p, PrimS p t
  | .seq, t => ∃ s, SeqS s t
  | .expr, t => ∃ e, ExprS e t
  | .defs, t => ∃ n e g, GramS ((n, e) :: g) t

theorem syn_re {c : Cat} {t : List UInt8} (h : Syn c t) (hp : Plain t) : InRe c t := by
  induction h with
  | ident hn hs => exact ⟨_, .ident hn hs⟩
  | @paren sp t sp' hs _ hs' ih =>
    obtain ⟨e, he⟩ := ih (hp.part (a := 40 :: sp) (c := 41 :: sp') (by simp))
    exact ⟨_, .paren hs he hs'⟩
  | @lit q t sp hq ht hs =>
    obtain ⟨bs, hbs⟩ := lit_re ht (hp.part (a := [q]) (c := sp) rfl)
    exact ⟨_, .lit hq hbs hs⟩
  | @cls t sp ht hs =>
    obtain ⟨its, hi⟩ := items_re ht (hp.part (a := [91]) (c := sp) rfl)
    have hh : t.head? ≠ some 93 ∧ t.head? ≠ some 94 := by
      cases t with
      | nil => simp
      | cons x t => simpa using hp.2 [] (t ++ sp) x rfl
    refine ⟨_, .cls (u := []) .no hi (.inr ?_) (fun h => by cases h) (fun _ => hh.2) hs⟩
    rintro rfl
    cases hi
    exact hh.1 rfl
  | dot hs => exact ⟨_, .dot hs⟩
  | empty => exact ⟨_, .nil⟩
  | @item a b c t ha _ hc _ hap ih1 ih2 =>
    obtain ⟨pre, hpre⟩ := pre_re ha
    obtain ⟨suf, hsuf⟩ := suf_re hc
    obtain ⟨p, hpr⟩ := ih1 (hp.part (a := a) (c := c ++ t) rfl)
    obtain ⟨s, hs⟩ := ih2 (hp.part (a := a ++ (b ++ c)) (c := []) (by simp))
    exact ⟨_, .cons hpre hpr hsuf hs hap⟩
  | one _ ih =>
    obtain ⟨s, hs⟩ := ih hp
    exact ⟨_, .one hs⟩
  | @alt t sp u _ hsp _ ih1 ih2 =>
    obtain ⟨s, hs⟩ := ih1 (hp.part (a := []) rfl)
    obtain ⟨e, he⟩ := ih2 (hp.part (a := t ++ 47 :: sp) (c := []) (by simp))
    exact ⟨_, .alt hs hsp he⟩
  | @dfn n sp sp' t hn hs hs' _ ih =>
    obtain ⟨e, he⟩ := ih (hp.part (a := n ++ (sp ++ 60 :: 45 :: sp')) (c := []) (by simp))
    refine ⟨n, e, [], ?_⟩
    have := GramS.cons (u := []) hn hs hs' he .nil (fun _ _ _ h => by cases h)
    rwa [List.append_nil] at this
  | @dfns n sp sp' t u hn hs hs' _ _ hap ih1 ih2 =>
    obtain ⟨e, he⟩ := ih1 (hp.part (a := n ++ (sp ++ 60 :: 45 :: sp')) (c := u) (by simp))
    obtain ⟨n', e', g, hg⟩ := ih2 (hp.part (a := n ++ (sp ++ 60 :: 45 :: (sp' ++ t))) (c := []) (by simp))
    exact ⟨n, e, (n', e') :: g, .cons hn hs hs' he hg hap⟩

/-! ## From `re` to `grammars/peg.peg` -/

mutual
/-- No memoization and no complements of classes. -/
def simpleP : Prim → Bool
  | .paren e => simpleE e
  | .memo _ => false
  | .cls neg _ => !neg
  | .ident _ | .lit _ | .dot => true
def simpleS : Seqn → Bool
  | .nil => true
  | .cons _ p _ rest => simpleP p && simpleS rest
def simpleE : Expr → Bool
  | .one s => simpleS s
  | .alt s e => simpleS s && simpleE e
end

theorem chr_peg {b : UInt8} {t rest : List UInt8} (h : CharS b t rest) (hp : NoDash t) : Chr t rest := by
  cases h with
  | raw hb => exact .raw hb
  | @esc _ c _ hc =>
    refine .esc ?_
    cases hc with
    | self h =>
      simp only [List.mem_cons, List.not_mem_nil, or_false] at h
      rcases h with rfl | rfl | rfl | rfl | rfl | rfl <;> first | decide | exact absurd rfl (hp [] [])
    | _ => decide
  | oct3 ha ha' hb hc => exact .oct3 ha (UInt8.le_trans ha' (by decide)) hb hc
  | oct2 ha hb hr => exact .oct2 ha hb (hr.imp_left fun h => UInt8.lt_iff_toNat_lt.2 (show 51 ≤ _ from UInt8.le_iff_toNat_le.1 h))
  | oct1 ha hr => exact .oct1 ha hr

theorem lit_peg {q : UInt8} {bs t : List UInt8} (h : LitS q bs t) (hp : NoDash t) : Lit q t := by
  induction h with
  | nil => exact .nil
  | @cons _ _ t _ hc hq _ ih => exact .cons (chr_peg hc (hp.part (a := []) rfl)) hq (ih (hp.part (a := t) (c := []) (by simp)))

theorem items_peg {its : List Re.Item} {t : List UInt8} (h : ItemsS its t) (hp : NoDash t) : Items t := by
  induction h with
  | nil => exact .nil
  | @one _ t _ _ hc h1 h2 _ ih => exact .one (chr_peg hc (hp.part (a := []) rfl)) h1 h2 (ih (hp.part (a := t) (c := []) (by simp)))
  | @range a b t u rest its hc h1 hu _ ih =>
    exact .range (chr_peg hc (hp.part (a := []) rfl)) h1 (chr_peg hu (hp.part (a := t ++ [45]) (c := rest) (by simp)))
      (ih (hp.part (a := t ++ 45 :: u) (c := []) (by simp)))

theorem pre_peg {p : Re.Pre} {a : List UInt8} (h : PreS p a) : Op [38, 33] a := by
  cases h with
  | none => exact .inl rfl
  | and hs | not hs => exact .inr ⟨_, _, by simp, hs, rfl⟩

theorem suf_peg {p : Suf} {a : List UInt8} (h : SufS p a) : Op [63, 42, 43] a := by
  cases h with
  | none => exact .inl rfl
  | opt hs | star hs | plus hs => exact .inr ⟨_, _, by simp, hs, rfl⟩

mutual
theorem prim_peg : ∀ {p : Prim} {t : List UInt8}, PrimS p t → simpleP p = true → NoDash t → Syn .prim t
  | _, _, .ident hn hs, _, _ => .ident hn hs
  | _, _, .paren (sp := sp) (sp' := sp') hs he hs', hq, hp =>
    .paren hs (expr_peg he hq (hp.part (a := 40 :: sp) (c := 41 :: sp') (by simp))) hs'
  | _, _, .memo .., hq, _ => by cases hq
  | _, _, .lit (q := q) hq ht hs, _, hp => .lit hq (lit_peg ht (hp.part (a := [q]) rfl)) hs
  | _, _, .cls (t := t) (sp := sp) hu hi _ _ _ hs, hq, hp => by
    cases hu with
    | no => exact Syn.cls (t := t) (sp := sp) (items_peg hi (hp.part (a := [91]) (b := t) (c := sp) rfl)) hs
    | yes => cases hq
  | _, _, .dot hs, _, _ => .dot hs
theorem seq_peg : ∀ {s : Seqn} {t : List UInt8}, SeqS s t → simpleS s = true → NoDash t → Syn .seq t
  | _, _, .nil, _, _ => .empty
  | _, _, .cons (a := a) (b := b) (c := c) (t := t) hpre h hsuf hs hap, hq, hp =>
    have hq := Bool.and_eq_true_iff.1 hq
    .item (pre_peg hpre) (prim_peg h hq.1 (hp.part (a := a) (c := c ++ t) rfl)) (suf_peg hsuf)
      (seq_peg hs hq.2 (hp.part (a := a ++ (b ++ c)) (c := []) (by simp))) hap
theorem expr_peg : ∀ {e : Expr} {t : List UInt8}, ExprS e t → simpleE e = true → NoDash t → Syn .expr t
  | _, _, .one hs, hq, hp => .one (seq_peg hs hq hp)
  | _, _, .alt (t := t) (sp := sp) hs hsp he, hq, hp =>
    have hq := Bool.and_eq_true_iff.1 hq
    .alt (seq_peg hs hq.1 (hp.part (a := []) rfl)) hsp (expr_peg he hq.2 (hp.part (a := t ++ 47 :: sp) (c := []) (by simp)))
end

theorem gram_peg {g : Gram} {t : List UInt8} (h : GramS g t) (hq : ∀ d ∈ g, simpleE d.2 = true) (hp : NoDash t) (hg : g ≠ []) :
    Syn .defs t := by
  induction h with
  | nil => exact absurd rfl hg
  | @cons n e g sp sp' t u hn hs hs' he hu hap ih =>
    have he' := expr_peg he (hq (n, e) (by simp)) (hp.part (a := n ++ (sp ++ 60 :: 45 :: sp')) (c := u) (by simp))
    cases g with
    | nil =>
      cases hu
      rw [List.append_nil]
      exact .dfn hn hs hs' he'
    | cons d g =>
      refine .dfns hn hs hs' he' (ih (fun d hd => hq d (by simp [hd])) ?_ (by simp)) hap
      exact hp.part (a := n ++ (sp ++ 60 :: 45 :: (sp' ++ t))) (c := []) (by simp)

end Gpeg.PegPeg
