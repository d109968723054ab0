import Verif.Lemmas.ParseLemmas
/-! # The global sign and the whole parser -/
set_option linter.all false
namespace FireFly

/-- the expression the parser reads after its treatment of the global sign -/
def Expr.fixSign : Expr → Expr
  | .add a b => .add a.fixSign b
  | .sub k a b => .sub k a.fixSign b
  | .neg k a => if a.render.head? = some '(' then .sub k (.num ['0']) a else .neg k a
  | .pos a => if a.render.head? = some '(' then a else .pos a
  | e => e

variable {vars : List Str} {P N : ℕ}

lemma fixSign_wf : ∀ e : Expr, e.WF vars P N → e.fixSign.WF vars P N
  | .num _, h => h
  | .var _, h => h
  | .paren _, h => h
  | .pow _ _, h => h
  | .mul _ _, h => h
  | .div _ _, h => h
  | .add a b, h => ⟨fixSign_wf a h.1, h.2⟩
  | .sub k a b, h => ⟨fixSign_wf a h.1, h.2⟩
  | .neg k a, h => by
    unfold Expr.fixSign
    split
    · exact ⟨⟨by simp, by decide⟩, h⟩
    · exact h
  | .pos a, h => by
    unfold Expr.fixSign
    split
    · exact h.1
    · exact h

lemma fixSign_norm : ∀ e : Expr, e.Norm → e.fixSign.Norm
  | .num _, h => h
  | .var _, h => h
  | .paren _, h => h
  | .pow _ _, h => h
  | .mul _ _, h => h
  | .div _ _, h => h
  | .add a b, h => ⟨fixSign_norm a h.1, h.2⟩
  | .sub k a b, h => ⟨h.1, fixSign_norm a h.2.1, h.2.2⟩
  | .neg k a, h => by
    unfold Expr.fixSign
    split
    · exact ⟨h.1, trivial, h.2⟩
    · exact h
  | .pos a, h => by
    unfold Expr.fixSign
    split
    · exact h
    · exact h

lemma fixSign_denote {K : Type} [Field K] (env : Str → K) : ∀ e : Expr, e.fixSign.denote env = e.denote env
  | .num _ => rfl
  | .var _ => rfl
  | .paren _ => rfl
  | .pow _ _ => rfl
  | .mul _ _ => rfl
  | .div _ _ => rfl
  | .add a b => by simp only [Expr.fixSign, Expr.denote, fixSign_denote env a]
  | .sub k a b => by simp only [Expr.fixSign, Expr.denote, fixSign_denote env a]
  | .neg k a => by
    unfold Expr.fixSign
    split
    · simp [Expr.denote, decimal]
    · rfl
  | .pos a => by
    unfold Expr.fixSign
    split
    · simp [Expr.denote]
    · rfl

lemma signParen_high {e : Expr} (h : 2 ≤ e.level) : ¬ e.signParen := by
  cases e <;> simp_all [Expr.level, Expr.signParen]

lemma fixSign_signParen : ∀ e : Expr, e.WF vars P N → ¬ e.fixSign.signParen
  | .num _, _ => by simp [Expr.fixSign, Expr.signParen]
  | .var _, _ => by simp [Expr.fixSign, Expr.signParen]
  | .paren _, _ => by simp [Expr.fixSign, Expr.signParen]
  | .pow _ _, _ => by simp [Expr.fixSign, Expr.signParen]
  | .mul _ _, _ => by simp [Expr.fixSign, Expr.signParen]
  | .div _ _, _ => by simp [Expr.fixSign, Expr.signParen]
  | .add a b, h => by simpa only [Expr.fixSign, Expr.signParen] using fixSign_signParen a h.1
  | .sub k a b, h => by simpa only [Expr.fixSign, Expr.signParen] using fixSign_signParen a h.1
  | .neg k a, h => by
    unfold Expr.fixSign
    split
    · simp [Expr.signParen]
    · rename_i hn
      simpa [Expr.signParen] using hn
  | .pos a, h => by
    unfold Expr.fixSign
    split
    · exact signParen_high h.2
    · rename_i hn
      simpa [Expr.signParen] using hn

lemma paren_long (hvars : ∀ v ∈ vars, IsName v) : ∀ e : Expr, e.WF vars P N → 2 ≤ e.level → e.render.head? = some '(' → 2 ≤ e.render.length
  | .num ds, h, _, hh => by
    obtain ⟨c, h1, h2, h3⟩ := num_head h.1 (isNum_alnum h).2 []
    rw [List.append_nil] at h2
    rw [show (Expr.num ds).render = ds from rfl, h2] at hh
    have : c = '(' := by simpa using hh
    exact absurd this (alnum_ne h3).2.2.2.2.2.1
  | .var name, h, _, hh => by
    obtain ⟨c, h1, h2, h3⟩ := num_head (isName_alnum (hvars name h)).1 (isName_alnum (hvars name h)).2 []
    rw [List.append_nil] at h2
    rw [show (Expr.var name).render = name from rfl, h2] at hh
    have : c = '(' := by simpa using hh
    exact absurd this (alnum_ne h3).2.2.2.2.2.1
  | .paren e, _, _, _ => by simp [Expr.render]
  | .pow a x, h, _, _ => by
    obtain ⟨c, -, -, h3, -⟩ := render_head hvars a h.1 (by have := h.2.1; omega) []
    have : a.render ≠ [] := by rintro h; rw [h] at h3; simp at h3
    have := List.length_pos_of_ne_nil this
    simp only [Expr.render, List.length_append, List.length_cons]; omega
  | .mul a x, h, _, _ => by
    obtain ⟨c, -, -, h3, -⟩ := render_head hvars a h.1 h.2.1 []
    have : a.render ≠ [] := by rintro h; rw [h] at h3; simp at h3
    have := List.length_pos_of_ne_nil this
    simp only [Expr.render, List.length_append, List.length_cons]; omega
  | .div a x, h, _, _ => by
    obtain ⟨c, -, -, h3, -⟩ := render_head hvars a h.1 h.2.1 []
    have : a.render ≠ [] := by rintro h; rw [h] at h3; simp at h3
    have := List.length_pos_of_ne_nil this
    simp only [Expr.render, List.length_append, List.length_cons]; omega

/-- the beginning of a text -/
def Lead (e : Expr) : Prop :=
  (∃ c t, e.render = c :: t ∧ (isAlnum c = true ∨ c = '(') ∧ e.fixSign.render = e.render) ∨
  (∃ s d t, e.render = s :: d :: t ∧ (s = '+' ∨ s = '-') ∧ (d = '(' → t ≠ [] ∧ (s = '+' → e.fixSign.render = d :: t) ∧
    (s = '-' → e.fixSign.render = '0' :: s :: d :: t)) ∧ (d ≠ '(' → e.fixSign.render = e.render))

lemma lead_append {e e' : Expr} {x : Str} (h : Lead e) (h1 : e'.render = e.render ++ x) (h2 : e'.fixSign.render = e.fixSign.render ++ x) : Lead e' := by
  rcases h with ⟨c, t, g1, g2, g3⟩ | ⟨s, d, t, g1, g2, g3, g4⟩
  · exact Or.inl ⟨c, t ++ x, by rw [h1, g1]; rfl, g2, by rw [h2, h1, g3]⟩
  · refine Or.inr ⟨s, d, t ++ x, by rw [h1, g1]; rfl, g2, fun hd => ?_, fun hd => by rw [h2, h1, g4 hd]⟩
    obtain ⟨k1, k2, k3⟩ := g3 hd
    exact ⟨by simp [k1], fun hs => by rw [h2, k2 hs]; rfl, fun hs => by rw [h2, k3 hs]; rfl⟩

lemma lead_high (hvars : ∀ v ∈ vars, IsName v) {e : Expr} (h : e.WF vars P N) (hl : 2 ≤ e.level) : Lead e := by
  obtain ⟨c, -, -, h3, h4⟩ := render_head hvars e h hl []
  have : e.render = c :: e.render.tail := by
    cases hr : e.render with
    | nil => rw [hr] at h3; simp at h3
    | cons d t => rw [hr] at h3; simp at h3; simp [h3]
  refine Or.inl ⟨c, e.render.tail, this, h4, ?_⟩
  clear this h3 h4
  cases e <;> first | rfl | (simp [Expr.level] at hl)

lemma lead (hvars : ∀ v ∈ vars, IsName v) : ∀ e : Expr, e.WF vars P N → e.Norm → Lead e
  | .num _, h, _ => lead_high hvars h (by simp [Expr.level])
  | .var _, h, _ => lead_high hvars h (by simp [Expr.level])
  | .paren _, h, _ => lead_high hvars h (by simp [Expr.level])
  | .pow _ _, h, _ => lead_high hvars h (by simp [Expr.level])
  | .mul _ _, h, _ => lead_high hvars h (by simp [Expr.level])
  | .div _ _, h, _ => lead_high hvars h (by simp [Expr.level])
  | .add a b, h, hn => lead_append (lead hvars a h.1 hn.1) (x := '+' :: b.render) rfl rfl
  | .sub k a b, h, hn => lead_append (lead hvars a h.1 hn.2.1) (x := k.render ++ b.render) (by simp [Expr.render]) (by simp [Expr.render, Expr.fixSign])
  | .neg k a, h, hn => by
    obtain ⟨rfl, -⟩ := hn
    obtain ⟨c, -, -, h3, h4⟩ := render_head hvars a h.1 h.2 []
    have hc : a.render = c :: a.render.tail := by
      cases hr : a.render with
      | nil => rw [hr] at h3; simp at h3
      | cons d t => rw [hr] at h3; simp at h3; simp [h3]
    refine Or.inr ⟨'-', c, a.render.tail, ?_, Or.inr rfl, fun hd => ⟨?_, fun hs => absurd hs (by decide), fun _ => ?_⟩, fun hd => ?_⟩
    · simp [Expr.render, Minus.render, ← hc]
    · subst hd
      have := paren_long hvars a h.1 h.2 h3
      intro h
      rw [hc, h] at this
      simp at this
    · subst hd
      simp only [Expr.fixSign, if_pos h3, Expr.render, Minus.render]
      rw [← hc]; rfl
    · simp only [Expr.fixSign, h3, Option.some.injEq, hd, if_false]
  | .pos a, h, hn => by
    obtain ⟨c, -, -, h3, h4⟩ := render_head hvars a h.1 h.2 []
    have hc : a.render = c :: a.render.tail := by
      cases hr : a.render with
      | nil => rw [hr] at h3; simp at h3
      | cons d t => rw [hr] at h3; simp at h3; simp [h3]
    refine Or.inr ⟨'+', c, a.render.tail, ?_, Or.inl rfl, fun hd => ⟨?_, fun _ => ?_, fun hs => absurd hs (by decide)⟩, fun hd => ?_⟩
    · simp [Expr.render, ← hc]
    · subst hd
      have := paren_long hvars a h.1 h.2 h3
      intro h
      rw [hc, h] at this
      simp at this
    · subst hd
      simp only [Expr.fixSign, if_pos h3]
      exact hc
    · simp only [Expr.fixSign, h3, Option.some.injEq, hd, if_false]

lemma globalSign_render (hvars : ∀ v ∈ vars, IsName v) {e : Expr} (h : e.WF vars P N) (hn : e.Norm) :
    globalSign e.render = e.fixSign.render := by
  unfold globalSign
  rcases lead hvars e h hn with ⟨c, t, g1, g2, g3⟩ | ⟨s, d, t, g1, g2, g3, g4⟩
  · rw [if_neg, g3]
    rw [g1]
    rintro ⟨-, h, -⟩
    simp only [List.getD_cons_zero] at h
    rcases g2 with g2 | g2
    · rcases h with h | h
      · exact (alnum_ne g2).1 h
      · exact (alnum_ne g2).2.1 h
    · subst g2; revert h; decide
  · by_cases hd : d = '('
    · obtain ⟨k1, k2, k3⟩ := g3 hd
      have hlen : e.render.length > 2 := by
        rw [g1]
        have := List.length_pos_of_ne_nil k1
        simp only [List.length_cons]; omega
      rw [if_pos ⟨hlen, by rw [g1]; simpa using g2, by rw [g1]; simpa using hd⟩]
      rcases g2 with rfl | rfl
      · rw [if_pos (by rw [g1]; rfl), k2 rfl, g1]; rfl
      · rw [if_neg (by rw [g1]; show ¬ ('-' = '+'); decide), k3 rfl, g1]
    · rw [if_neg, g4 hd]
      rintro ⟨-, -, h⟩
      rw [g1] at h
      exact hd (by simpa using h)

section
variable [LongDouble] {p : ℕ} {values : List ℕ} (hp : p.Prime) (hlt : p < 2 ^ 63)
include hp hlt

/-- `parse` on the text of a well-formed expression whose minus signs are written `-` -/
lemma parse_render [Fact p.Prime] (h3 : 3 < p) (hvars : ∀ v ∈ vars, IsName v) (hlen : vars.length ≤ values.length) (hval : ∀ x ∈ values, x < p)
    {e : Expr} (h : e.WF vars (p - 1) (min p (2 ^ 31))) (hn : e.Norm) :
    ∃ T, parse e.render = some T ∧ Pushes p vars values T (e.denote (envOf p vars values)) := by
  obtain ⟨T', P, tmp', prev', g1, g2, g3, g4, g5⟩ := (reads_main hp hlt h3 hvars hlen hval e.fixSign (fixSign_wf e h) (fixSign_norm e hn)).2.1
    '\x00' [] [] (Or.inr ⟨rfl, rfl, fixSign_signParen e h⟩)
  refine ⟨T' ++ toks tmp' ++ P.map fun c => [c], ?_, by rw [← fixSign_denote]; exact g2⟩
  unfold parse
  rw [globalSign_render hvars h hn]
  have := g1 []
  rw [List.append_nil] at this
  rw [show ({} : PState) = ⟨[], [], [], false⟩ from rfl, this]
  show some (PState.finish _) = _
  unfold PState.finish
  rw [flush_eq]
  simp

end
end FireFly
