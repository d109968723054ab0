import Verif.Model.Amplitude
import Verif.Spec.Amplitude
/-! # Texts of expressions in functions: reading -/
set_option linter.all false
namespace FireFly

/-! ## find -/

lemma strFind_some {pat : Str} : ∀ {s : Str} {k : ℕ}, k ≤ s.length → pat <+: s.drop k → (∀ j, j < k → ¬ pat <+: s.drop j) → strFind pat s = some k
  | [], k, hk, hp, _ => by
    have : k = 0 := by simpa using hk
    subst this
    simp only [List.drop_nil, List.prefix_nil] at hp
    simp [strFind, hp]
  | c :: cs, 0, _, hp, _ => by
    simp only [List.drop_zero] at hp
    simp [strFind, hp]
  | c :: cs, k + 1, hk, hp, hn => by
    have h0 := hn 0 (by omega)
    simp only [List.drop_zero] at h0
    have ih := strFind_some (pat := pat) (s := cs) (k := k) (by simpa using hk) (by simpa using hp) (fun j hj => by simpa using hn (j + 1) (by omega))
    simp [strFind, h0, ih]

lemma strFind_none {pat : Str} : ∀ {s : Str}, ¬ pat <:+: s → strFind pat s = none
  | [], h => by
    have : pat ≠ [] := by rintro rfl; exact h (List.nil_infix)
    simp [strFind, this]
  | c :: cs, h => by
    have h0 : ¬ pat <+: c :: cs := fun hp => h hp.isInfix
    have ih := strFind_none (pat := pat) (s := cs) (fun hp => h (hp.trans (List.suffix_cons c cs).isInfix))
    simp [strFind, h0, ih]

lemma strFind_infix {pat : Str} : ∀ {s : Str} {k : ℕ}, strFind pat s = some k → pat <:+: s := by
  intro s k h
  by_contra hn
  rw [strFind_none hn] at h
  cases h

lemma strRFind_none {pat : Str} : ∀ {s : Str}, ¬ pat <:+: s → strRFind pat s = none
  | [], h => by
    have : pat ≠ [] := by rintro rfl; exact h (List.nil_infix)
    simp [strRFind, this]
  | c :: cs, h => by
    have h0 : ¬ pat <+: c :: cs := fun hp => h hp.isInfix
    have ih := strRFind_none (pat := pat) (s := cs) (fun hp => h (hp.trans (List.suffix_cons c cs).isInfix))
    simp [strRFind, h0, ih]

lemma strRFind_prefix {pat : Str} : ∀ (a : Str) {s : Str} {k : ℕ}, strRFind pat s = some k → strRFind pat (a ++ s) = some (a.length + k)
  | [], s, k, h => by simpa using h
  | c :: cs, s, k, h => by
    have := strRFind_prefix cs h
    simp only [List.cons_append, strRFind, this, List.length_cons, Option.some.injEq]
    omega

/-- the last occurrence at the end of a text -/
lemma strRFind_end {pat : Str} (h : pat ≠ []) (a : Str) : strRFind pat (a ++ pat) = some a.length := by
  have h0 : strRFind pat pat = some 0 := by
    cases pat with
    | nil => exact absurd rfl h
    | cons c cs =>
      have : ¬ (c :: cs) <:+: cs := by
        intro hi
        have := hi.length_le
        simp at this
      simp [strRFind, strRFind_none this]
  simpa using strRFind_prefix a h0

/-- the last occurrence of a character -/
lemma strRFind_char {c : Char} {b : Str} (h : c ∉ b) (a : Str) : strRFind [c] (a ++ c :: b) = some a.length := by
  have h0 : strRFind [c] (c :: b) = some 0 := by
    have : ¬ [c] <:+: b := by
      intro hi; exact h (hi.subset (by simp))
    simp [strRFind, strRFind_none this]
  simpa using strRFind_prefix a h0

/-- the first occurrence of a character -/
lemma strFind_char {c : Char} : ∀ {a : Str} (h : c ∉ a) (b : Str), strFind [c] (a ++ c :: b) = some a.length
  | [], _, b => by simp [strFind]
  | d :: ds, h, b => by
    have hd : ¬ [c] <+: d :: (ds ++ c :: b) := by
      intro hp
      simp only [List.cons_prefix_cons, List.nil_prefix, and_true] at hp
      exact h (by simp [hp])
    have := strFind_char (c := c) (a := ds) (fun hc => h (by simp [hc])) b
    simp only [List.cons_append, strFind, if_neg hd, this, List.length_cons]
    rfl

lemma strFind_char_none {c : Char} {s : Str} (h : c ∉ s) : strFind [c] s = none :=
  strFind_none fun hi => h (hi.subset (by simp))

/-- the first arrow -/
lemma strFind_arrow : ∀ {a : Str} (h : '>' ∉ a) (b : Str), strFind ['-', '>'] (a ++ '-' :: '>' :: b) = some a.length
  | [], _, b => by simp [strFind]
  | d :: ds, h, b => by
    have hd : ¬ ['-', '>'] <+: d :: (ds ++ '-' :: '>' :: b) := by
      intro hp
      rw [List.cons_prefix_cons] at hp
      cases ds with
      | nil => simp [List.cons_prefix_cons] at hp
      | cons e es =>
        simp only [List.cons_append, List.cons_prefix_cons] at hp
        exact h (by rw [hp.2.1]; simp)
    have := strFind_arrow (a := ds) (fun hc => h (by simp [hc])) b
    simp only [List.cons_append, strFind, if_neg hd, this, List.length_cons]
    rfl

lemma strFind_arrow_none {s : Str} (h : '>' ∉ s) : strFind ['-', '>'] s = none :=
  strFind_none fun hi => h (hi.subset (by simp))

lemma strFindFrom_drop (pat a b : Str) : strFindFrom pat (a ++ b) a.length = (strFind pat b).map (· + a.length) := by
  unfold strFindFrom
  rw [List.drop_left]

/-- a name occurs at the end of a text only if it occurs in one of the parts -/
lemma infix_split {f a b : Str} {d : Char} (hd : d ∉ f) (h : f <:+: a ++ d :: b) : f <:+: a ∨ f <:+: b := by
  obtain ⟨x, y, e⟩ := h
  rw [List.append_assoc] at e
  rcases List.append_eq_append_iff.mp e with ⟨z, h1, h2⟩ | ⟨z, h1, h2⟩
  · -- a = x ++ z, f ++ y = z ++ d :: b
    rcases List.append_eq_append_iff.mp h2 with ⟨w, h3, h4⟩ | ⟨w, h3, h4⟩
    · exact Or.inl ⟨x, w, by rw [h1, h3]; simp⟩
    · cases w with
      | nil =>
        simp only [List.append_nil] at h3
        exact Or.inl ⟨x, [], by rw [h1, h3]; simp⟩
      | cons v w =>
        simp only [List.cons_append, List.cons.injEq] at h4
        exact absurd (by rw [h3, ← h4.1]; simp) hd
  · -- x = a ++ z, d :: b = z ++ (f ++ y)
    cases z with
    | nil =>
      cases f with
      | nil => exact Or.inl List.nil_infix
      | cons v f =>
        simp only [List.nil_append, List.cons_append, List.cons.injEq] at h2
        exact absurd (by rw [h2.1]; simp) hd
    | cons v z =>
      simp only [List.cons_append, List.cons.injEq] at h2
      exact Or.inr ⟨z, y, by rw [h2.2]; simp⟩

/-! ## characters -/

lemma famChar {c : Char} (h : isAlphaC c = true ∨ isDigitC c = true ∨ c = '_') : c ∉ ['[', ']', '{', '}', '>', ';', ' ', '\t', '\n', '+', '-', '*', ',', '/', '^', '(', ')'] := by
  intro hc
  simp only [List.mem_cons, List.not_mem_nil, or_false] at hc
  rcases hc with rfl | rfl | rfl | rfl | rfl | rfl | rfl | rfl | rfl | rfl | rfl | rfl | rfl | rfl | rfl | rfl | rfl <;> revert h <;> decide

variable {fams vars : List Str} {P N : ℕ}

/-- the characters of an expression -/
lemma render_chars (hvars : ∀ v ∈ vars, IsName v) : ∀ (e : Expr), e.WF vars P N → ∀ c ∈ e.render, c ∉ ['[', ']', '{', '}', '>', ';', ' ', '\t', '\n', ','] := by
  have dig : ∀ {ds : Str}, IsNum ds → ∀ c ∈ ds, c ∉ ['[', ']', '{', '}', '>', ';', ' ', '\t', '\n', ','] := by
    intro ds h c hc h2
    have := famChar (Or.inr (Or.inl (h.2.1 c hc)))
    exact this (by simp only [List.mem_cons, List.not_mem_nil, or_false] at h2 ⊢; tauto)
  have hop : ∀ c, c = '+' ∨ c = '-' ∨ c = '*' ∨ c = '/' ∨ c = '^' ∨ c = '(' ∨ c = ')' → c ∉ ['[', ']', '{', '}', '>', ';', ' ', '\t', '\n', ','] := by
    rintro c (rfl | rfl | rfl | rfl | rfl | rfl | rfl) <;> decide
  have mn : ∀ (k : Minus), ∀ c ∈ k.render, c = '+' ∨ c = '-' := by
    intro k c hc
    cases k <;> simp [Minus.render] at hc <;> tauto
  intro e
  induction e with
  | num ds => intro h; exact dig h
  | var name =>
    intro h c hc h2
    have := (hvars name h).2.1 c hc
    have := famChar (c := c) (by tauto)
    exact this (by simp only [List.mem_cons, List.not_mem_nil, or_false] at h2 ⊢; tauto)
  | paren e ih =>
    intro h c hc
    simp only [Expr.render, List.cons_append, List.mem_cons, List.mem_append, List.not_mem_nil, or_false] at hc
    rcases hc with rfl | hc | rfl
    · exact hop _ (by tauto)
    · exact ih h c hc
    · exact hop _ (by tauto)
  | pow a x ih =>
    intro h c hc
    simp only [Expr.render, List.mem_cons, List.mem_append] at hc
    rcases hc with hc | rfl | hc
    · exact ih h.1 c hc
    · exact hop _ (by tauto)
    · have hx := h.2.2
      cases x with
      | plain ds => exact dig hx.1 c hc
      | paren ds =>
        simp only [Exponent.render, List.cons_append, List.mem_cons, List.mem_append, List.not_mem_nil, or_false] at hc
        rcases hc with rfl | hc | rfl
        · exact hop _ (by tauto)
        · exact dig hx.1 c hc
        · exact hop _ (by tauto)
      | neg ds =>
        simp only [Exponent.render, List.cons_append, List.mem_cons, List.mem_append, List.not_mem_nil, or_false] at hc
        rcases hc with rfl | rfl | hc | rfl
        · exact hop _ (by tauto)
        · exact hop _ (by tauto)
        · exact dig hx.1 c hc
        · exact hop _ (by tauto)
  | mul a b iha ihb =>
    intro h c hc
    simp only [Expr.render, List.mem_cons, List.mem_append] at hc
    rcases hc with hc | rfl | hc
    · exact iha h.1 c hc
    · exact hop _ (by tauto)
    · exact ihb h.2.2.1 c hc
  | div a b iha ihb =>
    intro h c hc
    simp only [Expr.render, List.mem_cons, List.mem_append] at hc
    rcases hc with hc | rfl | hc
    · exact iha h.1 c hc
    · exact hop _ (by tauto)
    · exact ihb h.2.2.1 c hc
  | add a b iha ihb =>
    intro h c hc
    simp only [Expr.render, List.mem_cons, List.mem_append] at hc
    rcases hc with hc | rfl | hc
    · exact iha h.1 c hc
    · exact hop _ (by tauto)
    · exact ihb h.2.1 c hc
  | sub k a b iha ihb =>
    intro h c hc
    simp only [Expr.render, List.mem_append] at hc
    rcases hc with (hc | hc) | hc
    · exact iha h.1 c hc
    · exact hop _ (by have := mn k c hc; tauto)
    · exact ihb h.2.1 c hc
  | neg k a ih =>
    intro h c hc
    simp only [Expr.render, List.mem_append] at hc
    rcases hc with hc | hc
    · exact hop _ (by have := mn k c hc; tauto)
    · exact ih h.1 c hc
  | pos a ih =>
    intro h c hc
    simp only [Expr.render, List.mem_cons] at hc
    rcases hc with rfl | hc
    · exact hop _ (by tauto)
    · exact ih h.1 c hc

lemma render_ne (hvars : ∀ v ∈ vars, IsName v) : ∀ (e : Expr), e.WF vars P N → e.render ≠ [] := by
  intro e
  cases e with
  | num ds => intro h; exact h.1
  | var name =>
    intro h e
    obtain ⟨c, hc, -⟩ := (hvars name h).2.2
    simp only [Expr.render] at e
    rw [e] at hc
    simp at hc
  | neg k a => intro h; cases k <;> simp [Expr.render, Minus.render]
  | sub k a b => intro h; cases k <;> simp [Expr.render, Minus.render]
  | _ => intro h; simp [Expr.render]

end FireFly
