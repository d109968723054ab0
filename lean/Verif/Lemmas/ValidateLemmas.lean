import Verif.Lemmas.ParseTop
/-! # `validate` on the text of an expression -/
set_option linter.all false
namespace FireFly

/-- the text of a minus sign after `validate` has marked what it removes -/
def Minus.mark : Minus → Str
  | .m => ['-']
  | .pm => ['$', '-']
  | .mp => ['-', '$']

/-- the text after the loop of `validate`; the flags say whether the text is preceded by `(` and
followed by `)` -/
def Expr.mark : Expr → Bool → Bool → Str
  | .num ds, _, _ => ds
  | .var name, _, _ => name
  | .paren e, pv, nx =>
    if pv && nx then '$' :: e.mark true true ++ ['$'] else '(' :: e.mark true true ++ [')']
  | .pow a x, pv, _ => a.mark pv false ++ '^' :: x.render
  | .mul a b, pv, nx => a.mark pv false ++ '*' :: b.mark false nx
  | .div a b, pv, nx => a.mark pv false ++ '/' :: b.mark false nx
  | .add a b, pv, nx => a.mark pv false ++ '+' :: b.mark false nx
  | .sub k a b, pv, nx => a.mark pv false ++ (k.mark ++ b.mark false nx)
  | .neg k a, _, nx => k.mark ++ a.mark false nx
  | .pos a, _, nx => '+' :: a.mark false nx

/-- the expression whose text is left by `validate` -/
def Expr.strip : Expr → Bool → Bool → Expr
  | .num ds, _, _ => .num ds
  | .var name, _, _ => .var name
  | .paren e, pv, nx => if pv && nx then e.strip true true else .paren (e.strip true true)
  | .pow a x, pv, _ => .pow (a.strip pv false) x
  | .mul a b, pv, nx => .mul (a.strip pv false) (b.strip false nx)
  | .div a b, pv, nx => .div (a.strip pv false) (b.strip false nx)
  | .add a b, pv, nx => .add (a.strip pv false) (b.strip false nx)
  | .sub _ a b, pv, nx => .sub .m (a.strip pv false) (b.strip false nx)
  | .neg _ a, _, nx => .neg .m (a.strip false nx)
  | .pos a, _, nx => .pos (a.strip false nx)

variable {vars : List Str} {P N : ℕ}

lemma strip_norm (e : Expr) : ∀ pv nx, (e.strip pv nx).Norm := by
  induction e with
  | num => intros; trivial
  | var => intros; trivial
  | paren e ih =>
    intro pv nx
    unfold Expr.strip
    split
    · exact ih _ _
    · exact ih _ _
  | pow a x ih => intro pv nx; exact ih _ _
  | mul a b iha ihb => intro pv nx; exact ⟨iha _ _, ihb _ _⟩
  | div a b iha ihb => intro pv nx; exact ⟨iha _ _, ihb _ _⟩
  | add a b iha ihb => intro pv nx; exact ⟨iha _ _, ihb _ _⟩
  | sub k a b iha ihb => intro pv nx; exact ⟨rfl, iha _ _, ihb _ _⟩
  | neg k a ih => intro pv nx; exact ⟨rfl, ih _ _⟩
  | pos a ih => intro pv nx; exact ih _ _

lemma strip_denote {K : Type} [Field K] (env : Str → K) (e : Expr) : ∀ pv nx, (e.strip pv nx).denote env = e.denote env := by
  induction e with
  | num => intros; rfl
  | var => intros; rfl
  | paren e ih =>
    intro pv nx
    unfold Expr.strip
    split
    · exact ih _ _
    · exact ih _ _
  | pow a x ih =>
    intro pv nx
    unfold Expr.strip
    cases x <;> simp only [Expr.denote, ih]
  | mul a b iha ihb => intro pv nx; simp only [Expr.strip, Expr.denote, iha, ihb]
  | div a b iha ihb => intro pv nx; simp only [Expr.strip, Expr.denote, iha, ihb]
  | add a b iha ihb => intro pv nx; simp only [Expr.strip, Expr.denote, iha, ihb]
  | sub k a b iha ihb => intro pv nx; simp only [Expr.strip, Expr.denote, iha, ihb]
  | neg k a ih => intro pv nx; simp only [Expr.strip, Expr.denote, ih]
  | pos a ih => intro pv nx; simp only [Expr.strip, Expr.denote, ih]

lemma strip_level (e : Expr) : ∀ pv nx, (pv && nx) = false → (e.strip pv nx).level = e.level := by
  intro pv nx h
  cases e <;> simp [Expr.strip, Expr.level, h]

lemma strip_wf (e : Expr) : ∀ pv nx, e.WF vars P N → (e.strip pv nx).WF vars P N := by
  have hl : ∀ (e : Expr) (b : Bool), (e.strip b false).level = e.level := fun e b => strip_level e _ _ (by simp)
  have hl' : ∀ (e : Expr) (b : Bool), (e.strip false b).level = e.level := fun e b => strip_level e _ _ (by simp)
  induction e with
  | num => intro _ _ h; exact h
  | var => intro _ _ h; exact h
  | paren e ih =>
    intro pv nx h
    unfold Expr.strip
    split
    · exact ih _ _ h
    · exact ih _ _ h
  | pow a x ih => intro pv nx h; exact ⟨ih _ _ h.1, by rw [hl]; exact h.2.1, h.2.2⟩
  | mul a b iha ihb => intro pv nx h; exact ⟨iha _ _ h.1, by rw [hl]; exact h.2.1, ihb _ _ h.2.2.1, by rw [hl']; exact h.2.2.2⟩
  | div a b iha ihb => intro pv nx h; exact ⟨iha _ _ h.1, by rw [hl]; exact h.2.1, ihb _ _ h.2.2.1, by rw [hl']; exact h.2.2.2⟩
  | add a b iha ihb => intro pv nx h; exact ⟨iha _ _ h.1, ihb _ _ h.2.1, by rw [hl']; exact h.2.2⟩
  | sub k a b iha ihb => intro pv nx h; exact ⟨iha _ _ h.1, ihb _ _ h.2.1, by rw [hl']; exact h.2.2⟩
  | neg k a ih => intro pv nx h; exact ⟨ih _ _ h.1, by rw [hl']; exact h.2⟩
  | pos a ih => intro pv nx h; exact ⟨ih _ _ h.1, by rw [hl']; exact h.2⟩

lemma mark_length (e : Expr) : ∀ pv nx, (e.mark pv nx).length = e.render.length := by
  have hk : ∀ k : Minus, k.mark.length = k.render.length := by intro k; cases k <;> rfl
  induction e with
  | num => intros; rfl
  | var => intros; rfl
  | paren e ih =>
    intro pv nx
    unfold Expr.mark
    split <;> simp [Expr.render, ih]
  | pow a x ih => intro pv nx; simp [Expr.mark, Expr.render, ih]
  | mul a b iha ihb => intro pv nx; simp [Expr.mark, Expr.render, iha, ihb]
  | div a b iha ihb => intro pv nx; simp [Expr.mark, Expr.render, iha, ihb]
  | add a b iha ihb => intro pv nx; simp [Expr.mark, Expr.render, iha, ihb]
  | sub k a b iha ihb => intro pv nx; simp [Expr.mark, Expr.render, iha, ihb, hk, add_assoc]
  | neg k a ih => intro pv nx; simp [Expr.mark, Expr.render, ih, hk]
  | pos a ih => intro pv nx; simp [Expr.mark, Expr.render, ih]

lemma filter_alnum {s : Str} (h : ∀ c ∈ s, isAlnum c = true) : s.filter (· ≠ '$') = s := by
  rw [List.filter_eq_self]
  intro c hc
  have := (alnum_ne (h c hc)).2.2.2.2.2.2.2.2.2.2.2.1
  simpa using this

lemma filter_mark (hvars : ∀ v ∈ vars, IsName v) (e : Expr) : ∀ pv nx, e.WF vars P N → (e.mark pv nx).filter (· ≠ '$') = (e.strip pv nx).render := by
  have hk : ∀ k : Minus, k.mark.filter (· ≠ '$') = ['-'] := by intro k; cases k <;> decide
  induction e with
  | num ds => intro _ _ h; exact filter_alnum (isNum_alnum h).2
  | var name => intro _ _ h; exact filter_alnum (isName_alnum (hvars _ h)).2
  | paren e ih =>
    intro pv nx h
    have ih := ih true true h
    unfold Expr.mark Expr.strip
    split
    · rw [← ih]
      simp
    · rw [Expr.render, ← ih]
      simp
  | pow a x ih =>
    intro pv nx h
    have hx : x.render.filter (· ≠ '$') = x.render := by
      obtain ⟨-, -, hx⟩ := h
      cases x with
      | plain ds => exact filter_alnum (isNum_alnum hx.1).2
      | paren ds =>
        have := filter_alnum (isNum_alnum hx.1).2
        simp only [Exponent.render, List.filter_append, List.filter_cons, this]
        simp [this]
      | neg ds =>
        have := filter_alnum (isNum_alnum hx.1).2
        simp only [Exponent.render, List.filter_append, List.filter_cons, this]
        simp [this]
    rw [Expr.mark, List.filter_append, ih _ _ h.1, List.filter_cons, hx]
    rfl
  | mul a b iha ihb => 
    intro pv nx h
    rw [Expr.mark, List.filter_append, List.filter_cons, iha _ _ h.1, ihb _ _ h.2.2.1]
    rfl
  | div a b iha ihb =>
    intro pv nx h
    rw [Expr.mark, List.filter_append, List.filter_cons, iha _ _ h.1, ihb _ _ h.2.2.1]
    rfl
  | add a b iha ihb =>
    intro pv nx h
    rw [Expr.mark, List.filter_append, List.filter_cons, iha _ _ h.1, ihb _ _ h.2.1]
    rfl
  | sub k a b iha ihb =>
    intro pv nx h
    rw [Expr.mark, List.filter_append, List.filter_append, hk, iha _ _ h.1, ihb _ _ h.2.1]
    simp [Expr.strip, Expr.render, Minus.render]
  | neg k a ih =>
    intro pv nx h
    rw [Expr.mark, List.filter_append, hk, ih _ _ h.1]
    rfl
  | pos a ih =>
    intro pv nx h
    rw [Expr.mark, List.filter_cons, ih _ _ h.1]
    rfl

/-! ### the loop -/

/-- `n` iterations of the loop from index `i` on -/
def vRun (s : Str × List Int) (i n : ℕ) : Option (Str × List Int) := (List.range' i n).foldlM validateStep s

lemma vRun_add (s : Str × List Int) (i m n : ℕ) : vRun s i (m + n) = (vRun s i m).bind fun s => vRun s (i + m) n := by
  unfold vRun
  rw [← List.range'_append_1, List.foldlM_append]; rfl

lemma vRun_one (s : Str × List Int) (i : ℕ) : vRun s i 1 = validateStep s i := by
  simp [vRun, List.range']

lemma getD_mid (pre post : Str) (c : Char) : (pre ++ c :: post).getD pre.length '\x00' = c := by
  rw [List.getD_append_right _ _ _ _ le_rfl]; simp

lemma getD_mid1 (pre post : Str) (c : Char) : (pre ++ c :: post).getD (pre.length + 1) '\x00' = post.getD 0 '\x00' := by
  rw [List.getD_append_right _ _ _ _ (by omega)]; simp

lemma set_mid (pre post : Str) (c d : Char) : (pre ++ c :: post).set pre.length d = pre ++ d :: post := by
  rw [List.set_append_right _ _ (le_refl _)]; simp

lemma validatePM_id {pre post : Str} {c : Char} (h1 : c = '+' → post.getD 0 '\x00' ≠ '-') :
    validatePM (pre ++ c :: post) pre.length = pre ++ c :: post := by
  unfold validatePM
  rw [getD_mid, getD_mid1, if_neg (fun h => h1 h.1 h.2)]

lemma validateMP_id {pre post : Str} {c : Char} (h1 : c = '-' → post.getD 0 '\x00' ≠ '+') :
    validateMP (pre ++ c :: post) pre.length = pre ++ c :: post := by
  unfold validateMP
  rw [getD_mid, getD_mid1, if_neg (fun h => h1 h.1 h.2)]

lemma validateParen_id {pre post : Str} {c : Char} {st : List Int} (h3 : c ≠ '(') (h4 : c ≠ ')') :
    validateParen (pre ++ c :: post) st pre.length = some (pre ++ c :: post, st) := by
  unfold validateParen
  rw [getD_mid]
  simp only
  rw [if_neg h3, if_neg h4]

/-- characters without effect -/
lemma vStep_inert (pre post : Str) (c : Char) (st : List Int) (h1 : c = '+' → post.getD 0 '\x00' ≠ '-')
    (h2 : c = '-' → post.getD 0 '\x00' ≠ '+') (h3 : c ≠ '(') (h4 : c ≠ ')') :
    validateStep (pre ++ c :: post, st) pre.length = some (pre ++ c :: post, st) := by
  unfold validateStep
  simp only
  rw [validatePM_id h1, validateMP_id h2, validateParen_id h3 h4]

lemma vStep_pm (pre post : Str) (st : List Int) :
    validateStep (pre ++ '+' :: '-' :: post, st) pre.length = some (pre ++ '$' :: '-' :: post, st) := by
  have h : validatePM (pre ++ '+' :: '-' :: post) pre.length = pre ++ '$' :: '-' :: post := by
    unfold validatePM
    rw [getD_mid, getD_mid1, if_pos ⟨rfl, rfl⟩, set_mid]
  unfold validateStep
  simp only
  rw [h, validateMP_id (fun h => absurd h (by decide)), validateParen_id (by decide) (by decide)]

lemma vStep_mp (pre post : Str) (st : List Int) :
    validateStep (pre ++ '-' :: '+' :: post, st) pre.length = some (pre ++ '-' :: '$' :: post, st) := by
  have hs : (pre ++ '-' :: '+' :: post).set (pre.length + 1) '$' = pre ++ '-' :: '$' :: post := by
    rw [List.set_append_right _ _ (by omega)]; simp
  have h : validateMP (pre ++ '-' :: '+' :: post) pre.length = pre ++ '-' :: '$' :: post := by
    unfold validateMP
    rw [getD_mid, getD_mid1, if_pos ⟨rfl, rfl⟩, hs]
  unfold validateStep
  simp only
  rw [validatePM_id (fun h => absurd h (by decide)), h, validateParen_id (by decide) (by decide)]

lemma vStep_open (pre post : Str) (st : List Int) :
    validateStep (pre ++ '(' :: post, st) pre.length =
      some (pre ++ '(' :: post, (if pre.getLast? = some '(' then -(pre.length : Int) else (pre.length : Int)) :: st) := by
  unfold validateStep
  simp only
  rw [validatePM_id (fun h => absurd h (by decide)), validateMP_id (fun h => absurd h (by decide))]
  unfold validateParen
  rw [getD_mid]
  simp only
  rw [if_pos trivial]
  have : (pre.length ≠ 0 ∧ (pre ++ '(' :: post).getD (pre.length - 1) '\x00' = '(') ↔ pre.getLast? = some '(' := by
    rcases List.eq_nil_or_concat pre with rfl | ⟨l, c, rfl⟩
    · simp
    · simp
  by_cases h : pre.getLast? = some '('
  · rw [if_pos (this.mpr h), if_pos h]
  · rw [if_neg (fun h' => h (this.mp h')), if_neg h]

lemma vStep_close (pre post : Str) (st : List Int) (top : Int) :
    validateStep (pre ++ ')' :: post, top :: st) pre.length =
      some (if post.head? = some ')' ∧ top < 0 then ((pre ++ ')' :: post).set (-top).toNat '$').set pre.length '$' else pre ++ ')' :: post, st) := by
  unfold validateStep
  simp only
  rw [validatePM_id (fun h => absurd h (by decide)), validateMP_id (fun h => absurd h (by decide))]
  unfold validateParen
  rw [getD_mid, getD_mid1]
  simp only
  rw [if_neg (by decide), if_pos trivial]
  have : (pre.length ≠ (pre ++ ')' :: post).length + 1 - 1 ∧ post.getD 0 '\x00' = ')' ∧ top < 0) ↔ (post.head? = some ')' ∧ top < 0) := by
    cases post with
    | nil => simp
    | cons d t => simp
  by_cases h : post.head? = some ')' ∧ top < 0
  · rw [if_pos (this.mpr h), if_pos h]
  · rw [if_neg (fun h' => h (this.mp h')), if_neg h]

lemma vRun_alnum (name : Str) : ∀ (pre post : Str) (st : List Int), (∀ c ∈ name, isAlnum c = true) →
    vRun (pre ++ (name ++ post), st) pre.length name.length = some (pre ++ (name ++ post), st) := by
  induction name with
  | nil => intros; rfl
  | cons c name ih =>
    intro pre post st h
    have hc := alnum_ne (h c (by simp))
    rw [List.length_cons, add_comm, vRun_add, vRun_one, List.cons_append,
      vStep_inert pre _ c st (fun h => absurd h hc.1) (fun h => absurd h hc.2.1) hc.2.2.2.2.2.1 hc.2.2.2.2.2.2.1, Option.bind_some]
    have := ih (pre ++ [c]) post st (fun x hx => h x (List.mem_cons_of_mem _ hx))
    simpa using this

/-- run two pieces one after the other -/
lemma vRun_seq {pre x y post x' y' : Str} {st st1 st2 : List Int} (hx : vRun (pre ++ (x ++ (y ++ post)), st) pre.length x.length = some (pre ++ (x' ++ (y ++ post)), st1))
    (hlen : x'.length = x.length) (hy : vRun ((pre ++ x') ++ (y ++ post), st1) (pre ++ x').length y.length = some ((pre ++ x') ++ (y' ++ post), st2)) :
    vRun (pre ++ ((x ++ y) ++ post), st) pre.length (x ++ y).length = some (pre ++ ((x' ++ y') ++ post), st2) := by
  rw [List.length_append, vRun_add, List.append_assoc x y post, hx, Option.bind_some]
  rw [List.length_append, hlen] at hy
  simpa [List.append_assoc] using hy

lemma vRun_char {pre post : Str} {c : Char} {st : List Int} (h : validateStep (pre ++ c :: post, st) pre.length = some (pre ++ c :: post, st)) :
    vRun (pre ++ ([c] ++ post), st) pre.length [c].length = some (pre ++ ([c] ++ post), st) := by
  rw [List.length_singleton, vRun_one]; exact h

lemma vRun_paren {e : Expr} (pre post : Str) (st : List Int) (pv nx : Bool) (hpv : pv = true ↔ pre.getLast? = some '(')
    (hnx : nx = true ↔ post.head? = some ')')
    (ih : ∀ top : Int, vRun ((pre ++ ['(']) ++ (e.render ++ ([')'] ++ post)), top :: st) (pre ++ ['(']).length e.render.length =
      some ((pre ++ ['(']) ++ (e.mark true true ++ ([')'] ++ post)), top :: st)) :
    vRun (pre ++ ((Expr.paren e).render ++ post), st) pre.length (Expr.paren e).render.length = some (pre ++ ((Expr.paren e).mark pv nx ++ post), st) := by
  set top : Int := if pre.getLast? = some '(' then -(pre.length : Int) else (pre.length : Int) with htop
  have e1 : vRun (pre ++ (['('] ++ ((e.render ++ [')']) ++ post)), st) pre.length ['('].length =
      some (pre ++ (['('] ++ ((e.render ++ [')']) ++ post)), top :: st) := by
    rw [List.length_singleton, vRun_one]
    exact vStep_open pre _ st
  have e2 := ih top
  have e3 := vStep_close ((pre ++ ['(']) ++ e.mark true true) post st top
  have hlen := mark_length e true true
  rw [show (Expr.paren e).render = ['('] ++ (e.render ++ [')']) from rfl, List.length_append, vRun_add, List.append_assoc ['('], e1, Option.bind_some,
    List.length_append, vRun_add]
  have e2' : vRun (pre ++ (['('] ++ (e.render ++ [')'] ++ post)), top :: st) (pre.length + ['('].length) e.render.length =
      some (pre ++ ['('] ++ (e.mark true true ++ ([')'] ++ post)), top :: st) := by
    have := e2
    simpa [List.append_assoc] using this
  rw [e2', Option.bind_some, List.length_singleton, List.length_singleton, vRun_one]
  have e3' : validateStep (pre ++ ['('] ++ (e.mark true true ++ ([')'] ++ post)), top :: st) (pre.length + 1 + e.render.length) =
    some (if post.head? = some ')' ∧ top < 0 then ((pre ++ ['('] ++ e.mark true true ++ ')' :: post).set (-top).toNat '$').set (pre ++ ['('] ++ e.mark true true).length '$'
      else pre ++ ['('] ++ e.mark true true ++ ')' :: post, st) := by
    have x1 : pre ++ ['('] ++ (e.mark true true ++ ([')'] ++ post)) = pre ++ ['('] ++ e.mark true true ++ ')' :: post := by
      simp [List.append_assoc]
    have x2 : pre.length + 1 + e.render.length = (pre ++ ['('] ++ e.mark true true).length := by simp [hlen]; omega
    rw [x1, x2]
    exact e3
  rw [e3']
  have hiff : (post.head? = some ')' ∧ top < 0) ↔ (pv && nx) = true := by
    rw [Bool.and_eq_true, hpv, hnx, htop]
    constructor
    · rintro ⟨h1, h2⟩
      refine ⟨?_, h1⟩
      by_contra h3
      rw [if_neg h3] at h2
      omega
    · rintro ⟨h1, h2⟩
      refine ⟨h2, ?_⟩
      rw [if_pos h1]
      have : pre ≠ [] := by rintro rfl; simp at h1
      have := List.length_pos_of_ne_nil this
      omega
  by_cases hb : (pv && nx) = true
  · rw [if_pos (hiff.mpr hb), Expr.mark, if_pos hb]
    have htop' : (-top).toNat = pre.length := by
      rw [htop, if_pos (hpv.mp (by simp at hb; exact hb.1))]; simp
    rw [htop']
    have : (pre ++ ['('] ++ e.mark true true ++ ')' :: post).set pre.length '$' = (pre ++ ['$'] ++ e.mark true true) ++ ')' :: post := by
      have := set_mid pre (e.mark true true ++ ')' :: post) '(' '$'
      simpa [List.append_assoc] using this
    rw [this, show (pre ++ ['('] ++ e.mark true true).length = (pre ++ ['$'] ++ e.mark true true).length by simp, set_mid]
    simp [List.append_assoc]
  · rw [if_neg (fun h => hb (hiff.mp h)), Expr.mark, if_neg hb]
    simp [List.append_assoc]

/-- the loop on the text of an expression -/
lemma vRun_render (hvars : ∀ v ∈ vars, IsName v) (e : Expr) : ∀ (pre post : Str) (st : List Int) (pv nx : Bool), e.WF vars P N →
    (pv = true ↔ pre.getLast? = some '(') → (nx = true ↔ post.head? = some ')') →
    vRun (pre ++ (e.render ++ post), st) pre.length e.render.length = some (pre ++ (e.mark pv nx ++ post), st) := by
  have hlast : ∀ (pre x : Str) (c : Char), c ≠ '(' → (false = true ↔ (pre ++ (x ++ [c])).getLast? = some '(') := by
    intro pre x c h
    simp [← List.append_assoc, h]
  have hparen : ∀ (ds : Str), IsNum ds → ∀ (sgn : Str), (sgn = [] ∨ sgn = ['-']) → ∀ (pre post : Str) (st : List Int), pre.getLast? ≠ some '(' →
      vRun (pre ++ (('(' :: sgn ++ ds ++ [')']) ++ post), st) pre.length ('(' :: sgn ++ ds ++ [')']).length =
        some (pre ++ (('(' :: sgn ++ ds ++ [')']) ++ post), st) := by
    intro ds hds sgn hsgn pre post st hpre
    have e1 : vRun (pre ++ (['('] ++ ((sgn ++ ds ++ [')']) ++ post)), st) pre.length ['('].length = some (pre ++ (['('] ++ ((sgn ++ ds ++ [')']) ++ post)), (pre.length : Int) :: st) := by
      rw [List.length_singleton, vRun_one]
      have := vStep_open pre ((sgn ++ ds ++ [')']) ++ post) st
      rw [if_neg hpre] at this
      exact this
    have e2 : vRun ((pre ++ ['(']) ++ (sgn ++ ((ds ++ [')']) ++ post)), (pre.length : Int) :: st) (pre ++ ['(']).length sgn.length =
        some ((pre ++ ['(']) ++ (sgn ++ ((ds ++ [')']) ++ post)), (pre.length : Int) :: st) := by
      rcases hsgn with rfl | rfl
      · rfl
      · apply vRun_char
        apply vStep_inert
        · intro h; exact absurd h (by decide)
        · intro _
          obtain ⟨c, c1, -, c3⟩ := num_head hds.1 (isNum_alnum hds).2 ([')'] ++ post)
          rw [List.append_assoc, c1]
          exact (alnum_ne c3).1
        · decide
        · decide
    have e3 := vRun_alnum ds ((pre ++ ['(']) ++ sgn) ([')'] ++ post) ((pre.length : Int) :: st) (isNum_alnum hds).2
    have e4 : vRun ((((pre ++ ['(']) ++ sgn) ++ ds) ++ ([')'] ++ post), (pre.length : Int) :: st) (((pre ++ ['(']) ++ sgn) ++ ds).length [')'].length =
        some ((((pre ++ ['(']) ++ sgn) ++ ds) ++ ([')'] ++ post), st) := by
      rw [List.length_singleton, vRun_one]
      have := vStep_close (((pre ++ ['(']) ++ sgn) ++ ds) post st (pre.length : Int)
      rw [if_neg (fun h => by have := h.2; omega)] at this
      exact this
    have e34 := vRun_seq e3 rfl e4
    have e234 := vRun_seq (x := sgn) (y := ds ++ [')']) e2 rfl e34
    have := vRun_seq (x := ['(']) (y := sgn ++ (ds ++ [')'])) (by simpa [List.append_assoc] using e1) rfl e234
    simpa [List.append_assoc] using this
  have hk : ∀ (k : Minus) (pre post : Str) (st : List Int), post.getD 0 '\x00' ≠ '+' →
      vRun (pre ++ (k.render ++ post), st) pre.length k.render.length = some (pre ++ (k.mark ++ post), st) := by
    intro k pre post st hpost
    have hm : ∀ pre, vRun (pre ++ (['-'] ++ post), st) pre.length ['-'].length = some (pre ++ (['-'] ++ post), st) := fun pre =>
      vRun_char (vStep_inert _ _ _ _ (fun h => absurd h (by decide)) (fun _ => hpost) (by decide) (by decide))
    cases k with
    | m => exact hm pre
    | pm =>
      refine vRun_seq (x := ['+']) (y := ['-']) (x' := ['$']) (y' := ['-']) (st1 := st) ?_ rfl (hm _)
      rw [List.length_singleton, vRun_one]
      exact vStep_pm pre post st
    | mp =>
      have e1 := vStep_mp pre post st
      have e2 : vRun ((pre ++ ['-']) ++ (['$'] ++ post), st) (pre ++ ['-']).length ['$'].length = some ((pre ++ ['-']) ++ (['$'] ++ post), st) :=
        vRun_char (vStep_inert _ _ _ _ (fun h => absurd h (by decide)) (fun h => absurd h (by decide)) (by decide) (by decide))
      show vRun _ _ (1 + 1) = _
      rw [vRun_add, vRun_one]
      simp only [Minus.render, Minus.mark, List.cons_append, List.nil_append]
      rw [e1, Option.bind_some]
      simpa using e2
  have hhead : ∀ (b : Expr), b.WF vars P N → 2 ≤ b.level → ∀ post : Str, (b.render ++ post).getD 0 '\x00' ≠ '+' ∧ (b.render ++ post).getD 0 '\x00' ≠ '-' := by
    intro b hb hl post
    obtain ⟨c, c1, -, -, c4⟩ := render_head hvars b hb hl post
    rw [c1]
    rcases c4 with h | h
    · exact ⟨(alnum_ne h).1, (alnum_ne h).2.1⟩
    · subst h; decide
  -- a binary operator written with one character
  have hbin : ∀ (a b : Expr) (c : Char) (pre post : Str) (st : List Int) (pv nx : Bool), c ≠ '(' → c ≠ ')' →
      (c = '+' → (b.render ++ post).getD 0 '\x00' ≠ '-') → (c = '-' → (b.render ++ post).getD 0 '\x00' ≠ '+') →
      (∀ (pre post : Str) (st : List Int) (pv nx : Bool), (pv = true ↔ pre.getLast? = some '(') → (nx = true ↔ post.head? = some ')') →
        vRun (pre ++ (a.render ++ post), st) pre.length a.render.length = some (pre ++ (a.mark pv nx ++ post), st)) →
      (∀ (pre post : Str) (st : List Int) (pv nx : Bool), (pv = true ↔ pre.getLast? = some '(') → (nx = true ↔ post.head? = some ')') →
        vRun (pre ++ (b.render ++ post), st) pre.length b.render.length = some (pre ++ (b.mark pv nx ++ post), st)) →
      (pv = true ↔ pre.getLast? = some '(') → (nx = true ↔ post.head? = some ')') →
      vRun (pre ++ ((a.render ++ c :: b.render) ++ post), st) pre.length (a.render ++ c :: b.render).length =
        some (pre ++ ((a.mark pv false ++ c :: b.mark false nx) ++ post), st) := by
    intro a b c pre post st pv nx c1 c2 c3 c4 ha hb hpv hnx
    have e1 := ha pre ((c :: b.render) ++ post) st pv false hpv (by simp [c2])
    have e3 := hb ((pre ++ a.mark pv false) ++ [c]) post st false nx (by simp [c1]) hnx
    have e2 : vRun ((pre ++ a.mark pv false) ++ ([c] ++ (b.render ++ post)), st) (pre ++ a.mark pv false).length [c].length = some ((pre ++ a.mark pv false) ++ ([c] ++ (b.render ++ post)), st) :=
      vRun_char (vStep_inert _ _ _ _ c3 c4 c1 c2)
    have e23 := vRun_seq e2 rfl e3
    exact vRun_seq (x := a.render) (y := c :: b.render) e1 (mark_length _ _ _) e23
  induction e with
  | num ds => intro pre post st pv nx h _ _; exact vRun_alnum ds pre post st (isNum_alnum h).2
  | var name => intro pre post st pv nx h _ _; exact vRun_alnum name pre post st (isName_alnum (hvars _ h)).2
  | paren e ih =>
    intro pre post st pv nx h hpv hnx
    exact vRun_paren pre post st pv nx hpv hnx (fun top => ih (pre ++ ['(']) ([')'] ++ post) (top :: st) true true h (by simp) (by simp))
  | pow a x ih =>
    intro pre post st pv nx h hpv hnx
    obtain ⟨h1, h2, hx⟩ := h
    have e1 := ih pre (('^' :: x.render) ++ post) st pv false h1 hpv (by simp)
    have e2 : vRun ((pre ++ a.mark pv false) ++ (['^'] ++ (x.render ++ post)), st) (pre ++ a.mark pv false).length ['^'].length = some ((pre ++ a.mark pv false) ++ (['^'] ++ (x.render ++ post)), st) :=
      vRun_char (vStep_inert _ _ _ _ (fun h => absurd h (by decide)) (fun h => absurd h (by decide)) (by decide) (by decide))
    have e3 : vRun (((pre ++ a.mark pv false) ++ ['^']) ++ (x.render ++ post), st) ((pre ++ a.mark pv false) ++ ['^']).length x.render.length =
        some (((pre ++ a.mark pv false) ++ ['^']) ++ (x.render ++ post), st) := by
      cases x with
      | plain ds => exact vRun_alnum ds _ post st (isNum_alnum hx.1).2
      | paren ds =>
        have := hparen ds hx.1 [] (Or.inl rfl) ((pre ++ a.mark pv false) ++ ['^']) post st (by simp)
        simpa [Exponent.render] using this
      | neg ds =>
        have := hparen ds hx.1 ['-'] (Or.inr rfl) ((pre ++ a.mark pv false) ++ ['^']) post st (by simp)
        simpa [Exponent.render] using this
    have e23 := vRun_seq e2 rfl e3
    exact vRun_seq (x := a.render) (y := '^' :: x.render) e1 (mark_length _ _ _) e23
  | mul a b iha ihb =>
    intro pre post st pv nx h hpv hnx
    exact hbin a b '*' pre post st pv nx (by decide) (by decide) (fun h => absurd h (by decide)) (fun h => absurd h (by decide))
      (fun pre post st pv nx => iha pre post st pv nx h.1) (fun pre post st pv nx => ihb pre post st pv nx h.2.2.1) hpv hnx
  | div a b iha ihb =>
    intro pre post st pv nx h hpv hnx
    exact hbin a b '/' pre post st pv nx (by decide) (by decide) (fun h => absurd h (by decide)) (fun h => absurd h (by decide))
      (fun pre post st pv nx => iha pre post st pv nx h.1) (fun pre post st pv nx => ihb pre post st pv nx h.2.2.1) hpv hnx
  | add a b iha ihb =>
    intro pre post st pv nx h hpv hnx
    exact hbin a b '+' pre post st pv nx (by decide) (by decide) (fun _ => (hhead b h.2.1 h.2.2 post).2) (fun h => absurd h (by decide))
      (fun pre post st pv nx => iha pre post st pv nx h.1) (fun pre post st pv nx => ihb pre post st pv nx h.2.1) hpv hnx
  | sub k a b iha ihb =>
    intro pre post st pv nx h hpv hnx
    have hkr : ∃ c t, k.render = c :: t ∧ c ≠ ')' := by cases k <;> exact ⟨_, _, rfl, by decide⟩
    have hkm : ∃ t c, k.mark = t ++ [c] ∧ c ≠ '(' := by
      cases k
      · exact ⟨[], '-', rfl, by decide⟩
      · exact ⟨['$'], '-', rfl, by decide⟩
      · exact ⟨['-'], '$', rfl, by decide⟩
    obtain ⟨c, t, hkr, hc⟩ := hkr
    obtain ⟨t', c', hkm, hc'⟩ := hkm
    have hlen : k.mark.length = k.render.length := by cases k <;> rfl
    have e1 := iha pre ((k.render ++ b.render) ++ post) st pv false h.1 hpv (by simp [hkr, hc])
    have e2 := hk k (pre ++ a.mark pv false) (b.render ++ post) st (hhead b h.2.1 h.2.2 post).1
    have e3 := ihb ((pre ++ a.mark pv false) ++ k.mark) post st false nx h.2.1 (by rw [hkm]; exact hlast _ _ _ hc') hnx
    have e23 := vRun_seq e2 hlen e3
    have := vRun_seq (x := a.render) (y := k.render ++ b.render) e1 (mark_length _ _ _) e23
    rw [show (Expr.sub k a b).render = a.render ++ (k.render ++ b.render) by simp [Expr.render]]
    exact this
  | neg k a ih =>
    intro pre post st pv nx h hpv hnx
    have hkm : ∃ t c, k.mark = t ++ [c] ∧ c ≠ '(' := by
      cases k
      · exact ⟨[], '-', rfl, by decide⟩
      · exact ⟨['$'], '-', rfl, by decide⟩
      · exact ⟨['-'], '$', rfl, by decide⟩
    obtain ⟨t', c', hkm, hc'⟩ := hkm
    have hlen : k.mark.length = k.render.length := by cases k <;> rfl
    have e2 := hk k pre (a.render ++ post) st (hhead a h.1 h.2 post).1
    have e3 := ih (pre ++ k.mark) post st false nx h.1 (by rw [hkm]; exact hlast _ _ _ hc') hnx
    exact vRun_seq e2 hlen e3
  | pos a ih =>
    intro pre post st pv nx h hpv hnx
    have e2 : vRun (pre ++ (['+'] ++ (a.render ++ post)), st) pre.length ['+'].length = some (pre ++ (['+'] ++ (a.render ++ post)), st) :=
      vRun_char (vStep_inert _ _ _ _ (fun _ => (hhead a h.1 h.2 post).2) (fun h => absurd h (by decide)) (by decide) (by decide))
    have e3 := ih (pre ++ ['+']) post st false nx h.1 (by simp) hnx
    exact vRun_seq e2 rfl e3

/-- `validate` on the text of a well-formed expression -/
lemma validate_render (hvars : ∀ v ∈ vars, IsName v) {e : Expr} (h : e.WF vars P N) : validate e.render = some (e.strip false false).render := by
  have h1 := vRun_render hvars e [] [] [] false false h (by simp) (by simp)
  simp only [List.nil_append, List.append_nil, List.length_nil] at h1
  have hlast : validateStep (e.mark false false, []) e.render.length = some (e.mark false false, []) := by
    have hl := mark_length e false false
    have g : (e.mark false false).getD e.render.length '\x00' = '\x00' := List.getD_eq_default _ _ (by omega)
    have h1 : validatePM (e.mark false false) e.render.length = e.mark false false := by
      unfold validatePM; rw [g, if_neg (fun h => absurd h.1 (by decide))]
    have h2 : validateMP (e.mark false false) e.render.length = e.mark false false := by
      unfold validateMP; rw [g, if_neg (fun h => absurd h.1 (by decide))]
    unfold validateStep
    simp only
    rw [h1, h2]
    unfold validateParen
    rw [g]
    simp only
    rw [if_neg (by decide), if_neg (by decide)]
  have : (List.range (e.render.length + 1)).foldlM validateStep (e.render, []) = some (e.mark false false, []) := by
    have := vRun_add (e.render, []) 0 e.render.length 1
    rw [h1, Option.bind_some, zero_add, vRun_one, hlast] at this
    rw [List.range_eq_range']
    exact this
  unfold validate
  rw [this]
  simp only [if_pos]
  rw [filter_mark hvars e false false h]

end FireFly
