import Verif.Lemmas.ParseTop
import Verif.Model.Printer
/-! # Texts that denote a value -/
set_option linter.all false
namespace FireFly

/-- the values a text can take in a field, given the values of the variables -/
abbrev Val := ∀ (K : Type) [Field K], (Str → K) → K

/-- does the text of the expression start with a sign? -/
def Expr.unsigned : Expr → Prop
  | .add a _ => a.unsigned
  | .sub _ a _ => a.unsigned
  | .neg _ _ => False
  | .pos _ => False
  | _ => True

/-- `s` is the text of a well-formed expression of precedence at least `lv` without a sign in front, all
minus signs written `-`, with the value `v` in every field -/
def Txt (vars : List Str) (P N lv : ℕ) (s : Str) (v : Val) : Prop :=
  ∃ e : Expr, e.render = s ∧ e.WF vars P N ∧ e.Norm ∧ e.unsigned ∧ lv ≤ e.level ∧ ∀ (K : Type) [Field K] (env : Str → K), e.denote env = v K env

variable {vars : List Str} {P N : ℕ}

lemma Txt.mono {lv lv' : ℕ} {s : Str} {v : Val} (h : Txt vars P N lv s v) (hl : lv' ≤ lv) : Txt vars P N lv' s v := by
  obtain ⟨e, h1, h2, h3, h4, h5, h6⟩ := h
  exact ⟨e, h1, h2, h3, h4, by omega, h6⟩

lemma Txt.congr {lv : ℕ} {s : Str} {v w : Val} (h : Txt vars P N lv s v) (hw : ∀ (K : Type) [Field K] (env : Str → K), v K env = w K env) :
    Txt vars P N lv s w := by
  obtain ⟨e, h1, h2, h3, h4, h5, h6⟩ := h
  exact ⟨e, h1, h2, h3, h4, h5, fun K _ env => by rw [h6, hw]⟩

lemma digitChar_spec {d : ℕ} (h : d < 10) : isDigitC (digitChar d) = true ∧ (digitChar d).toNat - '0'.toNat = d := by
  interval_cases d <;> decide

lemma natStr_spec0 (n : ℕ) : (natStr n ≠ [] ∧ ∀ c ∈ natStr n, isDigitC c = true) ∧ decimal (natStr n) = n := by
  induction n using Nat.strong_induction_on with
  | _ n ih =>
    rw [natStr]
    split
    · rename_i h
      have := digitChar_spec h
      refine ⟨⟨by simp, by simpa using this.1⟩, ?_⟩
      have h2 := this.2
      simp only [decimal, List.foldl_cons, List.foldl_nil]
      omega
    · rename_i h
      have h1 := ih (n / 10) (by omega)
      have h2 := digitChar_spec (d := n % 10) (by omega)
      refine ⟨⟨by simp, ?_⟩, ?_⟩
      · intro c hc
        rw [List.mem_append, List.mem_singleton] at hc
        rcases hc with hc | rfl
        · exact h1.1.2 c hc
        · exact h2.1
      · unfold decimal at h1 ⊢
        rw [List.foldl_append, h1.2]
        simp only [List.foldl_cons, List.foldl_nil]
        have := h2.2
        omega

/-- no leading zeros -/
lemma natStr_head {n : ℕ} (h : n ≠ 0) : (natStr n).head? ≠ some '0' := by
  induction n using Nat.strong_induction_on with
  | _ n ih =>
    rw [natStr]
    split
    · rename_i h'
      intro hc
      simp only [List.head?_cons, Option.some.injEq] at hc
      have := (digitChar_spec h').2
      rw [hc] at this
      simp at this
      omega
    · rename_i h'
      rw [List.head?_append_of_ne_nil _ (natStr_spec0 (n / 10)).1.1]
      exact ih (n / 10) (by omega) (by omega)

lemma natStr_spec (n : ℕ) : IsNum (natStr n) ∧ decimal (natStr n) = n := by
  refine ⟨⟨(natStr_spec0 n).1.1, (natStr_spec0 n).1.2, ?_⟩, (natStr_spec0 n).2⟩
  intro hl
  apply natStr_head
  rintro rfl
  rw [natStr] at hl
  simp at hl

lemma txt_nat (n : ℕ) : Txt vars P N 4 (natStr n) (fun K _ _ => (n : K)) := by
  refine ⟨.num (natStr n), rfl, (natStr_spec n).1, trivial, trivial, le_rfl, ?_⟩
  intro K _ env
  show ((decimal (natStr n) : ℕ) : K) = n
  rw [(natStr_spec n).2]

lemma txt_var {name : Str} (h : name ∈ vars) : Txt vars P N 4 name (fun K _ env => env name) :=
  ⟨.var name, rfl, h, trivial, trivial, le_rfl, fun _ _ _ => rfl⟩

lemma Txt.paren {s : Str} {v : Val} (h : Txt vars P N 0 s v) : Txt vars P N 4 ('(' :: s ++ [')']) v := by
  obtain ⟨e, h1, h2, h3, h4, h5, h6⟩ := h
  exact ⟨.paren e, by rw [← h1]; rfl, h2, h3, trivial, le_rfl, h6⟩

lemma Txt.parenNeg {s : Str} {v : Val} (h : Txt vars P N 2 s v) : Txt vars P N 4 ('(' :: '-' :: s ++ [')']) (fun K _ env => - v K env) := by
  obtain ⟨e, h1, h2, h3, h4, h5, h6⟩ := h
  refine ⟨.paren (.neg .m e), by rw [← h1]; rfl, ⟨h2, h5⟩, ⟨rfl, h3⟩, trivial, le_rfl, fun K _ env => ?_⟩
  show -e.denote env = -v K env
  rw [← h6]

lemma Txt.mul {s t : Str} {v u : Val} (h : Txt vars P N 2 s v) (g : Txt vars P N 3 t u) : Txt vars P N 2 (s ++ '*' :: t) (fun K _ env => v K env * u K env) := by
  obtain ⟨e, h1, h2, h3, h4, h5, h6⟩ := h
  obtain ⟨f, g1, g2, g3, g4, g5, g6⟩ := g
  refine ⟨.mul e f, by rw [← h1, ← g1]; rfl, ⟨h2, h5, g2, g5⟩, ⟨h3, g3⟩, trivial, le_rfl, fun K _ env => ?_⟩
  show e.denote env * f.denote env = v K env * u K env
  rw [← h6, ← g6]

lemma Txt.div {s t : Str} {v u : Val} (h : Txt vars P N 2 s v) (g : Txt vars P N 3 t u) : Txt vars P N 2 (s ++ '/' :: t) (fun K _ env => v K env / u K env) := by
  obtain ⟨e, h1, h2, h3, h4, h5, h6⟩ := h
  obtain ⟨f, g1, g2, g3, g4, g5, g6⟩ := g
  refine ⟨.div e f, by rw [← h1, ← g1]; rfl, ⟨h2, h5, g2, g5⟩, ⟨h3, g3⟩, trivial, le_rfl, fun K _ env => ?_⟩
  show e.denote env / f.denote env = v K env / u K env
  rw [← h6, ← g6]

lemma Txt.pow {s : Str} {v : Val} (h : Txt vars P N 4 s v) {k : ℕ} (hk : k < P) : Txt vars P N 3 (s ++ '^' :: natStr k) (fun K _ env => v K env ^ k) := by
  obtain ⟨e, h1, h2, h3, h4, h5, h6⟩ := h
  have := natStr_spec k
  refine ⟨.pow e (.plain (natStr k)), by rw [← h1]; rfl, ⟨h2, h5, this.1, by rw [this.2]; exact hk⟩, h3, trivial, le_rfl, fun K _ env => ?_⟩
  show e.denote env ^ decimal (natStr k) = v K env ^ k
  rw [← h6, this.2]

lemma Txt.powStr {s : Str} {v : Val} (h : Txt vars P N 4 s v) {k : ℕ} (hk : k < P) : Txt vars P N 3 (s ++ powStr k) (fun K _ env => v K env ^ k) := by
  unfold FireFly.powStr
  split
  · exact h.pow hk
  · rename_i h1
    simp only [not_not] at h1
    subst h1
    simpa using h.mono (by norm_num)

/-- put `a +` in front of the text of `e` -/
def Expr.addLeft (a : Expr) : Expr → Expr
  | .add b c => .add (Expr.addLeft a b) c
  | .sub k b c => .sub k (Expr.addLeft a b) c
  | e => .add a e

lemma addLeft_spec (a : Expr) (ha : a.WF vars P N) (hn : a.Norm) (hu : a.unsigned) : ∀ e : Expr, e.WF vars P N → e.Norm → e.unsigned →
    (Expr.addLeft a e).render = a.render ++ '+' :: e.render ∧ (Expr.addLeft a e).WF vars P N ∧ (Expr.addLeft a e).Norm ∧ (Expr.addLeft a e).unsigned ∧
    ∀ (K : Type) [Field K] (env : Str → K), (Expr.addLeft a e).denote env = a.denote env + e.denote env
  | .num ds, h1, h2, h3 => ⟨rfl, ⟨ha, h1, by simp [Expr.level]⟩, ⟨hn, h2⟩, hu, fun _ _ _ => rfl⟩
  | .var ds, h1, h2, h3 => ⟨rfl, ⟨ha, h1, by simp [Expr.level]⟩, ⟨hn, h2⟩, hu, fun _ _ _ => rfl⟩
  | .paren e, h1, h2, h3 => ⟨rfl, ⟨ha, h1, by simp [Expr.level]⟩, ⟨hn, h2⟩, hu, fun _ _ _ => rfl⟩
  | .pow b x, h1, h2, h3 => ⟨rfl, ⟨ha, h1, by simp [Expr.level]⟩, ⟨hn, h2⟩, hu, fun _ _ _ => rfl⟩
  | .mul b c, h1, h2, h3 => ⟨rfl, ⟨ha, h1, by simp [Expr.level]⟩, ⟨hn, h2⟩, hu, fun _ _ _ => rfl⟩
  | .div b c, h1, h2, h3 => ⟨rfl, ⟨ha, h1, by simp [Expr.level]⟩, ⟨hn, h2⟩, hu, fun _ _ _ => rfl⟩
  | .add b c, h1, h2, h3 => by
    obtain ⟨g1, g2, g3, g4, g5⟩ := addLeft_spec a ha hn hu b h1.1 h2.1 h3
    refine ⟨?_, ⟨g2, h1.2⟩, ⟨g3, h2.2⟩, g4, fun K _ env => ?_⟩
    · show (Expr.addLeft a b).render ++ '+' :: c.render = _
      rw [g1]; simp [Expr.render]
    · show (Expr.addLeft a b).denote env + c.denote env = a.denote env + (b.denote env + c.denote env)
      rw [g5, add_assoc]
  | .sub k b c, h1, h2, h3 => by
    obtain ⟨g1, g2, g3, g4, g5⟩ := addLeft_spec a ha hn hu b h1.1 h2.2.1 h3
    refine ⟨?_, ⟨g2, h1.2⟩, ⟨h2.1, g3, h2.2.2⟩, g4, fun K _ env => ?_⟩
    · show (Expr.addLeft a b).render ++ k.render ++ c.render = _
      rw [g1]; simp [Expr.render]
    · show (Expr.addLeft a b).denote env - c.denote env = a.denote env + (b.denote env - c.denote env)
      rw [g5]; ring
  | .neg k b, h1, h2, h3 => by simp [Expr.unsigned] at h3
  | .pos b, h1, h2, h3 => by simp [Expr.unsigned] at h3

lemma Txt.add {s t : Str} {v u : Val} (h : Txt vars P N 0 s v) (g : Txt vars P N 0 t u) : Txt vars P N 0 (s ++ '+' :: t) (fun K _ env => v K env + u K env) := by
  obtain ⟨e, h1, h2, h3, h4, h5, h6⟩ := h
  obtain ⟨f, g1, g2, g3, g4, g5, g6⟩ := g
  obtain ⟨k1, k2, k3, k4, k5⟩ := addLeft_spec e h2 h3 h4 f g2 g3 g4
  exact ⟨Expr.addLeft e f, by rw [k1, h1, g1], k2, k3, k4, by omega, fun K _ env => by rw [k5, h6, g6]⟩

lemma Txt.ne_nil (hvars : ∀ v ∈ vars, IsName v) {lv : ℕ} {s : Str} {v : Val} (h : Txt vars P N lv s v) : s ≠ [] := by
  obtain ⟨e, rfl, h2, h3, h4, h5, h6⟩ := h
  clear h5 h6 h3 h4
  cases e with
  | num ds => exact h2.1
  | var n => exact (isName_alnum (hvars n h2)).1
  | paren => simp [Expr.render]
  | sub k a b => cases k <;> simp [Expr.render, Minus.render]
  | neg k a => cases k <;> simp [Expr.render, Minus.render]
  | _ => simp [Expr.render]

/-- a printed rational number -/
lemma txt_rat {r : RationalNumber} (hd : 0 < r.den) : Txt vars P N 2 r.str (fun K _ _ => (r.num : K) / (r.den : K)) := by
  have hden : intStr r.den = natStr r.den.natAbs := by unfold intStr; rw [if_neg (by omega)]
  have hdc : ∀ (K : Type) [Field K], ((r.den.natAbs : ℕ) : K) = (r.den : K) := by
    intro K _
    rw [← Int.cast_natCast, Int.natAbs_of_nonneg hd.le]
  have hpos : 0 ≤ r.num → intStr r.num = natStr r.num.natAbs ∧ ∀ (K : Type) [Field K], ((r.num.natAbs : ℕ) : K) = (r.num : K) := by
    intro h
    refine ⟨by unfold intStr; rw [if_neg (by omega)], fun K _ => ?_⟩
    rw [← Int.cast_natCast, Int.natAbs_of_nonneg h]
  have hneg : r.num < 0 → intStr r.num = '-' :: natStr r.num.natAbs ∧ ∀ (K : Type) [Field K], -((r.num.natAbs : ℕ) : K) = (r.num : K) := by
    intro h
    refine ⟨by unfold intStr; rw [if_pos h], fun K _ => ?_⟩
    rw [← Int.cast_natCast, Int.ofNat_natAbs_of_nonpos h.le]; simp
  unfold RationalNumber.str
  by_cases h1 : r.den = 1
  · rw [if_pos h1]
    have hone : ∀ (K : Type) [Field K], (r.num : K) = (r.num : K) / (r.den : K) := by intro K _; rw [h1]; simp
    by_cases h2 : r.num < 1
    · rw [if_pos h2]
      rcases lt_or_ge r.num 0 with h3 | h3
      · rw [(hneg h3).1]
        refine (((txt_nat _).mono (by norm_num)).parenNeg.mono (by norm_num)).congr fun K _ env => ?_
        rw [(hneg h3).2, ← hone]
      · rw [(hpos h3).1]
        refine (((txt_nat _).mono (by norm_num)).paren.mono (by norm_num)).congr fun K _ env => ?_
        rw [(hpos h3).2, ← hone]
    · rw [if_neg h2, (hpos (by omega)).1]
      refine ((txt_nat _).mono (by norm_num)).congr fun K _ env => ?_
      rw [(hpos (by omega)).2, ← hone]
  · rw [if_neg h1]
    have hdiv : Txt vars P N 2 (natStr r.num.natAbs ++ '/' :: natStr r.den.natAbs) (fun K _ _ => ((r.num.natAbs : ℕ) : K) / ((r.den.natAbs : ℕ) : K)) :=
      ((txt_nat _).mono (by norm_num)).div ((txt_nat _).mono (by norm_num))
    rw [hden]
    by_cases h2 : r.num < 1
    · rw [if_pos h2]
      rcases lt_or_ge r.num 0 with h3 | h3
      · rw [(hneg h3).1]
        have := hdiv.parenNeg
        rw [show '(' :: ('-' :: natStr r.num.natAbs ++ '/' :: natStr r.den.natAbs) ++ [')'] =
          '(' :: '-' :: (natStr r.num.natAbs ++ '/' :: natStr r.den.natAbs) ++ [')'] by simp]
        refine (this.mono (by norm_num)).congr fun K _ env => ?_
        rw [hdc, ← (hneg h3).2]; ring
      · rw [(hpos h3).1]
        refine ((hdiv.mono (by norm_num)).paren.mono (by norm_num)).congr fun K _ env => ?_
        rw [(hpos h3).2, hdc]
    · rw [if_neg h2, (hpos (by omega)).1]
      refine hdiv.congr fun K _ env => ?_
      rw [(hpos (by omega)).2, hdc]

end FireFly
