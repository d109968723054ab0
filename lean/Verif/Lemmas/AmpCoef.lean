import Verif.Lemmas.AmpState
import Verif.Props.HistoryProps
import Mathlib.Algebra.BigOperators.Ring.List
/-! # The text of the coefficient of a master -/
set_option linter.all false
namespace FireFly

/-- the expression that is stored for a term -/
def ATerm.expr (t : ATerm) : Expr :=
  let c := match t.coef with | none => .num ['1'] | some c => c
  if t.sign = .minus then .neg .m (.paren c) else c

lemma entry_expr (t : ATerm) : t.entry = (t.name, t.expr.render) := by
  unfold ATerm.entry ATerm.expr
  cases t.coef <;> cases t.sign <;> simp [Expr.render, Minus.render]

lemma expr_value {K : Type} [Field K] (env : Str → K) (t : ATerm) : t.expr.denote env = t.value env := by
  unfold ATerm.value ATerm.expr
  cases t.coef <;> cases t.sign <;> simp [Expr.denote, decimal]

lemma expr_wf {fams vars : List Str} {P N : ℕ} {t : ATerm} (h : t.OK fams vars P N) : t.expr.WF vars P N := by
  have h1 : (Expr.num ['1']).WF vars P N := by
    refine ⟨by simp, ?_, by simp⟩
    intro c hc
    simp at hc
    subst hc; decide
  have : ∀ c : Expr, c.WF vars P N → ∀ s : ASign, (if s = .minus then Expr.neg .m (.paren c) else c).WF vars P N := by
    intro c hc s
    split
    · exact ⟨hc, by simp [Expr.level]⟩
    · exact hc
  unfold ATerm.expr
  cases hc : t.coef with
  | none => exact this _ h1 _
  | some c => exact this _ (h.2 c hc).1 _

/-- the condition of `C25` for the coefficients -/
def ATerm.NoQuot (t : ATerm) : Prop := ∀ c, t.coef = some c → c.NoQuot

lemma expr_noQuot {t : ATerm} (h : t.NoQuot) : t.expr.NoQuot := by
  have : ∀ c : Expr, c.NoQuot → ∀ s : ASign, (if s = .minus then Expr.neg .m (.paren c) else c).NoQuot := by
    intro c hc s
    split
    · exact hc
    · exact hc
  unfold ATerm.expr
  cases hc : t.coef with
  | none => exact this (.num ['1']) trivial _
  | some c => exact this _ (h c hc) _

/-! ## sums -/

/-- `(f1)+(f2)+...`, behind something if `b` -/
def joinP : Bool → List Str → Str
  | _, [] => []
  | b, f :: fs => (if b then ['+'] else []) ++ ('(' :: f ++ [')']) ++ joinP true fs

/-- the sum of expressions in parentheses -/
def sumExpr : List Expr → Expr
  | [] => .num ['0']
  | e :: es => es.foldl (fun a b => .add a (.paren b)) (.paren e)

lemma sumFold_render : ∀ (es : List Expr) (a : Expr), (es.foldl (fun a b => Expr.add a (.paren b)) a).render = a.render ++ joinP true (es.map Expr.render)
  | [], a => by simp [joinP]
  | e :: es, a => by
    rw [List.foldl_cons, sumFold_render es]
    simp [Expr.render, joinP]

lemma sumExpr_render {es : List Expr} (h : es ≠ []) : (sumExpr es).render = joinP false (es.map Expr.render) := by
  obtain ⟨e, es, rfl⟩ := List.exists_cons_of_ne_nil h
  unfold sumExpr
  rw [sumFold_render]
  simp [Expr.render, joinP]

lemma sumFold_denote {K : Type} [Field K] (env : Str → K) : ∀ (es : List Expr) (a : Expr), (es.foldl (fun a b => Expr.add a (.paren b)) a).denote env = a.denote env + (es.map (·.denote env)).sum
  | [], a => by simp
  | e :: es, a => by
    rw [List.foldl_cons, sumFold_denote env es]
    simp [Expr.denote, add_assoc]

lemma sumExpr_denote {K : Type} [Field K] (env : Str → K) (es : List Expr) : (sumExpr es).denote env = (es.map (·.denote env)).sum := by
  cases es with
  | nil => simp [sumExpr, Expr.denote, decimal]
  | cons e es =>
    unfold sumExpr
    rw [sumFold_denote]
    simp [Expr.denote]

lemma zero_wf (vars : List Str) (P N : ℕ) : (Expr.num ['0']).WF vars P N := by
  refine ⟨by simp, ?_, by simp⟩
  intro c hc
  simp at hc
  subst hc; decide

lemma sumFold_wf {vars : List Str} {P N : ℕ} : ∀ (es : List Expr) (a : Expr), a.WF vars P N → (∀ e ∈ es, e.WF vars P N) → (es.foldl (fun a b => Expr.add a (.paren b)) a).WF vars P N
  | [], a, ha, _ => ha
  | e :: es, a, ha, h => by
    rw [List.foldl_cons]
    exact sumFold_wf es _ ⟨ha, h e (by simp), by simp [Expr.level]⟩ fun x hx => h x (by simp [hx])

lemma sumExpr_wf {vars : List Str} {P N : ℕ} {es : List Expr} (h : ∀ e ∈ es, e.WF vars P N) : (sumExpr es).WF vars P N := by
  cases es with
  | nil => exact zero_wf _ _ _
  | cons e es => exact sumFold_wf es _ (h e (by simp)) fun x hx => h x (by simp [hx])

lemma sumFold_noQuot : ∀ (es : List Expr) (a : Expr), a.NoQuot → (∀ e ∈ es, e.NoQuot) → (es.foldl (fun a b => Expr.add a (.paren b)) a).NoQuot
  | [], a, ha, _ => ha
  | e :: es, a, ha, h => by
    rw [List.foldl_cons]
    exact sumFold_noQuot es _ ⟨ha, h e (by simp)⟩ fun x hx => h x (by simp [hx])

lemma sumExpr_noQuot {es : List Expr} (h : ∀ e ∈ es, e.NoQuot) : (sumExpr es).NoQuot := by
  cases es with
  | nil => exact trivial
  | cons e es => exact sumFold_noQuot es _ (h e (by simp)) fun x hx => h x (by simp [hx])

/-- the sum of blocks, each with a `+` before it -/
def blockSum : List Expr → Expr
  | [] => .num ['0']
  | b :: bs => bs.foldl .add (.pos b)

lemma blockFold_render : ∀ (bs : List Expr) (a : Expr), (bs.foldl Expr.add a).render = a.render ++ (bs.map fun b => '+' :: b.render).flatten
  | [], a => by simp
  | b :: bs, a => by rw [List.foldl_cons, blockFold_render bs]; simp [Expr.render]

lemma blockSum_render {bs : List Expr} (h : bs ≠ []) : (blockSum bs).render = (bs.map fun b => '+' :: b.render).flatten := by
  obtain ⟨b, bs, rfl⟩ := List.exists_cons_of_ne_nil h
  unfold blockSum
  rw [blockFold_render]; simp [Expr.render]

lemma blockFold_denote {K : Type} [Field K] (env : Str → K) : ∀ (es : List Expr) (a : Expr), (es.foldl Expr.add a).denote env = a.denote env + (es.map (·.denote env)).sum
  | [], a => by simp
  | e :: es, a => by rw [List.foldl_cons, blockFold_denote env es]; simp [Expr.denote, add_assoc]

lemma blockSum_denote {K : Type} [Field K] (env : Str → K) (es : List Expr) : (blockSum es).denote env = (es.map (·.denote env)).sum := by
  cases es with
  | nil => simp [blockSum, Expr.denote, decimal]
  | cons e es => unfold blockSum; rw [blockFold_denote]; simp [Expr.denote]

lemma blockFold_wf {vars : List Str} {P N : ℕ} : ∀ (es : List Expr) (a : Expr), a.WF vars P N → (∀ e ∈ es, e.WF vars P N ∧ 2 ≤ e.level) → (es.foldl Expr.add a).WF vars P N
  | [], a, ha, _ => ha
  | e :: es, a, ha, h => by
    rw [List.foldl_cons]
    exact blockFold_wf es _ ⟨ha, h e (by simp)⟩ fun x hx => h x (by simp [hx])

lemma blockSum_wf {vars : List Str} {P N : ℕ} {es : List Expr} (h : ∀ e ∈ es, e.WF vars P N ∧ 2 ≤ e.level) : (blockSum es).WF vars P N := by
  cases es with
  | nil => exact zero_wf _ _ _
  | cons e es => exact blockFold_wf es _ (h e (by simp)) fun x hx => h x (by simp [hx])

lemma blockFold_noQuot : ∀ (es : List Expr) (a : Expr), a.NoQuot → (∀ e ∈ es, e.NoQuot) → (es.foldl Expr.add a).NoQuot
  | [], a, ha, _ => ha
  | e :: es, a, ha, h => by
    rw [List.foldl_cons]
    exact blockFold_noQuot es _ ⟨ha, h e (by simp)⟩ fun x hx => h x (by simp [hx])

lemma blockSum_noQuot {es : List Expr} (h : ∀ e ∈ es, e.NoQuot) : (blockSum es).NoQuot := by
  cases es with
  | nil => exact trivial
  | cons e es => exact blockFold_noQuot es _ (h e (by simp)) fun x hx => h x (by simp [hx])

/-! ## the loops -/

lemma entries_pref {F : List Str} (m : ℕ) : ∀ {Pl : List (ℕ × ℕ)} {ps : List Str}, List.Forall₂ (fun e f => e.2 = 0 ∧ F[e.1]? = some f) Pl ps → ∀ (txt : Str) (pd gp gf : Bool),
    Pl.foldlM (ampEntry F m) (txt, pd, gp, gf) = .ok (txt ++ joinP gp ps, pd, gp || !ps.isEmpty, gf)
  | _, _, .nil, txt, pd, gp, gf => by simp [joinP]; rfl
  | e :: Pl, f :: ps, .cons h hs, txt, pd, gp, gf => by
    rw [List.foldlM_cons]
    have : ampEntry F m (txt, pd, gp, gf) e = .ok (txt ++ ((if gp then ['+'] else []) ++ ('(' :: f ++ [')'])), pd, true, gf) := by
      unfold ampEntry
      simp only [h.1, true_or, if_true, h.2]
      cases gp <;> simp
    rw [this]
    simp only [bind, Except.bind]
    rw [entries_pref m hs]
    simp [joinP]

/-- the coefficients of a master -/
def forMaster (n : Str) (rs : List (Str × Str)) : List Str := coefsOf rs n

lemma forMaster_cons (n : Str) (r : Str × Str) (rs : List (Str × Str)) : forMaster n (r :: rs) = if r.1 = n then r.2 :: forMaster n rs else forMaster n rs := by
  unfold forMaster coefsOf
  by_cases h : r.1 = n <;> simp [h]

lemma entries_mast {F names : List Str} (hn : names.Nodup) {m : ℕ} {n : Str} (hm : names[m]? = some n) : ∀ {Q : List (ℕ × ℕ)} {rs : List (Str × Str)},
    List.Forall₂ (fun (e : ℕ × ℕ) (r : Str × Str) => F[e.1]? = some r.2 ∧ ∃ m, names[m]? = some r.1 ∧ e.2 = m + 2) Q rs → ∀ (txt : Str) (gp gf : Bool),
    ∃ b c, Q.foldlM (ampEntry F m) (txt, gf, gp, gf) = .ok (txt ++ (if gf then joinP true (forMaster n rs) else if forMaster n rs = [] then [] else [')', '*', '('] ++ joinP false (forMaster n rs)), b, gp, c)
  | _, _, .nil, txt, gp, gf => by
    refine ⟨gf, gf, ?_⟩
    cases gf <;> simp [forMaster, coefsOf, joinP] <;> rfl
  | e :: Q, r :: rs, .cons h hs, txt, gp, gf => by
    obtain ⟨h1, k, h2, h3⟩ := h
    have hiff : e.2 = m + 2 ↔ r.1 = n := by
      rw [h3]
      constructor
      · intro e
        obtain rfl : k = m := by omega
        rw [hm] at h2; exact (Option.some.inj h2).symm
      · rintro rfl
        have hk := (List.getElem?_eq_some_iff.mp h2)
        have hm' := (List.getElem?_eq_some_iff.mp hm)
        obtain ⟨a, ha⟩ := hk
        obtain ⟨b, hb⟩ := hm'
        have := (hn.getElem_inj_iff (hi := a) (hj := b)).mp (ha.trans hb.symm)
        omega
    have h01 : ¬ (e.2 = 0 ∨ e.2 = 1) := by omega
    rw [List.foldlM_cons, forMaster_cons]
    by_cases hr : r.1 = n
    · rw [if_pos hr]
      have : ampEntry F m (txt, gf, gp, gf) e = .ok (txt ++ ((if gf then ['+'] else [')', '*', '(']) ++ ('(' :: r.2 ++ [')'])), true, gp, true) := by
        unfold ampEntry
        simp only [if_neg h01, if_pos (hiff.mpr hr), h1]
        cases gf <;> simp
      rw [this]
      obtain ⟨b, c, ih⟩ := entries_mast hn hm hs (txt ++ ((if gf then ['+'] else [')', '*', '(']) ++ ('(' :: r.2 ++ [')']))) gp true
      refine ⟨b, c, ?_⟩
      simp only [bind, Except.bind]
      rw [ih]
      cases gf <;> simp [joinP]
    · rw [if_neg hr]
      have : ampEntry F m (txt, gf, gp, gf) e = .ok (txt, gf, gp, gf) := by
        unfold ampEntry
        simp only [if_neg h01, if_neg (fun h => hr (hiff.mp h))]
      rw [this]
      exact entries_mast hn hm hs txt gp gf

/-- whether a master occurs -/
lemma entries_any {F names : List Str} (hn : names.Nodup) {m : ℕ} {n : Str} (hm : names[m]? = some n) : ∀ {Q : List (ℕ × ℕ)} {rs : List (Str × Str)},
    List.Forall₂ (fun (e : ℕ × ℕ) (r : Str × Str) => F[e.1]? = some r.2 ∧ ∃ m, names[m]? = some r.1 ∧ e.2 = m + 2) Q rs → ((Q.any fun e => e.2 = m + 2) = true ↔ forMaster n rs ≠ [])
  | _, _, .nil => by simp [forMaster, coefsOf]
  | e :: Q, r :: rs, .cons h hs => by
    obtain ⟨h1, k, h2, h3⟩ := h
    have hiff : e.2 = m + 2 ↔ r.1 = n := by
      rw [h3]
      constructor
      · intro e
        obtain rfl : k = m := by omega
        rw [hm] at h2; exact (Option.some.inj h2).symm
      · rintro rfl
        obtain ⟨a, ha⟩ := (List.getElem?_eq_some_iff.mp h2)
        obtain ⟨b, hb⟩ := (List.getElem?_eq_some_iff.mp hm)
        have := (hn.getElem_inj_iff (hi := a) (hj := b)).mp (ha.trans hb.symm)
        omega
    have ih := entries_any hn hm hs
    rw [List.any_cons, Bool.or_eq_true, ih, forMaster_cons]
    simp only [decide_eq_true_eq, hiff]
    by_cases hr : r.1 = n <;> simp [hr]

/-- **a block.** -/
lemma coefOf_eq {s : AmpSt} {xs names : List Str} {C R} (h : AmpInv s xs names C R) {m : ℕ} {n : Str} (hm : names[m]? = some n) {x : Str} {i : ℕ} (hx : xs[i]? = some x) :
    s.coefOf m i = .ok (if forMaster n (R x) = [] then [] else ['+', '('] ++ joinP false (C x) ++ [')', '*', '('] ++ joinP false (forMaster n (R x)) ++ [')']) := by
  obtain ⟨E, hE, hent⟩ := h.mapping
  obtain ⟨Pl, Q, he, h1, h2⟩ := hent x (List.mem_of_getElem? hx)
  unfold AmpSt.coefOf
  rw [hE, entryMap_lookup, hx]
  simp only [Option.map_some]
  have hP : (Pl.any fun e => e.2 = m + 2) = false := by
    rw [List.any_eq_false]
    intro e hem
    have : ∀ {Pl : List (ℕ × ℕ)} {ps : List Str}, List.Forall₂ (fun e f => e.2 = 0 ∧ s.functions[e.1]? = some f) Pl ps → ∀ e ∈ Pl, e.2 = 0 := by
      intro Pl ps h
      induction h with
      | nil => simp
      | cons a _ ih => intro e he; rcases List.mem_cons.mp he with rfl | he; exacts [a.1, ih e he]
    simp [this h1 e hem]
  have hany : (E x).any (fun e => e.2 = m + 2) = true ↔ forMaster n (R x) ≠ [] := by
    rw [he, List.any_append, hP, Bool.false_or]
    exact entries_any h.nnodup hm h2
  by_cases hf : forMaster n (R x) = []
  · rw [if_neg (fun h => hany.mp h hf), if_pos hf]
  · rw [if_pos (hany.mpr hf), if_neg hf, he, List.foldlM_append, entries_pref m h1]
    simp only [bind, Except.bind]
    obtain ⟨b, c, hq⟩ := entries_mast h.nnodup hm h2 (['+', '('] ++ joinP false (C x)) (false || !(C x).isEmpty) false
    rw [hq]
    simp [hf]

lemma mapM_const {α β : Type} {f : α → Except AmpErr β} {g : α → β} : ∀ {l : List α}, (∀ a ∈ l, f a = .ok (g a)) → l.mapM f = .ok (l.map g)
  | [], _ => rfl
  | a :: l, h => by
    rw [List.mapM_cons, h a (by simp), mapM_const fun b hb => h b (by simp [hb])]
    rfl

lemma getCoef_eq {s : AmpSt} {xs names : List Str} {C R} (h : AmpInv s xs names C R) {m : ℕ} {n : Str} (hm : names[m]? = some n) :
    s.getCoef m = .ok (xs.map fun x => if forMaster n (R x) = [] then [] else ['+', '('] ++ joinP false (C x) ++ [')', '*', '('] ++ joinP false (forMaster n (R x)) ++ [')']).flatten := by
  unfold AmpSt.getCoef
  rw [h.icount]
  have : ∀ i ∈ List.range xs.length, s.coefOf m i = .ok ((fun x => if forMaster n (R x) = [] then [] else ['+', '('] ++ joinP false (C x) ++ [')', '*', '('] ++ joinP false (forMaster n (R x)) ++ [')']) (xs.getD i [])) := by
    intro i hi
    rw [List.mem_range] at hi
    have hx : xs[i]? = some xs[i] := List.getElem?_eq_getElem hi
    rw [coefOf_eq h hm hx]
    simp [hx]
  rw [mapM_const this]
  simp only [bind, Except.bind]
  congr 2
  apply List.ext_getElem
  · simp
  · intro i h1 h2
    simp at h1 h2
    simp [h1]

end FireFly
