import Verif.Lemmas.AmpText
/-! # Texts of expressions in functions: `parse_string` -/
set_option linter.all false
namespace FireFly
variable {fams vars : List Str} {P N : ℕ}

lemma FamsOK.not_mem (hf : FamsOK fams) {f : Str} (h : f ∈ fams) {d : Char} (hd : d ∈ ['[', ']', '{', '}', '>', ';', ' ', '\t', '\n', '+', '-', '*', ',', '/', '^', '(', ')']) : d ∉ f :=
  fun hm => famChar ((hf.chars f h).2 d hm) hd

lemma ampCoef_nil (B : Str) : ampCoef fams (B ++ [']']) B.length = (['1'], B.length) := by
  unfold ampCoef
  rw [if_neg]
  simp

lemma ampCoef_next (B : Str) {d : Char} (hd : d ≠ '*') (r : Str) : ampCoef fams (B ++ ']' :: d :: r) B.length = (['1'], B.length) := by
  unfold ampCoef
  rw [if_neg]
  rintro ⟨-, h⟩
  have e : B ++ ']' :: d :: r = (B ++ [']']) ++ d :: r := by simp
  rw [e, List.getElem?_append_right (by simp)] at h
  simp at h
  exact hd h

lemma ampCoef_last (B : Str) {c : Str} (hc : c ≠ []) (hb : '[' ∉ c) : ampCoef fams (B ++ ']' :: '*' :: c) B.length = (c, B.length) := by
  have e : B ++ ']' :: '*' :: c = (B ++ [']']) ++ '*' :: c := by simp
  have hl : (B ++ [']']).length = B.length + 1 := by simp
  unfold ampCoef
  have h1 : (B ++ ']' :: '*' :: c)[B.length + 1]? = some '*' := by
    rw [e, List.getElem?_append_right (by simp)]; simp
  have h2 : B.length + 1 < (B ++ ']' :: '*' :: c).length - 1 := by
    have : 0 < c.length := List.length_pos_iff.mpr hc
    simp; omega
  rw [if_pos ⟨h2, h1⟩]
  have h3 : strFindFrom ['['] (B ++ ']' :: '*' :: c) (B.length + 1) = none := by
    rw [← hl, e, strFindFrom_drop, strFind_char_none]
    · rfl
    · intro h; simp at h; exact hb h
  rw [h3]
  have e2 : B ++ ']' :: '*' :: c = (B ++ [']', '*']) ++ c := by simp
  have hl2 : B.length + 2 = (B ++ [']', '*']).length := by simp
  simp only
  rw [hl2, e2, List.drop_left]

lemma ampNext_spec (hf : FamsOK fams) {fam2 : Str} (h2 : fam2 ∈ fams) {c : Str} (hno : ∀ f ∈ fams, ¬ f <:+: c) {sg : Char} (hsg : sg = '+' ∨ sg = '-') {fo found : ℕ}
    (hfo : fo = found + 1 + 1 + c.length + 1 + fam2.length) : ampNext fams ('*' :: c ++ sg :: fam2) fo found = (c, found + 1 + c.length) := by
  have hsgm : sg ∈ ['[', ']', '{', '}', '>', ';', ' ', '\t', '\n', '+', '-', '*', ',', '/', '^', '(', ')'] := by
    rcases hsg with rfl | rfl <;> decide
  have hr2 : strRFind fam2 ('*' :: c ++ sg :: fam2) = some (c.length + 2) := by
    have e : '*' :: c ++ sg :: fam2 = ('*' :: c ++ [sg]) ++ fam2 := by simp
    rw [e, strRFind_end (hf.chars fam2 h2).1]
    simp
  have hrn : ∀ f ∈ fams, f ≠ fam2 → strRFind f ('*' :: c ++ sg :: fam2) = none := by
    intro f hfm hne
    apply strRFind_none
    intro hi
    rcases infix_split (hf.not_mem hfm hsgm) hi with h | h
    · have : f <:+: [] ++ '*' :: c := h
      rcases infix_split (hf.not_mem hfm (by decide)) this with h | h
      · exact (hf.chars f hfm).1 (List.infix_nil.mp h)
      · exact hno f hfm h
    · exact hne (hf.apart f hfm fam2 h2 h)
  have hval : (subStr ('*' :: c ++ sg :: fam2) 1 (subSize (c.length + 2) 2)) = c := by
    unfold subSize subStr
    rw [if_pos (by omega)]
    simp
  have hfound : subSize (subSize fo fam2.length) 2 = found + 1 + c.length := by
    unfold subSize
    rw [if_pos (by omega : fam2.length ≤ fo), if_pos (by omega)]
    omega
  unfold ampNext
  have key : ∀ (l : List Str) (r0 : Str × ℕ), (∀ f ∈ l, f ∈ fams) → (fam2 ∈ l ∨ r0 = (c, found + 1 + c.length)) →
      l.foldl (fun r fam => match strRFind fam ('*' :: c ++ sg :: fam2) with
        | none => r
        | some k => (if ('*' :: c ++ sg :: fam2).head? = some '*' then subStr ('*' :: c ++ sg :: fam2) 1 (subSize k 2) else subStr ('*' :: c ++ sg :: fam2) 0 (subSize k 2), subSize (subSize fo fam.length) 2)) r0
        = (c, found + 1 + c.length) := by
    intro l
    induction l with
    | nil =>
      intro r0 _ h
      rcases h with h | h
      · simp at h
      · exact h
    | cons f l ih =>
      intro r0 hl h
      rw [List.foldl_cons]
      by_cases hff : f = fam2
      · subst hff
        apply ih _ (fun x hx => hl x (by simp [hx])) (Or.inr ?_)
        rw [hr2]
        simp only
        rw [if_pos (by simp), hval, hfound]
      · rw [hrn f (hl f (by simp)) hff]
        apply ih _ (fun x hx => hl x (by simp [hx]))
        rcases h with h | h
        · rcases List.mem_cons.mp h with h | h
          · exact absurd h.symm hff
          · exact Or.inl h
        · exact Or.inr h
  exact key fams _ (fun f h => h) (Or.inl h2)

lemma ampCoef_more (hf : FamsOK fams) (B : Str) {c : Str} (hb : '[' ∉ c) (hno : ∀ f ∈ fams, ¬ f <:+: c) {sg : Char} (hsg : sg = '+' ∨ sg = '-') {fam2 : Str} (h2 : fam2 ∈ fams) (r : Str) :
    ampCoef fams (B ++ ']' :: '*' :: (c ++ sg :: (fam2 ++ '[' :: r))) B.length = (c, B.length + 1 + c.length) := by
  have e : B ++ ']' :: '*' :: (c ++ sg :: (fam2 ++ '[' :: r)) = (B ++ [']']) ++ (('*' :: c ++ sg :: fam2) ++ '[' :: r) := by simp
  have hl : (B ++ [']']).length = B.length + 1 := by simp
  have hbr : '[' ∉ '*' :: c ++ sg :: fam2 := by
    have h3 := hf.not_mem h2 (d := '[') (by decide)
    simp only [List.cons_append, List.mem_cons, List.mem_append, not_or]
    refine ⟨by decide, hb, ?_, h3⟩
    rcases hsg with rfl | rfl <;> decide
  unfold ampCoef
  have h1 : (B ++ ']' :: '*' :: (c ++ sg :: (fam2 ++ '[' :: r)))[B.length + 1]? = some '*' := by
    rw [e, List.getElem?_append_right (by simp)]; simp
  have h4 : B.length + 1 < (B ++ ']' :: '*' :: (c ++ sg :: (fam2 ++ '[' :: r))).length - 1 := by
    simp only [List.length_append, List.length_cons]; omega
  rw [if_pos ⟨h4, h1⟩]
  have h3 : strFindFrom ['['] (B ++ ']' :: '*' :: (c ++ sg :: (fam2 ++ '[' :: r))) (B.length + 1) = some (B.length + 1 + 1 + c.length + 1 + fam2.length) := by
    rw [← hl, e, strFindFrom_drop, strFind_char hbr]
    simp only [Option.map_some, List.length_append, List.length_cons, Option.some.injEq, List.length_nil]
    omega
  rw [h3]
  simp only
  have h5 : subStr (B ++ ']' :: '*' :: (c ++ sg :: (fam2 ++ '[' :: r))) (B.length + 1) (B.length + 1 + 1 + c.length + 1 + fam2.length - (B.length + 1)) = '*' :: c ++ sg :: fam2 := by
    unfold subStr
    have hd : (B ++ ']' :: '*' :: (c ++ sg :: (fam2 ++ '[' :: r))).drop (B.length + 1) = ('*' :: c ++ sg :: fam2) ++ '[' :: r := by
      rw [← hl, e, List.drop_left]
    rw [hd]
    have : B.length + 1 + 1 + c.length + 1 + fam2.length - (B.length + 1) = ('*' :: c ++ sg :: fam2).length := by simp; omega
    rw [this, List.take_left']
    rfl
  rw [h5]
  exact ampNext_spec hf h2 hno hsg (by omega)

/-- the head of a term -/
lemma ampTerm_eq (hf : FamsOK fams) {sg : Str} (hsg : sg = [] ∨ sg = ['+'] ∨ sg = ['-'] ∨ sg = [',']) {fam args : Str} (ho : FnOK fams fam args) (pre post : Str) :
    strFindFrom [']'] (pre ++ (sg ++ fnName fam args ++ post)) pre.length = some (pre ++ sg ++ fam ++ '[' :: args).length ∧
    ampTerm fams (pre ++ (sg ++ fnName fam args ++ post)) pre.length (pre ++ sg ++ fam ++ '[' :: args).length =
      .ok ((fnName fam args, if sg = ['-'] then '-' :: '(' :: (ampCoef fams (pre ++ (sg ++ fnName fam args ++ post)) (pre ++ sg ++ fam ++ '[' :: args).length).1 ++ [')']
        else (ampCoef fams (pre ++ (sg ++ fnName fam args ++ post)) (pre ++ sg ++ fam ++ '[' :: args).length).1),
        (ampCoef fams (pre ++ (sg ++ fnName fam args ++ post)) (pre ++ sg ++ fam ++ '[' :: args).length).2) := by
  have hbs : ∀ d ∈ ['[', ']'], d ∉ sg := by
    intro d hd
    rcases hsg with rfl | rfl | rfl | rfl <;> simp at hd ⊢ <;> rcases hd with rfl | rfl <;> decide
  have hfam : ∀ d ∈ ['[', ']'], d ∉ fam := fun d hd => hf.not_mem ho.1 (by simp at hd; rcases hd with rfl | rfl <;> decide)
  have harg : ∀ d ∈ ['[', ']'], d ∉ args := by
    intro d hd hm
    exact ho.2 d hm (by simp at hd; rcases hd with rfl | rfl <;> simp)
  have hsf : ∀ f ∈ fams, f <:+: sg ++ fam → f = fam := by
    intro f hfm hi
    rcases hsg with rfl | rfl | rfl | rfl
    · exact hf.apart f hfm fam ho.1 hi
    all_goals
      rcases infix_split (a := []) (hf.not_mem hfm (by decide)) hi with h | h
      · exact absurd (List.infix_nil.mp h) (hf.chars f hfm).1
      · exact hf.apart f hfm fam ho.1 h
  have hpos : strFind fam (sg ++ fam) = some sg.length := by
    apply strFind_some (by simp) (by rw [List.drop_left]; exact List.prefix_rfl)
    intro j hj hp
    rcases hsg with rfl | rfl | rfl | rfl
    · simp at hj
    all_goals
      simp only [List.length_cons, List.length_nil, Nat.zero_add, Nat.lt_one_iff] at hj
      subst hj
      simp only [List.drop_zero] at hp
      obtain ⟨c, cs, rfl⟩ := List.exists_cons_of_ne_nil (hf.chars fam ho.1).1
      rw [List.singleton_append, List.cons_prefix_cons] at hp
      exact hf.not_mem ho.1 (d := c) (by rw [hp.1]; decide) (by simp)
  have hfirst : fams.findSome? (fun f => strFind f (sg ++ fam)) = some sg.length := by
    have key : ∀ l : List Str, (∀ f ∈ l, f ∈ fams) → fam ∈ l → l.findSome? (fun f => strFind f (sg ++ fam)) = some sg.length := by
      intro l
      induction l with
      | nil => intro _ h; simp at h
      | cons f l ih =>
        intro hl hm
        rw [List.findSome?_cons]
        by_cases hff : f = fam
        · subst hff; rw [hpos]
        · have : strFind f (sg ++ fam) = none := strFind_none fun hi => hff (hsf f (hl f (by simp)) hi)
          rw [this]
          exact ih (fun x hx => hl x (by simp [hx])) (by rcases List.mem_cons.mp hm with h | h; exact absurd h.symm hff; exact h)
    exact key fams (fun f h => h) ho.1
  have e1 : pre ++ (sg ++ fnName fam args ++ post) = pre ++ ((sg ++ fam ++ '[' :: args) ++ ']' :: post) := by simp [fnName]
  have hno : ']' ∉ sg ++ fam ++ '[' :: args := by
    simp only [List.mem_append, List.mem_cons, not_or]
    exact ⟨⟨hbs _ (by simp), hfam _ (by simp)⟩, by decide, harg _ (by simp)⟩
  have hseed : subStr (pre ++ (sg ++ fnName fam args ++ post)) pre.length ((pre ++ sg ++ fam ++ '[' :: args).length + 1 - pre.length) = (sg ++ fam) ++ '[' :: (args ++ [']']) := by
    unfold subStr
    rw [List.drop_left]
    have e2 : sg ++ fnName fam args ++ post = ((sg ++ fam) ++ '[' :: (args ++ [']'])) ++ post := by simp [fnName]
    have e3 : (pre ++ sg ++ fam ++ '[' :: args).length + 1 - pre.length = ((sg ++ fam) ++ '[' :: (args ++ [']'])).length := by simp; omega
    rw [e2, e3, List.take_left']
    rfl
  constructor
  · rw [e1, strFindFrom_drop, strFind_char hno]
    simp only [Option.map_some, List.length_append, Option.some.injEq]
    omega
  · unfold ampTerm
    simp only [hseed]
    have hfo : strFind ['['] ((sg ++ fam) ++ '[' :: (args ++ [']'])) = some (sg ++ fam).length := by
      apply strFind_char
      simp only [List.mem_append, not_or]
      exact ⟨hbs _ (by simp), hfam _ (by simp)⟩
    rw [hfo]
    simp only [List.take_left', List.drop_left', hfirst]
    have hpre : (if sg.length ≠ 0 then (sg ++ fam)[sg.length - 1]? else none) = sg.head? := by
      rcases hsg with rfl | rfl | rfl | rfl <;> simp
    rw [hpre]
    have h1 : sg.head? ≠ some '*' := by rcases hsg with rfl | rfl | rfl | rfl <;> simp
    have h2 : (sg.head? = some '-') ↔ sg = ['-'] := by rcases hsg with rfl | rfl | rfl | rfl <;> simp
    rw [if_neg h1]
    simp only [h2, fnName]
    simp

/-- the pair that `parse_string` makes of a term -/
def ATerm.entry (t : ATerm) : Str × Str :=
  (t.name, let c := match t.coef with | none => ['1'] | some c => c.render
    if t.sign = .minus then '-' :: '(' :: c ++ [')'] else c)

lemma sign_text (s : ASign) : (s.text = [] ∨ s.text = ['+'] ∨ s.text = ['-'] ∨ s.text = [',']) ∧ (s.text = ['-'] ↔ s = .minus) := by
  cases s <;> simp [ASign.text]

lemma ampLoop_none (amp : Str) (n k : ℕ) : ampLoop fams amp n k none = .ok [] := by cases n <;> rfl

/-- a left-hand side -/
lemma ampParse_lhs (hf : FamsOK fams) {sg : Str} (hsg : sg = [] ∨ sg = [',']) {fam args : Str} (ho : FnOK fams fam args) :
    ∃ c, ampParse fams (sg ++ fnName fam args) = .ok [(fnName fam args, c)] := by
  have hsg' : sg = [] ∨ sg = ['+'] ∨ sg = ['-'] ∨ sg = [','] := by tauto
  obtain ⟨h1, h2⟩ := ampTerm_eq hf hsg' ho [] []
  have hne : sg ++ fnName fam args ≠ [] := by simp [fnName]
  have e : sg ++ fnName fam args = ([] : Str) ++ (sg ++ fnName fam args ++ []) := by simp
  have e2 : ([] : Str) ++ (sg ++ fnName fam args ++ []) = ([] ++ sg ++ fam ++ '[' :: args) ++ [']'] := by simp [fnName]
  rw [e2, ampCoef_nil] at h2
  unfold ampParse
  rw [if_neg hne]
  have hl : (sg ++ fnName fam args).length = (sg ++ fam ++ '[' :: args).length + 1 := by simp [fnName]; omega
  have h0 : strFind [']'] (sg ++ fnName fam args) = some ([] ++ sg ++ fam ++ '[' :: args).length := by
    have := h1
    simp only [strFindFrom, List.length_nil, List.drop_zero, List.nil_append, List.append_nil, Nat.add_zero, Option.map_id'] at this
    simpa using this
  have e3 : sg ++ fnName fam args = ([] ++ sg ++ fam ++ '[' :: args) ++ [']'] := by rw [← e2]; exact e
  have hno : strFindFrom [']'] (sg ++ fnName fam args) (([] ++ sg ++ fam ++ '[' :: args).length + 1) = none := by
    have : (([] ++ sg ++ fam ++ '[' :: args).length + 1) = (sg ++ fnName fam args).length := by simp [fnName]; omega
    rw [this]
    unfold strFindFrom
    rw [List.drop_length]
    rfl
  rw [h0, hl]
  unfold ampLoop
  rw [e3] at hno ⊢
  have h2' : ampTerm fams (([] ++ sg ++ fam ++ '[' :: args) ++ [']']) 0 ([] ++ sg ++ fam ++ '[' :: args).length = _ := h2
  rw [h2']
  simp only [bind, Except.bind]
  rw [hno]
  have hsn : sg ≠ ['-'] := by rcases hsg with rfl | rfl <;> simp
  refine ⟨['1'], ?_⟩
  rw [ampLoop_none, if_neg hsn]

lemma ampLoop_sum (hvars : ∀ v ∈ vars, IsName v) (hf : FamsOK fams) : ∀ (ts : List ATerm), (∀ t ∈ ts, t.OK fams vars P N) → (∀ t ∈ ts.tail, t.sign ≠ .none) → ∀ (pre : Str) (fuel : ℕ), ts.length ≤ fuel →
    ampLoop fams (pre ++ sumText ts) fuel pre.length (strFindFrom [']'] (pre ++ sumText ts) pre.length) = .ok (ts.map ATerm.entry)
  | [], _, _, pre, fuel, _ => by
    have : strFindFrom [']'] (pre ++ sumText []) pre.length = none := by
      rw [strFindFrom_drop]; rfl
    rw [this]
    cases fuel <;> rfl
  | t :: ts, hok, hs, pre, 0, hfu => by simp at hfu
  | t :: ts, hok, hs, pre, fuel + 1, hfu => by
    have ht := hok t (by simp)
    have hrest : ∀ u ∈ ts, u.OK fams vars P N := fun u hu => hok u (by simp [hu])
    have hs2 : ∀ u ∈ ts, u.sign ≠ .none := hs
    have ih := ampLoop_sum hvars hf ts hrest (fun u hu => hs2 u (List.mem_of_mem_tail hu)) (pre ++ t.text) fuel (by simpa using hfu)
    obtain ⟨sg, hsg⟩ : ∃ sg, t.sign.text = sg := ⟨_, rfl⟩
    obtain ⟨hsg1, hsg2⟩ := sign_text t.sign
    rw [hsg] at hsg1 hsg2
    -- the text behind the function
    obtain ⟨ctext, hct⟩ : ∃ x, coefText t.coef = x := ⟨_, rfl⟩
    have etext : t.text = sg ++ fnName t.fam t.args ++ ctext := by
      unfold ATerm.text; rw [hsg, hct]; rfl
    have eamp : pre ++ sumText (t :: ts) = pre ++ (sg ++ fnName t.fam t.args ++ (ctext ++ sumText ts)) := by
      simp only [sumText, List.map_cons, List.flatten_cons]
      rw [etext]
      simp
    obtain ⟨h1, h2⟩ := ampTerm_eq hf hsg1 ht.1 pre (ctext ++ sumText ts)
    obtain ⟨B, hB⟩ : ∃ B, pre ++ sg ++ t.fam ++ '[' :: t.args = B := ⟨_, rfl⟩
    rw [hB] at h1 h2
    have eB : pre ++ (sg ++ fnName t.fam t.args ++ (ctext ++ sumText ts)) = B ++ ']' :: (ctext ++ sumText ts) := by
      rw [← hB]; simp [fnName]
    rw [eamp, h1]
    have eamp2 : pre ++ t.text ++ sumText ts = pre ++ (sg ++ fnName t.fam t.args ++ (ctext ++ sumText ts)) := by
      rw [etext]; simp
    rw [eamp2] at ih
    have hlen : (pre ++ t.text).length = B.length + 1 + ctext.length := by
      rw [etext, ← hB]; simp [fnName]; omega
    unfold ampLoop
    rw [h2]
    simp only [bind, Except.bind]
    -- the coefficient
    have hcoef : ∃ k, ampCoef fams (pre ++ (sg ++ fnName t.fam t.args ++ (ctext ++ sumText ts))) B.length = ((match t.coef with | none => ['1'] | some c => c.render), k) ∧
        ampLoop fams (pre ++ (sg ++ fnName t.fam t.args ++ (ctext ++ sumText ts))) fuel (k + 1) (strFindFrom [']'] (pre ++ (sg ++ fnName t.fam t.args ++ (ctext ++ sumText ts))) (k + 1)) = .ok (ts.map ATerm.entry) := by
      rw [eB] at ih ⊢
      rw [hlen] at ih
      cases hco : t.coef with
      | none =>
        rw [hco] at hct
        simp only [coefText] at hct
        subst hct
        cases ts with
        | nil =>
          refine ⟨B.length, ?_, by simpa using ih⟩
          simp only [sumText, List.map_nil, List.flatten_nil, List.append_nil]
          exact ampCoef_nil B
        | cons u us =>
          have hu := hs2 u (by simp)
          obtain ⟨d, r, hd, he⟩ : ∃ d r, d ≠ '*' ∧ sumText (u :: us) = d :: r := by
            simp only [sumText, List.map_cons, List.flatten_cons, ATerm.text]
            cases hus : u.sign with
            | none => exact absurd hus hu
            | plus => exact ⟨'+', _, by decide, rfl⟩
            | minus => exact ⟨'-', _, by decide, rfl⟩
          refine ⟨B.length, ?_, by simpa using ih⟩
          rw [List.nil_append, he]
          exact ampCoef_next B hd r
      | some c =>
        rw [hco] at hct
        simp only [coefText] at hct
        subst hct
        have hc := ht.2 c hco
        have hbr : '[' ∉ c.render := fun hm => render_chars hvars c hc.1 _ hm (by simp)
        have hbr2 : ']' ∉ c.render := fun hm => render_chars hvars c hc.1 _ hm (by simp)
        have hcn := render_ne hvars c hc.1
        cases ts with
        | nil =>
          refine ⟨B.length, ?_, ?_⟩
          · simp only [sumText, List.map_nil, List.flatten_nil, List.append_nil]
            exact ampCoef_last B hcn hbr
          · have : strFindFrom [']'] (B ++ ']' :: ('*' :: c.render ++ sumText [])) (B.length + 1) = none := by
              have e : B ++ ']' :: ('*' :: c.render ++ sumText []) = (B ++ [']']) ++ '*' :: c.render := by simp [sumText]
              have hl : B.length + 1 = (B ++ [']']).length := by simp
              rw [e, hl, strFindFrom_drop, strFind_char_none]
              · rfl
              · intro h; simp at h; exact hbr2 h
            rw [this]
            cases fuel <;> rfl
        | cons u us =>
          have hu := hs2 u (by simp)
          have hu2 := (hrest u (by simp)).1
          obtain ⟨d, r, hd, he⟩ : ∃ d r, (d = '+' ∨ d = '-') ∧ sumText (u :: us) = d :: (u.fam ++ '[' :: r) := by
            simp only [sumText, List.map_cons, List.flatten_cons, ATerm.text, ATerm.name, fnName]
            cases hus : u.sign with
            | none => exact absurd hus hu
            | plus => exact ⟨'+', u.args ++ [']'] ++ coefText u.coef ++ (us.map ATerm.text).flatten, by simp, by simp [ASign.text, ATerm.text, ATerm.name, fnName]⟩
            | minus => exact ⟨'-', u.args ++ [']'] ++ coefText u.coef ++ (us.map ATerm.text).flatten, by simp, by simp [ASign.text, ATerm.text, ATerm.name, fnName]⟩
          refine ⟨B.length + 1 + c.render.length, ?_, ?_⟩
          · rw [he]
            exact ampCoef_more hf B hbr hc.2.2 hd hu2.1 r
          · have : B.length + 1 + c.render.length + 1 = B.length + 1 + ('*' :: c.render).length := by simp; omega
            rw [this]
            exact ih
    obtain ⟨k, hk1, hk2⟩ := hcoef
    rw [hk1]
    simp only [hk2, List.map_cons, Except.ok.injEq, List.cons.injEq, and_true]
    simp only [ATerm.entry, ATerm.name, hsg2]

/-- **`parse_string` reads a sum of terms.** -/
lemma ampParse_sum (hvars : ∀ v ∈ vars, IsName v) (hf : FamsOK fams) {ts : List ATerm} (h : SumOK fams vars P N ts) (hne : ts ≠ []) :
    ampParse fams (sumText ts) = .ok (ts.map ATerm.entry) := by
  have h0 : sumText ts ≠ [] := by
    obtain ⟨t, ts, rfl⟩ := List.exists_cons_of_ne_nil hne
    simp [sumText, ATerm.text, ATerm.name, fnName]
  have hlen : ∀ ts : List ATerm, ts.length ≤ (sumText ts).length := by
    intro ts
    induction ts with
    | nil => simp
    | cons t ts ih =>
      have : 1 ≤ t.text.length := by simp [ATerm.text, ATerm.name, fnName]; omega
      simp only [sumText, List.map_cons, List.flatten_cons, List.length_append, List.length_cons] at ih ⊢
      omega
  have := ampLoop_sum hvars hf ts h.1 h.2 [] (sumText ts).length (hlen ts)
  unfold ampParse
  rw [if_neg h0]
  simpa [strFindFrom] using this

end FireFly
