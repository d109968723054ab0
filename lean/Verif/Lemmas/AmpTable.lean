import Verif.Lemmas.AmpRead
/-! # Texts of expressions in functions: tables, braces and white space -/
set_option linter.all false
namespace FireFly
variable {fams vars : List Str} {P N : ℕ}

/-- the text of a right-hand side -/
def rhsText (rhs : List ATerm) : Str := if rhs = [] then ['0'] else sumText rhs

/-- what a rule does to the object -/
def AmpSt.useRule (s : AmpSt) (r : ARule) : Except AmpErr AmpSt :=
  match s.integrals.lookup r.name with
  | none => .ok s
  | some i => if r.name ∈ s.repl then .error .exit else .ok ((r.rhs.map ATerm.entry).foldl (AmpSt.addMaster i) { s with repl := s.repl ++ [r.name] })

lemma addMaster_fams (i : ℕ) (s : AmpSt) (q : Str × Str) : (s.addMaster i q).fams = s.fams := by
  unfold AmpSt.addMaster
  simp only
  split <;> rfl

lemma addMasters_fams (i : ℕ) : ∀ (qs : List (Str × Str)) (s : AmpSt), (qs.foldl (AmpSt.addMaster i) s).fams = s.fams
  | [], s => rfl
  | q :: qs, s => by rw [List.foldl_cons, addMasters_fams i qs, addMaster_fams]

lemma useRule_fams {s s' : AmpSt} {r : ARule} (h : s.useRule r = .ok s') : s'.fams = s.fams := by
  unfold AmpSt.useRule at h
  split at h
  · cases h; rfl
  · split at h
    · cases h
    · cases h
      rw [addMasters_fams]

lemma addRule_eq (hvars : ∀ v ∈ vars, IsName v) {s : AmpSt} (hf : FamsOK s.fams) {r : ARule} (hr : r.OK s.fams vars P N) {sg : Str} (hsg : sg = [] ∨ sg = [',']) :
    s.addRule (sg ++ r.name) (rhsText r.rhs) = s.useRule r := by
  obtain ⟨c, hc⟩ := ampParse_lhs hf hsg hr.1
  have hrhs : ampParse s.fams (rhsText r.rhs) = .ok (r.rhs.map ATerm.entry) := by
    unfold rhsText
    split
    · rename_i h
      rw [h]
      have : strFind [']'] ['0'] = none := strFind_char_none (by decide)
      unfold ampParse
      rw [if_neg (by simp), this]
      rfl
    · rename_i h
      exact ampParse_sum hvars hf hr.2 h
  unfold AmpSt.addRule AmpSt.useRule
  have e : sg ++ r.name = sg ++ fnName r.fam r.args := rfl
  rw [e, hc]
  simp only [bind, Except.bind]
  have e2 : fnName r.fam r.args = r.name := rfl
  rw [e2]
  cases s.integrals.lookup r.name with
  | none => rfl
  | some i =>
    simp only
    split
    · rfl
    · rw [hrhs]

/-! ## characters -/

lemma name_chars (hf : FamsOK fams) {fam args : Str} (ho : FnOK fams fam args) : ∀ c ∈ fnName fam args, c ∉ ['{', '}', '>', ';', ' ', '\t', '\n'] := by
  intro c hc h2
  simp only [fnName, List.cons_append, List.mem_append, List.mem_cons, List.not_mem_nil, or_false] at hc
  rcases hc with (hc | rfl | hc) | rfl
  · exact hf.not_mem ho.1 (d := c) (by simp only [List.mem_cons, List.not_mem_nil, or_false] at h2 ⊢; tauto) hc
  · revert h2; decide
  · exact ho.2 c hc (by simp only [List.mem_cons, List.not_mem_nil, or_false] at h2 ⊢; tauto)
  · revert h2; decide

lemma sum_chars (hvars : ∀ v ∈ vars, IsName v) (hf : FamsOK fams) {ts : List ATerm} (h : ∀ t ∈ ts, t.OK fams vars P N) : ∀ c ∈ sumText ts, c ∉ ['{', '}', '>', ';', ' ', '\t', '\n'] := by
  intro c hc
  simp only [sumText, List.mem_flatten, List.mem_map] at hc
  obtain ⟨_, ⟨t, ht, rfl⟩, hc⟩ := hc
  have ho := h t ht
  simp only [ATerm.text, List.mem_append] at hc
  rcases hc with (hc | hc) | hc
  · cases hs : t.sign <;> rw [hs] at hc <;> simp [ASign.text] at hc <;> subst hc <;> decide
  · exact name_chars hf ho.1 c hc
  · cases hco : t.coef with
    | none => rw [hco] at hc; simp [coefText] at hc
    | some e =>
      rw [hco] at hc
      simp only [coefText, List.mem_cons] at hc
      rcases hc with rfl | hc
      · decide
      · intro h2
        exact render_chars hvars e (ho.2 e hco).1 c hc (by simp only [List.mem_cons, List.not_mem_nil, or_false] at h2 ⊢; tauto)

lemma rhs_chars (hvars : ∀ v ∈ vars, IsName v) (hf : FamsOK fams) {ts : List ATerm} (h : ∀ t ∈ ts, t.OK fams vars P N) : ∀ c ∈ rhsText ts, c ∉ ['{', '}', '>', ';', ' ', '\t', '\n'] := by
  unfold rhsText
  split
  · intro c hc; simp at hc; subst hc; decide
  · exact sum_chars hvars hf h

lemma rule_text (r : ARule) : r.text = r.name ++ '-' :: '>' :: rhsText r.rhs := by
  simp [ARule.text, rhsText]

lemma table_chars (hvars : ∀ v ∈ vars, IsName v) (hf : FamsOK fams) : ∀ {rs : List ARule}, (∀ r ∈ rs, r.OK fams vars P N) → ∀ c ∈ tableText rs, c ∉ ['{', '}', ' ', '\t', '\n'] := by
  have one : ∀ r : ARule, r.OK fams vars P N → ∀ c ∈ r.text, c ∉ ['{', '}', ' ', '\t', '\n'] := by
    intro r hr c hc h2
    rw [rule_text] at hc
    simp only [List.mem_append, List.mem_cons] at hc
    rcases hc with hc | rfl | rfl | hc
    · exact name_chars hf hr.1 c hc (by simp only [List.mem_cons, List.not_mem_nil, or_false] at h2 ⊢; tauto)
    · revert h2; decide
    · revert h2; decide
    · exact rhs_chars hvars hf hr.2.1 c hc (by simp only [List.mem_cons, List.not_mem_nil, or_false] at h2 ⊢; tauto)
  intro rs
  induction rs with
  | nil => intro _ c hc; simp [tableText] at hc
  | cons r rs ih =>
    intro h c hc
    cases rs with
    | nil => exact one r (h r (by simp)) c hc
    | cons r2 rs =>
      simp only [tableText, List.mem_append, List.mem_cons] at hc
      rcases hc with hc | rfl | hc
      · exact one r (h r (by simp)) c hc
      · decide
      · exact ih (fun x hx => h x (by simp [hx])) c hc

lemma strip_spelled {text s : Str} (h : Spelled text s) (hne : text ≠ []) (hb : '{' ∉ text ∧ '}' ∉ text) : stripBraces (stripWs s) = .ok text := by
  have hd : ∀ x : Str, x = text ∨ x = '{' :: text ++ ['}'] → stripBraces x = .ok text := by
    intro x hx
    rcases hx with rfl | rfl
    · have h1 : x.head? ≠ some '{' := by
        intro e
        exact hb.1 (List.mem_of_head? e)
      unfold stripBraces
      simp only [if_neg h1]
      cases hl : x.getLast? with
      | none => simp at hl; exact absurd hl hne
      | some c =>
        have hc : c ≠ '}' := by
          rintro rfl
          exact hb.2 (List.mem_of_getLast? hl)
        simp [hc]
    · unfold stripBraces
      have : ('{' :: text ++ ['}']).head? = some '{' := rfl
      simp only [if_pos this]
      have e : ('{' :: text ++ ['}']).tail = text ++ ['}'] := rfl
      rw [e]
      simp
  exact hd _ h

/-! ## tables -/

lemma take_mid (a b : Str) (n : ℕ) (h : n = a.length) : (a ++ b).take n = a := by subst h; exact List.take_left

lemma ampTable_rules (hvars : ∀ v ∈ vars, IsName v) (hf : FamsOK fams) : ∀ (rs : List ARule), rs ≠ [] → (∀ r ∈ rs, r.OK fams vars P N) → ∀ (pre sg : Str), (sg = [] ∨ sg = [',']) →
    ∀ (fuel : ℕ), rs.length ≤ fuel → ∀ (s : AmpSt), s.fams = fams →
    ampTable (pre ++ (sg ++ tableText rs)) fuel s pre.length (strFindFrom ['-', '>'] (pre ++ (sg ++ tableText rs)) pre.length) = rs.foldlM AmpSt.useRule s
  | [], h, _, _, _, _, _, _, _, _ => absurd rfl h
  | r :: rs, _, _, _, _, _, 0, hfu, _, _ => by simp at hfu
  | r :: rs, _, hok, pre, sg, hsg, fuel + 1, hfu, s, hs => by
    have hr := hok r (by simp)
    have hfs : FamsOK s.fams := hs ▸ hf
    have hrS : r.OK s.fams vars P N := hs ▸ hr
    have hlhs : '>' ∉ sg ++ r.name := by
      simp only [List.mem_append, not_or]
      refine ⟨by rcases hsg with rfl | rfl <;> simp, fun h => name_chars hf hr.1 '>' h (by simp)⟩
    have hrg : '>' ∉ rhsText r.rhs := fun h => rhs_chars hvars hf hr.2.1 '>' h (by simp)
    -- the text behind the rule
    obtain ⟨rest, hrest⟩ : ∃ x, (if rs = [] then [] else ',' :: tableText rs) = x := ⟨_, rfl⟩
    have etab : tableText (r :: rs) = r.name ++ '-' :: '>' :: (rhsText r.rhs ++ rest) := by
      rw [← hrest]
      cases rs with
      | nil => simp [tableText, rule_text]
      | cons r2 rs => simp [tableText, rule_text]
    have eamp : pre ++ (sg ++ tableText (r :: rs)) = pre ++ ((sg ++ r.name) ++ '-' :: '>' :: (rhsText r.rhs ++ rest)) := by rw [etab]; simp
    obtain ⟨A, hA⟩ : ∃ A, pre ++ (sg ++ r.name) = A := ⟨_, rfl⟩
    have hAl : A.length = pre.length + (sg ++ r.name).length := by rw [← hA]; simp
    have eamp2 : pre ++ (sg ++ tableText (r :: rs)) = (A ++ ['-', '>']) ++ (rhsText r.rhs ++ rest) := by rw [eamp, ← hA]; simp
    have hpos : strFindFrom ['-', '>'] (pre ++ (sg ++ tableText (r :: rs))) pre.length = some A.length := by
      rw [eamp, strFindFrom_drop, strFind_arrow hlhs, hAl]
      simp; omega
    rw [hpos]
    unfold ampTable
    have hl : subStr (pre ++ (sg ++ tableText (r :: rs))) pre.length (subSize A.length pre.length) = sg ++ r.name := by
      unfold subStr subSize
      rw [if_pos (by omega), eamp, List.drop_left]
      exact take_mid _ _ _ (by omega)
    have hA2 : A.length + 2 = (A ++ ['-', '>']).length := by simp
    have hdrop : (pre ++ (sg ++ tableText (r :: rs))).drop (A.length + 2) = rhsText r.rhs ++ rest := by
      rw [eamp2, hA2, List.drop_left]
    simp only [hl, hdrop]
    have hnext : strFindFrom ['-', '>'] (pre ++ (sg ++ tableText (r :: rs))) (A.length + 2) = (strFind ['-', '>'] (rhsText r.rhs ++ rest)).map (· + (A.length + 2)) := by
      unfold strFindFrom; rw [hdrop]
    rw [hnext]
    cases hrs : rs with
    | nil =>
      subst hrs
      simp only [if_true] at hrest
      subst hrest
      rw [List.append_nil, strFind_arrow_none hrg]
      simp only [Option.map_none]
      rw [addRule_eq hvars hfs hrS hsg]
      simp only [List.foldlM_cons, List.foldlM_nil]
      cases s.useRule r <;> rfl
    | cons r2 rs2 =>
      have hne : rs ≠ [] := by simp [hrs]
      rw [if_neg hne] at hrest
      rw [← hrs]
      have hr2 := hok r2 (by simp [hrs])
      have ih := ampTable_rules hvars hf rs hne (fun x hx => hok x (by simp [hx])) (A ++ ['-', '>'] ++ rhsText r.rhs) [','] (Or.inr rfl) fuel (by simpa using hfu)
      have etab2 : ∃ y, tableText rs = r2.name ++ '-' :: '>' :: y := by
        rw [hrs]
        cases rs2 with
        | nil => exact ⟨rhsText r2.rhs, by simp [tableText, rule_text]⟩
        | cons r3 rs3 => exact ⟨_, by simp only [tableText, rule_text]; simp; rfl⟩
      obtain ⟨y, hy⟩ := etab2
      have hr2g : '>' ∉ rhsText r.rhs ++ ',' :: r2.name := by
        simp only [List.mem_append, List.mem_cons, not_or]
        exact ⟨hrg, by decide, fun h => name_chars hf hr2.1 '>' h (by simp)⟩
      have er : rhsText r.rhs ++ rest = (rhsText r.rhs ++ ',' :: r2.name) ++ '-' :: '>' :: y := by
        rw [← hrest, hy]; simp
      rw [er, strFind_arrow hr2g]
      simp only [Option.map_some]
      -- the bracket of the next left-hand side
      obtain ⟨B, hB⟩ : ∃ B, A ++ ['-', '>'] ++ rhsText r.rhs = B := ⟨_, rfl⟩
      have eampB : pre ++ (sg ++ tableText (r :: rs)) = B ++ ',' :: (r2.fam ++ '[' :: (r2.args ++ ']' :: '-' :: '>' :: y)) := by
        rw [eamp2, er, ← hB]; simp [ARule.name, fnName]
      have hbrk : strRFindFrom ['['] (pre ++ (sg ++ tableText (r :: rs))) ((rhsText r.rhs ++ ',' :: r2.name).length + (A.length + 2)) = some (B ++ ',' :: r2.fam).length := by
        unfold strRFindFrom
        have e1 : pre ++ (sg ++ tableText (r :: rs)) = ((B ++ ',' :: r2.fam) ++ '[' :: (r2.args ++ [']', '-'])) ++ '>' :: y := by rw [eampB]; simp
        rw [e1, take_mid _ _ _ (by rw [← hB]; simp [ARule.name, fnName]; omega), strRFind_char]
        simp only [List.mem_append, List.mem_cons, List.not_mem_nil, or_false, not_or]
        exact ⟨fun h => hr2.1.2 '[' h (by simp), by decide, by decide⟩
      have hcom : strRFindFrom [','] (pre ++ (sg ++ tableText (r :: rs))) (B ++ ',' :: r2.fam).length = some B.length := by
        unfold strRFindFrom
        have e1 : pre ++ (sg ++ tableText (r :: rs)) = (B ++ ',' :: (r2.fam ++ ['['])) ++ (r2.args ++ ']' :: '-' :: '>' :: y) := by rw [eampB]; simp
        rw [e1, take_mid _ _ _ (by simp; omega), strRFind_char]
        simp only [List.mem_append, List.mem_cons, List.not_mem_nil, or_false, not_or]
        exact ⟨hf.not_mem hr2.1.1 (by decide), by decide⟩
      rw [hbrk]
      simp only [hcom]
      have hrhs : subStr (pre ++ (sg ++ tableText (r :: rs))) (A.length + 2) (subSize B.length (A.length + 2)) = rhsText r.rhs := by
        unfold subStr subSize
        have hBl : B.length = A.length + 2 + (rhsText r.rhs).length := by rw [← hB]; simp; omega
        rw [hdrop, if_pos (by omega)]
        exact take_mid _ _ _ (by omega)
      rw [hrhs, addRule_eq hvars hfs hrS hsg, List.foldlM_cons]
      cases hu : s.useRule r with
      | error e => rfl
      | ok s' =>
        simp only [bind, Except.bind]
        have := ih s' ((useRule_fams hu).trans hs)
        rw [hB] at this
        rw [← this]
        have e3 : pre ++ (sg ++ tableText (r :: rs)) = B ++ ([','] ++ tableText rs) := by rw [eamp2, ← hB, ← hrest]; simp
        rw [e3]

/-- **a table is read rule by rule.** -/
lemma parseTable_eq (hvars : ∀ v ∈ vars, IsName v) {s : AmpSt} (hf : FamsOK s.fams) {rs : List ARule} (hne : rs ≠ []) (hok : ∀ r ∈ rs, r.OK s.fams vars P N) {text : Str} (ht : Spelled (tableText rs) text) :
    s.parseTable text = rs.foldlM AmpSt.useRule s := by
  have hlen : ∀ rs : List ARule, rs.length ≤ (tableText rs).length := by
    intro rs
    induction rs with
    | nil => simp
    | cons r rs ih =>
      have hr : 2 ≤ r.text.length := by simp [rule_text]; omega
      cases rs with
      | nil => simp [tableText]; omega
      | cons r2 rs =>
        simp only [tableText, List.length_append, List.length_cons] at ih ⊢
        omega
  have hne2 : tableText rs ≠ [] := by
    intro e
    have := hlen rs
    rw [e] at this
    exact hne (List.length_eq_zero_iff.mp (by simpa using this))
  have hc := table_chars hvars hf hok
  unfold AmpSt.parseTable
  rw [strip_spelled ht hne2 ⟨fun h => hc '{' h (by simp), fun h => hc '}' h (by simp)⟩]
  simp only [bind, Except.bind]
  have := ampTable_rules hvars hf rs hne hok [] [] (Or.inl rfl) (tableText rs).length (hlen rs) s rfl
  simpa [strFindFrom] using this

end FireFly
