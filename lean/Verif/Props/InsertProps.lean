import Verif.Model.Insert
import Verif.Props.AmplitudeProps
/-!
# C58: the files of `ff_insert` and their merge
-/
set_option linter.all false
namespace FireFly

variable {fams vars : List Str} {P N : ℕ}

/-- how a file with a sum may be spelled: white space and semicolons anywhere, with or without braces -/
def FileOf (text s : Str) : Prop :=
  s.filter (fun c => c ≠ ' ' ∧ c ≠ '\t' ∧ c ≠ '\n' ∧ c ≠ ';') = text ∨ s.filter (fun c => c ≠ ' ' ∧ c ≠ '\t' ∧ c ≠ '\n' ∧ c ≠ ';') = '{' :: text ++ ['}']

lemma mergeOne_eq (hvars : ∀ v ∈ vars, IsName v) (hf : FamsOK fams) {ts : List ATerm} (h : ∀ t ∈ ts, t.OK fams vars P N) (hne : ts ≠ []) {s : Str} (hs : FileOf (sumText ts) s) :
    mergeOne s = .ok (sumText ts ++ ['\n']) := by
  have h0 : sumText ts ≠ [] := by
    obtain ⟨t, ts, rfl⟩ := List.exists_cons_of_ne_nil hne
    simp [sumText, ATerm.text, ATerm.name, fnName]
  have hc := sum_chars hvars hf h
  have hsp : Spelled (sumText ts) (mergeStrip s) := by
    have hid : ∀ x : Str, (s.filter (fun c => c ≠ ' ' ∧ c ≠ '\t' ∧ c ≠ '\n' ∧ c ≠ ';') = x) → (mergeStrip s).filter (fun c => c ≠ ' ' ∧ c ≠ '\t' ∧ c ≠ '\n') = x := by
      rintro x rfl
      unfold mergeStrip
      rw [List.filter_filter]
      apply List.filter_congr
      intro c _
      simp only [Bool.decide_and, ← Bool.and_assoc]
      by_cases h1 : c = ' ' <;> by_cases h2 : c = '\t' <;> by_cases h3 : c = '\n' <;> by_cases h4 : c = ';' <;> simp [h1, h2, h3, h4]
    exact hs.imp (hid _) (hid _)
  have hws : stripWs (mergeStrip s) = mergeStrip s := by
    unfold stripWs mergeStrip
    rw [List.filter_filter]
    apply List.filter_congr
    intro c _
    by_cases h1 : c = ' ' <;> by_cases h2 : c = '\t' <;> by_cases h3 : c = '\n' <;> by_cases h4 : c = ';' <;> simp [h1, h2, h3, h4]
  have := strip_spelled hsp h0 ⟨fun h => hc '{' h (by simp), fun h => hc '}' h (by simp)⟩
  rw [hws] at this
  unfold mergeOne
  rw [if_neg, this]
  · rfl
  · rintro rfl
    rcases hs with hs | hs <;> simp at hs
    exact h0 hs

/-- **C58 (merge).** Merging files with sums all of whose terms have a sign gives a file with the sum of all of them. -/
theorem C58_merge (hvars : ∀ v ∈ vars, IsName v) (hf : FamsOK fams) {sums : List (List ATerm)} {files : List Str} (hfiles : List.Forall₂ (fun ts s => FileOf (sumText ts) s) sums files)
    (h : ∀ ts ∈ sums, ts ≠ [] ∧ ∀ t ∈ ts, t.OK fams vars P N ∧ t.sign ≠ .none) :
    ∃ merged, mergeFiles files = .ok merged ∧ ';' ∉ merged ∧ Spelled (sumText sums.flatten) merged ∧ SumOK fams vars P N sums.flatten := by
  have hm : ∀ {sums : List (List ATerm)} {files : List Str}, List.Forall₂ (fun ts s => FileOf (sumText ts) s) sums files → (∀ ts ∈ sums, ts ≠ [] ∧ ∀ t ∈ ts, t.OK fams vars P N ∧ t.sign ≠ .none) →
      files.mapM mergeOne = .ok (sums.map fun ts => sumText ts ++ ['\n']) := by
    intro sums files h1
    induction h1 with
    | nil => intro _; rfl
    | cons a _ ih =>
      intro h
      rw [List.mapM_cons, mergeOne_eq hvars hf (fun t ht => ((h _ (by simp)).2 t ht).1) (h _ (by simp)).1 a, ih fun ts hts => h ts (by simp [hts])]
      rfl
  have hall : ∀ t ∈ sums.flatten, t.OK fams vars P N ∧ t.sign ≠ .none := by
    intro t ht
    obtain ⟨ts, hts, ht⟩ := List.mem_flatten.mp ht
    exact (h ts hts).2 t ht
  have hc := sum_chars hvars hf fun t ht => (hall t ht).1
  have hflat : ∀ sums : List (List ATerm), sumText sums.flatten = (sums.map sumText).flatten := by
    intro sums
    unfold sumText
    rw [List.map_flatten, List.flatten_flatten, List.map_map]
    rfl
  refine ⟨_, by unfold mergeFiles; rw [hm hfiles h]; rfl, ?_, Or.inr ?_, fun t ht => (hall t ht).1, fun t ht => (hall t (List.mem_of_mem_tail ht)).2⟩
  · intro hmem
    simp only [List.mem_append, List.mem_flatten, List.mem_map] at hmem
    rcases hmem with (hmem | ⟨_, ⟨ts, hts, rfl⟩, hmem⟩) | hmem
    · revert hmem; decide
    · simp only [List.mem_append, List.mem_singleton] at hmem
      rcases hmem with hmem | hmem
      · refine hc ';' ?_ (by simp)
        rw [hflat]
        exact List.mem_flatten.mpr ⟨_, List.mem_map_of_mem hts, hmem⟩
      · revert hmem; decide
    · revert hmem; decide
  · have e : ∀ s : Str, (∀ c ∈ s, c ∉ [' ', '\t', '\n']) → s.filter (fun c => c ≠ ' ' ∧ c ≠ '\t' ∧ c ≠ '\n') = s := by
      intro s hs
      rw [List.filter_eq_self]
      intro c hc
      have := hs c hc
      simpa using this
    rw [List.filter_append, List.filter_append]
    have e1 : "{\n".toList.filter (fun c => c ≠ ' ' ∧ c ≠ '\t' ∧ c ≠ '\n') = ['{'] := by decide
    have e2 : "}\n".toList.filter (fun c => c ≠ ' ' ∧ c ≠ '\t' ∧ c ≠ '\n') = ['}'] := by decide
    rw [e1, e2]
    have e3 : ∀ sums : List (List ATerm), (∀ ts ∈ sums, ∀ t ∈ ts, t.OK fams vars P N) → (sums.map fun ts => sumText ts ++ ['\n']).flatten.filter (fun c => c ≠ ' ' ∧ c ≠ '\t' ∧ c ≠ '\n') = sumText sums.flatten := by
      intro sums hs
      induction sums with
      | nil => rfl
      | cons ts sums ih =>
        rw [List.map_cons, List.flatten_cons, List.filter_append, List.filter_append, ih fun x hx => hs x (by simp [hx]), e]
        · simp [sumText]
        · intro c hc h2
          exact sum_chars hvars hf (hs ts (by simp)) c hc (by simp only [List.mem_cons, List.not_mem_nil, or_false] at h2 ⊢; tauto)
    rw [e3 sums fun ts hts t ht => ((h ts hts).2 t ht).1]
    simp

/-! ## coefficients without names of functions -/

/-- no name of a function -/
def NoFam (fams : List Str) (s : Str) : Prop := ∀ f ∈ fams, ¬ f <:+: s

lemma NoFam.nil (hf : FamsOK fams) : NoFam fams [] := fun f h hi => (hf.chars f h).1 (List.infix_nil.mp hi)

lemma NoFam.mid (hf : FamsOK fams) {a b : Str} {d : Char} (hd : d ∈ ['[', ']', '{', '}', '>', ';', ' ', '\t', '\n', '+', '-', '*', ',', '/', '^', '(', ')']) (ha : NoFam fams a) (hb : NoFam fams b) : NoFam fams (a ++ d :: b) := by
  intro f h hi
  rcases infix_split (hf.not_mem h hd) hi with h1 | h1
  · exact ha f h h1
  · exact hb f h h1

lemma NoFam.cons (hf : FamsOK fams) {b : Str} {d : Char} (hd : d ∈ ['[', ']', '{', '}', '>', ';', ' ', '\t', '\n', '+', '-', '*', ',', '/', '^', '(', ')']) (hb : NoFam fams b) : NoFam fams (d :: b) :=
  NoFam.mid hf hd (NoFam.nil hf) hb

lemma NoFam.paren (hf : FamsOK fams) {e : Expr} (h : NoFam fams e.render) : NoFam fams (Expr.paren e).render := by
  have e1 : (Expr.paren e).render = '(' :: (e.render ++ ')' :: []) := by simp [Expr.render]
  rw [e1]
  exact NoFam.cons hf (by decide) (NoFam.mid hf (by decide) h (NoFam.nil hf))

lemma expr_noFam (hf : FamsOK fams) (h1 : ['1'] ∉ fams) {t : ATerm} (h : t.OK fams vars P N) : NoFam fams t.expr.render := by
  have hone : NoFam fams (Expr.num ['1']).render := by
    intro f hm hi
    have hl := hi.length_le
    have : f = ['1'] := hi.eq_of_length (by
      have := (hf.chars f hm).1
      have : 0 < f.length := List.length_pos_iff.mpr this
      simp [Expr.render] at hl ⊢; omega)
    exact h1 (this ▸ hm)
  have key : ∀ c : Expr, NoFam fams c.render → ∀ s : ASign, NoFam fams (if s = .minus then Expr.neg .m (.paren c) else c).render := by
    intro c hc s
    split
    · have e1 : (Expr.neg .m (.paren c)).render = '-' :: (Expr.paren c).render := by simp [Expr.render, Minus.render]
      rw [e1]
      exact NoFam.cons hf (by decide) (NoFam.paren hf hc)
    · exact hc
  unfold ATerm.expr
  cases hc : t.coef with
  | none => exact key _ hone _
  | some c => exact key _ (h.2 c hc).2.2 _

lemma sumExpr_noFam (hf : FamsOK fams) {es : List Expr} (h : ∀ e ∈ es, NoFam fams e.render) (hne : es ≠ []) : NoFam fams (sumExpr es).render := by
  obtain ⟨e, es, rfl⟩ := List.exists_cons_of_ne_nil hne
  unfold sumExpr
  have : ∀ (es : List Expr) (a : Expr), NoFam fams a.render → (∀ e ∈ es, NoFam fams e.render) → NoFam fams (es.foldl (fun a b => Expr.add a (.paren b)) a).render := by
    intro es
    induction es with
    | nil => intro a ha _; exact ha
    | cons e es ih =>
      intro a ha h
      rw [List.foldl_cons]
      exact ih _ (NoFam.mid hf (by decide) ha (NoFam.paren hf (h e (by simp)))) fun x hx => h x (by simp [hx])
  exact this es _ (NoFam.paren hf (h e (by simp))) fun x hx => h x (by simp [hx])

lemma blockSum_noFam (hf : FamsOK fams) {es : List Expr} (h : ∀ e ∈ es, NoFam fams e.render) (hne : es ≠ []) : NoFam fams (blockSum es).render := by
  obtain ⟨e, es, rfl⟩ := List.exists_cons_of_ne_nil hne
  unfold blockSum
  have : ∀ (es : List Expr) (a : Expr), NoFam fams a.render → (∀ e ∈ es, NoFam fams e.render) → NoFam fams (es.foldl Expr.add a).render := by
    intro es
    induction es with
    | nil => intro a ha _; exact ha
    | cons e es ih =>
      intro a ha h
      rw [List.foldl_cons]
      exact ih _ (NoFam.mid hf (by decide) ha (h e (by simp))) fun x hx => h x (by simp [hx])
  exact this es _ (NoFam.cons hf (by decide) (h e (by simp))) fun x hx => h x (by simp [hx])

lemma coefExpr_noFam (hf : FamsOK fams) (h1 : ['1'] ∉ fams) {rules : List ARule} {ts : List ATerm} {n : Str} {xs : List Str} (hts : ∀ t ∈ ts, t.OK fams vars P N) (hr : ∀ r ∈ rules, ∀ t ∈ r.rhs, t.OK fams vars P N)
    (hx : ∀ x ∈ xs, ∃ t ∈ ts, t.name = x) (hn : ∃ x ∈ xs, exprsFor n (masterExprs rules x) ≠ []) : NoFam fams (coefExpr rules ts n xs).render := by
  unfold coefExpr
  apply blockSum_noFam hf
  · intro e he
    rw [List.mem_map] at he
    obtain ⟨x, hxm, rfl⟩ := he
    rw [List.mem_filter] at hxm
    obtain ⟨hxm, hne⟩ := hxm
    unfold blockExpr
    refine NoFam.mid hf (by decide) (NoFam.paren hf (sumExpr_noFam hf ?_ ?_)) (NoFam.paren hf (sumExpr_noFam hf ?_ (by simpa using hne)))
    · intro e he
      rw [List.mem_map] at he
      obtain ⟨t, ht, rfl⟩ := he
      exact expr_noFam hf h1 (hts t (List.mem_of_mem_filter ht))
    · obtain ⟨t, ht, e⟩ := hx x hxm
      intro h0
      rw [List.map_eq_nil_iff, List.filter_eq_nil_iff] at h0
      exact h0 t ht (by simpa using e)
    · intro e he
      unfold exprsFor at he
      rw [List.mem_map] at he
      obtain ⟨q, hq, rfl⟩ := he
      have hq := List.mem_of_mem_filter hq
      unfold masterExprs at hq
      cases hrr : ruleFor rules x with
      | none =>
        rw [hrr] at hq
        simp at hq
        subst hq
        exact expr_noFam (vars := vars) (P := P) (N := N) hf h1 (t := { (hx x hxm).choose with sign := .none, coef := none }) ⟨(hts _ (hx x hxm).choose_spec.1).1, by rintro c ⟨⟩⟩
      | some rhs =>
        rw [hrr] at hq
        simp only [List.mem_map] at hq
        obtain ⟨t, ht, rfl⟩ := hq
        unfold ruleFor at hrr
        rw [Option.map_eq_some_iff] at hrr
        obtain ⟨r, hrr, rfl⟩ := hrr
        exact expr_noFam hf h1 (hr r (List.mem_of_find?_eq_some hrr) t ht)
  · obtain ⟨x, hx1, hx2⟩ := hn
    intro h0
    rw [List.map_eq_nil_iff, List.filter_eq_nil_iff] at h0
    exact h0 x hx1 (by simpa using hx2)

/-- a file of a master is a sum of one term -/
lemma coefFile_of {hvars : ∀ v ∈ vars, IsName v} (hf : FamsOK fams) {t : ATerm} {e : Expr} (ht : t.sign = .plus) (hc : t.coef = some (.paren e)) (hok : t.OK fams vars P N) :
    FileOf (sumText [t]) (coefFile t.name e.render) := by
  right
  have hcs := sum_chars hvars hf (ts := [t]) (by simpa using hok)
  have htxt : sumText [t] = '+' :: (t.name ++ '*' :: '(' :: (e.render ++ [')'])) := by
    simp [sumText, ATerm.text, ht, hc, ASign.text, coefText, Expr.render]
  have hall : ∀ s : Str, (∀ c ∈ s, c ∈ sumText [t]) → s.filter (fun c => c ≠ ' ' ∧ c ≠ '\t' ∧ c ≠ '\n' ∧ c ≠ ';') = s := by
    intro s hs
    rw [List.filter_eq_self]
    intro c hcc
    have := hcs c (hs c hcc)
    simp only [List.mem_cons, List.not_mem_nil, or_false, not_or] at this
    simp [this]
  unfold coefFile
  simp only [List.filter_append]
  rw [hall t.name (by intro c hc'; rw [htxt]; simp [hc']), hall e.render (by intro c hc'; rw [htxt]; simp [hc']), htxt]
  have e1 : "{\n + ".toList.filter (fun c => c ≠ ' ' ∧ c ≠ '\t' ∧ c ≠ '\n' ∧ c ≠ ';') = ['{', '+'] := by decide
  have e2 : "*(".toList.filter (fun c => c ≠ ' ' ∧ c ≠ '\t' ∧ c ≠ '\n' ∧ c ≠ ';') = ['*', '('] := by decide
  have e3 : ")\n}\n".toList.filter (fun c => c ≠ ' ' ∧ c ≠ '\t' ∧ c ≠ '\n' ∧ c ≠ ';') = [')', '}'] := by decide
  rw [e1, e2, e3]
  simp

/-- **C58 (round trip).** The files with the coefficients of the masters, merged in any order of the files, are again an expression that can be read, and its value is the value of the first expression after the replacement: for
all values of the variables and of the functions, and whatever the order of the hash map was. -/
theorem C58_round_trip (hvars : ∀ v ∈ vars, IsName v) (hf : FamsOK fams) (hone : ['1'] ∉ fams) {ts : List ATerm} (h : SumOK fams vars P N ts) (hne : ts ≠ []) {text : Str} (ht : Spelled (sumText ts) text)
    {tables : List (List ARule)} {texts : List Str} (htab : List.Forall₂ (fun rs text => Spelled (tableText rs) text) tables texts)
    (hok : ∀ rs ∈ tables, rs ≠ [] ∧ ∀ r ∈ rs, r.OK fams vars P N)
    (hdup : ((tables.flatten.map ARule.name).filter fun x => x ∈ ts.map ATerm.name).Nodup) :
    ∃ s1 s2, AmpSt.parseAmplitude { fams := fams } text = .ok s1 ∧ texts.foldlM AmpSt.parseTable s1 = .ok s2 ∧
      ∀ order, order.Perm s2.integrals → ∃ files, (s2.check order).1.insertFiles (s2.check order).2 = .ok files ∧
        ∀ files', files'.Perm files → ∃ merged ts', mergeFiles files' = .ok merged ∧ ';' ∉ merged ∧ Spelled (sumText ts') merged ∧ SumOK fams vars P N ts' ∧
          ∀ (K : Type) [Field K] (env φ : Str → K), sumValue env φ ts' = replacedValue tables.flatten env φ ts := by
  obtain ⟨s1, s2, h1, h2, h3⟩ := ampRun hvars hf h hne ht htab hok hdup
  refine ⟨s1, s2, h1, h2, fun order ho => ?_⟩
  obtain ⟨xs, names, hd, hl⟩ := h3 order ho
  have hrok : ∀ r ∈ tables.flatten, ∀ t ∈ r.rhs, t.OK fams vars P N := by
    intro r hr t ht'
    obtain ⟨rs, hrs, hr⟩ := List.mem_flatten.mp hr
    exact ((hok rs hrs).2 r hr).2.1 t ht'
  -- a term for every master
  have hterm : ∀ n ∈ names, ∃ t : ATerm, t.name = n ∧ t.sign = .plus ∧ t.coef = some (.paren (coefExpr tables.flatten ts n xs)) ∧ t.OK fams vars P N := by
    intro n hn
    have hfn : ∃ t : ATerm, t.name = n ∧ t.OK fams vars P N := by
      obtain ⟨t, ht', hm⟩ := (hd.names n).mp hn
      cases hr : ruleFor tables.flatten t.name with
      | none => rw [hr] at hm; exact ⟨t, hm, h.1 t ht'⟩
      | some rhs =>
        rw [hr] at hm
        obtain ⟨r, hrr, e⟩ := hm
        refine ⟨r, e, ?_⟩
        unfold ruleFor at hr
        rw [Option.map_eq_some_iff] at hr
        obtain ⟨rl, hrl, rfl⟩ := hr
        exact hrok rl (List.mem_of_find?_eq_some hrl) r hrr
    obtain ⟨t, e, hto⟩ := hfn
    refine ⟨⟨.plus, t.fam, t.args, some (.paren (coefExpr tables.flatten ts n xs))⟩, e, rfl, rfl, hto.1, ?_⟩
    rintro c ⟨⟩
    refine ⟨?_, by simp [Expr.level], NoFam.paren hf ?_⟩
    · exact coefExpr_wf tables.flatten ts n xs (fun t ht' => expr_wf (h.1 t ht')) fun r hr t ht' => expr_wf (hrok r hr t ht')
    · apply coefExpr_noFam hf hone h.1 hrok (fun x hx => (hd.mem x).mp hx)
      obtain ⟨x, hx, r, hr, e⟩ := hd.inv.used n hn
      refine ⟨x, hx, ?_⟩
      unfold masterTexts at hr
      rw [List.mem_map] at hr
      obtain ⟨q, hq, rfl⟩ := hr
      intro h0
      unfold exprsFor at h0
      rw [List.map_eq_nil_iff, List.filter_eq_nil_iff] at h0
      exact h0 q hq (by simpa using e)
  have hfiles : (s2.check order).1.insertFiles (s2.check order).2 = .ok (names.map fun n => coefFile n (coefExpr tables.flatten ts n xs).render) := by
    unfold AmpSt.insertFiles
    rw [hl, mapM_const (g := fun m => (fun n => coefFile n (coefExpr tables.flatten ts n xs).render) (names.getD m []))]
    · congr 1
      apply List.ext_getElem
      · simp
      · intro i h1 h2
        simp at h1 h2
        simp [h1]
    · intro m hm
      rw [List.mem_range] at hm
      have hm' : names[m]? = some names[m] := List.getElem?_eq_getElem hm
      rw [hd.getMaster hm', hd.getCoef hm']
      simp [hm', bind, Except.bind]
  refine ⟨_, hfiles, fun files' hp => ?_⟩
  -- the files in the other order
  obtain ⟨names', hpn, rfl⟩ : ∃ names' : List Str, names'.Perm names ∧ files' = names'.map fun n => coefFile n (coefExpr tables.flatten ts n xs).render := by
    have := (congrFun (congrFun (List.eq_map_comp_perm fun n => coefFile n (coefExpr tables.flatten ts n xs).render) files') names).mpr hp
    obtain ⟨l, h1, h2⟩ := this
    exact ⟨l, h2, h1⟩
  haveI : Inhabited ATerm := ⟨⟨.none, [], [], none⟩⟩
  choose! T hT using hterm
  have hm' : ∀ n ∈ names', n ∈ names := fun n hn => hpn.mem_iff.mp hn
  have hsums : List.Forall₂ (fun ts s => FileOf (sumText ts) s) (names'.map fun n => [T n]) (names'.map fun n => coefFile n (coefExpr tables.flatten ts n xs).render) := by
    rw [List.forall₂_map_left_iff, List.forall₂_map_right_iff, List.forall₂_same]
    intro n hn
    obtain ⟨t1, t2, t3, t4⟩ := hT n (hm' n hn)
    have := coefFile_of (hvars := hvars) hf t2 t3 t4
    rwa [t1] at this
  obtain ⟨merged, m1, m2, m3, m4⟩ := C58_merge hvars hf hsums (by
    intro l hl'
    rw [List.mem_map] at hl'
    obtain ⟨n, hn, rfl⟩ := hl'
    obtain ⟨t1, t2, t3, t4⟩ := hT n (hm' n hn)
    refine ⟨by simp, ?_⟩
    intro t ht'
    rw [List.mem_singleton] at ht'
    subst ht'
    exact ⟨t4, by rw [t2]; decide⟩)
  have hflat : ∀ l : List Str, (l.map fun n => [T n]).flatten = l.map T := by
    intro l
    induction l with
    | nil => rfl
    | cons a l ih => simp [ih]
  rw [hflat] at m3 m4
  refine ⟨merged, names'.map T, m1, m2, m3, m4, ?_⟩
  intro K _ env φ
  rw [← sum_masters tables.flatten env φ ts hd.inv.nnodup (fun n hn => (hd.names n).mpr hn)]
  unfold sumValue
  rw [List.map_map, ← (hpn.map fun n => masterCoef tables.flatten env ts n * φ n).sum_eq]
  congr 1
  apply List.map_congr_left
  intro n hn
  obtain ⟨t1, t2, t3, t4⟩ := hT n (hm' n hn)
  simp only [Function.comp]
  rw [t1]
  congr 1
  unfold ATerm.value
  rw [t2, t3]
  simp only [Expr.denote]
  exact coefExpr_value tables.flatten env ts n hd.inv.xnodup fun t ht' => (hd.mem _).mpr ⟨t, ht', rfl⟩

/-- **C58 (signs).** The signs are needed, also for the first term of a file: the merge of files with `F[1]*(x+1)` and with `F[2]*y` is read with the coefficient `(x+1`, and the merge of files with `F[1]*x` and `F[2]*y` with an empty
coefficient. -/
theorem C58_sign_violated :
    (mergeFiles ["F[1]*(x+1)".toList, "F[2]*y".toList] >>= ampParseTop ["F".toList]) = .ok [("F[1]".toList, "(x+1".toList), ("F[2]".toList, "y".toList)] ∧
    (mergeFiles ["F[1]*x".toList, "F[2]*y".toList] >>= ampParseTop ["F".toList]) = .ok [("F[1]".toList, []), ("F[2]".toList, "y".toList)] := by
  constructor <;> decide +kernel

/-- the files and their merge for the example of `C57` -/
example : (AmpSt.parseAmplitude { fams := exFams } "INT[1,1]*x-F_1[2]*(x+y)".toList >>= fun s => s.parseTable "{INT[1,1]->INT[0,0]*x^2-F_1[2]}".toList >>= fun s =>
      (s.check s.integrals).1.insertFiles (s.check s.integrals).2 >>= mergeFiles)
    = .ok "{\n+INT[0,0]*(+((x))*((x^2)))\n+F_1[2]*(+((x))*((-(1)))+((-((x+y))))*((1)))\n}\n".toList := by decide +kernel

example : ['1'] ∉ exFams := by decide

/-- **C58 (blank files).** A file with nothing but white space is read beyond its end. -/
theorem C58_blank_violated : mergeFiles ["F[1]*x".toList, " \n".toList] = .error .ub := by decide +kernel

end FireFly
