import Verif.Lemmas.AmpTable
import Mathlib.Data.List.Nodup
import Mathlib.Data.List.Induction
/-! # The tables of `AmplitudeParser`: functions, masters and the entries of every function -/
set_option linter.all false
namespace FireFly

lemma lookup_zipIdx (x : Str) : ∀ (xs : List Str) (n : ℕ), (xs.zipIdx n).lookup x = if x ∈ xs then some (n + xs.idxOf x) else none
  | [], n => by simp
  | y :: ys, n => by
    rw [List.zipIdx_cons, List.lookup_cons]
    by_cases h : x = y
    · subst h; simp
    · have hb : (x == y) = false := by simpa using h
      simp only [hb]
      rw [lookup_zipIdx x ys (n + 1)]
      have h' : y ≠ x := fun e => h e.symm
      simp only [List.mem_cons, h, false_or]
      split
      · rw [List.idxOf_cons_ne _ h']; congr 1; omega
      · rfl

lemma zipIdx_snoc (xs : List Str) (x : Str) (n : ℕ) : (xs ++ [x]).zipIdx n = xs.zipIdx n ++ [(x, n + xs.length)] := by
  rw [List.zipIdx_append]; simp [Nat.add_comm]

/-- the entries of every function -/
def entryMap (xs : List Str) (E : Str → List (ℕ × ℕ)) : List (ℕ × List (ℕ × ℕ)) := xs.zipIdx.map fun q => (q.2, E q.1)

lemma entryMap_keys (xs : List Str) (E) : (entryMap xs E).map (·.1) = List.range xs.length := by
  unfold entryMap
  rw [List.map_map]
  apply List.ext_getElem <;> simp

lemma lookup_map_zipIdx (E : Str → List (ℕ × ℕ)) (i : ℕ) : ∀ (xs : List Str) (n : ℕ), ((xs.zipIdx n).map fun q => (q.2, E q.1)).lookup (n + i) = xs[i]?.map E := by
  intro xs
  induction xs generalizing i with
  | nil => simp
  | cons y ys ih =>
    intro n
    rw [List.zipIdx_cons, List.map_cons, List.lookup_cons]
    cases i with
    | zero => simp
    | succ i =>
      have hb : (n + (i + 1) == n) = false := by simp
      simp only [hb]
      have := ih i (n + 1)
      rw [show n + (i + 1) = n + 1 + i by omega, this]
      simp

lemma entryMap_lookup (xs : List Str) (E) (i : ℕ) : (entryMap xs E).lookup i = xs[i]?.map E := by
  have := lookup_map_zipIdx E i xs 0
  simpa [entryMap] using this

lemma entryMap_push {xs : List Str} (hn : xs.Nodup) (E) {x : Str} (hx : x ∈ xs) (e : ℕ × ℕ) :
    mapPush (entryMap xs E) (xs.idxOf x) e = entryMap xs (Function.update E x (E x ++ [e])) := by
  unfold mapPush
  rw [entryMap_keys, if_pos (by simpa using List.idxOf_lt_length_iff.mpr hx)]
  unfold entryMap
  rw [List.map_map]
  apply List.map_congr_left
  rintro ⟨y, i⟩ hq
  have hy := List.mem_zipIdx' hq
  obtain ⟨hi, hyi⟩ := hy
  simp only [Function.comp]
  by_cases h : y = x
  · subst h
    rw [if_pos, Function.update_self]
    rw [hyi]; exact (hn.idxOf_getElem i hi).symm
  · rw [if_neg, Function.update_of_ne h]
    intro e
    apply h
    rw [hyi]
    have := List.getElem_idxOf (List.idxOf_lt_length_iff.mpr hx)
    simp only [← e] at this
    exact this

lemma entryMap_emplace {xs : List Str} (E) {x : Str} (hx : x ∉ xs) (e : ℕ × ℕ) :
    mapEmplace (entryMap xs E) xs.length e = entryMap (xs ++ [x]) (Function.update E x [e]) := by
  unfold mapEmplace
  rw [entryMap_keys, if_neg (by simp)]
  unfold entryMap
  rw [zipIdx_snoc, List.map_append]
  congr 1
  · apply List.map_congr_left
    rintro ⟨y, i⟩ hq
    have hy : y ∈ xs := by
      obtain ⟨hi, hyi⟩ := List.mem_zipIdx' hq
      rw [hyi]; exact List.getElem_mem _
    rw [Function.update_of_ne (by rintro rfl; exact hx hy)]
  · simp

/-- what the entries of a function say: the coefficients `ps` of the function in the expression, and the masters with their coefficients `rs` -/
def Entries (F names : List Str) (es : List (ℕ × ℕ)) (ps : List Str) (rs : List (Str × Str)) : Prop :=
  ∃ Pl Q, es = Pl ++ Q ∧ List.Forall₂ (fun e f => e.2 = 0 ∧ F[e.1]? = some f) Pl ps ∧
    List.Forall₂ (fun (e : ℕ × ℕ) (r : Str × Str) => F[e.1]? = some r.2 ∧ ∃ m, names[m]? = some r.1 ∧ e.2 = m + 2) Q rs

lemma Entries.mono {F names es ps rs} (h : Entries F names es ps rs) (F' names' : List Str) : Entries (F ++ F') (names ++ names') es ps rs := by
  obtain ⟨Pl, Q, he, h1, h2⟩ := h
  have hget : ∀ {α : Type} (L L' : List α) (i : ℕ) (a : α), L[i]? = some a → (L ++ L')[i]? = some a := by
    intro α L L' i a h
    rw [List.getElem?_append_left (List.getElem?_eq_some_iff.mp h).1, h]
  refine ⟨Pl, Q, he, h1.imp fun e f h => ⟨h.1, hget _ _ _ _ h.2⟩, h2.imp fun e r h => ?_⟩
  obtain ⟨h3, m, h4, h5⟩ := h
  exact ⟨hget _ _ _ _ h3, m, hget _ _ _ _ h4, h5⟩

lemma Entries.pushPref {F names es ps} (h : Entries F names es ps []) (f : Str) : Entries (F ++ [f]) names (es ++ [(F.length, 0)]) (ps ++ [f]) [] := by
  obtain ⟨Pl, Q, he, h1, h2⟩ := h.mono [f] []
  have : Q = [] := List.forall₂_nil_right_iff.mp h2
  subst this
  refine ⟨Pl ++ [(F.length, 0)], [], by simp [he], ?_, .nil⟩
  exact List.rel_append h1 (.cons ⟨rfl, by simp⟩ .nil)

lemma Entries.pushMaster {F names es ps rs} (h : Entries F names es ps rs) {q : Str × Str} {m : ℕ} (hm : names[m]? = some q.1) : Entries (F ++ [q.2]) names (es ++ [(F.length, m + 2)]) ps (rs ++ [q]) := by
  obtain ⟨Pl, Q, he, h1, h2⟩ := h.mono [q.2] []
  simp only [List.append_nil] at h2
  exact ⟨Pl, Q ++ [(F.length, m + 2)], by simp [he], h1, List.rel_append h2 (.cons ⟨by simp, m, hm, rfl⟩ .nil)⟩

/-- the state of the object -/
structure AmpInv (s : AmpSt) (xs names : List Str) (C : Str → List Str) (R : Str → List (Str × Str)) : Prop where
  xnodup : xs.Nodup
  integrals : s.integrals = xs.zipIdx
  icount : s.integralCount = xs.length
  pcount : s.parserCount = s.functions.length
  nnodup : names.Nodup
  masters : s.masters = names.zipIdx 2
  inv : s.mastersInv = names.zipIdx.map fun q => (q.2, q.1)
  mcount : s.masterCount = names.length + 2
  mapping : ∃ E, s.mapping = entryMap xs E ∧ ∀ x ∈ xs, Entries s.functions names (E x) (C x) (R x)
  used : ∀ n ∈ names, ∃ x ∈ xs, ∃ r ∈ R x, r.1 = n

/-! ## the terms of the expression -/

lemma AmpInv.addTerm {s : AmpSt} {xs : List Str} {C : Str → List Str} (h : AmpInv s xs [] C fun _ => []) (hC : ∀ x, x ∉ xs → C x = []) (q : Str × Str) :
    ∃ xs', (∀ x, x ∈ xs' ↔ x ∈ xs ∨ x = q.1) ∧ AmpInv (s.addTerm q) xs' [] (Function.update C q.1 (C q.1 ++ [q.2])) fun _ => [] := by
  obtain ⟨E, hE, hent⟩ := h.mapping
  unfold AmpSt.addTerm
  have hl : s.integrals.lookup q.1 = if q.1 ∈ xs then some (xs.idxOf q.1) else none := by
    rw [h.integrals, lookup_zipIdx]; simp
  by_cases hq : q.1 ∈ xs
  · rw [if_pos hq] at hl
    rw [hl]
    refine ⟨xs, fun x => ⟨Or.inl, fun hx => hx.elim id (· ▸ hq)⟩, ?_⟩
    refine ⟨h.xnodup, h.integrals, h.icount, by simp [h.pcount], by simp, h.masters, h.inv, h.mcount, ?_, by simp⟩
    refine ⟨Function.update E q.1 (E q.1 ++ [(s.parserCount, 0)]), ?_, ?_⟩
    · rw [hE]; exact entryMap_push h.xnodup E hq _
    · intro x hx
      by_cases e : x = q.1
      · subst e
        rw [Function.update_self, Function.update_self, h.pcount]
        exact (hent _ hx).pushPref _
      · rw [Function.update_of_ne e, Function.update_of_ne e]
        simpa using (hent _ hx).mono [q.2] []
  · rw [if_neg hq] at hl
    rw [hl]
    refine ⟨xs ++ [q.1], fun x => by simp, ?_⟩
    refine ⟨?_, ?_, by simp [h.icount], by simp [h.pcount], by simp, h.masters, h.inv, h.mcount, ?_, by simp⟩
    · rw [List.nodup_append]
      refine ⟨h.xnodup, by simp, ?_⟩
      intro a ha b hb e
      simp at hb
      subst hb; subst e; exact hq ha
    · simp only
      rw [h.integrals, zipIdx_snoc, h.icount]; simp
    · refine ⟨Function.update E q.1 [(s.parserCount, 0)], ?_, ?_⟩
      · simp only
        rw [hE, h.icount]; exact entryMap_emplace E hq _
      · intro x hx
        by_cases e : x = q.1
        · subst e
          rw [Function.update_self, Function.update_self, h.pcount, hC _ hq]
          exact Entries.pushPref (es := []) (ps := []) ⟨[], [], rfl, .nil, .nil⟩ _
        · rw [Function.update_of_ne e, Function.update_of_ne e]
          have hx' : x ∈ xs := by simpa [e] using hx
          simpa using (hent _ hx').mono [q.2] []

/-- the coefficients of a function among pairs -/
def coefsOf (qs : List (Str × Str)) (x : Str) : List Str := (qs.filter fun q => q.1 = x).map (·.2)

lemma coefsOf_snoc (qs : List (Str × Str)) (q : Str × Str) : coefsOf (qs ++ [q]) = Function.update (coefsOf qs) q.1 (coefsOf qs q.1 ++ [q.2]) := by
  funext x
  unfold coefsOf
  by_cases h : x = q.1
  · subst h; simp
  · rw [Function.update_of_ne h]
    have : ¬ q.1 = x := fun e => h e.symm
    simp [this]

lemma AmpInv.terms {s : AmpSt} (h : AmpInv s [] [] (fun _ => []) fun _ => []) : ∀ qs : List (Str × Str),
    ∃ xs, (∀ x, x ∈ xs ↔ x ∈ qs.map (·.1)) ∧ AmpInv (qs.foldl AmpSt.addTerm s) xs [] (coefsOf qs) fun _ => [] := by
  intro qs
  induction qs using List.reverseRecOn with
  | nil => exact ⟨[], by simp, h⟩
  | append_singleton qs q ih =>
    obtain ⟨xs, hx, ih⟩ := ih
    obtain ⟨xs', hx', h'⟩ := ih.addTerm (fun x hxx => by
      rw [hx] at hxx
      unfold coefsOf
      rw [List.map_eq_nil_iff, List.filter_eq_nil_iff]
      intro q hq e
      apply hxx
      simp only [decide_eq_true_eq] at e
      exact e ▸ List.mem_map_of_mem hq) q
    refine ⟨xs', fun x => ?_, ?_⟩
    · rw [hx', hx]; simp
    · rw [List.foldl_append, coefsOf_snoc]; exact h'

lemma addTerm_rest (s : AmpSt) (q : Str × Str) : (s.addTerm q).repl = s.repl ∧ (s.addTerm q).fams = s.fams := by
  unfold AmpSt.addTerm; split <;> exact ⟨rfl, rfl⟩

lemma addTerms_rest : ∀ (qs : List (Str × Str)) (s : AmpSt), (qs.foldl AmpSt.addTerm s).repl = s.repl ∧ (qs.foldl AmpSt.addTerm s).fams = s.fams
  | [], s => ⟨rfl, rfl⟩
  | q :: qs, s => by rw [List.foldl_cons, (addTerms_rest qs _).1, (addTerms_rest qs _).2]; exact addTerm_rest s q

/-! ## masters -/

lemma addMaster_rest (i : ℕ) (s : AmpSt) (q : Str × Str) : (s.addMaster i q).repl = s.repl ∧ (s.addMaster i q).integrals = s.integrals := by
  unfold AmpSt.addMaster; simp only; split <;> exact ⟨rfl, rfl⟩

lemma addMasters_rest (i : ℕ) : ∀ (qs : List (Str × Str)) (s : AmpSt), (qs.foldl (AmpSt.addMaster i) s).repl = s.repl ∧ (qs.foldl (AmpSt.addMaster i) s).integrals = s.integrals
  | [], s => ⟨rfl, rfl⟩
  | q :: qs, s => by rw [List.foldl_cons, (addMasters_rest i qs _).1, (addMasters_rest i qs _).2]; exact addMaster_rest i s q

lemma AmpInv.congrR {s xs names C R R'} (h : AmpInv s xs names C R) (hR : ∀ x ∈ xs, R x = R' x) : AmpInv s xs names C R' := by
  obtain ⟨E, hE, hent⟩ := h.mapping
  refine ⟨h.xnodup, h.integrals, h.icount, h.pcount, h.nnodup, h.masters, h.inv, h.mcount, ⟨E, hE, fun x hx => hR x hx ▸ hent x hx⟩, ?_⟩
  intro n hn
  obtain ⟨x, hx, r, hr, e⟩ := h.used n hn
  exact ⟨x, hx, r, hR x hx ▸ hr, e⟩

lemma AmpInv.addMaster {s : AmpSt} {xs names : List Str} {C R} (h : AmpInv s xs names C R) {x : Str} (hx : x ∈ xs) (q : Str × Str) :
    ∃ names', AmpInv (s.addMaster (xs.idxOf x) q) xs names' C (Function.update R x (R x ++ [q])) := by
  obtain ⟨E, hE, hent⟩ := h.mapping
  have hl : s.masters.lookup q.1 = if q.1 ∈ names then some (2 + names.idxOf q.1) else none := by
    rw [h.masters, lookup_zipIdx]
  have hused : ∀ {names' : List Str}, (∀ n ∈ names', n ∈ names ∨ n = q.1) → ∀ n ∈ names', ∃ y ∈ xs, ∃ r ∈ Function.update R x (R x ++ [q]) y, r.1 = n := by
    intro names' hn' n hn
    rcases hn' n hn with hn | rfl
    · obtain ⟨y, hy, r, hr, e⟩ := h.used n hn
      refine ⟨y, hy, r, ?_, e⟩
      by_cases e' : y = x
      · subst e'; rw [Function.update_self]; simp [hr]
      · rw [Function.update_of_ne e']; exact hr
    · exact ⟨x, hx, q, by rw [Function.update_self]; simp, rfl⟩
  unfold AmpSt.addMaster
  by_cases hq : q.1 ∈ names
  · rw [if_pos hq] at hl
    rw [hl]
    refine ⟨names, h.xnodup, h.integrals, h.icount, by simp [h.pcount], h.nnodup, h.masters, h.inv, h.mcount, ?_, hused fun n hn => Or.inl hn⟩
    refine ⟨Function.update E x (E x ++ [(s.parserCount, names.idxOf q.1 + 2)]), ?_, ?_⟩
    · simp only [hl, Option.getD_some]
      rw [hE, Nat.add_comm 2]; exact entryMap_push h.xnodup E hx _
    · intro y hy
      by_cases e : y = x
      · subst e
        rw [Function.update_self, Function.update_self, h.pcount]
        exact (hent _ hy).pushMaster (List.getElem?_idxOf hq)
      · rw [Function.update_of_ne e, Function.update_of_ne e]
        simpa using (hent _ hy).mono [q.2] []
  · rw [if_neg hq] at hl
    rw [hl]
    have hm' : s.masters ++ [(q.1, s.masterCount)] = (names ++ [q.1]).zipIdx 2 := by
      rw [zipIdx_snoc, h.masters, h.mcount, Nat.add_comm 2]
    have hl2 : (s.masters ++ [(q.1, s.masterCount)]).lookup q.1 = some (names.length + 2) := by
      rw [hm', lookup_zipIdx, if_pos (by simp), List.idxOf_append_of_notMem hq]
      simp; omega
    have hnd : (names ++ [q.1]).Nodup := by
      rw [List.nodup_append]
      refine ⟨h.nnodup, by simp, ?_⟩
      intro a ha b hb e
      simp at hb
      subst hb; subst e; exact hq ha
    refine ⟨names ++ [q.1], h.xnodup, h.integrals, h.icount, by simp [h.pcount], hnd, hm', ?_, by simp [h.mcount], ?_, hused fun n hn => by simpa using hn⟩
    · simp only
      rw [h.inv, zipIdx_snoc, h.mcount]; simp
    · refine ⟨Function.update E x (E x ++ [(s.parserCount, names.length + 2)]), ?_, ?_⟩
      · simp only [hl2, Option.getD_some]
        rw [hE]; exact entryMap_push h.xnodup E hx _
      · intro y hy
        have hmono : Entries s.functions (names ++ [q.1]) (E y) (C y) (R y) := by simpa using (hent _ hy).mono [] [q.1]
        by_cases e : y = x
        · subst e
          rw [Function.update_self, Function.update_self, h.pcount]
          exact hmono.pushMaster (by simp)
        · rw [Function.update_of_ne e, Function.update_of_ne e]
          simpa using hmono.mono [q.2] []

lemma AmpInv.addMasters {x : Str} : ∀ (qs : List (Str × Str)) {s : AmpSt} {xs names : List Str} {C R}, AmpInv s xs names C R → x ∈ xs →
    ∃ names', AmpInv (qs.foldl (AmpSt.addMaster (xs.idxOf x)) s) xs names' C (Function.update R x (R x ++ qs))
  | [], s, xs, names, C, R, h, hx => ⟨names, by simpa using h⟩
  | q :: qs, s, xs, names, C, R, h, hx => by
    obtain ⟨n1, h1⟩ := h.addMaster hx q
    obtain ⟨n2, h2⟩ := AmpInv.addMasters qs h1 hx
    refine ⟨n2, ?_⟩
    rw [List.foldl_cons]
    simpa using h2

/-! ## rules -/

/-- the masters of a function by the rules -/
def rulesOf (rules : List ARule) (x : Str) : List (Str × Str) := ((ruleFor rules x).getD []).map ATerm.entry

lemma AmpInv.setRepl {s xs names C R} (h : AmpInv s xs names C R) (l : List Str) : AmpInv { s with repl := l } xs names C R :=
  ⟨h.xnodup, h.integrals, h.icount, h.pcount, h.nnodup, h.masters, h.inv, h.mcount, h.mapping, h.used⟩

lemma ruleFor_snoc (rules : List ARule) (r : ARule) (x : Str) : ruleFor (rules ++ [r]) x = (ruleFor rules x).or (if r.name = x then some r.rhs else none) := by
  unfold ruleFor
  rw [List.find?_append]
  cases hx : rules.find? (fun r => decide (r.name = x)) with
  | some a => simp
  | none => by_cases h : r.name = x <;> simp [h]

lemma ruleFor_none {rules : List ARule} {x : Str} : ruleFor rules x = none ↔ ∀ r ∈ rules, r.name ≠ x := by
  unfold ruleFor
  simp [List.find?_eq_none]

/-- **the rules**: every required function gets the right-hand side of its rule. -/
lemma AmpInv.rules {s : AmpSt} {xs names : List Str} {C} (h : AmpInv s xs names C fun _ => []) (h0 : s.repl = []) : ∀ rules : List ARule, ((rules.map ARule.name).filter fun x => x ∈ xs).Nodup →
    ∃ s' names', rules.foldlM AmpSt.useRule s = .ok s' ∧ AmpInv s' xs names' C (rulesOf rules) ∧ ∀ x ∈ xs, (x ∈ s'.repl ↔ (ruleFor rules x).isSome) := by
  intro rules
  induction rules using List.reverseRecOn with
  | nil => intro _; exact ⟨s, names, rfl, h.congrR fun x _ => rfl, fun x _ => by simp [h0, ruleFor]⟩
  | append_singleton rules r ih =>
    intro hn
    rw [List.map_append, List.filter_append] at hn
    obtain ⟨s', names', h1, h2, h3⟩ := ih (List.nodup_append.mp hn).1
    rw [List.foldlM_append, h1]
    simp only [bind, Except.bind, List.foldlM_cons, List.foldlM_nil]
    unfold AmpSt.useRule
    have hl : s'.integrals.lookup r.name = if r.name ∈ xs then some (xs.idxOf r.name) else none := by
      rw [h2.integrals, lookup_zipIdx]; simp
    by_cases hr : r.name ∈ xs
    · rw [if_pos hr] at hl
      rw [hl]
      have hno : ruleFor rules r.name = none := by
        rw [ruleFor_none]
        intro r' hr' e
        have := (List.nodup_append.mp hn).2.2 r.name (by simp only [List.mem_filter, List.mem_map, decide_eq_true_eq]; exact ⟨⟨r', hr', e⟩, hr⟩) r.name (by simp [hr])
        exact this rfl
      have hnr : r.name ∉ s'.repl := by rw [h3 _ hr, hno]; simp
      simp only [if_neg hnr]
      obtain ⟨n2, hI⟩ := (h2.setRepl (s'.repl ++ [r.name])).addMasters (r.rhs.map ATerm.entry) hr
      refine ⟨_, n2, rfl, hI.congrR ?_, ?_⟩
      · intro x hx
        by_cases e : x = r.name
        · subst e
          rw [Function.update_self]
          unfold rulesOf
          rw [ruleFor_snoc, hno]; simp
        · rw [Function.update_of_ne e]
          unfold rulesOf
          rw [ruleFor_snoc, if_neg fun e' => e e'.symm]; simp
      · intro x hx
        rw [(addMasters_rest _ _ _).1]
        simp only [List.mem_append, List.mem_singleton]
        rw [h3 x hx, ruleFor_snoc]
        by_cases e : x = r.name
        · subst e; simp
        · have : ¬ r.name = x := fun e' => e e'.symm
          simp [e, this]
    · rw [if_neg hr] at hl
      rw [hl]
      refine ⟨s', names', rfl, h2.congrR fun x hx => ?_, fun x hx => ?_⟩
      · unfold rulesOf
        rw [ruleFor_snoc, if_neg (by rintro rfl; exact hr hx)]; simp
      · rw [h3 x hx, ruleFor_snoc, if_neg (by rintro rfl; exact hr hx)]; simp

lemma useRule_err {s : AmpSt} {r : ARule} {e : AmpErr} (h : s.useRule r = .error e) : e = .exit := by
  unfold AmpSt.useRule at h
  split at h
  · cases h
  · split at h <;> cases h
    rfl

lemma useRule_rest {s s' : AmpSt} {r : ARule} (h : s.useRule r = .ok s') : s'.integrals = s.integrals ∧ (∀ x ∈ s.repl, x ∈ s'.repl) ∧ (r.name ∈ s.integrals.map (·.1) → r.name ∈ s'.repl) := by
  unfold AmpSt.useRule at h
  split at h
  · rename_i hl
    cases h
    refine ⟨rfl, fun x hx => hx, fun hm => ?_⟩
    rw [List.lookup_eq_none_iff] at hl
    simp only [List.mem_map] at hm
    obtain ⟨q, hq, e⟩ := hm
    have := hl q hq
    simp [e] at this
  · split at h
    · cases h
    · cases h
      refine ⟨(addMasters_rest _ _ _).2, fun x hx => ?_, fun _ => ?_⟩
      · rw [(addMasters_rest _ _ _).1]; simp [hx]
      · rw [(addMasters_rest _ _ _).1]; simp

lemma useRules_rest : ∀ {rs : List ARule} {s : AmpSt} {x : Str}, x ∈ s.repl → (rs.foldlM AmpSt.useRule s = .error .exit) ∨ ∃ s', rs.foldlM AmpSt.useRule s = .ok s' ∧ s'.integrals = s.integrals ∧ x ∈ s'.repl
  | [], s, x, h => Or.inr ⟨s, rfl, rfl, h⟩
  | r :: rs, s, x, h => by
    rw [List.foldlM_cons]
    cases hu : s.useRule r with
    | error e => rw [useRule_err hu]; exact Or.inl rfl
    | ok s1 =>
      obtain ⟨h1, h2, -⟩ := useRule_rest hu
      rcases useRules_rest (rs := rs) (h2 x h) with h3 | ⟨s', h3, h4, h5⟩
      · exact Or.inl h3
      · exact Or.inr ⟨s', h3, h4.trans h1, h5⟩

lemma useRules_ok : ∀ {rs : List ARule} {s : AmpSt}, (rs.foldlM AmpSt.useRule s = .error .exit) ∨ ∃ s', rs.foldlM AmpSt.useRule s = .ok s' ∧ s'.integrals = s.integrals
  | [], s => Or.inr ⟨s, rfl, rfl⟩
  | r :: rs, s => by
    rw [List.foldlM_cons]
    cases hu : s.useRule r with
    | error e => rw [useRule_err hu]; exact Or.inl rfl
    | ok s1 =>
      obtain ⟨h1, h2, -⟩ := useRule_rest hu
      rcases useRules_ok (rs := rs) (s := s1) with h3 | ⟨s', h3, h4⟩
      · exact Or.inl h3
      · exact Or.inr ⟨s', h3, h4.trans h1⟩

/-- two rules for a required function -/
lemma useRules_dup {s : AmpSt} {a b c : List ARule} {r r' : ARule} (he : r'.name = r.name) (hr : r.name ∈ s.integrals.map (·.1)) :
    (a ++ r :: b ++ r' :: c).foldlM AmpSt.useRule s = .error .exit := by
  rw [List.foldlM_append, List.foldlM_append]
  rcases useRules_ok (rs := a) (s := s) with h1 | ⟨s1, h1, i1⟩
  · rw [h1]; rfl
  rw [h1]
  simp only [bind, Except.bind, List.foldlM_cons]
  cases hu : s1.useRule r with
  | error e => rw [useRule_err hu]
  | ok s2 =>
    obtain ⟨i2, -, m2⟩ := useRule_rest hu
    simp only
    rcases useRules_rest (rs := b) (m2 (i1 ▸ hr)) with h3 | ⟨s3, h3, i3, m3⟩
    · rw [h3]
    rw [h3]
    simp only
    have : s3.useRule r' = .error .exit := by
      unfold AmpSt.useRule
      rw [he]
      cases hl : s3.integrals.lookup r.name with
      | none =>
        rw [List.lookup_eq_none_iff, i3, i2, i1] at hl
        simp only [List.mem_map] at hr
        obtain ⟨q, hq, e⟩ := hr
        have := hl q hq
        simp [e] at this
      | some i => simp [m3]
    rw [this]

/-! ## functions without a rule -/

lemma checkOne_eq (s : AmpSt) (q : Str × ℕ) : s.checkOne q = if q.1 ∈ s.repl then s else s.addMaster q.2 (q.1, ['1']) := by
  unfold AmpSt.checkOne AmpSt.addMaster
  split
  · rfl
  · cases hl : s.masters.lookup q.1 with
    | some m => simp [hl]
    | none =>
      have : (s.masters ++ [(q.1, s.masterCount)]).lookup q.1 = some s.masterCount := by
        rw [List.lookup_append, hl]; simp
      simp [this]

lemma checkOne_rest (s : AmpSt) (q : Str × ℕ) : (s.checkOne q).repl = s.repl := by
  rw [checkOne_eq]; split
  · rfl
  · exact (addMaster_rest _ _ _).1

lemma checks_rest : ∀ (qs : List (Str × ℕ)) (s : AmpSt), (qs.foldl AmpSt.checkOne s).repl = s.repl
  | [], s => rfl
  | q :: qs, s => by rw [List.foldl_cons, checks_rest qs, checkOne_rest]

lemma AmpInv.checks {s : AmpSt} {xs names : List Str} {C R} (h : AmpInv s xs names C R) : ∀ order : List (Str × ℕ), (order.map (·.1)).Nodup → (∀ q ∈ order, q.1 ∈ xs ∧ q.2 = xs.idxOf q.1) →
    ∃ names', AmpInv (order.foldl AmpSt.checkOne s) xs names' C fun x => if x ∈ order.map (·.1) ∧ x ∉ s.repl then R x ++ [(x, ['1'])] else R x := by
  intro order
  induction order using List.reverseRecOn with
  | nil => intro _ _; exact ⟨names, by simpa using h⟩
  | append_singleton order q ih =>
    intro hn hq
    rw [List.map_append] at hn
    obtain ⟨n1, h1⟩ := ih (List.nodup_append.mp hn).1 fun q hq' => hq q (by simp [hq'])
    obtain ⟨hx, hi⟩ := hq q (by simp)
    rw [List.foldl_append, List.foldl_cons, List.foldl_nil, checkOne_eq, checks_rest]
    have hnot : q.1 ∉ order.map (·.1) := fun hm => (List.nodup_append.mp hn).2.2 q.1 hm q.1 (by simp) rfl
    split
    · rename_i hr
      refine ⟨n1, h1.congrR fun x hx => ?_⟩
      by_cases e : x = q.1
      · subst e; simp [hr]
      · exact if_congr (by rw [List.map_append, List.mem_append]; simp [e]) rfl rfl
    · rename_i hr
      rw [hi]
      obtain ⟨n2, h2⟩ := h1.addMaster hx (q.1, ['1'])
      refine ⟨n2, h2.congrR fun x hx => ?_⟩
      by_cases e : x = q.1
      · subst e
        rw [Function.update_self, if_neg (by simp [hnot]), if_pos (by simp [hr])]
      · rw [Function.update_of_ne e]
        exact if_congr (by rw [List.map_append, List.mem_append]; simp [e]) rfl rfl

end FireFly
