import Verif.Model.ProbeFile
import Verif.Props.SaveFirstProps
/-!
# C40: the files of the probes
-/
set_option linter.all false
namespace FireFly

/-- Specification: a probe of an object with `n` variables in the field of `p` elements. -/
structure Probe.OK (p n : ℕ) (q : Probe) : Prop where
  zi : q.zi.length = n - 1
  small : ∀ x ∈ q.zi, x < 2 ^ 31
  t : q.t < p
  v : q.v < p

/-! ## numbers -/

lemma prefix_append_cases {α : Type*} {s a b : List α} (h : s <+: a ++ b) : s <+: a ∨ ∃ s1, s = a ++ s1 ∧ s1 <+: b := by
  rcases List.prefix_or_prefix_of_prefix h (List.prefix_append a b) with h1 | ⟨s1, rfl⟩
  · exact Or.inl h1
  · exact Or.inr ⟨s1, rfl, (List.prefix_append_right_inj a).mp h⟩

lemma stoul_natStr {x : ℕ} (h : x < 2 ^ 64) : stoul (natStr x) = some x := by
  obtain ⟨c, cs, e, hc⟩ := natStr_cons x
  unfold stoul
  have h1 : (natStr x).dropWhile isSpaceC = natStr x := by
    rw [e, List.dropWhile_cons, digitC_not_space hc]; rfl
  have h2 : takeSign (natStr x) = (false, natStr x) := by
    rw [e]
    simp only [takeSign]
    rw [if_neg (digit_not_sign hc).1, if_neg (digit_not_sign hc).2]
  have h3 : (natStr x).takeWhile isDigitC = natStr x := by
    rw [List.takeWhile_eq_self_iff]; exact natStr_digits x
  rw [h1, h2]
  simp only [h3, digitsAcc_natStr]
  rw [if_neg (natStr_ne x), if_pos h]
  simp

lemma parseFFLoop_cons (p limit i x : ℕ) (h : x < 2 ^ 64) (r : Str) :
    parseFFLoop p limit i (natStr x ++ ' ' :: r) =
      if i + 1 = limit then some ([x % p], r) else (parseFFLoop p limit (i + 1) r).map (fun t => (x % p :: t.1, t.2)) := by
  rw [parseFFLoop]
  have hc := cutBlank_append (natStr_no_blank x) r
  split
  · rename_i h'; rw [hc] at h'; simp at h'
  · rename_i a b h'
    rw [hc] at h'
    simp only [Option.some.injEq, Prod.mk.injEq] at h'
    obtain ⟨rfl, rfl⟩ := h'
    rw [stoul_natStr h]

lemma parseFFLoop_none (p limit i : ℕ) {s : Str} (h : cutBlank s = none) : parseFFLoop p limit i s = some ([], s) := by
  rw [parseFFLoop]
  split
  · rfl
  · rename_i h'; rw [h] at h'; cases h'

lemma parseVecLoop_none (limit i : ℕ) {s : Str} (h : cutBlank s = none) : parseVecLoop limit i s = some ([], s) := by
  rw [parseVecLoop]
  split
  · rfl
  · rename_i h'; rw [h] at h'; cases h'

lemma Probe.line_eq (q : Probe) : q.line = vecStr (q.zi ++ [q.t, q.v]) := by
  unfold Probe.line vecStr
  simp

lemma vecStr_append (a b : List ℕ) : vecStr (a ++ b) = vecStr a ++ vecStr b := by
  unfold vecStr; simp

/-! ## reading a line -/

lemma readProbe_line {p n : ℕ} (hp : p < 2 ^ 64) {q : Probe} (h : q.OK p n) : readProbe p n q.line = .ok q := by
  have hff : parseVecFF p (vecStr [q.t, q.v]) 2 = some ([q.t, q.v], []) := by
    unfold parseVecFF
    rw [vecStr_cons, parseFFLoop_cons _ _ _ _ (lt_trans h.t hp), if_neg (by norm_num), vecStr_cons, parseFFLoop_cons _ _ _ _ (lt_trans h.v hp), if_pos rfl]
    simp [vecStr, Nat.mod_eq_of_lt h.t, Nat.mod_eq_of_lt h.v]
  unfold readProbe
  by_cases hn : n > 1
  · rw [if_pos hn, q.line_eq, vecStr_append, ← h.zi, parseVec32_prefix _ h.small (by
      intro e; have := h.zi; rw [e] at this; simp at this; omega)]
    simp only [orThrow]
    rw [bind_ok]
    simp only [hff]
    rw [bind_ok]
  · rw [if_neg hn]
    have hz : q.zi = [] := by
      apply List.eq_nil_of_length_eq_zero
      rw [h.zi]; omega
    rw [bind_ok, q.line_eq, hz, List.nil_append]
    simp only [hff, orThrow]
    rw [bind_ok]
    obtain ⟨a, b, c⟩ := q
    simp only at hz
    rw [hz]

lemma cutBlank_prefix {xs : List ℕ} {s : Str} (h : s <+: vecStr xs) (hne : s ≠ vecStr xs) :
    cutBlank s = none ∨ ∃ x xs' s', xs = x :: xs' ∧ s = natStr x ++ ' ' :: s' ∧ s' <+: vecStr xs' ∧ s' ≠ vecStr xs' := by
  cases xs with
  | nil =>
    have : s = [] := List.prefix_nil.mp h
    exact absurd this hne
  | cons x xs =>
    rw [vecStr_cons] at h hne
    rcases prefix_append_cases h with h1 | ⟨s1, h1, h2⟩
    · left
      have : ∀ c ∈ s, c ≠ ' ' := fun c hc => natStr_no_blank x c (h1.subset hc)
      clear h hne h1
      induction s with
      | nil => rfl
      | cons c s ih =>
        unfold cutBlank
        rw [if_neg (this c (by simp)), ih (fun y hy => this y (by simp [hy]))]
        rfl
    · cases s1 with
      | nil =>
        left
        have : ∀ c ∈ s, c ≠ ' ' := by rw [h1, List.append_nil]; exact natStr_no_blank x
        clear h hne h1 h2
        induction s with
        | nil => rfl
        | cons c s ih =>
          unfold cutBlank
          rw [if_neg (this c (by simp)), ih (fun y hy => this y (by simp [hy]))]
          rfl
      | cons c s' =>
        obtain ⟨rfl, h3⟩ := List.cons_prefix_cons.mp h2
        right
        refine ⟨x, xs, s', rfl, h1, h3, ?_⟩
        rintro rfl
        exact hne h1

/-- reading the orders of a truncated line -/
lemma parseVec_prefix {xs : List ℕ} (hx : ∀ x ∈ xs, x < 2 ^ 31) {m i : ℕ} (hm : 0 < m) {ys : List ℕ} (hl : xs.length = m) :
    ∀ {s : Str}, s <+: vecStr (xs ++ ys) → s ≠ vecStr (xs ++ ys) →
    ∃ a r, parseVecLoop (i + m) i s = some (a, r) ∧ (cutBlank r = none ∨ (r <+: vecStr ys ∧ r ≠ vecStr ys)) := by
  induction xs generalizing m i with
  | nil => simp at hl; omega
  | cons x xs ih =>
    intro s h1 h2
    rcases cutBlank_prefix h1 h2 with hc | ⟨x', xs', s', e, rfl, h3, h4⟩
    · exact ⟨[], s, parseVecLoop_none _ _ hc, Or.inl hc⟩
    · rw [List.cons_append] at e
      obtain ⟨rfl, rfl⟩ := List.cons.inj e
      rw [parseVecLoop_cons _ _ _ (hx x (by simp))]
      by_cases hm1 : m = 1
      · have : xs = [] := by
          apply List.eq_nil_of_length_eq_zero
          simp at hl; omega
        rw [if_pos (by omega)]
        rw [this] at h3 h4
        exact ⟨_, _, rfl, Or.inr ⟨h3, h4⟩⟩
      · rw [if_neg (by omega)]
        obtain ⟨a, r, e1, e2⟩ := ih (m := m - 1) (i := i + 1) (fun y hy => hx y (by simp [hy])) (by omega) (by simp at hl; omega) h3 h4
        rw [show i + 1 + (m - 1) = i + m by omega] at e1
        rw [e1]
        exact ⟨_, _, rfl, e2⟩

/-- too few values in a truncated line -/
lemma parseFF_prefix {p : ℕ} {t v : ℕ} (ht : t < 2 ^ 64) {s : Str} (h : cutBlank s = none ∨ (s <+: vecStr [t, v] ∧ s ≠ vecStr [t, v])) :
    ∃ a r, parseVecFF p s 2 = some (a, r) ∧ a.length < 2 := by
  have h0 : ∀ {s : Str} (i : ℕ), cutBlank s = none → parseFFLoop p 2 i s = some ([], s) := fun i hc => parseFFLoop_none _ _ _ hc
  rcases h with hc | ⟨h1, h2⟩
  · exact ⟨_, _, h0 0 hc, by simp⟩
  · rcases cutBlank_prefix h1 h2 with hc | ⟨x, xs, s', e, rfl, h3, h4⟩
    · exact ⟨_, _, h0 0 hc, by simp⟩
    · obtain ⟨rfl, rfl⟩ := List.cons.inj e
      unfold parseVecFF
      rw [parseFFLoop_cons _ _ _ _ ht, if_neg (by norm_num)]
      rcases cutBlank_prefix h3 h4 with hc | ⟨y, ys, s'', e', rfl, h5, h6⟩
      · rw [h0 1 hc]; exact ⟨_, _, rfl, by simp⟩
      · obtain ⟨rfl, rfl⟩ := List.cons.inj e'
        exact absurd (List.prefix_nil.mp h5) h6

lemma readProbe_truncated {p n : ℕ} (hp : p < 2 ^ 64) {q : Probe} (h : q.OK p n) {s : Str} (hs : s <+: q.line) (hne : s ≠ q.line) :
    readProbe p n s = .error .ub := by
  rw [q.line_eq] at hs hne
  unfold readProbe
  have hlast : ∀ (a : List ℕ), a.length < 2 → ∀ b : List ℕ, (match a with | t :: v :: _ => (Except.ok ⟨b, t, v⟩ : Except LoadErr Probe) | _ => .error .ub) = .error .ub := by
    intro a ha b
    match a, ha with
    | [], _ => rfl
    | [x], _ => rfl
  by_cases hn : n > 1
  · rw [if_pos hn]
    obtain ⟨a, r, e1, e2⟩ := parseVec_prefix h.small (i := 0) (m := n - 1) (by omega) h.zi hs hne
    rw [Nat.zero_add] at e1
    unfold parseVec32
    rw [e1]
    obtain ⟨b, r', e3, hb⟩ := parseFF_prefix (p := p) (lt_trans h.t hp) e2
    simp only [orThrow]
    rw [bind_ok]
    simp only [e3]
    rw [bind_ok]
    exact hlast b hb a
  · rw [if_neg hn]
    have hz : q.zi = [] := by
      apply List.eq_nil_of_length_eq_zero
      rw [h.zi]; omega
    rw [hz, List.nil_append] at hs hne
    obtain ⟨b, r', e3, hb⟩ := parseFF_prefix (p := p) (lt_trans h.t hp) (Or.inr ⟨hs, hne⟩)
    rw [bind_ok]
    simp only [e3, orThrow]
    rw [bind_ok]
    exact hlast b hb []

/-! ## the file -/

lemma linesOf_no_newline {s : Str} (h : '\n' ∉ s) : linesOf s = if s = [] then [] else [s] := by
  induction s with
  | nil => rfl
  | cons c s ih =>
    have hc : c ≠ '\n' := fun e => h (by rw [e]; simp)
    have e := ih (fun e => h (by simp [e]))
    unfold linesOf
    rw [if_neg hc, e, if_neg (List.cons_ne_nil c s)]
    by_cases hs : s = []
    · rw [if_pos hs, hs]
    · rw [if_neg hs]

/-- the lines of a truncated text -/
lemma linesOf_prefix (ls : List Str) (h : ∀ l ∈ ls, '\n' ∉ l) : ∀ {s : Str}, s <+: unlines ls →
    ∃ a b r, ls = a ++ b ∧ (linesOf s = a ∧ r = [] ∨ ∃ l b', b = l :: b' ∧ r <+: l ∧ r ≠ [] ∧ linesOf s = a ++ [r]) ∧ s = unlines a ++ r := by
  induction ls with
  | nil =>
    intro s hs
    have : s = [] := List.prefix_nil.mp hs
    subst this
    exact ⟨[], [], [], rfl, Or.inl ⟨rfl, rfl⟩, rfl⟩
  | cons l ls ih =>
    intro s hs
    have e : unlines (l :: ls) = (l ++ ['\n']) ++ unlines ls := by simp [unlines]
    rw [e] at hs
    have hl := h l (by simp)
    rcases prefix_append_cases hs with h1 | ⟨s1, h1, h2⟩
    · rcases prefix_append_cases h1 with h2 | ⟨s1, h2, h3⟩
      · by_cases hs0 : s = []
        · subst hs0
          exact ⟨[], l :: ls, [], rfl, Or.inl ⟨rfl, rfl⟩, rfl⟩
        · refine ⟨[], l :: ls, s, rfl, Or.inr ⟨l, ls, rfl, h2, hs0, ?_⟩, by simp [unlines]⟩
          rw [linesOf_no_newline (fun hc => hl (h2.subset hc)), if_neg hs0]; rfl
      · cases s1 with
        | nil =>
          rw [List.append_nil] at h2
          subst h2
          by_cases hs0 : s = []
          · subst hs0
            exact ⟨[], [] :: ls, [], rfl, Or.inl ⟨rfl, rfl⟩, rfl⟩
          · refine ⟨[], s :: ls, s, rfl, Or.inr ⟨s, ls, rfl, List.prefix_rfl, hs0, ?_⟩, by simp [unlines]⟩
            rw [linesOf_no_newline hl, if_neg hs0]; rfl
        | cons c s' =>
          obtain ⟨rfl, h4⟩ := List.cons_prefix_cons.mp h3
          have : s' = [] := List.prefix_nil.mp h4
          subst this
          refine ⟨[l], ls, [], rfl, Or.inl ⟨?_, rfl⟩, ?_⟩
          · rw [h2, linesOf_append_newline l hl]; rfl
          · rw [h2]; simp [unlines]
    · obtain ⟨a, b, r, e1, e2, e3⟩ := ih (fun x hx => h x (by simp [hx])) h2
      refine ⟨l :: a, b, r, by rw [e1]; rfl, ?_, ?_⟩
      · have : linesOf s = l :: linesOf s1 := by
          rw [h1, List.append_assoc, List.singleton_append, linesOf_append_newline l hl]
        rw [this]
        rcases e2 with ⟨e2, e4⟩ | ⟨l', b', f1, f2, f3, f4⟩
        · exact Or.inl ⟨by rw [e2], e4⟩
        · exact Or.inr ⟨l', b', f1, f2, f3, by rw [f4]; rfl⟩
      · rw [h1, e3]; simp [unlines]

lemma mapM_ok {p n : ℕ} (hp : p < 2 ^ 64) (qs : List Probe) (h : ∀ q ∈ qs, q.OK p n) : (qs.map Probe.line).mapM (readProbe p n) = .ok qs := by
  induction qs with
  | nil => rfl
  | cons q qs ih =>
    rw [List.map_cons, List.mapM_cons, readProbe_line hp (h q (by simp)), bind_ok, ih (fun x hx => h x (by simp [hx])), bind_ok]
    rfl

lemma mapM_ub {p n : ℕ} (hp : p < 2 ^ 64) (qs : List Probe) (h : ∀ q ∈ qs, q.OK p n) {s : Str} (hs : readProbe p n s = .error .ub) :
    (qs.map Probe.line ++ [s]).mapM (readProbe p n) = .error .ub := by
  induction qs with
  | nil =>
    rw [List.map_nil, List.nil_append, List.mapM_cons, hs]
    rfl
  | cons q qs ih =>
    rw [List.map_cons, List.cons_append, List.mapM_cons, readProbe_line hp (h q (by simp)), bind_ok, ih (fun x hx => h x (by simp [hx]))]
    rfl

lemma line_no_newline (q : Probe) : '\n' ∉ q.line := by rw [q.line_eq]; exact nl_vecStr _

lemma probe_number (tag : Str) {k : ℕ} (h : k < 2 ^ 31) : parsePrimeNumber (probeName tag k) = some k := by
  have := C39_prime_number ("x".toList) h
  unfold parsePrimeNumber probeName
  have h1 : (("ff_save/probes/".toList ++ tag ++ ['_'] ++ natStr k ++ ".gz".toList).reverse.drop 3) =
      (natStr k).reverse ++ '_' :: ("ff_save/probes/".toList ++ tag).reverse := by
    rw [List.reverse_append, List.reverse_append, List.reverse_append]
    show List.drop 3 ('z' :: 'g' :: '.' :: _) = _
    simp
  rw [h1]
  have h2 : ((natStr k).reverse ++ '_' :: ("ff_save/probes/".toList ++ tag).reverse).takeWhile (· ≠ '_') = (natStr k).reverse := by
    rw [List.takeWhile_append_of_pos]
    · simp
    · intro c hc
      have := natStr_digits k c (List.mem_reverse.mp hc)
      have : c ≠ '_' := by rintro rfl; revert this; decide
      simpa using this
  rw [h2, List.reverse_reverse, stoi_natStr h]
  simp [toU32_nat h]

/-- **C40.** The probes written to the file of prime field `k`, in any number of parts, are read back completely and
in order by an unfinished object that works in this field. -/
theorem C40_round_trip {p n k : ℕ} (hp : p < 2 ^ 64) (hk : k < 2 ^ 31) (tag : Str) (parts : List (List Probe)) (h : ∀ qs ∈ parts, ∀ q ∈ qs, q.OK p n) :
    readProbes p n false k (probeName tag k) (parts.map probeText).flatten = .ok parts.flatten := by
  have e : (parts.map probeText).flatten = unlines (parts.flatten.map Probe.line) := by
    clear h
    induction parts with
    | nil => rfl
    | cons a l ih =>
      rw [List.map_cons, List.flatten_cons, ih, List.flatten_cons, List.map_append]
      unfold probeText unlines
      rw [List.map_append, List.flatten_append]
  unfold readProbes
  rw [probe_number tag hk, e, linesOf_unlines _ (by
    intro l hl; obtain ⟨q, -, rfl⟩ := List.mem_map.mp hl; exact line_no_newline q)]
  simp only [orThrow]
  rw [bind_ok]
  simp only [Bool.not_false, Bool.true_and, beq_self_eq_true, if_true]
  apply mapM_ok hp
  intro q hq
  obtain ⟨qs, h1, h2⟩ := List.mem_flatten.mp hq
  exact h qs h1 q h2

/-- **C40 (other field).** A finished object, or one that works in another prime field than the number of the file says, takes no probe from it. -/
theorem C40_other_field {p n k : ℕ} (hk : k < 2 ^ 31) (tag content : Str) (done : Bool) (primeNumber : ℕ) (h : done = true ∨ primeNumber ≠ k) :
    readProbes p n done primeNumber (probeName tag k) content = .ok [] := by
  unfold readProbes
  rw [probe_number tag hk]
  simp only [orThrow]
  rw [bind_ok]
  have : (!done && k == primeNumber) = false := by
    rcases h with h | h
    · rw [h]; rfl
    · have : (k == primeNumber) = false := by simpa using (Ne.symm h)
      rw [this, Bool.and_false]
  rw [this]
  rfl

/-- **C40 (truncated file).** Only a part of the text has reached the disk. Then the probes of the complete lines are
read, or, if the last line is cut, the result is undefined (a value beyond the end of a vector is read); no probe with a wrong value is read
otherwise. A line of which only the line break is missing is complete. -/
theorem C40_prefix {p n k : ℕ} (hp : p < 2 ^ 64) (hk : k < 2 ^ 31) (tag : Str) (qs : List Probe) (h : ∀ q ∈ qs, q.OK p n) {s : Str} (hs : s <+: probeText qs) :
    (∃ a b, qs = a ++ b ∧ readProbes p n false k (probeName tag k) s = .ok a ∧ (s = probeText a ∨ s ++ ['\n'] = probeText a)) ∨
    (∃ a q b r, qs = a ++ q :: b ∧ s = probeText a ++ r ∧ r <+: q.line ∧ r ≠ [] ∧ r ≠ q.line ∧
      readProbes p n false k (probeName tag k) s = .error .ub) := by
  have hr : ∀ x, readProbes p n false k (probeName tag k) s = x ↔ (linesOf s).mapM (readProbe p n) = x := by
    intro x
    unfold readProbes
    rw [probe_number tag hk]
    simp only [orThrow]
    rw [bind_ok]
    simp only [Bool.not_false, Bool.true_and, beq_self_eq_true, if_true]
  obtain ⟨a, b, r, e1, e2, e3⟩ := linesOf_prefix _ (by
    intro l hl; obtain ⟨q, -, rfl⟩ := List.mem_map.mp hl; exact line_no_newline q) hs
  obtain ⟨qa, qb, f1, f2, f3⟩ := List.map_eq_append_iff.mp e1
  subst f2 f3
  have hqa : ∀ q ∈ qa, q.OK p n := fun q hq => h q (by rw [f1]; simp [hq])
  rcases e2 with ⟨e2, e4⟩ | ⟨l, b', g1, g2, g3, g4⟩
  · left
    refine ⟨qa, qb, f1, ?_, Or.inl ?_⟩
    · rw [hr, e2]; exact mapM_ok hp qa hqa
    · rw [e3, e4, List.append_nil]; rfl
  · obtain ⟨q, qb', rfl, hq1, hq2⟩ := List.map_eq_cons_iff.mp g1
    have hqo : q.OK p n := h q (by rw [f1]; simp)
    by_cases hw : r = q.line
    · left
      refine ⟨qa ++ [q], qb', by rw [f1]; simp, ?_, Or.inr ?_⟩
      · rw [hr, g4, hw, show qa.map Probe.line ++ [q.line] = (qa ++ [q]).map Probe.line by simp]
        apply mapM_ok hp
        intro x hx
        rcases List.mem_append.mp hx with hx | hx
        · exact hqa x hx
        · rw [List.mem_singleton] at hx; rw [hx]; exact hqo
      · rw [e3, hw]
        unfold probeText unlines
        simp
    · right
      refine ⟨qa, q, qb', r, f1, e3, by rw [hq1]; exact g2, g3, hw, ?_⟩
      rw [hr, g4]
      exact mapM_ub hp qa hqa (readProbe_truncated hp hqo (by rw [hq1]; exact g2) hw)

/-! ## defects -/

/-- A crash while probes are written can leave a file whose last line is cut; then the resumed run reads an element beyond the end of a vector. -/
theorem C40_truncated_violated :
    ∃ (q : Probe) (s : Str), q.OK 1009 2 ∧ s <+: probeText [q] ∧ readProbes 1009 2 false 3 (probeName "0".toList 3) s = .error .ub := by
  have hq : (⟨[1], 5, 7⟩ : Probe).OK 1009 2 := ⟨rfl, by decide, by norm_num, by norm_num⟩
  refine ⟨⟨[1], 5, 7⟩, "1 5 ".toList, hq, by decide +kernel, ?_⟩
  unfold readProbes
  rw [probe_number _ (by norm_num)]
  simp only [orThrow]
  rw [bind_ok]
  simp only [Bool.not_false, Bool.true_and, beq_self_eq_true, if_true]
  rw [show linesOf "1 5 ".toList = ["1 5 ".toList] by decide +kernel]
  exact mapM_ub (by norm_num) [] (by simp) (readProbe_truncated (by norm_num) hq (by decide +kernel) (by decide +kernel))

/-- If probes are appended to a file whose last line is cut, a wrong value is read: `12` and the beginning of the next line are
taken for one number. -/
theorem C40_append_violated :
    ∃ (q r : Probe) (s : Str), q.OK 1009 1 ∧ r.OK 1009 1 ∧ s <+: probeText [q] ∧
      readProbes 1009 1 false 3 (probeName "0".toList 3) (s ++ probeText [r]) = .ok [⟨[], 5, 126⟩] ∧ q.v = 123 ∧ r.v = 8 := by
  have hq : (⟨[], 5, 123⟩ : Probe).OK 1009 1 := ⟨rfl, by decide, by norm_num, by norm_num⟩
  have hr : (⟨[], 6, 8⟩ : Probe).OK 1009 1 := ⟨rfl, by decide, by norm_num, by norm_num⟩
  refine ⟨⟨[], 5, 123⟩, ⟨[], 6, 8⟩, "5 12".toList, hq, hr, by decide +kernel, ?_, rfl, rfl⟩
  unfold readProbes
  rw [probe_number _ (by norm_num)]
  simp only [orThrow]
  rw [bind_ok]
  simp only [Bool.not_false, Bool.true_and, beq_self_eq_true, if_true]
  rw [show linesOf ("5 12".toList ++ probeText [⟨[], 6, 8⟩]) = [natStr 5 ++ ' ' :: (natStr 126 ++ ' ' :: "8 ".toList)] by decide +kernel]
  rw [List.mapM_cons]
  have : readProbe 1009 1 (natStr 5 ++ ' ' :: (natStr 126 ++ ' ' :: "8 ".toList)) = .ok ⟨[], 5, 126⟩ := by
    unfold readProbe
    rw [if_neg (by norm_num), bind_ok]
    unfold parseVecFF
    simp only
    rw [parseFFLoop_cons _ _ _ _ (by norm_num), if_neg (by norm_num), parseFFLoop_cons _ _ _ _ (by norm_num), if_pos rfl]
    rfl
  rw [this]
  rfl

/-- a concrete case of the round trip -/
example : readProbes 1009 3 false 3 (probeName "0".toList 3) (probeText [⟨[1, 2], 5, 7⟩] ++ (probeText [⟨[1, 1], 6, 0⟩, ⟨[4, 1], 8, 1008⟩] ++ [])) =
    .ok [⟨[1, 2], 5, 7⟩, ⟨[1, 1], 6, 0⟩, ⟨[4, 1], 8, 1008⟩] :=
  C40_round_trip (by norm_num) (by norm_num) _ [[⟨[1, 2], 5, 7⟩], [⟨[1, 1], 6, 0⟩, ⟨[4, 1], 8, 1008⟩]] (by
    intro qs hqs q hq
    simp only [List.mem_cons, List.not_mem_nil, or_false] at hqs
    rcases hqs with rfl | rfl <;> simp only [List.mem_cons, List.not_mem_nil, or_false] at hq
    · subst hq; exact ⟨rfl, by decide, by norm_num, by norm_num⟩
    · rcases hq with rfl | rfl
      · exact ⟨rfl, by decide, by norm_num, by norm_num⟩
      · exact ⟨rfl, by decide, by norm_num, by norm_num⟩)

end FireFly
