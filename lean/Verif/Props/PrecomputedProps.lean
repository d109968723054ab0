import Verif.Model.Precomputed
import Verif.Props.ProbeFileProps
/-!
# C56: probes computed by another program
-/
set_option linter.all false
namespace FireFly

/-! ## Specification -/

/-- Specification: the orders of the variables, the value of `t`, and either the point (a request) or the values of the functions at it (an answer). -/
abbrev PreQItem := List ℕ × ℕ × List ℕ

/-- Specification: numbers of the right size. An answer holds at least one value. -/
structure PreQItem.OK (n : ℕ) (a : PreQItem) : Prop where
  zi : a.1.length = n - 1
  small : ∀ x ∈ a.1, x < 2 ^ 31
  t : a.2.1 < 2 ^ 64
  ne : a.2.2 ≠ []
  vals : ∀ v ∈ a.2.2, v < 2 ^ 64

/-- Specification: the numbers as elements of the field. -/
def PreQItem.mod (p : ℕ) (a : PreQItem) : PreQItem := (a.1, a.2.1 % p, a.2.2.map (· % p))

/-- Specification: a line of decimal numbers, `zi_1 ... zi_k | t | v_1 ... v_m`. -/
def PreQItem.text (a : PreQItem) : Str :=
  ((a.1.map (fun x => natStr x ++ [' '])).flatten) ++ ['|', ' '] ++ natStr a.2.1 ++ [' ', '|'] ++ (a.2.2.map (fun v => ' ' :: natStr v)).flatten

/-- Specification: the lines of the file are the answers, each with or without a blank at its end. -/
def AnswerFile (content : Str) (ans : List PreQItem) : Prop := List.Forall₂ (fun line a => line = a.text ∨ line = a.text ++ [' ']) (linesOf content) ans

/-- What happens to the queues of probes: a probe is requested, a file is read, a thread takes a probe, the `k`-th thread feeds its probe. -/
inductive PreQOp where
  | queue (front : Bool) (r : PreQItem)
  | load (content : Str) (ans : List PreQItem)
  | take
  | feed (k : ℕ)

/-- The program executes an operation; a thread that finds no probe waits. -/
def PreSt.step (p n : ℕ) (scan : Bool) (s : PreSt) : PreQOp → Except LoadErr PreSt
  | .queue front r => .ok (s.queue front r.1 r.2.1 r.2.2)
  | .load content _ => s.load p n content
  | .take => .ok (s.take.getD s)
  | .feed k => s.feed n scan k

/-- Specification: a request of the first kind comes before the others, the last one first. -/
def addRequest (acc : List PreQItem) : PreQOp → List PreQItem
  | .queue true r => r :: acc
  | .queue false r => acc ++ [r]
  | _ => acc

/-- Specification: the requests of a run. -/
def requestsOf (ops : List PreQOp) : List PreQItem := ops.foldl addRequest []

/-- Specification: the answers of an operation. -/
def answersIn (p : ℕ) : PreQOp → List PreQItem
  | .load _ ans => ans.map (PreQItem.mod p)
  | _ => []

/-- Specification: the answers of a run. -/
def answersOf (p : ℕ) (ops : List PreQOp) : List PreQItem := ops.flatMap (answersIn p)

/-- Specification: the orders of a request have the right number, a file holds answers. -/
def PreQOp.OK (n : ℕ) : PreQOp → Prop
  | .queue _ r => r.1.length = n - 1
  | .load content ans => AnswerFile content ans ∧ ∀ a ∈ ans, PreQItem.OK n a
  | _ => True

/-! ## lines -/

lemma cutBar_append : ∀ {a : Str} (r : Str), (∀ c ∈ a, c ≠ '|') → cutBar (a ++ ' ' :: '|' :: ' ' :: r) = some (a, r)
  | [], r, _ => by simp [cutBar]
  | c :: cs, r, h => by
    have ih := cutBar_append (a := cs) r (fun x hx => h x (List.mem_cons_of_mem _ hx))
    have hn : ¬ [' ', '|', ' '] <+: c :: (cs ++ ' ' :: '|' :: ' ' :: r) := by
      intro hp
      cases cs with
      | nil =>
        simp [List.cons_prefix_cons] at hp
      | cons d ds =>
        simp only [List.cons_append, List.cons_prefix_cons] at hp
        exact h d (by simp) hp.2.1.symm
    simp only [List.cons_append, cutBar]
    rw [if_neg hn, ih]
    rfl

lemma digits_no_bar (x : ℕ) : ∀ c ∈ natStr x, c ≠ '|' := by
  intro c hc e
  subst e
  exact absurd (natStr_digits x _ hc) (by decide)

lemma vecStr_snoc {zi : List ℕ} (h : zi ≠ []) : ∃ s, vecStr zi = s ++ [' '] ∧ ∀ c ∈ s, c ≠ '|' := by
  obtain ⟨l, x, rfl⟩ := List.eq_nil_or_concat zi |>.resolve_left h
  refine ⟨vecStr l ++ natStr x, by simp [vecStr], ?_⟩
  intro c hc
  rcases List.mem_append.mp hc with hc | hc
  · simp only [vecStr, List.mem_flatten, List.mem_map] at hc
    obtain ⟨_, ⟨y, _, rfl⟩, hc⟩ := hc
    rcases List.mem_append.mp hc with hc | hc
    · exact digits_no_bar y c hc
    · simp at hc; subst hc; decide
  · exact digits_no_bar x c hc

lemma parseVecFF_all (p : ℕ) (vs : List ℕ) (h : ∀ x ∈ vs, x < 2 ^ 64) : ∀ i, parseFFLoop p 0 i (vecStr vs) = some (vs.map (· % p), []) := by
  induction vs with
  | nil => intro i; exact parseFFLoop_none p 0 i rfl
  | cons x xs ih =>
    intro i
    rw [vecStr_cons, parseFFLoop_cons p 0 i x (h x (by simp)), if_neg (by omega), ih (fun y hy => h y (by simp [hy]))]
    rfl

lemma flat_blank : ∀ (v : ℕ) (vs : List ℕ), ((v :: vs).map (fun v => ' ' :: natStr v)).flatten ++ [' '] = ' ' :: vecStr (v :: vs)
  | v, [] => by simp [vecStr]
  | v, w :: ws => by
    have := flat_blank w ws
    rw [vecStr_cons, ← this]
    simp

lemma flat_last (v : ℕ) (vs : List ℕ) : ∃ s c, ((v :: vs).map (fun v => ' ' :: natStr v)).flatten = ' ' :: (s ++ [c]) ∧ c ≠ ' ' ∧ s ++ [c] ++ [' '] = vecStr (v :: vs) := by
  have h := flat_blank v vs
  have hne : natStr v ++ (vs.map (fun v => ' ' :: natStr v)).flatten ≠ [] := by
    intro e; exact natStr_ne v (List.append_eq_nil_iff.mp e).1
  obtain ⟨s, c, e⟩ := List.eq_nil_or_concat _ |>.resolve_left hne
  refine ⟨s, c, by simp only [List.map_cons, List.flatten_cons, List.cons_append]; rw [e]; simp, ?_, ?_⟩
  · have h2 : ∀ (v : ℕ) (vs : List ℕ) s c, natStr v ++ (vs.map (fun v => ' ' :: natStr v)).flatten = s ++ [c] → c ≠ ' ' := by
      intro v vs
      induction vs generalizing v with
      | nil =>
        intro s c e
        simp only [List.map_nil, List.flatten_nil, List.append_nil] at e
        exact natStr_no_blank v c (by rw [e]; simp)
      | cons w ws ih =>
        intro s c e
        have hw : natStr w ++ (ws.map (fun v => ' ' :: natStr v)).flatten ≠ [] := by
          intro e; exact natStr_ne w (List.append_eq_nil_iff.mp e).1
        obtain ⟨s', c', e'⟩ := List.eq_nil_or_concat _ |>.resolve_left hw
        simp only [List.concat_eq_append] at e'
        have := ih w s' c' e'
        simp only [List.map_cons, List.flatten_cons, List.cons_append] at e
        rw [e'] at e
        have e2 : (natStr v ++ ' ' :: s') ++ [c'] = s ++ [c] := by rw [← e]; simp
        have := (List.append_inj' e2 rfl).2
        simp at this
        subst this
        assumption
    exact h2 v vs s c (by simpa using e)
  · simp only [List.map_cons, List.flatten_cons, List.cons_append, List.cons.injEq, true_and, List.concat_eq_append] at h e
    rw [← h, e]

lemma parsePreLine_of {p n : ℕ} (hn : 2 ≤ n) {a : PreQItem} (h : PreQItem.OK n a) {line : Str} (hl : line = a.text ∨ line = a.text ++ [' ']) :
    parsePreLine p n line = .ok (a.mod p) := by
  obtain ⟨zi, t, vals⟩ := a
  have hz0 : zi ≠ [] := by
    intro e; have := h.zi; simp [e] at this; omega
  obtain ⟨zs, hzs, hbar⟩ := vecStr_snoc hz0
  obtain ⟨v, vs, rfl⟩ := List.exists_cons_of_ne_nil h.ne
  obtain ⟨s, c, e1, hc, e2⟩ := flat_last v vs
  have key : ∀ r : Str, r = s ++ [c] ∨ r = s ++ [c] ++ [' '] → parsePreLine p n (zs ++ ' ' :: '|' :: ' ' :: (natStr t ++ ' ' :: '|' :: ' ' :: r)) = .ok (zi, t % p, (v :: vs).map (· % p)) := by
    intro r hr
    have hp : parsePreProbes p r = .ok ((v :: vs).map (· % p)) := by
      have hv := parseVecFF_all p (v :: vs) h.vals 0
      rw [← e2] at hv
      rcases hr with rfl | rfl
      · simp only [parsePreProbes, List.getLast?_append, List.getLast?_singleton, Option.some_or, if_neg hc, parseVecFF, hv, orThrow]
        rfl
      · simp only [parsePreProbes, List.getLast?_append, List.getLast?_singleton, Option.some_or, if_pos, parseVecFF, hv, orThrow]
        rfl
    have hzi := parseVec32_prefix zi h.small hz0 []
    rw [List.append_nil, h.zi, hzs] at hzi
    unfold parsePreLine
    rw [cutBar_append _ hbar]
    simp only [orThrow, bind, Except.bind]
    rw [cutBar_append _ (digits_no_bar t)]
    simp only [stoul_natStr h.t, hzi]
    simp only [h.zi, ne_eq, not_true_eq_false, if_false, hp]
  have ht : PreQItem.text (zi, t, v :: vs) = zs ++ ' ' :: '|' :: ' ' :: (natStr t ++ ' ' :: '|' :: ' ' :: (s ++ [c])) := by
    unfold PreQItem.text
    simp only
    rw [e1]
    have : (zi.map (fun x => natStr x ++ [' '])).flatten = zs ++ [' '] := hzs
    rw [this]
    simp
  rcases hl with rfl | rfl
  · rw [ht]; exact key _ (Or.inl rfl)
  · rw [ht]
    have := key (s ++ [c] ++ [' ']) (Or.inr rfl)
    simpa [PreQItem.mod] using this

/-! ## the queues -/

section
variable {p n : ℕ}

/-- The invariant: the indices are distinct, and each has its entry in the map. -/
structure PreQInv (s : PreSt) (R C Fl : List (ℕ × PreQItem)) : Prop where
  req : s.req = R.map fun q => (q.1, q.2.2.2)
  comp : s.comp = C.map fun q => (q.1, q.2.2.2)
  flight : s.flight = Fl.map fun q => (q.1, q.2.2.2)
  nodup : ((R ++ C ++ Fl).map (·.1)).Nodup
  find : ∀ q ∈ R ++ C ++ Fl, s.map.lookup q.1 = some (q.2.2.1, q.2.1)
  len : ∀ q ∈ R ++ C ++ Fl, q.2.1.length = n - 1
  small : ∀ q ∈ R ++ C ++ Fl, q.1 < s.ind
  keys : ∀ q ∈ s.map, q.1 < s.ind
  queued : s.queued = R.length + C.length

lemma lookup_preEmplace {m : List (ℕ × ℕ × List ℕ)} {i : ℕ} {v : ℕ × List ℕ} (hm : ∀ q ∈ m, q.1 < i) :
    preEmplace m i v = m ++ [(i, v)] ∧ (∀ j, j < i → (preEmplace m i v).lookup j = m.lookup j) ∧ (preEmplace m i v).lookup i = some v := by
  have h0 : i ∉ m.map (·.1) := by
    intro h
    obtain ⟨q, hq, e⟩ := List.mem_map.mp h
    have := hm q hq
    omega
  have e : preEmplace m i v = m ++ [(i, v)] := by unfold preEmplace; rw [if_neg h0]
  refine ⟨e, ?_, ?_⟩
  · intro j hj
    rw [e, List.lookup_append]
    have : List.lookup j [(i, v)] = none := by
      simp only [List.lookup]
      have : (j == i) = false := by simp; omega
      rw [this]
    rw [this, Option.or_none]
  · rw [e, List.lookup_append]
    have h1 : m.lookup i = none := by
      rw [List.lookup_eq_none_iff]
      intro q hq
      have := hm q hq
      simp
      omega
    rw [h1]
    simp [List.lookup]

lemma PreQInv.add {s : PreSt} {R C Fl R' C' Fl' : List (ℕ × PreQItem)} (h : PreQInv (n := n) s R C Fl) {a : PreQItem} (ha : a.1.length = n - 1)
    (hp : (R' ++ C' ++ Fl').Perm ((s.ind, a) :: (R ++ C ++ Fl))) {s' : PreSt} (hi : s'.ind = s.ind + 1) (hm : s'.map = preEmplace s.map s.ind (a.2.1, a.1))
    (h1 : s'.req = R'.map fun q => (q.1, q.2.2.2)) (h2 : s'.comp = C'.map fun q => (q.1, q.2.2.2)) (h3 : s'.flight = Fl'.map fun q => (q.1, q.2.2.2))
    (h4 : s'.queued = R'.length + C'.length) : PreQInv (n := n) s' R' C' Fl' := by
  obtain ⟨e1, e2, e3⟩ := lookup_preEmplace (v := (a.2.1, a.1)) h.keys
  refine ⟨h1, h2, h3, ?_, ?_, ?_, ?_, ?_, h4⟩
  · rw [(hp.map (·.1)).nodup_iff, List.map_cons, List.nodup_cons]
    refine ⟨?_, h.nodup⟩
    intro hc
    obtain ⟨q, hq, e⟩ := List.mem_map.mp hc
    have := h.small q hq
    omega
  · intro q hq
    rw [hm]
    rcases List.mem_cons.mp (hp.subset hq) with rfl | hq
    · exact e3
    · rw [e2 _ (h.small q hq)]; exact h.find q hq
  · intro q hq
    rcases List.mem_cons.mp (hp.subset hq) with rfl | hq
    · exact ha
    · exact h.len q hq
  · intro q hq
    rw [hi]
    rcases List.mem_cons.mp (hp.subset hq) with rfl | hq
    · simp
    · have := h.small q hq; omega
  · intro q hq
    rw [hm, e1] at hq
    rw [hi]
    rcases List.mem_append.mp hq with hq | hq
    · have := h.keys q hq; omega
    · simp at hq; subst hq; simp

lemma lookup_filter_ne {m : List (ℕ × ℕ × List ℕ)} {i j : ℕ} (h : j ≠ i) : (m.filter (·.1 ≠ i)).lookup j = m.lookup j := by
  induction m with
  | nil => rfl
  | cons q m ih =>
    by_cases hq : q.1 = i
    · rw [List.filter_cons_of_neg (by simpa using hq), ih]
      obtain ⟨a, b⟩ := q
      simp only at hq
      have : (j == a) = false := by simp; omega
      rw [List.lookup, this]
    · rw [List.filter_cons_of_pos (by simpa using hq)]
      obtain ⟨a, b⟩ := q
      simp only [List.lookup]
      split
      · rfl
      · exact ih

lemma PreQInv.sub {s : PreSt} {R C Fl R' C' Fl' : List (ℕ × PreQItem)} (h : PreQInv (n := n) s R C Fl) {i : ℕ} {a : PreQItem}
    (hp : (R ++ C ++ Fl).Perm ((i, a) :: (R' ++ C' ++ Fl'))) {s' : PreSt} (hi : s'.ind = s.ind) (hm : s'.map = s.map.filter (·.1 ≠ i))
    (h1 : s'.req = R'.map fun q => (q.1, q.2.2.2)) (h2 : s'.comp = C'.map fun q => (q.1, q.2.2.2)) (h3 : s'.flight = Fl'.map fun q => (q.1, q.2.2.2))
    (h4 : s'.queued = R'.length + C'.length) : PreQInv (n := n) s' R' C' Fl' := by
  have hn := h.nodup
  rw [(hp.map (·.1)).nodup_iff, List.map_cons, List.nodup_cons] at hn
  have hs : ∀ q ∈ R' ++ C' ++ Fl', q ∈ R ++ C ++ Fl := fun q hq => hp.symm.subset (List.mem_cons_of_mem _ hq)
  refine ⟨h1, h2, h3, hn.2, ?_, fun q hq => h.len q (hs q hq), fun q hq => hi ▸ h.small q (hs q hq), ?_, h4⟩
  · intro q hq
    rw [hm, lookup_filter_ne]
    · exact h.find q (hs q hq)
    · intro e
      exact hn.1 (List.mem_map.mpr ⟨q, hq, e⟩)
  · intro q hq
    rw [hm] at hq
    rw [hi]
    exact h.keys q (List.mem_of_mem_filter hq)

lemma load_inv (hn : 2 ≤ n) : ∀ {ls : List Str} {ans : List PreQItem}, List.Forall₂ (fun line a => line = PreQItem.text a ∨ line = PreQItem.text a ++ [' ']) ls ans → (∀ a ∈ ans, PreQItem.OK n a) →
    ∀ {s : PreSt} {R C Fl}, PreQInv (n := n) s R C Fl → ∃ s' C', ls.foldlM (PreSt.loadLine p n) s = .ok s' ∧ PreQInv (n := n) s' R C' Fl ∧
      C'.map (·.2) = C.map (·.2) ++ ans.map (PreQItem.mod p) ∧ s'.fed = s.fed := by
  intro ls ans hf
  induction hf with
  | nil =>
    intro _ s R C Fl hi
    exact ⟨s, C, rfl, hi, by simp, rfl⟩
  | @cons l a ls ans hl hf ih =>
    intro hok s R C Fl hi
    have h0 : PreSt.loadLine p n s l = .ok { s with comp := s.comp ++ [(s.ind, (a.mod p).2.2)], map := preEmplace s.map s.ind ((a.mod p).2.1, (a.mod p).1), ind := s.ind + 1, queued := s.queued + 1 } := by
      unfold PreSt.loadLine
      rw [parsePreLine_of hn (hok a (by simp)) hl]
      rfl
    obtain ⟨s', C', e1, e2, e3, e4⟩ := ih (fun x hx => hok x (by simp [hx])) (hi.add (R' := R) (C' := C ++ [(s.ind, a.mod p)]) (Fl' := Fl) (a := a.mod p) (s' :=
      { s with comp := s.comp ++ [(s.ind, (a.mod p).2.2)], map := preEmplace s.map s.ind ((a.mod p).2.1, (a.mod p).1), ind := s.ind + 1, queued := s.queued + 1 })
      (hok a (by simp)).zi (by
        have : (R ++ (C ++ [(s.ind, a.mod p)]) ++ Fl) = (R ++ C) ++ (s.ind, a.mod p) :: Fl := by simp
        rw [this]
        exact List.perm_middle) rfl rfl hi.req (by simp [hi.comp]) hi.flight (by simp [hi.queued]; omega))
    refine ⟨s', C', ?_, e2, ?_, e4⟩
    · rw [List.foldlM_cons, h0]; exact e1
    · rw [e3]; simp

lemma step_inv (hn : 2 ≤ n) {op : PreQOp} (hop : op.OK n) {s : PreSt} {R C Fl} (hi : PreQInv (n := n) s R C Fl) {ans : List PreQItem} (hf : (s.fed ++ (Fl ++ C).map (·.2)).Perm ans) :
    ∃ s' R' C' Fl', s.step p n false op = .ok s' ∧ PreQInv (n := n) s' R' C' Fl' ∧
      R'.map (·.2) = addRequest (R.map (·.2)) op ∧
      (s'.fed ++ (Fl' ++ C').map (·.2)).Perm (ans ++ answersIn p op) := by
  cases op with
  | queue front r =>
    cases front with
    | true =>
      exact ⟨_, (s.ind, r) :: R, C, Fl, rfl, hi.add (a := r) hop (by simp) rfl rfl (by simp [PreSt.queue, hi.req]) hi.comp hi.flight (by simp [PreSt.queue, hi.queued]; omega), by simp [addRequest], by simpa [answersIn, PreSt.queue] using hf⟩
    | false =>
      exact ⟨_, R ++ [(s.ind, r)], C, Fl, rfl, hi.add (a := r) hop (by
        have : (R ++ [(s.ind, r)] ++ C ++ Fl) = R ++ (s.ind, r) :: (C ++ Fl) := by simp
        rw [this, List.append_assoc]
        exact List.perm_middle) rfl rfl (by simp [PreSt.queue, hi.req]) hi.comp hi.flight (by simp [PreSt.queue, hi.queued]; omega), by simp [addRequest], by simpa [answersIn, PreSt.queue] using hf⟩
  | load content a =>
    obtain ⟨s', C', e1, e2, e3, e4⟩ := load_inv (p := p) hn hop.1 hop.2 hi
    refine ⟨s', R, C', Fl, e1, e2, rfl, ?_⟩
    rw [e4, List.map_append, e3]
    have : s.fed ++ (Fl.map (·.2) ++ (C.map (·.2) ++ a.map (PreQItem.mod p))) = (s.fed ++ (Fl ++ C).map (·.2)) ++ a.map (PreQItem.mod p) := by simp
    rw [this]
    exact hf.append_right _
  | take =>
    cases C with
    | nil =>
      refine ⟨s, R, [], Fl, ?_, hi, rfl, by simpa [answersIn] using hf⟩
      simp [PreSt.step, PreSt.take, hi.comp]
    | cons c C =>
      have hs : s.take = some { s with comp := C.map (fun q => (q.1, q.2.2.2)), flight := s.flight ++ [(c.1, c.2.2.2)], queued := s.queued - 1 } := by
        simp [PreSt.take, hi.comp]
      refine ⟨_, R, C, Fl ++ [c], by simp only [PreSt.step, hs]; rfl, ?_, rfl, ?_⟩
      · have hp : (R ++ C ++ (Fl ++ [c])).Perm (R ++ (c :: C) ++ Fl) := by
          have : R ++ C ++ (Fl ++ [c]) = R ++ ((C ++ Fl) ++ [c]) := by simp
          have h2 : R ++ (c :: C) ++ Fl = R ++ (c :: (C ++ Fl)) := by simp
          rw [this, h2]
          exact (List.perm_append_singleton c (C ++ Fl)).append_left R
        refine ⟨hi.req, rfl, by simp [hi.flight], ?_, fun q hq => hi.find q (hp.subset hq), fun q hq => hi.len q (hp.subset hq), fun q hq => hi.small q (hp.subset hq), hi.keys, ?_⟩
        · rw [(hp.map _).nodup_iff]; exact hi.nodup
        · simp [hi.queued]
      · simp only [answersIn, List.append_nil]
        refine List.Perm.trans ?_ hf
        have : (Fl ++ [c] ++ C) = Fl ++ c :: C := by simp
        rw [this]
        simp
  | feed k =>
    simp only [PreSt.step, PreSt.feed]
    rw [hi.flight, List.getElem?_map]
    cases hk : Fl[k]? with
    | none =>
      exact ⟨s, R, C, Fl, rfl, hi, rfl, by simpa [answersIn] using hf⟩
    | some q =>
      obtain ⟨hlt, hget⟩ := List.getElem?_eq_some_iff.mp hk
      have hmem : q ∈ R ++ C ++ Fl := by
        rw [← hget]; exact List.mem_append_right _ (List.getElem_mem hlt)
      simp only [Option.map_some, hi.find q hmem, Option.getD_some, hi.len q hmem]
      have hper : Fl.Perm (q :: Fl.eraseIdx k) := by
        rw [← hget]; exact (List.getElem_cons_eraseIdx_perm hlt).symm
      simp only [Bool.false_and, Bool.not_false, Bool.true_and, ne_eq, not_true_eq_false, decide_false, Bool.or_self, Bool.false_eq_true, if_false]
      refine ⟨_, R, C, Fl.eraseIdx k, rfl, hi.sub (i := q.1) (a := q.2) ?_ rfl rfl hi.req hi.comp ?_ hi.queued, rfl, ?_⟩
      · have h1 : (R ++ C ++ Fl).Perm (R ++ C ++ (q :: Fl.eraseIdx k)) := hper.append_left _
        exact h1.trans List.perm_middle
      · rw [List.eraseIdx_map]
      · simp only [answersIn, List.append_nil]
        refine List.Perm.trans ?_ hf
        simp only [List.append_assoc, List.map_append, List.singleton_append]
        refine List.Perm.append_left _ ?_
        have h1 := (hper.map (·.2)).symm
        exact (h1.append_right (C.map (·.2)))

end

/-! ## Theorems -/

/-- **C56 (a line of an answer).** For at least two variables, the line of an answer is read as its orders, its value of `t` and its values of the functions, reduced modulo the current
prime, in the order of the line, for all numbers of the right size, with and without a blank at the end of the line; the line of a request has the same form, with the point
instead of the values. -/
theorem C56_line (p : ℕ) {n : ℕ} (hn : 2 ≤ n) {a : PreQItem} (h : PreQItem.OK n a) :
    parsePreLine p n a.text = .ok (a.mod p) ∧ parsePreLine p n (a.text ++ [' ']) = .ok (a.mod p) ∧ reqLine a.1 a.2.1 a.2.2 = a.text :=
  ⟨parsePreLine_of hn h (Or.inl rfl), parsePreLine_of hn h (Or.inr rfl), rfl⟩

example : parsePreLine 7 3 "2 1 | 5 | 9 3".toList = .ok ([2, 1], 5, [2, 3]) := by decide +kernel
example : PreQItem.OK 3 ([2, 1], 5, [9, 3]) := ⟨rfl, by decide, by decide, by decide, by decide⟩

/-- **C56 (every history).** Start with empty queues. For at least two variables and every sequence of requests, answer files and steps of the threads that take and feed probes, in any
interleaving: the program does not end; the requested probes can be written, and the file lists all requests of the run with their orders, values of `t` and points, those of the first
kind first; every probe handed to the interpolations carries orders, `t` and values of one line of the files, and no line is lost or handed on twice: the probes handed on and
as many as are still in the queue or with a thread are all lines of the files; `probes_queued` counts the requests and the answers not taken. -/
theorem C56_history (p : ℕ) {n : ℕ} (hn : 2 ≤ n) (ops : List PreQOp) (hops : ∀ op ∈ ops, op.OK n) :
    ∃ s, ops.foldlM (PreSt.step p n false) {} = .ok s ∧
      s.write = .ok ((requestsOf ops).map PreQItem.text) ∧
      (∃ rest : List PreQItem, (s.fed ++ rest).Perm (answersOf p ops) ∧ rest.length = s.flight.length + s.comp.length) ∧
      s.queued = (requestsOf ops).length + s.comp.length := by
  have main : ∀ (ops : List PreQOp), (∀ op ∈ ops, op.OK n) → ∀ {s : PreSt} {R C Fl} {ans}, PreQInv (n := n) s R C Fl → (s.fed ++ (Fl ++ C).map (·.2)).Perm ans →
      ∃ s' R' C' Fl', ops.foldlM (PreSt.step p n false) s = .ok s' ∧ PreQInv (n := n) s' R' C' Fl' ∧
        R'.map (·.2) = ops.foldl addRequest (R.map (·.2)) ∧
        (s'.fed ++ (Fl' ++ C').map (·.2)).Perm (ans ++ answersOf p ops) := by
    intro ops
    induction ops with
    | nil =>
      intro _ s R C Fl ans hi hf
      exact ⟨s, R, C, Fl, rfl, hi, rfl, by simpa [answersOf] using hf⟩
    | cons op ops ih =>
      intro hok s R C Fl ans hi hf
      obtain ⟨s1, R1, C1, F1, e1, i1, r1, f1⟩ := step_inv (p := p) hn (hok op (by simp)) hi hf
      obtain ⟨s2, R2, C2, F2, e2, i2, r2, f2⟩ := ih (fun o ho => hok o (by simp [ho])) i1 f1
      refine ⟨s2, R2, C2, F2, ?_, i2, ?_, ?_⟩
      · rw [List.foldlM_cons, e1]; exact e2
      · rw [r2, r1, List.foldl_cons]
      · simpa [answersOf] using f2
  obtain ⟨s, R, C, Fl, e, i, r, f⟩ := main ops hops (s := {}) (R := []) (C := []) (Fl := []) (ans := [])
    ⟨rfl, rfl, rfl, by simp, by simp, by simp, by simp, by simp, rfl⟩ (by simp)
  have hr : R.map (·.2) = requestsOf ops := r
  refine ⟨s, e, ?_, ⟨(Fl ++ C).map (·.2), by simpa using f, by simp [i.flight, i.comp]⟩, ?_⟩
  · rw [← hr]
    unfold PreSt.write
    rw [i.req]
    have hfind : ∀ q ∈ R, s.map.lookup q.1 = some (q.2.2.1, q.2.1) := fun q hq => i.find q (by simp [hq])
    clear hr r f e i main
    induction R with
    | nil => rfl
    | cons q R ih =>
      have h0 := hfind q (by simp)
      have h1 := ih (fun x hx => hfind x (by simp [hx]))
      simp only [List.map_cons, List.mapM_cons]
      rw [h0, h1]
      rfl
  · rw [i.queued, ← hr, i.comp]; simp

/-- A run with two requests and an answered one: the hypotheses are met, and one probe is handed on. -/
example : ∃ ops : List PreQOp, (∀ op ∈ ops, op.OK 2) ∧ ((ops.foldlM (PreSt.step 7 2 false) {}).map PreSt.fed = .ok [([1], 5, [3, 4])] ∧ (ops.foldlM (PreSt.step 7 2 false) {}).bind PreSt.write = .ok ["1 | 5 | 5 6".toList, "1 | 2 | 2 9".toList]) := by
  refine ⟨[.queue false ([1], 5, [5, 6]), .load "1 | 5 | 3 4\n".toList [([1], 5, [3, 4])], .queue false ([1], 2, [2, 9]), .take, .feed 0], ?_, by decide +kernel⟩
  intro op hop
  simp only [List.mem_cons, List.not_mem_nil, or_false] at hop
  rcases hop with rfl | rfl | rfl | rfl | rfl
  · rfl
  · refine ⟨?_, ?_⟩
    · have : linesOf "1 | 5 | 3 4\n".toList = ["1 | 5 | 3 4".toList] := by decide +kernel
      unfold AnswerFile
      rw [this]
      exact List.Forall₂.cons (Or.inl (by decide +kernel)) List.Forall₂.nil
    · intro a ha
      simp at ha
      subst ha
      exact ⟨rfl, by decide, by decide, by decide, by decide⟩
  · rfl
  · trivial
  · trivial

/-- **C56, the full claim fails (one variable).** With one variable no file with a line can be read: every line ends the program with an exception, whatever it holds. -/
theorem C56_univariate_violated (p : ℕ) (s : PreSt) (content : Str) (h : linesOf content ≠ []) : ∃ e, s.load p 1 content = .error e := by
  obtain ⟨l, ls, e⟩ := List.exists_cons_of_ne_nil h
  have hb : ∀ (s : Str) (i : ℕ), (∃ x, parseVecLoop 0 i (s ++ [' ']) = some x ∧ x.1 ≠ []) ∨ parseVecLoop 0 i (s ++ [' ']) = none := by
    intro s i
    obtain ⟨a, b, hc⟩ : ∃ a b, cutBlank (s ++ [' ']) = some (a, b) := by
      induction s with
      | nil => exact ⟨[], [], rfl⟩
      | cons c cs ih =>
        obtain ⟨a, b, ih⟩ := ih
        by_cases hc : c = ' '
        · exact ⟨[], cs ++ [' '], by simp [cutBlank, hc]⟩
        · exact ⟨c :: a, b, by simp [cutBlank, hc, ih]⟩
    rw [parseVecLoop]
    split
    · rename_i h'; rw [hc] at h'; cases h'
    · rename_i a' b' h'
      cases hs : stoi a' with
      | none => exact Or.inr rfl
      | some z =>
        simp only
        rw [if_neg (by omega)]
        cases parseVecLoop 0 (i + 1) b' with
        | none => exact Or.inr rfl
        | some t => exact Or.inl ⟨_, rfl, by simp⟩
  have hl : ∃ e, parsePreLine p 1 l = .error e := by
    unfold parsePreLine
    cases h1 : cutBar l with
    | none => exact ⟨_, rfl⟩
    | some x =>
      obtain ⟨z, r⟩ := x
      simp only [orThrow, bind, Except.bind]
      cases h2 : cutBar r with
      | none => exact ⟨_, rfl⟩
      | some y =>
        simp only
        cases h3 : stoul y.1 with
        | none => exact ⟨_, rfl⟩
        | some t =>
          simp only [parseVec32]
          rcases hb z 0 with ⟨x, hx, hne⟩ | hx
          · simp only [Nat.sub_self, hx]
            rw [if_pos (by simpa using hne)]
            exact ⟨_, rfl⟩
          · simp only [Nat.sub_self, hx]
            exact ⟨_, rfl⟩
  obtain ⟨er, hl⟩ := hl
  refine ⟨er, ?_⟩
  unfold PreSt.load
  rw [e, List.foldlM_cons]
  have : PreSt.loadLine p 1 s l = .error er := by
    unfold PreSt.loadLine; rw [hl]; rfl
  rw [this]
  rfl

/-- The line of an answer for one variable: the program ends with an exception. -/
example : PreSt.load 7 1 {} (PreQItem.text ([], 5, [3])) = .error .throw := by decide +kernel

/-- **C56, the full claim fails (scan for factors).** During the scan for factors with at least two variables the first probe that was read ends the program. -/
theorem C56_scan_violated (p : ℕ) {n : ℕ} (hn : 2 ≤ n) {content : Str} {ans : List PreQItem} (hf : AnswerFile content ans) (hok : ∀ a ∈ ans, PreQItem.OK n a) (hne : ans ≠ []) :
    [PreQOp.load content ans, .take, .feed 0].foldlM (PreSt.step p n true) {} = .error .exit := by
  obtain ⟨s1, C1, e1, i1, r1, f1⟩ := load_inv (p := p) hn hf hok (s := {}) (R := []) (C := []) (Fl := []) ⟨rfl, rfl, rfl, by simp, by simp, by simp, by simp, by simp, rfl⟩
  obtain ⟨a, ans', rfl⟩ := List.exists_cons_of_ne_nil hne
  cases C1 with
  | nil => simp at r1
  | cons c C1 =>
    have hlen := i1.len c (by simp)
    have hfind := i1.find c (by simp)
    simp only [List.foldlM_cons, List.foldlM_nil, PreSt.step, PreSt.load]
    have hf1 : s1.flight = [] := i1.flight
    rw [e1]
    simp only [bind, Except.bind, PreSt.take, i1.comp, List.map_cons, Option.getD_some, PreSt.feed, hf1, List.nil_append, List.getElem?_cons_zero, hfind, hlen]
    rw [if_pos]
    simp
    omega

/-- **C56, what the file of requests is not.** A request stays in the file although its answer was read and used: the file is not the list of the missing probes. -/
theorem C56_repeat_violated : ∃ s : PreSt, [PreQOp.queue true ([1], 5, [5, 6]), .load "1 | 5 | 3\n".toList [([1], 5, [3])], .take, .feed 0].foldlM (PreSt.step 7 2 false) {} = .ok s ∧
    s.fed = [([1], 5, [3])] ∧ s.write = .ok ["1 | 5 | 5 6".toList] :=
  ⟨{ ind := 2, queued := 1, map := [(0, 5, [1])], req := [(0, [5, 6])], fed := [([1], 5, [3])] }, by decide +kernel, rfl, by decide +kernel⟩

end FireFly
