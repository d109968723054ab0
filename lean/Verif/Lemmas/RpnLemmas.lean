import Verif.Model.Parser
import Verif.Props.FFIntProps
import Mathlib.Data.List.GetD
import Mathlib.Data.List.TakeWhile
/-! # Evaluation of operand and operator tokens -/
set_option linter.all false
namespace FireFly

/-! ### characters -/

def isAlnum (c : Char) : Bool := isAlphaC c || isDigitC c

lemma alnum_ne {c : Char} (h : isAlnum c = true) :
    c ≠ '+' ∧ c ≠ '-' ∧ c ≠ '*' ∧ c ≠ '/' ∧ c ≠ '^' ∧ c ≠ '(' ∧ c ≠ ')' ∧ c ≠ ' ' ∧ c ≠ '!' ∧ c ≠ '~' ∧ c ≠ ';' ∧ c ≠ '$' ∧ c ≠ '\x00' := by
  refine ⟨?_, ?_, ?_, ?_, ?_, ?_, ?_, ?_, ?_, ?_, ?_, ?_, ?_⟩ <;> (rintro rfl; revert h; decide)

lemma digit_alnum {c : Char} (h : isDigitC c = true) : isAlnum c = true := by simp [isAlnum, h]

lemma isNum_alnum {ds : Str} (h : IsNum ds) : ds ≠ [] ∧ ∀ c ∈ ds, isAlnum c = true :=
  ⟨h.1, fun c hc => digit_alnum (h.2.1 c hc)⟩

lemma isName_alnum {s : Str} (h : IsName s) : s ≠ [] ∧ ∀ c ∈ s, isAlnum c = true := by
  obtain ⟨-, h1, c, hc, -⟩ := h
  refine ⟨by rintro rfl; simp at hc, fun c hc => ?_⟩
  rcases h1 c hc with h | h <;> simp [isAlnum, h]

lemma isOperand_digit {c : Char} (h : isAlnum c = true) (ha : ¬ isAlphaC c = true) : isOperand c = true := by
  obtain ⟨h1, h2, h3, h4, h5, h6, h7, h8, -⟩ := alnum_ne h
  have ha' : isAlphaC c = false := by simpa using ha
  unfold isOperand isOperator
  rw [ha', beq_eq_false_iff_ne.mpr h1, beq_eq_false_iff_ne.mpr h2, beq_eq_false_iff_ne.mpr h3,
    beq_eq_false_iff_ne.mpr h4, beq_eq_false_iff_ne.mpr h5, bne_iff_ne.mpr h6, bne_iff_ne.mpr h7, bne_iff_ne.mpr h8]
  decide

lemma step_alnum {prev c : Char} {rest : Str} {s : PState} (h : isAlnum c = true) :
    s.step prev c rest = some { s with tmp := s.tmp ++ [c] } := by
  unfold PState.step
  by_cases h1 : isOperand c = true
  · rw [if_pos h1]
  · rw [if_neg h1]
    have h2 : isVariable c = true := by
      by_contra ha
      exact h1 (isOperand_digit h ha)
    rw [if_pos h2]

lemma parseLoop_cons {prev c : Char} {rest : Str} {s s' : PState} (h : s.step prev c rest = some s') :
    parseLoop prev (c :: rest) s = parseLoop c rest s' := by
  show (s.step prev c rest).bind _ = _
  rw [h]; rfl

lemma parseLoop_alnum (name : Str) : ∀ (prev : Char) (s : PState), name ≠ [] → (∀ c ∈ name, isAlnum c = true) →
    ∃ prev', isAlnum prev' = true ∧ ∀ rest, parseLoop prev (name ++ rest) s = parseLoop prev' rest { s with tmp := s.tmp ++ name } := by
  induction name with
  | nil => intro _ _ h; exact absurd rfl h
  | cons c name ih =>
    intro prev s _ h
    have hc := h c (by simp)
    by_cases hn : name = []
    · subst hn
      exact ⟨c, hc, fun rest => parseLoop_cons (step_alnum hc)⟩
    · obtain ⟨prev', h1, h2⟩ := ih c { s with tmp := s.tmp ++ [c] } hn (fun x hx => h x (List.mem_cons_of_mem _ hx))
      refine ⟨prev', h1, fun rest => ?_⟩
      rw [List.cons_append, parseLoop_cons (step_alnum hc), h2 rest]
      simp

/-! ### evaluation of codes -/

section
variable [LongDouble] (p : ℕ) (vars : List Str) (values : List ℕ)

/-- running the evaluator on a piece of RPN -/
def runRpn (C : List Str) (S : List ℕ) : Option (List ℕ) := C.foldlM (evalStep opTokens p vars values) S

/-- the code `C` pushes a canonical word for `v` -/
def Pushes (C : List Str) (v : ZMod p) : Prop :=
  ∃ w, w < p ∧ (w : ZMod p) = v ∧ ∀ S, runRpn p vars values C S = some (w :: S)

variable {p vars values}

lemma runRpn_append (C D : List Str) (S : List ℕ) :
    runRpn p vars values (C ++ D) S = (runRpn p vars values C S).bind (runRpn p vars values D) := by
  unfold runRpn
  rw [List.foldlM_append]; rfl

lemma Pushes.ne_nil {C : List Str} {v : ZMod p} (h : Pushes p vars values C v) : C ≠ [] := by
  rintro rfl
  obtain ⟨w, -, -, h⟩ := h
  have := h []
  simp [runRpn] at this

/-- the generic binary operator -/
lemma Pushes.binop {C D : List Str} {v u : ZMod p} (h1 : Pushes p vars values C v) (h2 : Pushes p vars values D u)
    {op : Char} (hop : [op] ∈ opTokens) {r : ZMod p}
    (h : ∀ x a, x < p → a < p → (x : ZMod p) = v → (a : ZMod p) = u → ∃ c, applyOp p op x a = some c ∧ c < p ∧ (c : ZMod p) = r) :
    Pushes p vars values (C ++ D ++ [[op]]) r := by
  obtain ⟨x, hx, hxv, h1⟩ := h1
  obtain ⟨a, ha, hau, h2⟩ := h2
  obtain ⟨c, hc, hcp, hcr⟩ := h x a hx ha hxv hau
  refine ⟨c, hcp, hcr, fun S => ?_⟩
  rw [runRpn_append, runRpn_append, h1]
  simp only [Option.bind_some, h2]
  simp [runRpn, evalStep, hop, hc]

variable (hp : p.Prime) (hlt : p < 2 ^ 63)
include hp hlt

lemma push_add {C D : List Str} {v u : ZMod p} (h1 : Pushes p vars values C v) (h2 : Pushes p vars values D u) :
    Pushes p vars values (C ++ D ++ [['+']]) (v + u) := by
  refine h1.binop h2 (by decide) (fun x a hx ha hv hu => ⟨ffAddAssign p x a, by simp [applyOp], ?_⟩)
  rw [(C01_assign hp hlt hx ha).1]
  obtain ⟨h3, h4⟩ := C01_add hp hlt hx ha
  exact ⟨h3, by rw [h4, hv, hu]⟩

lemma push_sub {C D : List Str} {v u : ZMod p} (h1 : Pushes p vars values C v) (h2 : Pushes p vars values D u) :
    Pushes p vars values (C ++ D ++ [['-']]) (v - u) := by
  refine h1.binop h2 (by decide) (fun x a hx ha hv hu => ⟨ffSubAssign p x a, by simp [applyOp], ?_⟩)
  rw [(C01_assign hp hlt hx ha).2.1]
  obtain ⟨h3, h4⟩ := C01_sub hp hlt hx ha
  exact ⟨h3, by rw [h4, hv, hu]⟩

lemma push_mul {C D : List Str} {v u : ZMod p} (h1 : Pushes p vars values C v) (h2 : Pushes p vars values D u) :
    Pushes p vars values (C ++ D ++ [['*']]) (v * u) := by
  refine h1.binop h2 (by decide) (fun x a hx ha hv hu => ?_)
  obtain ⟨c, h3, h4, h5⟩ := C01_mul hp hlt (a := x) (b := a)
  refine ⟨c, ?_, h4, by rw [h5, hv, hu]⟩
  rw [← h3, ← (C01_assign hp hlt hx ha).2.2.1]
  simp [applyOp]

lemma push_div [Fact p.Prime] {C D : List Str} {v u : ZMod p} (h1 : Pushes p vars values C v) (h2 : Pushes p vars values D u) :
    Pushes p vars values (C ++ D ++ [['/']]) (v / u) := by
  refine h1.binop h2 (by decide) (fun x a hx ha hv hu => ?_)
  obtain ⟨c, h3, h4, h5, -⟩ := C01_div hp hlt (a := x) ha
  refine ⟨c, ?_, h4, by rw [h5, hv, hu]⟩
  rw [← h3, ← (C01_assign hp hlt hx ha).2.2.2]
  simp [applyOp]

/-- `pow` with a stored exponent below `p - 1` -/
lemma ffPow_lt (h3 : 3 < p) {x a : ℕ} (hx : x < p) (ha : a < p - 1) :
    ∃ c, ffPow p x a = some c ∧ c < p ∧ (c : ZMod p) = (x : ZMod p) ^ a := by
  by_cases hx0 : x = 0
  · subst hx0
    rw [C04_pow_ffint_zero hp hlt (by omega) h3]
    refine ⟨_, rfl, ?_, ?_⟩
    · split <;> omega
    · by_cases ha0 : a = 0
      · subst ha0; simp
      · rw [if_neg (by omega)]
        simp [ha0]
  · exact C04_pow_ffint hp hlt hx hx0 (by omega)

lemma ffPowNeg_lt [Fact p.Prime] {x a : ℕ} (hx : x < p) (ha : a < 2 ^ 31) :
    ∃ c, (toNegInt a).bind (fun k => ffPowInt p 32 x k) = some c ∧ c < p ∧ (c : ZMod p) = ((x : ZMod p) ^ a)⁻¹ := by
  have : toNegInt a = some (-(a : ℤ)) := by
    unfold toNegInt
    simp only
    rw [Nat.mod_eq_of_lt (by omega), if_pos ha, if_neg (by omega)]
  rw [this, Option.bind_some]
  by_cases ha0 : a = 0
  · subst ha0
    obtain ⟨c, h1, h2, h3⟩ := C04_pow_int_nonneg hp hlt (a := x) 32 0 (by norm_num)
    refine ⟨c, ?_, h2, by rw [h3]; simp⟩
    simpa using h1
  · exact C04_pow_int_neg hp hlt 32 (by norm_num) a (by omega) (by simpa using ha) hx
end

/-! ### operand tokens -/

/-- the sign of a token -/
def sgVal {K : Type} [Ring K] (sg : Str) : K := if sg = ['-'] then -1 else 1

def SgOK (sg : Str) : Prop := sg = [] ∨ sg = ['-'] ∨ sg = ['+']

section
variable [LongDouble] {p : ℕ} {vars : List Str} {values : List ℕ}

lemma not_opToken {sg name : Str} (hsg : SgOK sg) (h0 : name ≠ []) (h : ∀ c ∈ name, isAlnum c = true) :
    sg ++ name ∉ opTokens := by
  obtain ⟨c, t, rfl⟩ := List.exists_cons_of_ne_nil h0
  obtain ⟨h1, h2, h3, h4, h5, h6, h7, h8, h9, h10, h11, -⟩ := alnum_ne (h c (by simp))
  rcases hsg with rfl | rfl | rfl <;> simp [opTokens, h1, h2, h3, h4, h5, h9, h10, h11]

lemma classify_minus (vars : List Str) (t : Str) : classify vars ('-' :: t) =
    if t.length + 1 > 18 then (mpzOfStr ('-' :: t)).map .big
    else match varIndex vars t with
    | some i => some (.negVar i)
    | none => if isDigitC (t.getD 0 '\x00') then some (.negNat (stoull t)) else none := by
  rfl

lemma classify_plus (vars : List Str) (t : Str) : classify vars ('+' :: t) =
    if t.length + 1 > 18 then (mpzOfStr t).map .big
    else match varIndex vars t with
    | some i => some (.var i)
    | none => if isDigitC (t.getD 0 '\x00') then some (.nat (stoull t)) else none := by
  rfl

lemma classify_none (vars : List Str) (t : Str) (h1 : t.head? ≠ some '-') (h2 : t.head? ≠ some '+') : classify vars t =
    if t.length > 18 then (mpzOfStr t).map .big
    else match varIndex vars t with
    | some i => some (.var i)
    | none => if isDigitC (t.getD 0 '\x00') then some (.nat (stoull t)) else none := by
  unfold classify
  rw [if_neg h2, if_neg h1, if_neg h2]
  rfl

lemma runRpn_single {t : Str} (h : t ∉ opTokens) {w : ℕ} {o : Operand} (h1 : classify vars t = some o)
    (h2 : o.word p values = some w) (S : List ℕ) : runRpn p vars values [t] S = some (w :: S) := by
  simp [runRpn, evalStep, h, h1, h2]

variable (hp : p.Prime) (hlt : p < 2 ^ 63)
include hp hlt

lemma varIndex_num (hvars : ∀ v ∈ vars, IsName v) {ds : Str} (h : IsNum ds) : varIndex vars ds = none := by
  unfold varIndex
  rw [List.findIdx?_eq_none_iff]
  intro v hv
  simp only [beq_eq_false_iff_ne]
  rintro rfl
  obtain ⟨-, -, c, hc, ha⟩ := hvars v hv
  have := h.2.1 c hc
  revert ha this
  unfold isAlphaC isDigitC
  intro h1 h2
  simp only [Bool.and_eq_true, Bool.or_eq_true, decide_eq_true_eq] at h1 h2
  obtain ⟨h2a, h2b⟩ := h2
  have e0 : c.val ≤ ('9' : Char).val := h2b
  rcases h1 with ⟨h1, -⟩ | ⟨h1, -⟩
  · have e1 : ('a' : Char).val ≤ c.val := h1
    exact absurd (UInt32.le_trans e1 e0) (by decide)
  · have e1 : ('A' : Char).val ≤ c.val := h1
    exact absurd (UInt32.le_trans e1 e0) (by decide)

/-- number tokens -/
lemma push_num (hvars : ∀ v ∈ vars, IsName v) {sg ds : Str} (hsg : SgOK sg) (h : IsNum ds) :
    Pushes p vars values [sg ++ ds] (sgVal sg * (decimal ds : ZMod p)) := by
  have hne := h.1
  have hnot := not_opToken hsg hne (isNum_alnum h).2
  have hall : ds.all isDigitC = true := by rw [List.all_eq_true]; exact h.2.1
  have hhead : isDigitC (ds.getD 0 '\x00') = true := by
    obtain ⟨c, t, rfl⟩ := List.exists_cons_of_ne_nil hne
    exact h.2.1 c (by simp)
  have hst : stoull ds = decimal ds := by
    unfold stoull
    rw [List.takeWhile_eq_self_iff.mpr h.2.1]; rfl
  have hheadne : ds.head? ≠ some '-' ∧ ds.head? ≠ some '+' := by
    obtain ⟨c, t, rfl⟩ := List.exists_cons_of_ne_nil hne
    obtain ⟨h1, h2, -⟩ := alnum_ne (digit_alnum (h.2.1 c (by simp)))
    simp [h1, h2]
  have hnat : 17 < ds.length → mpzNat ds = some (decimal ds) := by
    intro hl
    unfold mpzNat
    rw [if_neg hne, if_neg (h.2.2 hl), if_pos hall]; rfl
  have hmpz : 17 < ds.length → mpzOfStr ds = some (decimal ds : ℤ) := by
    intro hl
    have hnat := hnat hl
    obtain ⟨c, t, rfl⟩ := List.exists_cons_of_ne_nil hne
    have h1 : c ≠ '-' := fun hc => hheadne.1 (by simp [hc])
    unfold mpzOfStr
    split
    · rename_i t' heq
      simp at heq
      exact absurd heq.1 h1
    · rw [hnat]; rfl
  have hmpzneg : 17 < ds.length → mpzOfStr ('-' :: ds) = some (-(decimal ds : ℤ)) := by
    intro hl
    simp only [mpzOfStr, hnat hl]
    rfl
  have hword : ∀ {o : Operand} {w : ℕ}, classify vars (sg ++ ds) = some o → o.word p values = some w → w < p →
      (w : ZMod p) = sgVal sg * (decimal ds : ZMod p) → Pushes p vars values [sg ++ ds] (sgVal sg * (decimal ds : ZMod p)) :=
    fun h1 h2 h3 h4 => ⟨_, h3, h4, fun S => runRpn_single hnot h1 h2 S⟩
  by_cases hlen : (sg ++ ds).length > 18
  · -- the mpz path
    have hz : ∀ z : ℤ, ∃ w, ctorZ p z = some w ∧ w < p ∧ (w : ZMod p) = (z : ZMod p) := by
      intro z
      obtain ⟨c, h1, h2, h3⟩ := C05_ctor_mpz hp.pos hlt z
      refine ⟨c, h1, h2, ?_⟩
      have := congrArg (Int.cast : ℤ → ZMod p) h3
      simpa using this
    rcases hsg with rfl | rfl | rfl
    · obtain ⟨w, h1, h2, h3⟩ := hz (decimal ds)
      refine hword (o := .big (decimal ds)) (w := w) ?_ h1 h2 (by rw [h3]; simp [sgVal])
      rw [List.nil_append, classify_none _ _ hheadne.1 hheadne.2, if_pos (by simpa using hlen), hmpz (by simp at hlen; omega)]; rfl
    · obtain ⟨w, h1, h2, h3⟩ := hz (-(decimal ds : ℤ))
      refine hword (o := .big (-(decimal ds : ℤ))) (w := w) ?_ h1 h2 (by rw [h3]; simp [sgVal])
      rw [List.singleton_append, classify_minus, if_pos (by simpa using hlen), hmpzneg (by simp at hlen; omega)]; rfl
    · obtain ⟨w, h1, h2, h3⟩ := hz (decimal ds)
      refine hword (o := .big (decimal ds)) (w := w) ?_ h1 h2 (by rw [h3]; simp [sgVal])
      rw [List.singleton_append, classify_plus, if_pos (by simpa using hlen), hmpz (by simp at hlen; omega)]; rfl
  · have hu : ctorU p (decimal ds) < p ∧ ((ctorU p (decimal ds) : ℕ) : ZMod p) = decimal ds := by
      rw [ctorU_eq]
      exact ⟨Nat.mod_lt _ hp.pos, by simp⟩
    have hv := varIndex_num hp hlt hvars h
    rcases hsg with rfl | rfl | rfl
    · refine hword (o := .nat (decimal ds)) (w := ctorU p (decimal ds)) ?_ rfl hu.1 (by rw [hu.2]; simp [sgVal])
      rw [List.nil_append, classify_none _ _ hheadne.1 hheadne.2, if_neg (by simpa using hlen), hv]
      simp only
      rw [if_pos hhead, hst]
    · obtain ⟨h1, h2⟩ := C01_neg hp hlt hu.1
      refine hword (o := .negNat (decimal ds)) (w := ffNeg p (ctorU p (decimal ds))) ?_ rfl h1 (by rw [h2, hu.2]; simp [sgVal])
      rw [List.singleton_append, classify_minus, if_neg (by simpa using hlen), hv]
      simp only
      rw [if_pos hhead, hst]
    · refine hword (o := .nat (decimal ds)) (w := ctorU p (decimal ds)) ?_ rfl hu.1 (by rw [hu.2]; simp [sgVal])
      rw [List.singleton_append, classify_plus, if_neg (by simpa using hlen), hv]
      simp only
      rw [if_pos hhead, hst]

/-- a number token below `p` pushes exactly this number -/
lemma push_num_exact (hvars : ∀ v ∈ vars, IsName v) {ds : Str} (h : IsNum ds) (hlt' : decimal ds < p) (S : List ℕ) :
    runRpn p vars values [ds] S = some (decimal ds :: S) := by
  obtain ⟨w, h1, h2, h3⟩ := push_num hp hlt (values := values) hvars (sg := []) (Or.inl rfl) h
  simp only [List.nil_append, sgVal] at h2 h3
  rw [if_neg (by decide), one_mul, ZMod.natCast_eq_natCast_iff] at h2
  have := Nat.ModEq.eq_of_lt_of_lt h2 h1 hlt'
  rw [h3 S, this]

/-- the values of the variables -/
def envOf (p : ℕ) (vars : List Str) (values : List ℕ) : Str → ZMod p :=
  fun name => ((values.getD (vars.idxOf name) 0 : ℕ) : ZMod p)

/-- variable tokens -/
lemma push_var (hvars : ∀ v ∈ vars, IsName v) (hlen : vars.length ≤ values.length) (hval : ∀ x ∈ values, x < p)
    {sg name : Str} (hsg : SgOK sg) (h : name ∈ vars) :
    Pushes p vars values [sg ++ name] (sgVal sg * envOf p vars values name) := by
  obtain ⟨hne, hal⟩ := isName_alnum (hvars name h)
  have hnot := not_opToken hsg hne hal
  have h16 := (hvars name h).1
  have hidx : varIndex vars name = some (vars.idxOf name) := by
    unfold varIndex
    have := List.idxOf_lt_length_iff.mpr h
    rw [List.findIdx?_eq_some_iff_findIdx_eq]
    exact ⟨this, rfl⟩
  have hlt' : vars.idxOf name < values.length := lt_of_lt_of_le (List.idxOf_lt_length_iff.mpr h) hlen
  have hget : values[vars.idxOf name]? = some (values.getD (vars.idxOf name) 0) := by
    rw [List.getD_eq_getElem?_getD, List.getElem?_eq_getElem hlt']; rfl
  have hv : values.getD (vars.idxOf name) 0 < p := by
    apply hval
    rw [List.getD_eq_getElem _ _ hlt']
    exact List.getElem_mem _
  have hheadne : name.head? ≠ some '-' ∧ name.head? ≠ some '+' := by
    obtain ⟨c, t, rfl⟩ := List.exists_cons_of_ne_nil hne
    obtain ⟨h1, h2, -⟩ := alnum_ne (hal c (by simp))
    simp [h1, h2]
  rcases hsg with rfl | rfl | rfl
  · refine ⟨values.getD (vars.idxOf name) 0, hv, by simp [sgVal, envOf], fun S => runRpn_single (o := .var (vars.idxOf name)) hnot ?_ hget S⟩
    rw [List.nil_append, classify_none _ _ hheadne.1 hheadne.2, if_neg (by omega), hidx]
  · obtain ⟨h1, h2⟩ := C01_neg hp hlt hv
    refine ⟨ffNeg p (values.getD (vars.idxOf name) 0), h1, by rw [h2]; simp [sgVal, envOf], fun S => runRpn_single (o := .negVar (vars.idxOf name)) hnot ?_ ?_ S⟩
    · rw [List.singleton_append, classify_minus, if_neg (by omega), hidx]
    · simp only [Operand.word, hget, Option.map_some]
  · refine ⟨values.getD (vars.idxOf name) 0, hv, by simp [sgVal, envOf], fun S => runRpn_single (o := .var (vars.idxOf name)) hnot ?_ hget S⟩
    rw [List.singleton_append, classify_plus, if_neg (by omega), hidx]

/-- a power of a pushed base -/
lemma push_pow [Fact p.Prime] (h3 : 3 < p) (hvars : ∀ v ∈ vars, IsName v) {C : List Str} {v : ZMod p} {ds : Str}
    (h1 : Pushes p vars values C v) (h : IsNum ds) (hn : decimal ds < p - 1) :
    Pushes p vars values (C ++ [ds] ++ [['^']]) (v ^ decimal ds) ∧
    Pushes p vars values (C ++ [ds] ++ [['!']]) (-v ^ decimal ds) := by
  obtain ⟨x, hx, hxv, h1⟩ := h1
  obtain ⟨c, hc, hcp, hcv⟩ := ffPow_lt hp hlt h3 hx hn
  have h2 := push_num_exact hp hlt (values := values) hvars h (by omega)
  obtain ⟨n1, n2⟩ := C01_neg hp hlt hcp
  constructor
  · refine ⟨c, hcp, by rw [hcv, hxv], fun S => ?_⟩
    rw [runRpn_append, runRpn_append, h1, Option.bind_some, h2]
    simp [runRpn, evalStep, opTokens, applyOp, hc]
  · refine ⟨ffNeg p c, n1, by rw [n2, hcv, hxv], fun S => ?_⟩
    rw [runRpn_append, runRpn_append, h1, Option.bind_some, h2]
    simp [runRpn, evalStep, opTokens, applyOp, hc]

lemma push_negpow [Fact p.Prime] (hvars : ∀ v ∈ vars, IsName v) {C : List Str} {v : ZMod p} {ds : Str}
    (h1 : Pushes p vars values C v) (h : IsNum ds) (hn : decimal ds < min p (2 ^ 31)) :
    Pushes p vars values (C ++ [ds] ++ [['~']]) (v ^ decimal ds)⁻¹ ∧
    Pushes p vars values (C ++ [ds] ++ [[';']]) (-(v ^ decimal ds)⁻¹) := by
  obtain ⟨x, hx, hxv, h1⟩ := h1
  obtain ⟨c, hc, hcp, hcv⟩ := ffPowNeg_lt hp hlt hx (lt_of_lt_of_le hn (min_le_right _ _))
  have h2 := push_num_exact hp hlt (values := values) hvars h (lt_of_lt_of_le hn (min_le_left _ _))
  obtain ⟨n1, n2⟩ := C01_neg hp hlt hcp
  constructor
  · refine ⟨c, hcp, by rw [hcv, hxv], fun S => ?_⟩
    rw [runRpn_append, runRpn_append, h1, Option.bind_some, h2]
    simp [runRpn, evalStep, opTokens, applyOp, hc]
  · refine ⟨ffNeg p c, n1, by rw [n2, hcv, hxv], fun S => ?_⟩
    rw [runRpn_append, runRpn_append, h1, Option.bind_some, h2]
    simp [runRpn, evalStep, opTokens, applyOp, hc]
end

end FireFly
