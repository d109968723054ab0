import Verif.Lemmas.FFIntLemmas
import Verif.Lemmas.Rne
import Mathlib.Data.Nat.Digits.Defs
/-! # C06: reading decimal strings -/
namespace FireFly
variable {p : ℕ}

/-- Specification: the number denoted by a list of digit characters, most significant first. -/
def decVal : List Char → ℕ
  | [] => 0
  | c :: cs => (c.toNat - '0'.toNat) * 10 ^ cs.length + decVal cs

/-- Specification: the string consists of decimal digits only. -/
def AllDigits (s : List Char) : Prop := ∀ c ∈ s, '0' ≤ c ∧ c ≤ '9'

lemma digitsAcc_eq (acc : ℕ) (cs : List Char) :
    digitsAcc acc cs = acc * 10 ^ cs.length + decVal cs := by
  unfold digitsAcc
  induction cs generalizing acc with
  | nil => simp [decVal]
  | cons c cs ih => rw [List.foldl_cons, ih, List.length_cons, decVal, pow_succ]; ring

lemma isDigitC_iff (c : Char) : isDigitC c = true ↔ '0' ≤ c ∧ c ≤ '9' := by
  unfold isDigitC; simp

lemma decVal_append (a b : List Char) : decVal (a ++ b) = decVal a * 10 ^ b.length + decVal b := by
  induction a with
  | nil => simp [decVal]
  | cons c a ih => rw [List.cons_append, decVal, decVal, ih, List.length_append, pow_add]; ring

lemma decVal_lt {s : List Char} (h : AllDigits s) : decVal s < 10 ^ s.length := by
  induction s with
  | nil => simp [decVal]
  | cons c s ih =>
    have h1 := ih (fun c hc => h c (by simp [hc]))
    have h2 := h c (by simp)
    have h3 : c.toNat - '0'.toNat ≤ 9 := by
      have : c.toNat ≤ '9'.toNat := h2.2
      have : '9'.toNat = 57 := by decide
      have : '0'.toNat = 48 := by decide
      omega
    rw [decVal, List.length_cons, pow_succ]
    have : (c.toNat - '0'.toNat) * 10 ^ s.length ≤ 9 * 10 ^ s.length := Nat.mul_le_mul_right _ h3
    omega

lemma digit_not_space {c : Char} (h : '0' ≤ c ∧ c ≤ '9') :
    isSpaceC c = false ∧ c ≠ '-' ∧ c ≠ '+' ∧ isAlphaC c = false := by
  have h1 : '0'.toNat ≤ c.toNat := h.1
  have h2 : c.toNat ≤ '9'.toNat := h.2
  have e0 : '0'.toNat = 48 := by decide
  have e9 : '9'.toNat = 57 := by decide
  have ne : ∀ d : Char, (d.toNat < 48 ∨ 57 < d.toNat) → c ≠ d := by
    intro d hd he; subst he; omega
  have nb : ∀ d : Char, (d.toNat < 48 ∨ 57 < d.toNat) → (c == d) = false := by
    intro d hd; rw [beq_eq_false_iff_ne]; exact ne d hd
  refine ⟨?_, ne _ (by decide), ne _ (by decide), ?_⟩
  · unfold isSpaceC
    rw [nb ' ' (by decide), nb '\t' (by decide), nb '\n' (by decide), nb '\r' (by decide),
      nb '\x0b' (by decide), nb '\x0c' (by decide)]; rfl
  · unfold isAlphaC
    have a1 : ¬ 'a' ≤ c := by
      intro h; have : 'a'.toNat ≤ c.toNat := h
      have : 'a'.toNat = 97 := by decide
      omega
    have a2 : ¬ 'A' ≤ c := by
      intro h; have : 'A'.toNat ≤ c.toNat := h
      have : 'A'.toNat = 65 := by decide
      omega
    simp [a1, a2]

/-- extraction from a string starting with a digit -/
lemma extract_digit_start {c : Char} {cs : List Char} (hc : '0' ≤ c ∧ c ≤ '9') :
    extractU64 (c :: cs) =
      let ds := (c :: cs).takeWhile isDigitC
      if digitsAcc 0 ds ≥ 2 ^ 64 then none
      else some (digitsAcc 0 ds, (c :: cs).dropWhile isDigitC) := by
  obtain ⟨h1, h2, h3, _⟩ := digit_not_space hc
  have hd : isDigitC c = true := (isDigitC_iff c).mpr hc
  unfold extractU64
  have hm : takeSign ((c :: cs).dropWhile isSpaceC) = (false, c :: cs) := by
    simp [h1, takeSign, h2, h3]
  simp [hm, hd]

lemma allDigits_takeWhile {s : List Char} (h : AllDigits s) :
    s.takeWhile isDigitC = s ∧ s.dropWhile isDigitC = [] := by
  induction s with
  | nil => simp
  | cons c s ih =>
    have hc := (isDigitC_iff c).mpr (h c (by simp))
    obtain ⟨h1, h2⟩ := ih (fun d hd => h d (by simp [hd]))
    simp [hc, h1, h2]

lemma dropWhile_nil {s : List Char} (h : s.dropWhile isDigitC = []) : AllDigits s := by
  induction s with
  | nil => intro c hc; simp at hc
  | cons c s ih =>
    rw [List.dropWhile_cons] at h
    split_ifs at h with hc
    intro d hd
    rcases List.mem_cons.mp hd with rfl | hd
    · exact (isDigitC_iff _).mp hc
    · exact ih h d hd

lemma extract_allDigits {s : List Char} (h : AllDigits s) (hne : s ≠ []) :
    extractU64 s = if decVal s ≥ 2 ^ 64 then none else some (decVal s, []) := by
  obtain ⟨c, cs, rfl⟩ := List.exists_cons_of_ne_nil hne
  rw [extract_digit_start (h c (by simp))]
  obtain ⟨h1, h2⟩ := allDigits_takeWhile h
  simp only [h1, h2, digitsAcc_eq]; simp

variable [LongDouble]

lemma parseChunks_spec (hp : 1 < p) (hlt : p < 2 ^ 63) :
    ∀ (rest : List Char) (len result : ℕ) (pre : List Char), AllDigits rest → 0 < len → len ≤ 18 →
      (rest = [] ∨ (len ≤ rest.length ∧ 18 ∣ rest.length - len)) →
      (pre ≠ [] → len = 18 ∨ rest = []) → result = decVal pre % p →
      parseChunks p len result rest = some (decVal (pre ++ rest) % p) := by
  intro rest
  induction hn : rest.length using Nat.strong_induction_on generalizing rest with
  | _ n ih =>
  intro len result pre hd hl0 hl1 hlen hpre hres
  have hp0 : 0 < p := by omega
  unfold parseChunks
  by_cases hr : rest = []
  · subst hr; simp [hres]
  · rw [dif_neg hr, dif_neg (by omega)]
    obtain ⟨hle, hdiv⟩ := hlen.resolve_left hr
    have hch : AllDigits (rest.take len) := fun c hc => hd c (List.mem_of_mem_take hc)
    have hcl : (rest.take len).length = len := by rw [List.length_take]; omega
    have hcne : rest.take len ≠ [] := by
      intro h; rw [h] at hcl; simp at hcl; omega
    have hclt : decVal (rest.take len) < 10 ^ 18 := by
      have := decVal_lt hch
      rw [hcl] at this
      exact lt_of_lt_of_le this (Nat.pow_le_pow_right (by norm_num) hl1)
    have hex : ((extractU64 (rest.take len)).map (·.1)).getD 0 = decVal (rest.take len) := by
      rw [extract_allDigits hch hcne, if_neg (by omega)]; rfl
    have hmul : (if result ≠ 0 then ffMul p (ctorU p result) (ctorU p 1000000000000000000)
                 else some result) = some ((decVal pre * 10 ^ 18) % p) := by
      split_ifs with h0
      · unfold ffMul
        rw [modMul_eq hp0 hlt]
        simp only [ctorU_eq, Option.map_some, Nat.mod_mod, Option.some.injEq]
        rw [← Nat.mul_mod, hres]
        exact Nat.ModEq.mul_right _ (Nat.mod_modEq _ _)
      · have h0' : decVal pre % p = 0 := by rw [← hres]; omega
        rw [Nat.mul_mod, h0']; simp; omega
    simp only [hex]
    have hdo : ∀ f : ℕ → Option ℕ, (if result ≠ 0 then
          (do let r ← ffMul p (ctorU p result) (ctorU p 1000000000000000000); f r)
        else (do let r ← some result; f r)) = f ((decVal pre * 10 ^ 18) % p) := by
      intro f
      by_cases h0 : result ≠ 0
      · rw [if_pos h0] at hmul ⊢; rw [hmul]; rfl
      · rw [if_neg h0] at hmul ⊢; rw [hmul]; rfl
    rw [hdo]
    have hadd : ffAdd p (ctorU p ((decVal pre * 10 ^ 18) % p)) (ctorU p (decVal (rest.take len)))
        = decVal (pre ++ rest.take len) % p := by
      unfold ffAdd
      rw [ctorU_eq p ((decVal pre * 10 ^ 18) % p), ctorU_eq p (decVal _),
        ffAddAssign_eq hlt (Nat.mod_lt _ hp0) (Nat.mod_lt _ hp0), ctorU_eq, Nat.mod_mod, Nat.mod_mod,
        ← Nat.add_mod, decVal_append, hcl]
      by_cases hpn : pre = []
      · subst hpn; simp [decVal]
      · rw [(hpre hpn).resolve_right hr]
    have hsplit : pre ++ rest = (pre ++ rest.take len) ++ rest.drop len := by simp
    rw [hsplit]
    have hdl : (rest.drop len).length = rest.length - len := List.length_drop
    refine ih (rest.drop len).length (by omega) (rest.drop len) rfl 18 _ (pre ++ rest.take len)
      (fun c hc => hd c (List.mem_of_mem_drop hc)) (by norm_num) (le_refl _) ?_ (fun _ => Or.inl rfl) hadd
    by_cases hz : rest.length - len = 0
    · left; apply List.eq_nil_of_length_eq_zero; omega
    · right
      obtain ⟨q, hq⟩ := hdiv
      refine ⟨by omega, ?_⟩
      rw [hdl, hn, hq]; exact ⟨q - 1, by omega⟩

lemma parseLongint_digits (hp : 1 < p) (hlt : p < 2 ^ 63) {s : List Char} (h : AllDigits s)
    (hne : s ≠ []) (hlen : s.length < 2 ^ 64) : parseLongint p s = .ok (decVal s % p) := by
  have h1 : s.any (fun c => !isDigitC c) = false := by
    rw [List.any_eq_false]; intro c hc; simp [(isDigitC_iff c).mpr (h c hc)]
  have hl : 0 < s.length := List.length_pos_iff.mpr hne
  unfold parseLongint
  rw [h1]
  have hu : u64 ((s.length : ℤ) - 1) = s.length - 1 := by unfold u64; omega
  rw [hu, parseChunks_spec hp hlt s _ 0 [] h (by omega) (by omega) ?_ (by simp) (by simp [decVal])]
  · simp
  · right
    refine ⟨by omega, ?_⟩
    refine ⟨(s.length - 1) / 18, ?_⟩
    have := Nat.div_add_mod (s.length - 1) 18
    omega

/-- C06: a non-empty string of decimal digits of any length (the machine's `size_t` permitting) that
is not a declared replacement name gives the residue of the denoted number. -/
theorem C06_digits (hp : 1 < p) (hlt : p < 2 ^ 63) (s : List Char) (repl : List (List Char × ℕ))
    (hd : AllDigits s) (hne : s ≠ []) (hlen : s.length < 2 ^ 64)
    (hr : ∀ v ∈ repl, v.1 ≠ s) : ctorStr p s repl = .ok (decVal s % p) := by
  have hfind : repl.find? (fun v => v.1 == s) = none := by
    rw [List.find?_eq_none]; intro v hv; simpa using hr v hv
  unfold ctorStr
  rw [hfind]
  obtain ⟨c, cs, rfl⟩ := List.exists_cons_of_ne_nil hne
  have hc := hd c (by simp)
  obtain ⟨_, h2, _, h4⟩ := digit_not_space hc
  simp only [if_neg h2, h4]
  have hpl := parseLongint_digits hp hlt hd hne hlen
  by_cases hbig : decVal (c :: cs) ≥ 2 ^ 64
  · have hex := extract_allDigits hd hne
    rw [if_pos hbig] at hex
    rw [hex]; simpa using hpl
  · have hex := extract_allDigits hd hne
    rw [if_neg hbig] at hex
    rw [hex]; simp only
    split_ifs with h
    · rfl
    · rw [Nat.mod_eq_of_lt (by omega)]

/-- C06: rejection of a leading minus sign, of a leading letter and of strings that start with a
digit but contain a non-digit. -/
theorem C06_rejects (s : List Char) (c : Char) (repl : List (List Char × ℕ))
    (hr : ∀ v ∈ repl, v.1 ≠ c :: s)
    (hbad : c = '-' ∨ (isAlphaC c = true) ∨ (('0' ≤ c ∧ c ≤ '9') ∧ ¬ AllDigits (c :: s))) :
    ctorStr p (c :: s) repl = .throws := by
  have hfind : repl.find? (fun v => v.1 == c :: s) = none := by
    rw [List.find?_eq_none]; intro v hv; simpa using hr v hv
  unfold ctorStr
  rw [hfind]
  simp only
  by_cases hm : c = '-'
  · rw [if_pos hm]
  rw [if_neg hm]
  rcases hbad with h | h | ⟨h, hn⟩
  · exact absurd h hm
  · have hsp : isSpaceC c = false ∧ c ≠ '+' ∧ isDigitC c = false := by
      have hr : (97 ≤ c.toNat ∧ c.toNat ≤ 122) ∨ (65 ≤ c.toNat ∧ c.toNat ≤ 90) := by
        unfold isAlphaC at h
        simp only [Bool.or_eq_true, Bool.and_eq_true, decide_eq_true_eq] at h
        exact h
      have nb : ∀ d : Char, d.toNat < 65 → (c == d) = false := by
        intro d hd; rw [beq_eq_false_iff_ne]; intro he; subst he; omega
      refine ⟨?_, ?_, ?_⟩
      · unfold isSpaceC
        rw [nb ' ' (by decide), nb '\t' (by decide), nb '\n' (by decide), nb '\r' (by decide),
          nb '\x0b' (by decide), nb '\x0c' (by decide)]; rfl
      · have := nb '+' (by decide); simpa using this
      · unfold isDigitC
        have : ¬ c ≤ '9' := by
          intro hh; have : c.toNat ≤ '9'.toNat := hh
          have : '9'.toNat = 57 := by decide
          omega
        simp [this]
    have hex : extractU64 (c :: s) = none := by
      unfold extractU64
      have hm2 : takeSign ((c :: s).dropWhile isSpaceC) = (false, c :: s) := by
        simp [hsp.1, takeSign, hm, hsp.2.1]
      simp [hm2, hsp.2.2]
    rw [hex]; simp [h]
  · obtain ⟨_, _, _, h4⟩ := digit_not_space h
    have hany : (c :: s).any (fun c => !isDigitC c) = true := by
      unfold AllDigits at hn
      have hn' : ∃ d ∈ c :: s, ¬ ('0' ≤ d ∧ d ≤ '9') := by
        by_contra hcon; apply hn; intro d hd; by_contra h5; exact hcon ⟨d, hd, h5⟩
      obtain ⟨d, hd, hd2⟩ := hn'
      rw [List.any_eq_true]
      refine ⟨d, hd, ?_⟩
      have : isDigitC d ≠ true := by
        rw [Ne, isDigitC_iff]; exact hd2
      simpa using this
    have hpl : parseLongint p (c :: s) = .throws := by unfold parseLongint; rw [hany]; rfl
    have hrest : (c :: s).dropWhile isDigitC ≠ [] := by
      exact fun hz => hn (dropWhile_nil hz)
    rw [extract_digit_start h]
    simp only
    split
    · rename_i n heq
      split_ifs at heq with hh
      simp only [Option.some.injEq, Prod.mk.injEq] at heq
      exact absurd heq.2 hrest
    · simp [hpl]

/-- C06: a declared replacement name yields the replacement value modulo `p`. Full statement:
for every value. Missing: the value `p` itself (see `C06_violated`); stated for values `≠ p`. -/
theorem C06_replacement_partial (s : List Char) (repl : List (List Char × ℕ)) (v : ℕ)
    (hf : repl.find? (fun w => w.1 == s) = some (s, v)) (hv : v ≠ p) :
    ctorStr p s repl = .ok (v % p) := by
  unfold ctorStr; rw [hf]; simp only
  split_ifs with h
  · rfl
  · rw [Nat.mod_eq_of_lt (by omega)]

/-- C06 is violated by the code in four corners: a replacement by the value `p` is stored
unreduced; `"+5"` and `" 5"` are accepted; `" -5"` is accepted as `2^64-5` (here for the default
prime); the empty string runs into `str.front()`, undefined behaviour, before it is rejected. -/
theorem C06_violated :
    ctorStr 7 ['x'] [(['x'], 7)] = .ok 7 ∧
    ctorStr 7 ['+', '5'] [] = .ok 5 ∧ ctorStr 7 [' ', '5'] [] = .ok 5 ∧
    ctorStr 9223372036854775783 [' ', '-', '5'] [] = .ok ((2 ^ 64 - 5) % 9223372036854775783) ∧
    ctorStr 7 [] [] = .ub := by
  refine ⟨rfl, rfl, rfl, rfl, rfl⟩

omit [LongDouble] in
/-- Non-vacuity: a 40-digit number. -/
example : @ctorStr x87 9223372036854775783 "1234567890123456789012345678901234567890".toList []
    = .ok (1234567890123456789012345678901234567890 % 9223372036854775783) := by
  rw [@C06_digits _ x87 (by norm_num) (by norm_num)]
  · congr 1
  · intro c hc; revert c; decide
  · decide
  · decide
  · simp

end FireFly
