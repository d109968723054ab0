import Verif.Model.SaveState
import Verif.Lemmas.TextLemmas
import Verif.Props.RationalProps
/-! Reading back numbers, vectors and maps that were written by `save_state`. -/
set_option linter.all false
namespace FireFly

lemma digit_not_blank {c : Char} (h : isDigitC c = true) : c ≠ ' ' := by
  rintro rfl; revert h; decide

lemma digitC_not_space {c : Char} (h : isDigitC c = true) : isSpaceC c = false := by
  unfold isSpaceC
  simp only [Bool.or_eq_false_iff, beq_eq_false_iff_ne, ne_eq]
  refine ⟨⟨⟨⟨⟨?_, ?_⟩, ?_⟩, ?_⟩, ?_⟩, ?_⟩ <;> (rintro rfl; revert h; decide)

lemma digit_not_sign {c : Char} (h : isDigitC c = true) : c ≠ '-' ∧ c ≠ '+' := by
  constructor <;> (rintro rfl; revert h; decide)

lemma digit_not_newline {c : Char} (h : isDigitC c = true) : c ≠ '\n' := by
  rintro rfl; revert h; decide

lemma digit_not_alpha {c : Char} (h : isDigitC c = true) : isAlphaC c = false := by
  by_contra hn
  rw [Bool.not_eq_false] at hn
  unfold isDigitC at h
  unfold isAlphaC at hn
  simp only [Bool.and_eq_true, Bool.or_eq_true, decide_eq_true_eq] at h hn
  have h1 := h.2
  rcases hn with hn | hn
  · exact absurd (Char.le_trans hn.1 h1) (by decide)
  · exact absurd (Char.le_trans hn.1 h1) (by decide)

lemma natStr_ne (x : ℕ) : natStr x ≠ [] := (natStr_spec0 x).1.1
lemma natStr_digits (x : ℕ) : ∀ c ∈ natStr x, isDigitC c = true := (natStr_spec0 x).1.2
lemma digitsAcc_natStr (x : ℕ) : digitsAcc 0 (natStr x) = x := (natStr_spec0 x).2

lemma natStr_cons (x : ℕ) : ∃ c cs, natStr x = c :: cs ∧ isDigitC c = true := by
  cases h : natStr x with
  | nil => exact absurd h (natStr_ne x)
  | cons c cs => exact ⟨c, cs, rfl, natStr_digits x c (by rw [h]; simp)⟩

lemma intStr_chars (z : ℤ) : ∀ c ∈ intStr z, isDigitC c = true ∨ c = '-' := by
  intro c hc
  unfold intStr at hc
  split at hc
  · rcases List.mem_cons.mp hc with rfl | hc
    · exact Or.inr rfl
    · exact Or.inl (natStr_digits _ _ hc)
  · exact Or.inl (natStr_digits _ _ hc)

lemma intStr_no_space (z : ℤ) : ∀ c ∈ intStr z, isSpaceC c = false := by
  intro c hc
  rcases intStr_chars z c hc with h | rfl
  · exact digitC_not_space h
  · decide

lemma intStr_ne (z : ℤ) : intStr z ≠ [] := by
  unfold intStr
  split
  · simp
  · exact natStr_ne _

/-- `std::stoi` reads back what was written by `<<` of an `int`. -/
lemma stoi_intStr {z : ℤ} (h1 : -2 ^ 31 ≤ z) (h2 : z < 2 ^ 31) : stoi (intStr z) = some z := by
  unfold stoi intStr
  split
  · rename_i hz
    have e1 : List.dropWhile isSpaceC ('-' :: natStr z.natAbs) = '-' :: natStr z.natAbs := by
      rw [List.dropWhile_cons_of_neg (by decide)]
    rw [e1]
    simp only [takeSign, if_true]
    rw [List.takeWhile_eq_self_iff.mpr (natStr_digits _), if_neg (natStr_ne _), digitsAcc_natStr]
    have : -(z.natAbs : ℤ) = z := by omega
    rw [this, if_pos ⟨h1, h2⟩]
  · rename_i hz
    obtain ⟨c, cs, e, hc⟩ := natStr_cons z.natAbs
    have e1 : List.dropWhile isSpaceC (natStr z.natAbs) = natStr z.natAbs := by
      rw [e, List.dropWhile_cons_of_neg (by rw [digitC_not_space hc]; decide)]
    have e2 : takeSign (natStr z.natAbs) = (false, natStr z.natAbs) := by
      rw [e]
      simp only [takeSign]
      rw [if_neg (digit_not_sign hc).1, if_neg (digit_not_sign hc).2]
    rw [e1, e2]
    simp only [Bool.false_eq_true, if_false]
    rw [List.takeWhile_eq_self_iff.mpr (natStr_digits _), if_neg (natStr_ne _), digitsAcc_natStr]
    have : (z.natAbs : ℤ) = z := by omega
    rw [this, if_pos ⟨h1, h2⟩]

lemma intStr_ofNat (x : ℕ) : intStr (x : ℤ) = natStr x := by
  unfold intStr
  rw [if_neg (by omega)]
  simp

lemma stoi_natStr {x : ℕ} (h : x < 2 ^ 31) : stoi (natStr x) = some (x : ℤ) := by
  rw [← intStr_ofNat]
  exact stoi_intStr (by omega) (by omega)

lemma stoi_boolStr (b : Bool) : (stoi (boolStr b)).map (fun z => decide (z ≠ 0)) = some b := by
  cases b <;> decide +kernel

lemma toU32_nat {x : ℕ} (h : x < 2 ^ 31) : toU32 (x : ℤ) = x := by
  unfold toU32
  omega

lemma mpzNat_natStr (x : ℕ) : mpzNat (natStr x) = some x := by
  unfold mpzNat
  rw [if_neg (natStr_ne x)]
  by_cases hx : x = 0
  · subst hx; decide +kernel
  · rw [if_neg (natStr_head hx), if_pos (List.all_eq_true.mpr (natStr_digits x)), digitsAcc_natStr]

/-- `mpz_class` reads back what was written by `get_str`. -/
lemma mpzLine_intStr (z : ℤ) : mpzLine (intStr z) = some z := by
  unfold mpzLine
  rw [List.filter_eq_self.mpr (fun c hc => by rw [intStr_no_space z c hc]; rfl)]
  unfold intStr
  split
  · rename_i hz
    simp only [mpzOfStr, mpzNat_natStr, Option.map_some]
    congr 1
    simp only [Int.ofNat_eq_natCast]
    omega
  · rename_i hz
    obtain ⟨c, cs, e, hc⟩ := natStr_cons z.natAbs
    have : mpzOfStr (natStr z.natAbs) = (mpzNat (natStr z.natAbs)).map Int.ofNat := by
      rw [e]
      unfold mpzOfStr
      split
      · rename_i h
        exact absurd (List.cons.inj h).1 (digit_not_sign hc).1
      · rfl
    rw [this, mpzNat_natStr]
    simp only [Option.map_some, Int.ofNat_eq_natCast]
    congr 1
    omega

lemma cutBlank_append {a : Str} (ha : ∀ c ∈ a, c ≠ ' ') (r : Str) : cutBlank (a ++ ' ' :: r) = some (a, r) := by
  induction a with
  | nil => simp [cutBlank]
  | cons c cs ih =>
    rw [List.cons_append]
    unfold cutBlank
    rw [if_neg (ha c (by simp)), ih (fun x hx => ha x (by simp [hx]))]
    rfl

lemma vecStr_cons (x : ℕ) (xs : List ℕ) : vecStr (x :: xs) = natStr x ++ ' ' :: vecStr xs := by
  simp [vecStr]

lemma natStr_no_blank (x : ℕ) : ∀ c ∈ natStr x, c ≠ ' ' := fun c hc => digit_not_blank (natStr_digits x c hc)
lemma intStr_no_blank (z : ℤ) : ∀ c ∈ intStr z, c ≠ ' ' := by
  intro c hc he
  have := intStr_no_space z c hc
  rw [he] at this
  exact absurd this (by decide)

lemma parseVecLoop_cons (limit i x : ℕ) (h : x < 2 ^ 31) (r : Str) :
    parseVecLoop limit i (natStr x ++ ' ' :: r) =
      if i + 1 = limit then some ([x], r) else (parseVecLoop limit (i + 1) r).map (fun t => (x :: t.1, t.2)) := by
  rw [parseVecLoop]
  have hc := cutBlank_append (natStr_no_blank x) r
  split
  · rename_i h'; rw [hc] at h'; simp at h'
  · rename_i a b h'
    rw [hc] at h'
    simp only [Option.some.injEq, Prod.mk.injEq] at h'
    obtain ⟨rfl, rfl⟩ := h'
    rw [stoi_natStr h]
    simp only [toU32_nat h]

lemma parseVecLoop_nil (limit i : ℕ) : parseVecLoop limit i [] = some ([], []) := by
  rw [parseVecLoop]
  split
  · rfl
  · rename_i h; simp [cutBlank] at h

/-- all entries -/
lemma parseVec32_all (xs : List ℕ) (h : ∀ x ∈ xs, x < 2 ^ 31) : parseVec32 (vecStr xs) 0 = some (xs, []) := by
  have gen : ∀ (xs : List ℕ) (i : ℕ), (∀ x ∈ xs, x < 2 ^ 31) → parseVecLoop 0 i (vecStr xs) = some (xs, []) := by
    intro xs
    induction xs with
    | nil => intro i _; exact parseVecLoop_nil 0 i
    | cons x xs ih =>
      intro i h
      rw [vecStr_cons, parseVecLoop_cons _ _ _ (h x (by simp)), if_neg (by omega), ih _ (fun y hy => h y (by simp [hy]))]
      rfl
  exact gen xs 0 h

/-- as many entries as wanted -/
lemma parseVec32_prefix (xs : List ℕ) (h : ∀ x ∈ xs, x < 2 ^ 31) (hne : xs ≠ []) (r : Str) : parseVec32 (vecStr xs ++ r) xs.length = some (xs, r) := by
  have gen : ∀ (xs : List ℕ) (i : ℕ), (∀ x ∈ xs, x < 2 ^ 31) → xs ≠ [] → parseVecLoop (i + xs.length) i (vecStr xs ++ r) = some (xs, r) := by
    intro xs
    induction xs with
    | nil => intro i _ hn; exact absurd rfl hn
    | cons x xs ih =>
      intro i h _
      rw [vecStr_cons, List.append_assoc, List.cons_append, parseVecLoop_cons _ _ _ (h x (by simp))]
      cases xs with
      | nil => simp [vecStr]
      | cons y ys =>
        rw [if_neg (by simp only [List.length_cons]; omega)]
        have := ih (i + 1) (fun y hy => h y (by simp [hy])) (by simp)
        rw [show i + 1 + (y :: ys).length = i + (x :: y :: ys).length by simp only [List.length_cons]; omega] at this
        rw [this]
        rfl
  have := gen xs 0 h hne
  rwa [Nat.zero_add] at this

lemma ctor_valid {r : RationalNumber} (h : r.Valid) : RationalNumber.ctor r.num r.den = some r := by
  obtain ⟨h1, h2⟩ := h
  unfold RationalNumber.ctor
  rw [h2]
  simp only [Nat.cast_one, Int.tdiv_one]
  rw [if_neg (by norm_num), if_neg (by omega)]

lemma parseRational_str {r : RationalNumber} (h : r.Valid) : parseRational (intStr r.num ++ ' ' :: intStr r.den) = some r := by
  unfold parseRational
  rw [cutBlank_append (intStr_no_blank _)]
  simp only [mpzLine_intStr, Option.bind_eq_bind, Option.bind_some]
  exact ctor_valid h

/-! ### lines -/

lemma linesOf_append_newline (l : Str) (hl : '\n' ∉ l) (s : Str) : linesOf (l ++ '\n' :: s) = l :: linesOf s := by
  induction l with
  | nil => simp [linesOf]
  | cons c cs ih =>
    rw [List.cons_append, linesOf]
    rw [if_neg (fun h => hl (by simp [h])), ih (fun h => hl (by simp [h]))]

lemma linesOf_unlines (ls : List Str) (h : ∀ l ∈ ls, '\n' ∉ l) : linesOf (unlines ls) = ls := by
  induction ls with
  | nil => rfl
  | cons l ls ih =>
    have : unlines (l :: ls) = l ++ '\n' :: unlines ls := by simp [unlines]
    rw [this, linesOf_append_newline l (h l (by simp)), ih (fun x hx => h x (by simp [hx]))]

/-! ### key words -/

lemma kwOf_eq {line : Str} {k : Kw} (h : kwOf line = some k) : line = k.str := by
  unfold kwOf at h
  have := List.find?_some h
  simpa using this

lemma kw_head (k : Kw) : ∃ c cs, k.str = c :: cs ∧ isAlphaC c = true := by
  cases k <;> exact ⟨_, _, rfl, by decide⟩

lemma kwOf_none {line : Str} (h : ∀ c, line.head? = some c → isAlphaC c = false) : kwOf line = none := by
  cases hk : kwOf line with
  | none => rfl
  | some k =>
    obtain ⟨c, cs, e, hc⟩ := kw_head k
    rw [kwOf_eq hk, e] at h
    rw [h c rfl] at hc
    cases hc

lemma kwOf_str (k : Kw) (h : k ≠ .combinedPrime) : kwOf k.str = some k := by
  cases k <;> first | decide +kernel | exact absurd rfl h

lemma kwOf_natStr_append (x : ℕ) (r : Str) : kwOf (natStr x ++ r) = none := by
  apply kwOf_none
  intro c hc
  obtain ⟨d, ds, e, hd⟩ := natStr_cons x
  rw [e, List.cons_append, List.head?_cons, Option.some.injEq] at hc
  rw [← hc]
  exact digit_not_alpha hd

lemma kwOf_intStr_append (z : ℤ) (r : Str) : kwOf (intStr z ++ r) = none := by
  unfold intStr
  split
  · apply kwOf_none
    intro c hc
    rw [List.cons_append, List.head?_cons, Option.some.injEq] at hc
    rw [← hc]; decide
  · exact kwOf_natStr_append _ r

lemma kwOf_natStr (x : ℕ) : kwOf (natStr x) = none := by simpa using kwOf_natStr_append x []
lemma kwOf_intStr (x : ℤ) : kwOf (intStr x) = none := by simpa using kwOf_intStr_append x []
lemma kwOf_boolStr (b : Bool) : kwOf (boolStr b) = none := by cases b <;> decide +kernel

lemma kwOf_vecStr_append (xs : List ℕ) (r : Str) (h : xs ≠ []) : kwOf (vecStr xs ++ r) = none := by
  cases xs with
  | nil => exact absurd rfl h
  | cons x xs => rw [vecStr_cons, List.append_assoc]; exact kwOf_natStr_append x _

lemma kwOf_vecStr (xs : List ℕ) : kwOf (vecStr xs) = none := by
  cases xs with
  | nil => decide +kernel
  | cons x xs => rw [vecStr_cons]; exact kwOf_natStr_append x _

/-! ### no line breaks -/

lemma nl_natStr (x : ℕ) : '\n' ∉ natStr x := fun h => digit_not_newline (natStr_digits x _ h) rfl
lemma nl_intStr (z : ℤ) : '\n' ∉ intStr z := by
  intro h
  rcases intStr_chars z _ h with h | h
  · exact digit_not_newline h rfl
  · revert h; decide
lemma nl_vecStr (xs : List ℕ) : '\n' ∉ vecStr xs := by
  induction xs with
  | nil => simp [vecStr]
  | cons x xs ih =>
    rw [vecStr_cons]
    simp only [List.mem_append, List.mem_cons, not_or]
    exact ⟨nl_natStr x, by decide, ih⟩
lemma nl_boolStr (b : Bool) : '\n' ∉ boolStr b := by cases b <;> decide
lemma nl_kw (k : Kw) : '\n' ∉ k.str := by cases k <;> decide +kernel

end FireFly
