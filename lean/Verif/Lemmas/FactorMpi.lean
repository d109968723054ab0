import Verif.Model.FactorMpi
import Mathlib.Tactic.Linarith
import Mathlib.Tactic.Ring
/-! # The broadcast of one text -/
set_option linter.all false
namespace FireFly

lemma intSize_eq {s : Str} (h : s.length < 2 ^ 31) : intSize s = s.length := by
  unfold intSize
  rw [Int.bmod_eq_of_le] <;> omega

/-- the number of parts -/
def partCount (b : ℕ) (s : Str) : ℕ := s.length / b + if s.length % b = 0 then 0 else 1

lemma sendPart_eq {s : Str} {i n : ℕ} (h : i + n ≤ s.length) : sendPart s (i : ℤ) (n : ℤ) = some [.int n, .chars ((s.drop i).take n)] := by
  unfold sendPart
  rw [if_pos ⟨by omega, by omega, by omega⟩]
  simp

lemma recvChars_eq {s : Str} {a : ℤ} (h : (s.length : ℤ) = a) (ms : List BMsg) : recvChars a (.chars s :: ms) = some (s, ms) := by
  show (if (s.length : ℤ) = a then some (s, ms) else none) = _
  rw [if_pos h]

lemma sendParts_spec {b : ℕ} (hb : 0 < b) {s : Str} (hs : s.length < 2 ^ 31) : ∀ (k i : ℕ), i + k = s.length / b →
    ∃ ms, sendParts b s ((s.length / b : ℕ) : ℤ) (k + 1) i = some ms ∧ (∀ rest, recvParts (partCount b s - i) (ms ++ rest) = some (s.drop (i * b), rest)) ∧
      (0 < s.length → partCount b s = 1 → i = 0 → ms = [.int s.length, .chars s]) := by
  have hdm := Nat.div_add_mod s.length b
  have hml := Nat.mod_lt s.length hb
  intro k
  induction k with
  | zero =>
    intro i hi
    rw [Nat.add_zero] at hi
    unfold sendParts sendParts sendIter
    rw [if_pos (by rw [hi])]
    have hib : i * b ≤ s.length := by rw [hi, Nat.mul_comm]; omega
    have hi' : b * (s.length / b) = i * b := by rw [← hi, Nat.mul_comm]
    have ham : intSize s - (i : ℤ) * (b : ℤ) = ((s.length % b : ℕ) : ℤ) := by
      rw [intSize_eq hs]
      have : (s.length : ℤ) = ((i * b : ℕ) : ℤ) + ((s.length % b : ℕ) : ℤ) := by rw [← Nat.cast_add]; congr 1; omega
      rw [this]; push_cast; ring
    simp only [ham]
    by_cases h0 : s.length % b = 0
    · have hp : partCount b s = i := by unfold partCount; rw [if_pos h0]; omega
      rw [h0, if_neg (by simp)]
      refine ⟨[], rfl, ?_, ?_⟩
      · intro rest
        rw [hp, Nat.sub_self, List.nil_append]
        have : s.drop (i * b) = [] := List.drop_eq_nil_iff.mpr (by omega)
        rw [this]; rfl
      · intro h1 h2 h3
        omega
    · have hp : partCount b s = i + 1 := by unfold partCount; rw [if_neg h0]; omega
      rw [if_pos (by exact_mod_cast h0)]
      rw [← Nat.cast_mul, sendPart_eq (by omega)]
      have htake : (s.drop (i * b)).take (s.length % b) = s.drop (i * b) := List.take_of_length_le (by rw [List.length_drop]; omega)
      rw [htake]
      refine ⟨_, rfl, ?_, ?_⟩
      · intro rest
        rw [hp, Nat.add_sub_cancel_left]
        unfold recvParts
        simp only [List.append_nil, List.cons_append, List.nil_append]
        rw [recvChars_eq (by rw [List.length_drop, Nat.cast_inj]; omega)]
        simp [recvParts]
      · intro h1 h2 h3
        subst h3
        have hmm : s.length % b = s.length := by rw [← hi, Nat.mul_zero, Nat.zero_add] at hdm; exact hdm
        simp only [List.append_nil, Nat.zero_mul, List.drop_zero, hmm]
  | succ k ih =>
    intro i hi
    obtain ⟨ms, h1, h2, h3⟩ := ih (i + 1) (by omega)
    unfold sendParts sendIter
    rw [if_neg (by intro h; have : i = s.length / b := by exact_mod_cast h
                   omega)]
    have hle : (i + 1) * b ≤ s.length := by
      have : (i + 1) * b ≤ (s.length / b) * b := Nat.mul_le_mul_right _ (by omega)
      have := Nat.mul_comm b (s.length / b)
      omega
    have hle2 : i * b + b ≤ s.length := by rw [Nat.add_mul, Nat.one_mul] at hle; exact hle
    rw [← Nat.cast_mul, sendPart_eq hle2, Option.bind_some, h1]
    have hcount : s.length / b ≤ partCount b s := by unfold partCount; omega
    refine ⟨_, rfl, ?_, ?_⟩
    · intro rest
      rw [show partCount b s - i = (partCount b s - (i + 1)) + 1 by omega]
      simp only [List.cons_append, List.nil_append]
      unfold recvParts
      unfold recvChars
      have hl : ((s.drop (i * b)).take b).length = b := by rw [List.length_take, List.length_drop]; omega
      simp only [hl, if_true, Option.bind_some, h2 rest, Option.map_some]
      congr 2
      rw [Nat.add_mul, Nat.one_mul, ← List.drop_drop, List.take_append_drop]
    · intro hpos hc hi0
      subst hi0
      -- one full part, then nothing
      have hq : s.length / b = 1 := by omega
      have hk : k = 0 := by omega
      have hm : s.length % b = 0 := by
        by_contra h0
        unfold partCount at hc
        rw [if_neg h0] at hc; omega
      have hL : s.length = b := by rw [hq, hm] at hdm; omega
      subst hk
      unfold sendParts sendParts sendIter at h1
      rw [if_pos (by rw [hq]), intSize_eq hs, hL] at h1
      simp only [Nat.zero_add, Nat.cast_one, one_mul, sub_self, ne_eq, not_true_eq_false, if_false, Option.bind_some, Option.map_some, List.append_nil, Option.some.injEq] at h1
      rw [← h1]
      simp only [Nat.zero_mul, List.drop_zero, List.append_nil, List.cons.injEq, BMsg.int.injEq, BMsg.chars.injEq, and_true]
      refine ⟨by exact_mod_cast hL.symm, List.take_of_length_le (by omega)⟩

lemma sendFactor_spec {b : ℕ} (hb : 0 < b) {q : ℕ × Str} (h0 : q.2 ≠ []) (hs : q.2.length < 2 ^ 31) :
    ∃ ms, sendFactor b q = some ms ∧ ∃ a ms', ms = .int a :: ms' ∧ a ≠ -1 ∧ ∀ rest, (recvText a (ms' ++ rest)) = some (q.2, .u32 q.1 :: rest) := by
  obtain ⟨f, s⟩ := q
  simp only at h0 hs
  have hpos : 0 < s.length := List.length_pos_iff.mpr h0
  have hdm := Nat.div_add_mod s.length b
  have hml := Nat.mod_lt s.length hb
  have hsplit : (intSize s).tdiv (b : ℤ) = ((s.length / b : ℕ) : ℤ) := by
    rw [intSize_eq hs, Int.tdiv_eq_ediv_of_nonneg (by omega)]; rfl
  have hmod : (intSize s).tmod (b : ℤ) = ((s.length % b : ℕ) : ℤ) := by
    rw [intSize_eq hs, Int.tmod_eq_emod_of_nonneg (by omega)]; rfl
  obtain ⟨ms, h1, h2, h3⟩ := sendParts_spec hb hs (s.length / b) 0 (by omega)
  unfold sendFactor
  simp only [hsplit]
  rw [show (1 + ((s.length / b : ℕ) : ℤ)).toNat = s.length / b + 1 from (fun k : ℕ => show (1 + (k : ℤ)).toNat = k + 1 by omega) _, h1]
  refine ⟨_, rfl, ?_⟩
  have h2' := fun rest => h2 rest
  simp only [Nat.sub_zero, Nat.zero_mul, List.drop_zero] at h2'
  have hone : partCount b s = 1 → ∃ a ms', [] ++ ms ++ [BMsg.u32 f] = .int a :: ms' ∧ a ≠ -1 ∧ ∀ rest, (recvText a (ms' ++ rest)) = some (s, .u32 f :: rest) := by
    intro hc
    rw [h3 hpos hc rfl]
    refine ⟨s.length, [.chars s, .u32 f], rfl, by omega, ?_⟩
    intro rest
    unfold recvText
    rw [if_neg (by omega)]
    exact recvChars_eq rfl _
  have hmany : 1 < partCount b s → ∃ a ms', [BMsg.int (-((partCount b s : ℕ) : ℤ))] ++ ms ++ [BMsg.u32 f] = .int a :: ms' ∧ a ≠ -1 ∧ ∀ rest, (recvText a (ms' ++ rest)) = some (s, .u32 f :: rest) := by
    intro hc
    refine ⟨-((partCount b s : ℕ) : ℤ), ms ++ [.u32 f], rfl, by omega, ?_⟩
    intro rest
    unfold recvText
    rw [if_pos (by omega), show (- -((partCount b s : ℕ) : ℤ)).toNat = partCount b s by omega, List.append_assoc, h2']
    rfl
  unfold sendCount
  simp only [hsplit, hmod]
  have hpc : partCount b s = s.length / b + if s.length % b = 0 then 0 else 1 := rfl
  by_cases c1 : ((s.length / b : ℕ) : ℤ) > 1
  · rw [if_pos c1]
    have hc : 1 < s.length / b := by exact_mod_cast c1
    by_cases hm : s.length % b = 0
    · rw [if_pos (by rw [hm]; rfl)]
      rw [if_pos hm] at hpc
      have := hmany (by omega)
      rw [hpc] at this
      exact this
    · rw [if_neg (by exact_mod_cast hm)]
      rw [if_neg hm] at hpc
      have := hmany (by omega)
      rw [hpc] at this
      rw [show (-1 - ((s.length / b : ℕ) : ℤ)) = -((s.length / b + 1 : ℕ) : ℤ) by push_cast; ring]
      exact this
  · rw [if_neg c1]
    have hc : s.length / b ≤ 1 := by exact_mod_cast not_lt.mp c1
    by_cases c2 : ((s.length / b : ℕ) : ℤ) = 1 ∧ intSize s ≠ b
    · rw [if_pos c2]
      have hq : s.length / b = 1 := by exact_mod_cast c2.1
      have hne : s.length ≠ b := by
        intro h
        exact c2.2 (by rw [intSize_eq hs, h])
      have hm : s.length % b ≠ 0 := by
        intro h; rw [hq, h] at hdm; omega
      rw [if_neg hm] at hpc
      have := hmany (by omega)
      rw [hpc] at this
      rw [show (-1 - ((s.length / b : ℕ) : ℤ)) = -((s.length / b + 1 : ℕ) : ℤ) by push_cast; ring]
      exact this
    · rw [if_neg c2]
      apply hone
      rw [hpc]
      rcases Nat.lt_or_ge (s.length / b) 1 with hq | hq
      · have hq : s.length / b = 0 := Nat.lt_one_iff.mp hq
        have hm : s.length % b ≠ 0 := by rw [hq] at hdm; omega
        rw [hq, if_neg hm]
      · have hq : s.length / b = 1 := le_antisymm hc hq
        have heq : s.length = b := by
          by_contra h
          exact c2 ⟨by rw [hq]; rfl, by rw [intSize_eq hs]; exact_mod_cast h⟩
        rw [hq, heq, Nat.mod_self]; rfl

lemma sendFactors_spec {b : ℕ} (hb : 0 < b) : ∀ (l : List (ℕ × Str)), (∀ q ∈ l, q.2 ≠ [] ∧ q.2.length < 2 ^ 31) →
    ∃ ms, sendFactors b l = some ms ∧ ∀ rest fuel, l.length < fuel → recvFactors fuel (ms ++ rest) = some (l, rest)
  | [], _ => ⟨_, rfl, by
    intro rest fuel hf
    obtain ⟨fuel, rfl⟩ : ∃ g, fuel = g + 1 := ⟨fuel - 1, by simp at hf; omega⟩
    rfl⟩
  | q :: l, h => by
    obtain ⟨ms, h1, a, ms', h2, h3, h4⟩ := sendFactor_spec hb (h q (by simp)).1 (h q (by simp)).2
    obtain ⟨ns, g1, g2⟩ := sendFactors_spec hb l (fun r hr => h r (by simp [hr]))
    refine ⟨ms ++ ns, ?_, ?_⟩
    · unfold sendFactors
      rw [h1, Option.bind_some, g1]; rfl
    · intro rest fuel hf
      obtain ⟨fuel, rfl⟩ : ∃ g, fuel = g + 1 := ⟨fuel - 1, by simp at hf; omega⟩
      rw [h2, List.append_assoc, List.cons_append]
      unfold recvFactors
      rw [if_neg h3, h4, Option.bind_some]
      simp only [g2 rest fuel (by simpa using hf), Option.map_some]

end FireFly
