import Verif.Props.CompareProps
import Mathlib.Data.List.Sort
import Mathlib.Data.List.Lex
import Mathlib.Data.List.Perm.Basic
import Mathlib.Data.List.Count
/-! # C29: enumeration of shift vectors -/
namespace FireFly

/-- Specification: 0/1 vectors of length `n`. -/
def IsBin (n : ℕ) (v : List ℕ) : Prop := v.length = n ∧ ∀ x ∈ v, x = 0 ∨ x = 1

/-! ### `std::next_permutation` -/

/-- strict lexicographic order -/
def LexLt : List ℕ → List ℕ → Prop
  | [], [] => False
  | [], _ :: _ => True
  | _ :: _, [] => False
  | a :: l, b :: m => a < b ∨ (a = b ∧ LexLt l m)

lemma LexLt.irrefl : ∀ l, ¬ LexLt l l
  | [] => by simp [LexLt]
  | a :: l => by
    intro h
    rcases h with h | h
    · omega
    · exact LexLt.irrefl l h.2

lemma LexLt.trans : ∀ {l m k}, LexLt l m → LexLt m k → LexLt l k
  | [], [], _, h, _ => h.elim
  | [], _ :: _, [], _, h => h.elim
  | [], _ :: _, _ :: _, _, _ => trivial
  | _ :: _, [], _, h, _ => h.elim
  | _ :: _, _ :: _, [], _, h => h.elim
  | a :: l, b :: m, c :: k, h1, h2 => by
    rcases h1 with h1 | ⟨h1, h1'⟩ <;> rcases h2 with h2 | ⟨h2, h2'⟩
    · left; omega
    · left; omega
    · left; omega
    · right; exact ⟨by omega, LexLt.trans h1' h2'⟩

lemma LexLt.total : ∀ l m : List ℕ, LexLt l m ∨ l = m ∨ LexLt m l
  | [], [] => by simp
  | [], _ :: _ => Or.inl trivial
  | _ :: _, [] => Or.inr (Or.inr trivial)
  | a :: l, b :: m => by
    rcases Nat.lt_trichotomy a b with h | h | h
    · exact Or.inl (Or.inl h)
    · subst h
      rcases LexLt.total l m with h | h | h
      · exact Or.inl (Or.inr ⟨rfl, h⟩)
      · exact Or.inr (Or.inl (by rw [h]))
      · exact Or.inr (Or.inr (Or.inr ⟨rfl, h⟩))
    · exact Or.inr (Or.inr (Or.inl h))

/-- a sorted list is the lexicographically smallest of its permutations -/
lemma sorted_le_perm : ∀ {l m : List ℕ}, l.Pairwise (· ≤ ·) → m.Perm l → ¬ LexLt m l
  | [], m, _, hp => by rw [List.perm_nil.mp hp]; simp [LexLt]
  | a :: l, [], _, hp => by simp [LexLt] at *
  | a :: l, b :: m, hs, hp => by
    rintro (h | ⟨rfl, h⟩)
    · have : b ∈ a :: l := hp.subset (by simp)
      rcases List.mem_cons.mp this with h2 | h2
      · omega
      · have := (List.pairwise_cons.mp hs).1 b h2; omega
    · exact sorted_le_perm (List.pairwise_cons.mp hs).2 ((List.perm_cons _).mp hp) h

lemma takeWhile_desc {x : ℕ} : ∀ {l : List ℕ}, l.Pairwise (· ≥ ·) →
    (∀ y ∈ l.takeWhile (fun y => x < y), x < y) ∧ (∀ y ∈ l.dropWhile (fun y => x < y), y ≤ x)
  | [], _ => by simp
  | a :: l, h => by
    obtain ⟨h1, h2⟩ := List.pairwise_cons.mp h
    obtain ⟨i1, i2⟩ := takeWhile_desc (x := x) h2
    by_cases hc : x < a
    · simp only [List.takeWhile_cons, List.dropWhile_cons, hc, decide_true, if_true]
      refine ⟨fun y hy => ?_, i2⟩
      rcases List.mem_cons.mp hy with rfl | hy
      · exact hc
      · exact i1 y hy
    · simp only [List.takeWhile_cons, List.dropWhile_cons, hc, decide_false]
      refine ⟨by simp, fun y hy => ?_⟩
      rcases List.mem_cons.mp (by simpa using hy) with rfl | hy
      · omega
      · have := h1 y hy; omega

lemma nextPerm_desc : ∀ {l : List ℕ}, nextPerm l = none → l.Pairwise (· ≥ ·)
  | [], _ => List.Pairwise.nil
  | x :: l, h => by
    unfold nextPerm at h
    cases hn : nextPerm l with
    | some l' => rw [hn] at h; simp at h
    | none =>
      rw [hn] at h
      simp only at h
      have hd := nextPerm_desc hn
      have hnil : l.takeWhile (fun y => x < y) = [] := by
        by_contra hne
        rw [List.getLast?_eq_some_getLast hne] at h
        simp at h
      rw [List.pairwise_cons]
      refine ⟨fun y hy => ?_, hd⟩
      have h2 := (takeWhile_desc (x := x) hd).2 y
      apply h2
      have := List.takeWhile_append_dropWhile (p := fun y => decide (x < y)) (l := l)
      rw [hnil, List.nil_append] at this
      rw [this]; exact hy

/-- `next_permutation`: exactly the next permutation in lexicographic order. -/
lemma nextPerm_spec : ∀ (l : List ℕ),
    (∀ l', nextPerm l = some l' → l'.Perm l ∧ LexLt l l' ∧
      ∀ w, w.Perm l → LexLt l w → ¬ LexLt w l') ∧
    (nextPerm l = none → ∀ w, w.Perm l → ¬ LexLt l w)
  | [] => by
    refine ⟨by simp [nextPerm], fun _ w hw => ?_⟩
    rw [List.perm_nil.mp hw]; exact LexLt.irrefl _
  | x :: l => by
    obtain ⟨ih1, ih2⟩ := nextPerm_spec l
    cases hn : nextPerm l with
    | some l' =>
      obtain ⟨p1, p2, p3⟩ := ih1 l' hn
      have he : nextPerm (x :: l) = some (x :: l') := by unfold nextPerm; rw [hn]
      rw [he]
      refine ⟨?_, by simp⟩
      intro l'' hl''; simp only [Option.some.injEq] at hl''; subst hl''
      refine ⟨p1.cons x, Or.inr ⟨rfl, p2⟩, ?_⟩
      intro w hw hlt
      cases w with
      | nil => simp at hw
      | cons z w =>
        rintro (h | ⟨rfl, h⟩)
        · rcases hlt with h2 | ⟨h2, _⟩ <;> omega
        · rcases hlt with h2 | ⟨_, h2⟩
          · omega
          · exact p3 w ((List.perm_cons _).mp hw) h2 h
    | none =>
      have hmax := ih2 hn
      have hd := nextPerm_desc hn
      obtain ⟨t1, t2⟩ := takeWhile_desc (x := x) hd
      have happ := List.takeWhile_append_dropWhile (p := fun y => decide (x < y)) (l := l)
      set big := l.takeWhile (fun y => x < y) with hbig
      set small := l.dropWhile (fun y => x < y) with hsmall
      by_cases hne : big = []
      · have he : nextPerm (x :: l) = none := by
          unfold nextPerm; rw [hn]; simp only [← hbig, hne]; rfl
        rw [he]
        refine ⟨by simp, fun _ w hw => ?_⟩
        rw [hne, List.nil_append] at happ
        cases w with
        | nil => simp [LexLt]
        | cons z w =>
          have hz : z ∈ x :: l := hw.subset (by simp)
          have hzx : z ≤ x := by
            rcases List.mem_cons.mp hz with h | h
            · omega
            · exact t2 z (by rw [happ]; exact h)
          rintro (h | ⟨rfl, h⟩)
          · omega
          · exact hmax w ((List.perm_cons _).mp hw) h
      · set y := big.getLast hne with hy
        have he : nextPerm (x :: l) = some (y :: (big.dropLast ++ x :: small).reverse) := by
          unfold nextPerm; rw [hn]
          simp only [← hbig, ← hsmall, List.getLast?_eq_some_getLast hne]
          rfl
        have hbl : big = big.dropLast ++ [y] := (List.dropLast_append_getLast hne).symm
        have hl : l = big.dropLast ++ y :: small := by
          rw [← happ]; conv_lhs => rw [hbl]
          simp
        have hxy : x < y := t1 y (List.getLast_mem hne)
        have hbigge : ∀ z ∈ big.dropLast, y ≤ z := by
          intro z hz
          rw [hl, List.pairwise_append] at hd
          exact hd.2.2 z hz y (by simp)
        have hbp : big.dropLast.Pairwise (· ≥ ·) := by
          rw [hl, List.pairwise_append] at hd; exact hd.1
        have hsp : small.Pairwise (· ≥ ·) := by
          rw [hl, List.pairwise_append] at hd
          exact (List.pairwise_cons.mp hd.2.1).2
        have hsorted : (big.dropLast ++ x :: small).reverse.Pairwise (· ≤ ·) := by
          rw [List.pairwise_reverse, List.pairwise_append]
          refine ⟨hbp, List.pairwise_cons.mpr ⟨t2, hsp⟩, ?_⟩
          intro a ha b hb
          have h1 := hbigge a ha
          rcases List.mem_cons.mp hb with rfl | hb
          · omega
          · have := t2 b hb; omega
        have hperm : (y :: (big.dropLast ++ x :: small).reverse).Perm (x :: l) := by
          rw [hl]
          have a1 : (y :: (big.dropLast ++ x :: small).reverse).Perm (y :: (big.dropLast ++ x :: small)) :=
            (List.reverse_perm _).cons y
          have a2 : (y :: (big.dropLast ++ x :: small)).Perm (y :: x :: (big.dropLast ++ small)) :=
            List.perm_middle.cons y
          have a3 : (x :: (big.dropLast ++ y :: small)).Perm (x :: y :: (big.dropLast ++ small)) :=
            List.perm_middle.cons x
          exact a1.trans (a2.trans ((List.Perm.swap x y _).trans a3.symm))
        rw [he]
        refine ⟨?_, by simp⟩
        intro l'' hl''; simp only [Option.some.injEq] at hl''; subst hl''
        refine ⟨hperm, Or.inl hxy, ?_⟩
        intro w hw hlt
        cases w with
        | nil => simp at hw
        | cons z w =>
          have hz : z ∈ x :: l := hw.subset (by simp)
          rintro (h | ⟨rfl, h⟩)
          · -- z < y
            rcases hlt with h2 | ⟨rfl, h2⟩
            · have hzl : z ∈ l := by
                rcases List.mem_cons.mp hz with h3 | h3
                · omega
                · exact h3
              rw [hl, List.mem_append, List.mem_cons] at hzl
              rcases hzl with h3 | h3 | h3
              · have := hbigge z h3; omega
              · omega
              · have := t2 z h3; omega
            · exact hmax w ((List.perm_cons _).mp hw) h2
          · have : w.Perm ((big.dropLast ++ x :: small).reverse) :=
              (List.perm_cons _).mp (hw.trans hperm.symm)
            exact sorted_le_perm hsorted this h

/-! ### the order in which shifts are visited -/

/-- number of ones first, lexicographic second -/
def ShiftLt (v w : List ℕ) : Prop := v.count 1 < w.count 1 ∨ (v.count 1 = w.count 1 ∧ LexLt v w)

lemma ShiftLt.irrefl (v : List ℕ) : ¬ ShiftLt v v := by
  rintro (h | ⟨_, h⟩)
  · omega
  · exact LexLt.irrefl v h

lemma ShiftLt.trans {u v w : List ℕ} (h1 : ShiftLt u v) (h2 : ShiftLt v w) : ShiftLt u w := by
  rcases h1 with h1 | ⟨h1, h1'⟩ <;> rcases h2 with h2 | ⟨h2, h2'⟩
  · left; omega
  · left; omega
  · left; omega
  · right; exact ⟨by omega, h1'.trans h2'⟩

lemma ShiftLt.total (v w : List ℕ) : ShiftLt v w ∨ v = w ∨ ShiftLt w v := by
  rcases Nat.lt_trichotomy (v.count 1) (w.count 1) with h | h | h
  · exact Or.inl (Or.inl h)
  · rcases LexLt.total v w with h2 | h2 | h2
    · exact Or.inl (Or.inr ⟨h, h2⟩)
    · exact Or.inr (Or.inl h2)
    · exact Or.inr (Or.inr (Or.inr ⟨h.symm, h2⟩))
  · exact Or.inr (Or.inr (Or.inl h))

lemma bin_perm {n : ℕ} {v w : List ℕ} (hv : IsBin n v) (hw : IsBin n w) (h : v.count 1 = w.count 1) :
    v.Perm w := by
  have hz : ∀ u : List ℕ, IsBin n u → u.count 0 = n - u.count 1 ∧ u.count 1 ≤ n := by
    intro u hu
    obtain ⟨h1, h2⟩ := hu
    have key : ∀ u : List ℕ, (∀ x ∈ u, x = 0 ∨ x = 1) → u.count 0 + u.count 1 = u.length := by
      intro u
      induction u with
      | nil => simp
      | cons x u ih =>
        intro hx
        have := ih (fun y hy => hx y (by simp [hy]))
        rcases hx x (by simp) with rfl | rfl
        · simp [List.count_cons]; omega
        · simp [List.count_cons]; omega
    have := key u h2
    omega
  rw [List.perm_iff_count]
  intro a
  by_cases h0 : a = 0
  · subst h0; rw [(hz v hv).1, (hz w hw).1, h]
  by_cases h1 : a = 1
  · subst h1; exact h
  · rw [List.count_eq_zero_of_not_mem, List.count_eq_zero_of_not_mem]
    · intro hm; rcases hw.2 a hm with h | h <;> omega
    · intro hm; rcases hv.2 a hm with h | h <;> omega

lemma sorted_bin (n k : ℕ) : (List.replicate n 0 ++ List.replicate k 1).Pairwise (· ≤ ·) := by
  rw [List.pairwise_append]
  refine ⟨?_, ?_, ?_⟩
  · rw [List.pairwise_replicate]; right; exact le_refl _
  · rw [List.pairwise_replicate]; right; exact le_refl _
  · intro a ha b hb
    rw [List.eq_of_mem_replicate ha, List.eq_of_mem_replicate hb]; norm_num

/-- one call of `generate_next_permutation` yields the immediate successor -/
lemma generateNext_spec {n : ℕ} {v : List ℕ} (hv : IsBin n v) :
    (∀ v', generateNextPermutation v = (true, v') → IsBin n v' ∧ ShiftLt v v' ∧
      ∀ w, IsBin n w → ShiftLt v w → ¬ ShiftLt w v') ∧
    (∀ v', generateNextPermutation v = (false, v') → v' = List.replicate n 0 ∧
      ∀ w, IsBin n w → ¬ ShiftLt v w) := by
  obtain ⟨s1, s2⟩ := nextPerm_spec v
  unfold generateNextPermutation
  cases hn : nextPerm v with
  | some l =>
    obtain ⟨p1, p2, p3⟩ := s1 l hn
    refine ⟨?_, by simp⟩
    rintro v' h
    simp only [Prod.mk.injEq, true_and] at h
    subst h
    have hc : l.count 1 = v.count 1 := p1.count_eq 1
    refine ⟨⟨p1.length_eq.trans hv.1, fun x hx => hv.2 x (p1.subset hx)⟩, Or.inr ⟨hc.symm, p2⟩, ?_⟩
    intro w hw h1 h2
    have hcw : w.count 1 = v.count 1 := by
      rcases h1 with h1 | ⟨h1, _⟩ <;> rcases h2 with h2 | ⟨h2, _⟩ <;> omega
    have h1' : LexLt v w := by
      rcases h1 with h1 | ⟨_, h1⟩
      · omega
      · exact h1
    have h2' : LexLt w l := by
      rcases h2 with h2 | ⟨_, h2⟩
      · omega
      · exact h2
    exact p3 w (bin_perm hw hv hcw) h1' h2'
  | none =>
    have hmax := s2 hn
    simp only
    have hcl : v.count 1 ≤ v.length := List.count_le_length
    split_ifs with hones
    · refine ⟨by simp, ?_⟩
      rintro v' h
      simp only [Prod.mk.injEq, true_and] at h
      refine ⟨by rw [← h, hv.1], ?_⟩
      intro w hw h1
      rcases h1 with h1 | ⟨h1, h1'⟩
      · have : w.count 1 ≤ w.length := List.count_le_length
        rw [hw.1] at this; rw [hv.1] at hones; omega
      · exact hmax w (bin_perm hw hv h1.symm) h1'
    · refine ⟨?_, by simp⟩
      rintro v' h
      simp only [Prod.mk.injEq, true_and] at h
      subst h
      have hcnt : (List.replicate (v.length - (v.count 1 + 1)) 0 ++ List.replicate (v.count 1 + 1) 1).count 1
          = v.count 1 + 1 := by
        rw [List.count_append, List.count_replicate, List.count_replicate]; simp
      have hbin : IsBin n (List.replicate (v.length - (v.count 1 + 1)) 0 ++ List.replicate (v.count 1 + 1) 1) := by
        refine ⟨?_, ?_⟩
        · rw [List.length_append, List.length_replicate, List.length_replicate, ← hv.1]; omega
        · intro x hx
          rcases List.mem_append.mp hx with h | h
          · left; exact List.eq_of_mem_replicate h
          · right; exact List.eq_of_mem_replicate h
      refine ⟨hbin, Or.inl (by rw [hcnt]; omega), ?_⟩
      intro w hw h1 h2
      rcases h1 with h1 | ⟨h1, h1'⟩
      · rcases h2 with h2 | ⟨h2, h2'⟩
        · rw [hcnt] at h2; omega
        · exact sorted_le_perm (sorted_bin _ _) (bin_perm hw hbin h2) h2'
      · exact hmax w (bin_perm hw hv h1.symm) h1'

/-- all 0/1 vectors of length `n` -/
def binVectors : ℕ → List (List ℕ)
  | 0 => [[]]
  | n + 1 => (binVectors n).map (0 :: ·) ++ (binVectors n).map (1 :: ·)

lemma mem_binVectors : ∀ (n : ℕ) (v : List ℕ), v ∈ binVectors n ↔ IsBin n v
  | 0, v => by
    simp only [binVectors, List.mem_singleton, IsBin, List.length_eq_zero_iff]
    constructor
    · rintro rfl; simp
    · exact fun h => h.1
  | n + 1, v => by
    simp only [binVectors, List.mem_append, List.mem_map, mem_binVectors n, IsBin]
    constructor
    · rintro (⟨w, ⟨h1, h2⟩, rfl⟩ | ⟨w, ⟨h1, h2⟩, rfl⟩)
      · refine ⟨by simp [h1], fun x hx => ?_⟩
        rcases List.mem_cons.mp hx with h | h
        · exact Or.inl h
        · exact h2 x h
      · refine ⟨by simp [h1], fun x hx => ?_⟩
        rcases List.mem_cons.mp hx with h | h
        · exact Or.inr h
        · exact h2 x h
    · rintro ⟨h1, h2⟩
      cases v with
      | nil => simp at h1
      | cons a w =>
        have hw : w.length = n ∧ ∀ x ∈ w, x = 0 ∨ x = 1 := ⟨by simpa using h1, fun x hx => h2 x (by simp [hx])⟩
        rcases h2 a (by simp) with rfl | rfl
        · left; exact ⟨w, hw, rfl⟩
        · right; exact ⟨w, hw, rfl⟩

lemma binVectors_nodup : ∀ n, (binVectors n).Nodup
  | 0 => by simp [binVectors]
  | n + 1 => by
    have ih := binVectors_nodup n
    rw [binVectors, List.nodup_append]
    refine ⟨ih.map (fun a b h => by simpa using h), ih.map (fun a b h => by simpa using h), ?_⟩
    intro a ha b hb
    obtain ⟨x, _, rfl⟩ := List.mem_map.mp ha
    obtain ⟨y, _, rfl⟩ := List.mem_map.mp hb
    simp

/-- a strictly increasing list of all elements of a set is a chain of immediate successors -/
lemma chain_of_sorted {f : List ℕ → Option (List ℕ)} {S : List ℕ → Prop}
    (hf1 : ∀ v v', S v → f v = some v' → S v' ∧ ShiftLt v v' ∧ ∀ w, S w → ShiftLt v w → ¬ ShiftLt w v')
    (hf2 : ∀ v, S v → f v = none → ∀ w, S w → ¬ ShiftLt v w) :
    ∀ (L : List (List ℕ)) (pre : List (List ℕ)), (pre ++ L).Pairwise ShiftLt →
      (∀ v, v ∈ pre ++ L ↔ S v) → L.IsChain (fun a b => f a = some b)
  | [], _, _, _ => by simp
  | [a], _, _, _ => by simp
  | a :: b :: L, pre, hs, hm => by
    have ih := chain_of_sorted hf1 hf2 (b :: L) (pre ++ [a]) (by simpa using hs) (by simpa using hm)
    rw [List.isChain_cons_cons]
    refine ⟨?_, ih⟩
    have hSa : S a := (hm a).mp (by simp)
    have hSb : S b := (hm b).mp (by simp)
    rw [List.pairwise_append] at hs
    obtain ⟨_, hs2, hs3⟩ := hs
    rw [List.pairwise_cons] at hs2
    have hab : ShiftLt a b := hs2.1 b (by simp)
    cases hfa : f a with
    | none => exact absurd hab (hf2 a hSa hfa b hSb)
    | some a' =>
      obtain ⟨g1, g2, g3⟩ := hf1 a a' hSa hfa
      congr 1
      have hmem : a' ∈ pre ++ a :: b :: L := (hm a').mpr g1
      rcases List.mem_append.mp hmem with h | h
      · exact absurd (g2.trans (hs3 a' h a (by simp))) (ShiftLt.irrefl _)
      · rcases List.mem_cons.mp h with h | h
        · rw [h] at g2; exact absurd g2 (ShiftLt.irrefl _)
        · rcases List.mem_cons.mp h with h | h
          · exact h
          · have : ShiftLt b a' := by
              have h5 := List.pairwise_cons.mp hs2.2
              exact h5.1 a' h
            exact absurd this (g3 b hSb hab)

/-- C29: starting from the zero vector and calling `generate_next_permutation` until it reports
`false` (as `scan_for_shift` does) visits every 0/1 vector of length `n ≥ 1` exactly once, in order
of increasing number of ones: there is a list `L` of all these vectors without repetition that
starts with the zero vector, whose consecutive entries are linked by calls returning `true`, and on
whose last entry the call returns `false`. -/
theorem C29_next_permutation (n : ℕ) :
    ∃ L : List (List ℕ), L.head? = some (List.replicate n 0) ∧
      L.IsChain (fun a b => generateNextPermutation a = (true, b)) ∧
      (∃ last, L.getLast? = some last ∧ (generateNextPermutation last).1 = false) ∧
      L.Nodup ∧ (∀ v, v ∈ L ↔ (v.length = n ∧ ∀ x ∈ v, x = 0 ∨ x = 1)) ∧
      L.Pairwise (fun a b => a.count 1 ≤ b.count 1) := by
  classical
  let le : List ℕ → List ℕ → Bool := fun a b => decide (¬ ShiftLt b a)
  let L := (binVectors n).mergeSort le
  have hperm : L.Perm (binVectors n) := List.mergeSort_perm _ _
  have hmem : ∀ v, v ∈ L ↔ IsBin n v := fun v => (hperm.mem_iff).trans (mem_binVectors n v)
  have hnd : L.Nodup := hperm.nodup_iff.mpr (binVectors_nodup n)
  have hle : L.Pairwise (fun a b => le a b = true) := by
    apply List.pairwise_mergeSort
    · intro a b c h1 h2
      simp only [le, decide_eq_true_eq] at *
      intro h3
      rcases ShiftLt.total a b with h | h | h
      · exact h2 (h3.trans h)
      · rw [h] at h3; exact h2 h3
      · exact h1 h
    · intro a b
      simp only [le, Bool.or_eq_true, decide_eq_true_eq]
      by_contra hcon
      push Not at hcon
      exact ShiftLt.irrefl _ (hcon.1.trans hcon.2)
  have hlt : L.Pairwise ShiftLt := by
    have := List.pairwise_and_iff.mpr ⟨hle, hnd⟩
    refine this.imp ?_
    rintro a b ⟨h1, h2⟩
    simp only [le, decide_eq_true_eq] at h1
    rcases ShiftLt.total a b with h | h | h
    · exact h
    · exact absurd h h2
    · exact absurd h h1
  let f : List ℕ → Option (List ℕ) := fun v =>
    if (generateNextPermutation v).1 = true then some (generateNextPermutation v).2 else none
  have hf1 : ∀ v v', IsBin n v → f v = some v' → IsBin n v' ∧ ShiftLt v v' ∧
      ∀ w, IsBin n w → ShiftLt v w → ¬ ShiftLt w v' := by
    intro v v' hv h
    apply (generateNext_spec hv).1
    simp only [f] at h
    split_ifs at h with h0
    simp only [Option.some.injEq] at h
    rw [← h, ← h0]
  have hf2 : ∀ v, IsBin n v → f v = none → ∀ w, IsBin n w → ¬ ShiftLt v w := by
    intro v hv h
    simp only [f] at h
    split_ifs at h with h0
    exact ((generateNext_spec hv).2 (generateNextPermutation v).2 (by
      rw [Bool.not_eq_true] at h0; rw [← h0])).2
  have hne : L ≠ [] := by
    intro h
    have : List.replicate n 0 ∈ L := (hmem _).mpr ⟨by simp, fun x hx => Or.inl (List.eq_of_mem_replicate hx)⟩
    rw [h] at this; simp at this
  refine ⟨L, ?_, ?_, ?_, hnd, hmem, ?_⟩
  · obtain ⟨a, L', hL⟩ := List.exists_cons_of_ne_nil hne
    rw [hL]
    simp only [List.head?_cons, Option.some.injEq]
    have hz : List.replicate n 0 ∈ L := (hmem _).mpr ⟨by simp, fun x hx => Or.inl (List.eq_of_mem_replicate hx)⟩
    rw [hL, List.mem_cons] at hz
    rcases hz with h | h
    · exact h.symm
    · exfalso
      rw [hL, List.pairwise_cons] at hlt
      have h1 := hlt.1 _ h
      have hc0 : (List.replicate n 0).count 1 = 0 := by rw [List.count_replicate]; simp
      rcases h1 with h1 | ⟨h1, h2⟩
      · omega
      · have ha : IsBin n a := (hmem a).mp (by rw [hL]; simp)
        have hz2 : IsBin n (List.replicate n 0) := ⟨by simp, fun x hx => Or.inl (List.eq_of_mem_replicate hx)⟩
        have := sorted_le_perm (by simpa using sorted_bin n 0) (bin_perm ha hz2 h1)
        exact this h2
  · have := chain_of_sorted hf1 hf2 L [] (by simpa using hlt) (by simpa using hmem)
    refine this.imp ?_
    intro a b h
    simp only [f] at h
    split_ifs at h with h0
    simp only [Option.some.injEq] at h
    rw [← h, ← h0]
  · refine ⟨L.getLast hne, List.getLast?_eq_some_getLast hne, ?_⟩
    have hlast := List.getLast_mem hne
    have hb := (hmem _).mp hlast
    by_contra hcon
    rw [Bool.not_eq_false] at hcon
    obtain ⟨g1, g2, _⟩ := (generateNext_spec hb).1 _ (Prod.ext hcon rfl :
      generateNextPermutation (L.getLast hne) = (true, (generateNextPermutation (L.getLast hne)).2))
    have hm' := (hmem _).mpr g1
    have hsplit := List.dropLast_append_getLast hne
    have hm2 : (generateNextPermutation (L.getLast hne)).2 ∈ L.dropLast ++ [L.getLast hne] := by
      rw [hsplit]; exact hm'
    rw [List.mem_append] at hm2
    rcases hm2 with h | h
    · have hlt2 : (L.dropLast ++ [L.getLast hne]).Pairwise ShiftLt := by rw [hsplit]; exact hlt
      rw [List.pairwise_append] at hlt2
      exact ShiftLt.irrefl _ (g2.trans (hlt2.2.2 _ h _ (by simp)))
    · rw [List.mem_singleton] at h; rw [h] at g2; exact ShiftLt.irrefl _ g2
  · refine hlt.imp ?_
    rintro a b (h | ⟨h, _⟩) <;> omega

example : generateNextPermutation [0, 1, 1, 0] = (true, [1, 0, 0, 1]) ∧
    generateNextPermutation [1, 0, 0] = (true, [0, 1, 1]) := by decide

/-! ### `generate_possible_shifts` -/

lemma sortInsert_perm {α : Type} (lt : α → α → Bool) (x : α) :
    ∀ l, (sortInsert lt x l).Perm (x :: l)
  | [] => List.Perm.refl _
  | y :: ys => by
    unfold sortInsert
    split
    · exact ((sortInsert_perm lt x ys).cons y).trans (List.Perm.swap x y ys)
    · exact List.Perm.refl _

lemma stdSort_perm {α : Type} (lt : α → α → Bool) : ∀ l, (stdSort lt l).Perm l
  | [] => List.Perm.refl _
  | x :: l => (sortInsert_perm lt x _).trans ((stdSort_perm lt l).cons x)

lemma stdSort_sorted {α : Type} {lt : α → α → Bool} {P : α → Prop}
    (htr : ∀ a b c, P a → P b → P c → lt a b = true → lt b c = true → lt a c = true)
    (hcon : ∀ a b, P a → P b → a ≠ b → lt a b = true ∨ lt b a = true) :
    ∀ l : List α, (∀ a ∈ l, P a) → l.Nodup → (stdSort lt l).Pairwise (fun a b => lt a b = true)
  | [], _, _ => List.Pairwise.nil
  | x :: l, hP, hnd => by
    have ih := stdSort_sorted htr hcon l (fun a ha => hP a (by simp [ha])) (List.nodup_cons.mp hnd).2
    have key : ∀ m : List α, m.Pairwise (fun a b => lt a b = true) → (∀ a ∈ m, P a ∧ a ≠ x) →
        (sortInsert lt x m).Pairwise (fun a b => lt a b = true) := by
      intro m
      induction m with
      | nil => intro _ _; simp [sortInsert]
      | cons y ys ihm =>
        intro hs hm
        rw [List.pairwise_cons] at hs
        unfold sortInsert
        split
        · rename_i hyx
          rw [List.pairwise_cons]
          refine ⟨?_, ihm hs.2 (fun a ha => hm a (by simp [ha]))⟩
          intro a ha
          have := (sortInsert_perm lt x ys).mem_iff.mp ha
          rcases List.mem_cons.mp this with rfl | h
          · exact hyx
          · exact hs.1 a h
        · rename_i hyx
          have hxy : lt x y = true := by
            rcases hcon x y (hP x (by simp)) (hm y (by simp)).1 (hm y (by simp)).2.symm with h | h
            · exact h
            · exact absurd h hyx
          rw [List.pairwise_cons]
          refine ⟨?_, List.pairwise_cons.mpr hs⟩
          intro a ha
          rcases List.mem_cons.mp ha with rfl | h
          · exact hxy
          · exact htr x y a (hP x (by simp)) (hm y (by simp)).1 (hm a (by simp [h])).1 hxy (hs.1 a h)
    refine key _ ih ?_
    intro a ha
    have hal := (stdSort_perm lt l).mem_iff.mp ha
    exact ⟨hP a (by simp [hal]), fun h => (List.nodup_cons.mp hnd).1 (h ▸ hal)⟩

lemma shiftSizeLoop_spec : ∀ (exp s b : ℕ), shiftSizeLoop (s % 2 ^ 64) exp (b % 2 ^ 64) = s * b ^ exp % 2 ^ 64 := by
  intro exp
  induction exp using Nat.strong_induction_on with
  | _ exp ih =>
    intro s b
    unfold shiftSizeLoop
    by_cases h : exp = 0
    · subst h; simp
    · rw [dif_neg h]
      have hlt : exp / 2 < exp := Nat.div_lt_self (Nat.pos_of_ne_zero h) (by decide)
      have hb : b % 2 ^ 64 * (b % 2 ^ 64) % 2 ^ 64 = b * b % 2 ^ 64 := (Nat.mul_mod b b _).symm
      have hdm := Nat.div_add_mod exp 2
      have hpow : b ^ exp = b ^ (exp % 2) * (b * b) ^ (exp / 2) := by
        conv_lhs => rw [← hdm]
        rw [pow_add, pow_mul, mul_comm, pow_two]
      rw [hb]
      by_cases ho : exp % 2 = 1
      · rw [if_pos ho]
        have hs : s % 2 ^ 64 * (b % 2 ^ 64) % 2 ^ 64 = s * b % 2 ^ 64 := (Nat.mul_mod s b _).symm
        rw [hs, ih _ hlt, hpow, ho, pow_one, mul_assoc]
      · rw [if_neg ho, ih _ hlt, hpow]
        have : exp % 2 = 0 := by omega
        rw [this, pow_zero, one_mul]

lemma shiftSize_eq {r : ℕ} (hr : r < 64) : shiftSizeLoop 1 r 2 = 2 ^ r := by
  have := shiftSizeLoop_spec r 1 2
  rw [Nat.mod_eq_of_lt (by norm_num), Nat.mod_eq_of_lt (by norm_num), one_mul,
    Nat.mod_eq_of_lt (Nat.pow_lt_pow_right (by norm_num) hr)] at this
  exact this

/-- value of a binary vector, most significant digit first -/
def binVal : List ℕ → ℕ
  | [] => 0
  | x :: l => x * 2 ^ l.length + binVal l

lemma binVal_append (l : List ℕ) (x : ℕ) : binVal (l ++ [x]) = 2 * binVal l + x := by
  induction l with
  | nil => simp [binVal]
  | cons a l ih => rw [List.cons_append, binVal, binVal, ih, List.length_append]; simp; ring

lemma shiftTuple_spec : ∀ (r v : ℕ), v < 2 ^ r → IsBin r (shiftTuple r v) ∧ binVal (shiftTuple r v) = v
  | 0, v, h => by
    simp only [pow_zero, Nat.lt_one_iff] at h
    subst h; simp [shiftTuple, IsBin, binVal]
  | r + 1, v, h => by
    rw [pow_succ] at h
    obtain ⟨⟨h1, h2⟩, h3⟩ := shiftTuple_spec r (v / 2) (by omega)
    rw [shiftTuple]
    refine ⟨⟨by simp [h1], fun x hx => ?_⟩, ?_⟩
    · rcases List.mem_append.mp hx with h | h
      · exact h2 x h
      · rw [List.mem_singleton] at h; omega
    · rw [binVal_append, h3]; omega

lemma binVal_lt : ∀ {r : ℕ} {v : List ℕ}, IsBin r v → binVal v < 2 ^ r
  | 0, v, h => by
    have : v = [] := List.length_eq_zero_iff.mp h.1
    subst this; simp [binVal]
  | r + 1, [], h => by have := h.1; simp at this
  | r + 1, x :: l, h => by
    have hl : l.length = r := by simpa using h.1
    have := binVal_lt (r := r) (v := l) ⟨hl, fun y hy => h.2 y (by simp [hy])⟩
    rw [binVal, hl, pow_succ]
    rcases h.2 x (by simp) with rfl | rfl <;> omega

lemma binVal_inj : ∀ {r : ℕ} {v w : List ℕ}, IsBin r v → IsBin r w → binVal v = binVal w → v = w
  | 0, v, w, hv, hw, _ => by
    rw [List.length_eq_zero_iff.mp hv.1, List.length_eq_zero_iff.mp hw.1]
  | r + 1, [], _, hv, _, _ => by have := hv.1; simp at this
  | r + 1, _ :: _, [], _, hw, _ => by have := hw.1; simp at this
  | r + 1, x :: l, y :: m, hv, hw, h => by
    have hl : IsBin r l := ⟨by simpa using hv.1, fun z hz => hv.2 z (by simp [hz])⟩
    have hm : IsBin r m := ⟨by simpa using hw.1, fun z hz => hw.2 z (by simp [hz])⟩
    have b1 := binVal_lt hl
    have b2 := binVal_lt hm
    rw [binVal, binVal, hl.1, hm.1] at h
    have hxy : x = y := by
      rcases hv.2 x (by simp) with rfl | rfl <;> rcases hw.2 y (by simp) with rfl | rfl <;> omega
    subst hxy
    rw [binVal_inj hl hm (by omega)]

lemma binVal_zero {r : ℕ} : binVal (List.replicate r 0) = 0 := by
  induction r with
  | zero => rfl
  | succ r ih => rw [List.replicate_succ, binVal, ih]; simp

lemma binVal_ones {r : ℕ} {v : List ℕ} (hv : IsBin r v) :
    binVal v = 2 ^ r - 1 ↔ ∀ x ∈ v, x = 1 := by
  induction v generalizing r with
  | nil => have := hv.1; simp at this; subst this; simp [binVal]
  | cons x l ih =>
    cases r with
    | zero => have := hv.1; simp at this
    | succ r =>
    have hl : IsBin r l := ⟨by simpa using hv.1, fun z hz => hv.2 z (by simp [hz])⟩
    have b1 := binVal_lt hl
    have hpos : 0 < 2 ^ r := by positivity
    rw [binVal, hl.1, pow_succ, List.forall_mem_cons, ← ih hl]
    rcases hv.2 x (by simp) with rfl | rfl
    · constructor
      · intro h; omega
      · intro h; omega
    · constructor
      · intro h; exact ⟨rfl, by omega⟩
      · intro h; omega

/-- C29: for `1 ≤ r ≤ 32` (beyond that the 32-bit loop counter of the code cannot reach the bound),
`generate_possible_shifts(r)` lists every 0/1 vector of length `r` other than the all-ones vector
exactly once, and is strictly sorted by `a_grt_b_s`, in particular by the number of ones. -/
theorem C29_possible_shifts (r : ℕ) (h1 : 1 ≤ r) (hr : r ≤ 32) :
    (generatePossibleShifts r).Nodup ∧
    (∀ v, v ∈ generatePossibleShifts r ↔
      (v.length = r ∧ (∀ x ∈ v, x = 0 ∨ x = 1) ∧ ∃ x ∈ v, x = 0)) ∧
    (generatePossibleShifts r).Pairwise (fun a b => aGrtBS b a = true) ∧
    (generatePossibleShifts r).Pairwise (fun a b => a.sum ≤ b.sum) := by
  have hpow : 2 ≤ 2 ^ r := by
    calc 2 = 2 ^ 1 := rfl
      _ ≤ 2 ^ r := Nat.pow_le_pow_right (by norm_num) h1
  set raw := List.replicate r 0 ::
    ((List.range (2 ^ r - 1)).drop 1).map (fun counter => shiftTuple r counter) with hraw
  have hgen : generatePossibleShifts r = stdSort (fun a b => aGrtBS b a) raw := by
    unfold generatePossibleShifts; rw [shiftSize_eq (by omega)]
  have hperm : (generatePossibleShifts r).Perm raw := by rw [hgen]; exact stdSort_perm _ _
  have hdrop : ∀ c, c ∈ (List.range (2 ^ r - 1)).drop 1 ↔ 1 ≤ c ∧ c < 2 ^ r - 1 := by
    intro c
    rw [List.range_eq_range', List.drop_range', List.mem_range']
    constructor
    · rintro ⟨i, hi, rfl⟩; omega
    · rintro ⟨a, b⟩; exact ⟨c - 1, by omega, by omega⟩
  have hzbin : IsBin r (List.replicate r 0) := ⟨by simp, fun x hx => Or.inl (List.eq_of_mem_replicate hx)⟩
  have hrawmem : ∀ v, v ∈ raw ↔ IsBin r v ∧ binVal v < 2 ^ r - 1 := by
    intro v
    rw [hraw, List.mem_cons, List.mem_map]
    constructor
    · rintro (rfl | ⟨c, hc, rfl⟩)
      · exact ⟨hzbin, by rw [binVal_zero]; omega⟩
      · have := (hdrop c).mp hc
        obtain ⟨a, b⟩ := shiftTuple_spec r c (by omega)
        exact ⟨a, by rw [b]; exact this.2⟩
    · rintro ⟨hv, hlt⟩
      by_cases h0 : binVal v = 0
      · left; exact binVal_inj hv hzbin (by rw [h0, binVal_zero])
      · right
        obtain ⟨a, b⟩ := shiftTuple_spec r (binVal v) (by omega)
        exact ⟨binVal v, (hdrop _).mpr ⟨by omega, hlt⟩, binVal_inj a hv b⟩
  have hrawnd : raw.Nodup := by
    rw [hraw, List.nodup_cons]
    constructor
    · rw [List.mem_map]
      rintro ⟨c, hc, he⟩
      have := (hdrop c).mp hc
      obtain ⟨a, b⟩ := shiftTuple_spec r c (by omega)
      rw [he, binVal_zero] at b; omega
    · have hnd : ((List.range (2 ^ r - 1)).drop 1).Nodup := List.nodup_range.sublist (List.drop_sublist _ _)
      refine List.Nodup.map_on ?_ hnd
      intro x hx y hy he
      obtain ⟨_, b1⟩ := shiftTuple_spec r x (by have := (hdrop x).mp hx; omega)
      obtain ⟨_, b2⟩ := shiftTuple_spec r y (by have := (hdrop y).mp hy; omega)
      rw [← b1, ← b2, he]
  have hnd := hperm.nodup_iff.mpr hrawnd
  have hmem : ∀ v, v ∈ generatePossibleShifts r ↔ IsBin r v ∧ binVal v < 2 ^ r - 1 :=
    fun v => hperm.mem_iff.trans (hrawmem v)
  have hst := C27_a_grt_b_s_strict_total r
  have hlen : ∀ v ∈ raw, v.length = r := fun v hv => ((hrawmem v).mp hv).1.1
  have hstrict : (generatePossibleShifts r).Pairwise (fun a b => aGrtBS b a = true) := by
    rw [hgen]
    exact stdSort_sorted (P := fun v => v.length = r)
      (fun a b c ha hb hc h1 h2 => hst.trans c b a hc hb ha h2 h1)
      (fun a b ha hb hab => (hst.connected a b ha hb hab).symm) raw hlen hrawnd
  refine ⟨hnd, ?_, hstrict, ?_⟩
  · intro v
    rw [hmem]
    constructor
    · rintro ⟨hb, hlt⟩
      refine ⟨hb.1, hb.2, ?_⟩
      by_contra hcon
      push Not at hcon
      have : binVal v = 2 ^ r - 1 := (binVal_ones hb).mpr (fun x hx => by
        rcases hb.2 x hx with h | h
        · exact absurd h (hcon x hx)
        · exact h)
      omega
    · rintro ⟨l1, l2, x, hx, rfl⟩
      have hb : IsBin r v := ⟨l1, l2⟩
      refine ⟨hb, ?_⟩
      have b1 := binVal_lt hb
      have : binVal v ≠ 2 ^ r - 1 := by
        intro h
        have := (binVal_ones hb).mp h 0 hx
        omega
      omega
  · refine hstrict.imp_of_mem ?_
    intro a b ha hb h
    have hsum : ∀ v, IsBin r v → v.sum < 2 ^ 32 := by
      intro v hv
      have : ∀ l : List ℕ, (∀ x ∈ l, x = 0 ∨ x = 1) → l.sum ≤ l.length := by
        intro l
        induction l with
        | nil => simp
        | cons y l ih =>
          intro hy
          have := ih (fun z hz => hy z (by simp [hz]))
          rw [List.sum_cons, List.length_cons]
          rcases hy y (by simp) with rfl | rfl <;> omega
      have := this v hv.2
      rw [hv.1] at this
      omega
    have h2 := (C27_a_grt_b_s_graded b a (hsum b ((hmem b).mp hb).1) (hsum a ((hmem a).mp ha).1)).mp h
    omega

example : generatePossibleShifts 3 =
    [[0,0,0],[0,0,1],[0,1,0],[1,0,0],[0,1,1],[1,0,1],[1,1,0]] := by
  unfold generatePossibleShifts
  rw [shiftSize_eq (by norm_num)]
  decide +kernel

end FireFly
