import Verif.Lemmas.NeededFeedSys
import Mathlib.Algebra.BigOperators.Fin
import Mathlib.Algebra.Order.BigOperators.Group.Finset
/-! # All objects of a field: the work is bounded, and there is no deadlock -/
set_option linter.all false
namespace FireFly.Needed
variable {F ι : Type} [DecidableEq ι] {objs : ι → Obj F} {n : ℕ} {good : F × List ℕ → Prop} {R : ι → List (ℕ × ℕ)}

/-- the weight of entries that are not taken -/
def wNeed (m : ℕ) (l : List (ℕ × ℕ)) : ℕ := (l.map (fun el => 2 + m * el.2)).sum
/-- the weight of entries that are taken -/
def wTodo (m : ℕ) (l : List (ℕ × ℕ)) : ℕ := (l.map (fun el => 1 + m * el.2)).sum

lemma wNeed_append (m : ℕ) (l l' : List (ℕ × ℕ)) : wNeed m (l ++ l') = wNeed m l + wNeed m l' := by simp [wNeed]
lemma wTodo_append (m : ℕ) (l l' : List (ℕ × ℕ)) : wTodo m (l ++ l') = wTodo m l + wTodo m l' := by simp [wTodo]
lemma wNeed_eq (m : ℕ) (l : List (ℕ × ℕ)) : wNeed m l = wTodo m l + l.length := by
  induction l with
  | nil => rfl
  | cons el l ih =>
    have h1 : wNeed m (el :: l) = 2 + m * el.2 + wNeed m l := by simp [wNeed]
    have h2 : wTodo m (el :: l) = 1 + m * el.2 + wTodo m l := by simp [wTodo]
    rw [h1, h2, ih, List.length_cons]; omega

/-- the work left for one object -/
def pot (m : ℕ) (R : ι → List (ℕ × ℕ)) (n : ℕ) (s : Fld F objs) (i : ι) : ℕ :=
  (if count n (s.got i) 1 = 0 then wNeed m (R i) else wNeed m (s.need i)) + wTodo m (s.todo i) + (s.probes.length - (s.got i).length)

lemma Sound.got_le {k0 : ℕ} {s : Fld F objs} (h : Sound objs n good R k0 s) (i : ι) : (s.got i).length ≤ s.probes.length :=
  (List.Nodup.subperm (h.gotNodup i) (fun q hq => h.gotSub i q hq)).length_le

lemma sum_lt_of_one [Fintype ι] {f g : ι → ℕ} (i : ι) (h : f i < g i) (ho : ∀ j, j ≠ i → f j = g j) : ∑ j, f j < ∑ j, g j :=
  Finset.sum_lt_sum (fun j _ => by by_cases hj : j = i; · subst hj; exact h.le
                                   · rw [ho j hj]) ⟨i, Finset.mem_univ _, h⟩

lemma Sound.decreases [Fintype ι] (hok : ∀ i, (objs i).OK n good (R i)) {k0 : ℕ} {s s' : Fld F objs} (h : Sound objs n good R k0 s) (hs : Step objs n good s s') :
    ∑ i, pot (Fintype.card ι) R n s' i < ∑ i, pot (Fintype.card ι) R n s i := by
  obtain ⟨m, hm⟩ : ∃ m, m = Fintype.card ι := ⟨_, rfl⟩
  rw [← hm]
  have h' := h.step hok hs
  cases hs with
  | feed i q x l h1 h2 h3 h4 =>
    apply sum_lt_of_one i
    · have hnd : (s.got i ++ [q]).Nodup := by
        rw [List.nodup_append]
        exact ⟨h.gotNodup i, by simp, fun a ha b hb => by rw [List.mem_singleton] at hb; rintro rfl; exact h2 (hb ▸ ha)⟩
      have hgd : ∀ y ∈ s.got i ++ [q], good y := by
        intro y hy
        rcases List.mem_append.mp hy with hy | hy
        · exact h.good y (h.gotSub i y hy)
        · rw [List.mem_singleton.mp hy]; exact h.good q h1
      have hadd := (hok i).adds (s.got i) q (s.st i) x hnd hgd (h.st i) h3
      have hlen := h'.got_le i
      simp only [Function.update_self, List.length_append, List.length_cons, List.length_nil] at hlen
      have hc1 : count n (s.got i ++ [q]) 1 = count n (s.got i) 1 + count n [q] 1 := count_append _ _ _
      unfold pot
      simp only [Function.update_self, List.length_append, List.length_cons, List.length_nil]
      have key : (if count n (s.got i ++ [q]) 1 = 0 then wNeed m (R i) else wNeed m (s.need i ++ l)) ≤ (if count n (s.got i) 1 = 0 then wNeed m (R i) else wNeed m (s.need i)) := by
        by_cases c0 : count n (s.got i) 1 = 0
        · rw [if_pos c0]
          split
          · exact le_rfl
          · rw [(h.before i c0).1, List.nil_append]
            rcases hadd with e | ⟨e, -⟩
            · rw [h4] at e; rw [Option.some.inj e]; simp [wNeed]
            · rw [h4] at e; rw [Option.some.inj e]
        · rw [if_neg c0, if_neg (by omega)]
          rcases hadd with e | ⟨e, e2, -⟩
          · rw [h4] at e; rw [Option.some.inj e]; simp
          · exact absurd e2 c0
      omega
    · intro j hj
      unfold pot
      simp only [Function.update_of_ne hj]
  | take i h1 h2 =>
    apply sum_lt_of_one i
    · have c0 : ¬ count n (s.got i) 1 = 0 := fun c => h2 (h.before i c).1
      unfold pot
      simp only [Function.update_self, if_neg c0, wTodo_append]
      have := wNeed_eq m (s.need i)
      have := List.length_pos_iff.mpr h2
      have : wNeed m [] = 0 := rfl
      omega
    · intro j hj
      unfold pot
      simp only [Function.update_of_ne hj]
  | drop i h1 h2 =>
    apply sum_lt_of_one i
    · have c0 : ¬ count n (s.got i) 1 = 0 := fun c => h2 (h.before i c).1
      unfold pot
      simp only [Function.update_self, if_neg c0]
      have := wNeed_eq m (s.need i)
      have := List.length_pos_iff.mpr h2
      have : wNeed m [] = 0 := rfl
      omega
    · intro j hj
      unfold pot
      simp only [Function.update_of_ne hj]
  | ask i el rest new h1 h2 h3 h4 =>
    obtain ⟨-, -, a3, -⟩ := ask_spec s.started el new h2
    have hnew : new.length ≤ el.2 := by omega
    have e1 : ∀ j, pot m R n { s with started := (Req.ask n { started := s.started } el).started, probes := s.probes ++ new, todo := Function.update s.todo i rest } j
        + (if j = i then 1 + m * el.2 else 0) = pot m R n s j + new.length := by
      intro j
      have := h.got_le j
      unfold pot
      simp only [List.length_append]
      by_cases hj : j = i
      · subst hj
        simp only [Function.update_self, if_true, h1]
        have : wTodo m (el :: rest) = 1 + m * el.2 + wTodo m rest := by simp [wTodo]
        rw [this]; omega
      · simp only [Function.update_of_ne hj, if_neg hj]; omega
    have e2 := Finset.sum_congr (s₁ := Finset.univ) rfl (fun j _ => e1 j)
    rw [Finset.sum_add_distrib, Finset.sum_add_distrib, Finset.sum_ite_eq' Finset.univ i (fun _ => 1 + m * el.2), if_pos (Finset.mem_univ _), Finset.sum_const, Finset.card_univ, ← hm, smul_eq_mul] at e2
    have := Nat.mul_le_mul_left m hnew
    omega

lemma pot_start [Fintype ι] (ts : List F) : ∑ i, pot (Fintype.card ι) R n (Fld.start objs n ts) i = ∑ i, (wNeed (Fintype.card ι) (R i) + ts.length) := by
  apply Finset.sum_congr rfl
  intro i _
  unfold pot Fld.start
  simp [count, wTodo]

/-- there is always a next step until everything is done -/
lemma Sound.next (hok : ∀ i, (objs i).OK n good (R i)) (hts : ∀ i, ∀ el ∈ R i, ∃ ts : List F, ts.Nodup ∧ el.2 ≤ ts.length ∧ ∀ t ∈ ts, good (t, ones n el.1))
    {k0 : ℕ} {s : Fld F objs} (h : Sound objs n good R k0 s) (hq : ¬ s.Quiet) : ∃ s', Step objs n good s s' := by
  unfold Fld.Quiet at hq
  push Not at hq
  obtain ⟨i, hi⟩ := hq
  by_cases hneed : s.need i = []
  · cases htodo : s.todo i with
    | nil =>
      obtain ⟨q, h1, h2⟩ := hi hneed htodo
      have hnd : (s.got i ++ [q]).Nodup := by
        rw [List.nodup_append]
        exact ⟨h.gotNodup i, by simp, fun a ha b hb => by rw [List.mem_singleton] at hb; rintro rfl; exact h2 (hb ▸ ha)⟩
      have hgd : ∀ y ∈ s.got i ++ [q], good y := by
        intro y hy
        rcases List.mem_append.mp hy with hy | hy
        · exact h.good y (h.gotSub i y hy)
        · rw [List.mem_singleton.mp hy]; exact h.good q h1
      obtain ⟨x, hx⟩ := (hok i).run _ hnd hgd
      rw [List.foldlM_append, h.st i] at hx
      have hx : (objs i).feed (s.st i) q = some x := by simpa using hx
      obtain ⟨l, hl⟩ : ∃ l, (objs i).adds (s.st i) q = some l := by
        rcases (hok i).adds (s.got i) q (s.st i) x hnd hgd (h.st i) hx with e | ⟨e, -⟩ <;> exact ⟨_, e⟩
      exact ⟨_, Step.feed s i q x l h1 h2 hx hl⟩
    | cons el rest =>
      classical
      obtain ⟨ts, t1, t2, t3⟩ := hts i el (h.mem i el (Or.inr (by rw [htodo]; simp)))
      obtain ⟨k, hk⟩ : ∃ k, k = max (count n s.probes el.1) el.2 - count n s.probes el.1 := ⟨_, rfl⟩
      have hqueue : (Req.ask n { started := s.started } el).queued = List.replicate k (ones n el.1) := by
        have hst := h.started el.1
        unfold ones at hst
        rw [hk, ← hst]
        unfold Req.ask ones
        by_cases h0 : el.2 = 0
        · rw [if_pos h0, h0]; simp
        · rw [if_neg h0]
          simp only
          cases hf : s.started.find? (List.replicate (n - 1) el.1) with
          | none => simp [Req.queue]
          | some k =>
            simp only [Option.getD_some]
            split
            · simp only [Req.queue, List.nil_append]; congr 1; omega
            · rw [show max k el.2 - k = 0 by omega]; rfl
      have hfree : k ≤ (ts.filter (fun t => !decide ((t, ones n el.1) ∈ s.probes))).length := by
        have h1 : (ts.filter (fun t => decide ((t, ones n el.1) ∈ s.probes))).length ≤ count n s.probes el.1 := by
          unfold count
          rw [← List.length_map (f := fun t => (t, ones n el.1))]
          apply (List.Nodup.subperm ((t1.filter _).map (fun a b e => by simpa using e)) _).length_le
          intro q hq
          obtain ⟨t, ht, rfl⟩ := List.mem_map.mp hq
          obtain ⟨ht1, ht2⟩ := List.mem_filter.mp ht
          rw [List.mem_filter]
          exact ⟨of_decide_eq_true ht2, by simp [ones]⟩
        have h2 := List.length_eq_length_filter_add (l := ts) (fun t => decide ((t, ones n el.1) ∈ s.probes))
        omega
      obtain ⟨fs, hfs⟩ : ∃ fs, fs = (ts.filter (fun t => !decide ((t, ones n el.1) ∈ s.probes))).take k := ⟨_, rfl⟩
      have hfl : fs.length = k := by rw [hfs, List.length_take]; omega
      have hfm : ∀ t ∈ fs, t ∈ ts ∧ (t, ones n el.1) ∉ s.probes := by
        intro t ht
        rw [hfs] at ht
        obtain ⟨a, b⟩ := List.mem_filter.mp (List.mem_of_mem_take ht)
        exact ⟨a, by simpa using b⟩
      have hfn : fs.Nodup := by rw [hfs]; exact ((t1.filter _).sublist (List.take_sublist _ _))
      refine ⟨_, Step.ask s i el rest (fs.map (fun t => (t, ones n el.1))) htodo ?_ ?_ ?_⟩
      · rw [hqueue, List.map_map, ← hfl]
        exact List.map_const'
      · rw [List.nodup_append]
        refine ⟨h.nodup, hfn.map (fun a b e => by simpa using e), ?_⟩
        rintro a ha b hb rfl
        obtain ⟨t, ht, rfl⟩ := List.mem_map.mp hb
        exact (hfm t ht).2 ha
      · intro q hq
        obtain ⟨t, ht, rfl⟩ := List.mem_map.mp hq
        exact t3 t (hfm t ht).1
  · cases hd : (objs i).done (s.st i) with
    | true => exact ⟨_, Step.drop s i hd hneed⟩
    | false => exact ⟨_, Step.take s i hd hneed⟩

end FireFly.Needed
