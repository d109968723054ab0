import Verif.Lemmas.FirstFeedEnd
/-!
# C66: in the first prime field the requests suffice, and every schedule ends

In the first prime field an object says after each probe what it wants next; the Reconstructor keeps the number of probes `(1, …, 1)` in flight until the degrees are known, then it queues what is missing for the systems. These theorems say
that what an object asks for is what it lacks (`C66_request`), that all objects finish with right results when nothing is left to do (`C66_all`), that there is no deadlock (`C66_no_deadlock`), that every schedule ends (`C66_ends`), and that
not more is queued (`C66_in_flight`, `C66_no_surplus`).
-/
set_option linter.all false
namespace FireFly.First
variable {F ι : Type} [Field F] [DecidableEq F] [DecidableEq ι] {n : ℕ} {good : F × List ℕ → Prop}

lemma Described.ok {ob : Obj F} {size : ℕ} {right : ob.S → Prop} (h : Described n good ob size right) : ∃ L M J early, ob.OK n good size L M J early right := by
  cases h with
  | multi c N D mN mD h1 h2 h3 h4 h5 => subst h1; exact ⟨_, _, _, _, RMulti.obj_ok h2 h3 h4 h5⟩

lemma Obj.OK.mono {ob : Obj F} {B L M b l m : ℕ} {J : List (F × List ℕ) → ob.S → ℕ → Prop} {early : ob.S → Bool} {right : ob.S → Prop} (h : ob.OK n good B L M J early right) (hB : B ≤ b) (hL : L ≤ l) (hM : M ≤ m) :
    ob.OK n good b l m (fun past s φ => ∃ φ0 ≤ φ, J past s φ0) early right := by
  refine ⟨⟨M, hM, h.init⟩, ?_, ?_, ?_⟩
  · rintro past q s φ ⟨φ0, h0, hJ⟩ hnd hg
    obtain ⟨s', φ', e1, e2, e3⟩ := h.feed past q s φ0 hJ hnd hg
    rcases e3 with e3 | ⟨e3, e4, e5⟩
    · exact ⟨s', φ', e1, ⟨φ', le_rfl, e2⟩, Or.inl (by omega)⟩
    · exact ⟨s', φ, e1, ⟨φ', by omega, e2⟩, Or.inr ⟨le_rfl, e4, e5⟩⟩
  · rintro past s φ ⟨φ0, h0, hJ⟩ hnd hd
    obtain ⟨L', size, w1, w2, w3, w4, w5⟩ := h.wants past s φ0 hJ hnd hd
    exact ⟨L', size, w1, by omega, fun he => le_trans (w3 he) hB, fun he => ⟨(w4 he).1, le_trans (w4 he).2 hM⟩, w5⟩
  · rintro past s φ ⟨φ0, h0, hJ⟩ hd
    exact h.result past s φ0 hJ hd

/-- **C66.** What an object asks for: after any probes that are allowed the object is in a defined state. As long as it is not done, its list of requests is defined; it consists of `(1, …, 1)` alone, or its first entry is an order vector
other than `(1, …, 1)` with the number of probes that are missing, which is positive; no entry asks for `(1, …, 1)` then, and no entry asks for more than the size of the system, which is at most `size`, unless the object has got more than
that already. An object that is done has the right result. -/
theorem C66_request {ob : Obj F} {size : ℕ} {right : ob.S → Prop} (h : Described n good ob size right) (past : List (F × List ℕ)) (hnd : past.Nodup) (hgood : ∀ q ∈ past, good q) :
    ∃ s, past.foldlM ob.feed ob.init = some s ∧ (ob.done s = true → right s) ∧
      (ob.done s = false → ∃ l z, ob.orders s = some (l, z) ∧
        ((∃ k, l = [(List.replicate (n - 1) 1, k)]) ∨
         ((∃ o rest, l = (o, z - cnt past o) :: rest ∧ cnt past o < z) ∧ z ≤ size ∧
          ∀ el ∈ l, el.1 ≠ List.replicate (n - 1) 1 ∧ (cnt past el.1 ≤ z → el.2 ≤ z ∧ z ≤ cnt past el.1 + el.2)))) := by
  obtain ⟨L, M, J, early, hok⟩ := h.ok
  have key : ∀ (l past : List (F × List ℕ)) (x : ob.S) (φ : ℕ), J past x φ → (past ++ l).Nodup → (∀ q ∈ past ++ l, good q) → ∃ y φ', l.foldlM ob.feed x = some y ∧ J (past ++ l) y φ' := by
    intro l
    induction l with
    | nil => intro past x φ h _ _; exact ⟨x, φ, rfl, by simpa using h⟩
    | cons q l ih =>
      intro past x φ h hnd hg
      have e : past ++ q :: l = (past ++ [q]) ++ l := by simp
      rw [e] at hnd hg ⊢
      obtain ⟨x', φ', e1, e2, -⟩ := hok.feed past q x φ h (List.Nodup.of_append_left hnd) (fun y hy => hg y (List.mem_append_left _ hy))
      obtain ⟨y, φ2, h1, h2⟩ := ih _ x' φ' e2 hnd hg
      exact ⟨y, φ2, by rw [List.foldlM_cons, e1]; exact h1, h2⟩
  obtain ⟨s, φ, h1, h2⟩ := key past [] _ _ hok.init (by simpa using hnd) (by simpa using hgood)
  rw [List.nil_append] at h2
  refine ⟨s, h1, hok.result _ _ _ h2, fun hd => ?_⟩
  obtain ⟨l, z, w1, w2, w3, w4, w5⟩ := hok.wants past s φ h2 hnd hd
  refine ⟨l, z, w1, ?_⟩
  cases he : early s with
  | true => exact Or.inl (w4 he).1
  | false =>
    refine Or.inr ⟨(w5 he).1, w3 he, fun el hel => ?_⟩
    obtain ⟨f1, sv, f2, f3⟩ := (w5 he).2 el hel
    refine ⟨f1, fun hle => ?_⟩
    rw [f3]
    unfold RMulti.wrapSub
    rw [if_pos (by omega)]
    omega

variable {objs : ι → Obj F} {size : ι → ℕ} {right : ∀ i, (objs i).S → Prop}

lemma all_ok (hd : ∀ i, Described n good (objs i) (size i) (right i)) :
    ∃ (L M : ι → ℕ) (J : ∀ i, List (F × List ℕ) → (objs i).S → ℕ → Prop) (early : ∀ i, (objs i).S → Bool), ∀ i, (objs i).OK n good (size i) (L i) (M i) (J i) (early i) (right i) := by
  choose L M J early h using fun i => (hd i).ok
  exact ⟨L, M, J, early, h⟩

lemma reach_sound {L M : ι → ℕ} {J : ∀ i, List (F × List ℕ) → (objs i).S → ℕ → Prop} {early : ∀ i, (objs i).S → Bool} (hok : ∀ i, (objs i).OK n good (size i) (L i) (M i) (J i) (early i) (right i))
    {ts rest more : List F} {s0 s : Fld F objs} (h0 : Starts objs n good ts rest more s0) (hr : Reaches objs n good s0 s) : Sound objs n good size J early (ts.length + rest.length + more.length) s := by
  induction hr with
  | refl => exact Sound.start hok h0
  | tail _ h ih => exact ih.step hok h

/-- **C66.** In every schedule of the threads: when nothing is left to do, all objects are done with the first prime field, and their results are right. -/
theorem C66_all (hd : ∀ i, Described n good (objs i) (size i) (right i)) (ts rest more : List F) (s0 s : Fld F objs) (h0 : Starts objs n good ts rest more s0) (hr : Reaches objs n good s0 s) (hq : s.Quiet) (i : ι) :
    (objs i).done (s.st i) = true ∧ right i (s.st i) := by
  obtain ⟨L, M, J, early, hok⟩ := all_ok hd
  have h := reach_sound hok h0 hr
  have hl := List.length_pos_iff.mpr h0.bunch
  have hdone := h.quiet hok (by omega) hq i
  obtain ⟨φ, hφ⟩ := h.inv i
  exact ⟨hdone, (hok i).result _ _ _ hφ hdone⟩

/-- **C66.** An object that is done is right, at any moment. -/
theorem C66_done (hd : ∀ i, Described n good (objs i) (size i) (right i)) (ts rest more : List F) (s0 s : Fld F objs) (h0 : Starts objs n good ts rest more s0) (hr : Reaches objs n good s0 s) (i : ι)
    (hdone : (objs i).done (s.st i) = true) : right i (s.st i) := by
  obtain ⟨L, M, J, early, hok⟩ := all_ok hd
  obtain ⟨φ, hφ⟩ := (reach_sound hok h0 hr).inv i
  exact (hok i).result _ _ _ hφ hdone

/-- **C66.** There is no deadlock: as long as something is left to do, a thread can do something. It is only assumed that there are enough allowed values. -/
theorem C66_no_deadlock (hd : ∀ i, Described n good (objs i) (size i) (right i)) (ts rest more : List F) (s0 s : Fld F objs) (h0 : Starts objs n good ts rest more s0) (hr : Reaches objs n good s0 s)
    (hone : ∃ l : List F, l.Nodup ∧ cnt s.computed (List.replicate (n - 1) 1) + (ts.length + rest.length + more.length) ≤ l.length ∧ ∀ t ∈ l, good (t, List.replicate (n - 1) 1))
    (hmany : ∀ i o, ∃ l : List F, l.Nodup ∧ size i ≤ l.length ∧ ∀ t ∈ l, good (t, o)) (hq : ¬ s.Quiet) : ∃ s', Step objs n good s s' := by
  obtain ⟨L, M, J, early, hok⟩ := all_ok hd
  exact (reach_sound hok h0 hr).next hok hone hmany hq

/-- **C66.** The number of probes `(1, …, 1)` that are queued and not computed is at most the number at the start, `thr_n` and the first bunch. It is that number less the balance. -/
theorem C66_in_flight (hd : ∀ i, Described n good (objs i) (size i) (right i)) (ts rest more : List F) (s0 s : Fld F objs) (h0 : Starts objs n good ts rest more s0) (hr : Reaches objs n good s0 s) :
    cnt s.probes (List.replicate (n - 1) 1) + s.balance = cnt s.computed (List.replicate (n - 1) 1) + (ts.length + rest.length + more.length) := by
  obtain ⟨L, M, J, early, hok⟩ := all_ok hd
  exact (reach_sound hok h0 hr).book

/-- **C66.** Not more is queued than one of the objects needs for its system: the number of probes for an order vector other than `(1, …, 1)` is zero or at most the largest size of a system of one of the objects. No probe is queued twice;
`started_probes` says how many have been queued. -/
theorem C66_no_surplus (hd : ∀ i, Described n good (objs i) (size i) (right i)) (ts rest more : List F) (s0 s : Fld F objs) (h0 : Starts objs n good ts rest more s0) (hr : Reaches objs n good s0 s) :
    s.probes.Nodup ∧ (∀ o, (s.started.find? o).getD 0 = cnt s.probes o) ∧ ∀ o, o ≠ List.replicate (n - 1) 1 → cnt s.probes o = 0 ∨ ∃ i, cnt s.probes o ≤ size i := by
  obtain ⟨L, M, J, early, hok⟩ := all_ok hd
  have h := reach_sound hok h0 hr
  exact ⟨h.nodup, h.started, h.bound⟩

lemma uniform_of_ok [Fintype ι] {L M : ι → ℕ} {J : ∀ i, List (F × List ℕ) → (objs i).S → ℕ → Prop} {early : ∀ i, (objs i).S → Bool} (hok : ∀ i, (objs i).OK n good (size i) (L i) (M i) (J i) (early i) (right i)) :
    ∃ (b l m : ℕ) (J : ∀ i, List (F × List ℕ) → (objs i).S → ℕ → Prop) (early : ∀ i, (objs i).S → Bool), ∀ i, (objs i).OK n good b l m (J i) (early i) (right i) := by
  have hle : ∀ (f : ι → ℕ) (i : ι), f i ≤ ∑ j, f j := fun f i => Finset.single_le_sum (fun j _ => Nat.zero_le _) (Finset.mem_univ i)
  exact ⟨_, _, _, _, early, fun i => (hok i).mono (hle size i) (hle L i) (hle M i)⟩

lemma uniform [Fintype ι] (hd : ∀ i, Described n good (objs i) (size i) (right i)) :
    ∃ (b l m : ℕ) (J : ∀ i, List (F × List ℕ) → (objs i).S → ℕ → Prop) (early : ∀ i, (objs i).S → Bool), ∀ i, (objs i).OK n good b l m (J i) (early i) (right i) := by
  obtain ⟨L, M, J, early, hok⟩ := all_ok hd
  exact uniform_of_ok hok

lemma run_bounded [Fintype ι] {b l m : ℕ} {J : ∀ i, List (F × List ℕ) → (objs i).S → ℕ → Prop} {early : ∀ i, (objs i).S → Bool} (hok : ∀ i, (objs i).OK n good b l m (J i) (early i) (right i))
    {ts rest more : List F} {s0 : Fld F objs} (h0 : Starts objs n good ts rest more s0) (f : ℕ → Fld F objs) (hf : f 0 = s0) (k : ℕ) (hstep : ∀ j < k, Step objs n good (f j) (f (j + 1))) :
    Sound objs n good (fun _ => b) J early (ts.length + rest.length + more.length) (f k) ∧ (∃ φ R e, Bounded objs n J early b l m (ts.length + rest.length + more.length) (f k) φ R e) ∧
      k + small l (f k) ≤ big l (f k) := by
  induction k with
  | zero =>
    rw [hf]
    refine ⟨Sound.start (L := fun _ => l) (M := fun _ => m) hok h0, Bounded.start hok h0, ?_⟩
    have : small l s0 = 0 := by
      unfold small
      apply Finset.sum_eq_zero
      intro i _
      rw [h0.eq]
      simp [Fld.start]
    omega
  | succ k ih =>
    obtain ⟨h1, ⟨φ, R, e, h2⟩, h3⟩ := ih (fun j hj => hstep j (by omega))
    have hs := hstep k (by omega)
    refine ⟨h1.step (L := fun _ => l) (M := fun _ => m) hok hs, h2.step hok h1 hs, ?_⟩
    have := h2.progress hok h1 hs
    omega

lemma ends_of_ok [Fintype ι] {L M : ι → ℕ} {J : ∀ i, List (F × List ℕ) → (objs i).S → ℕ → Prop} {early : ∀ i, (objs i).S → Bool} (hok : ∀ i, (objs i).OK n good (size i) (L i) (M i) (J i) (early i) (right i)) (T : ℕ) :
    ∃ bound, ∀ (ts rest more : List F) (s0 : Fld F objs), Starts objs n good ts rest more s0 → ts.length + rest.length + more.length = T →
      ∀ (k : ℕ) (f : ℕ → Fld F objs), f 0 = s0 → (∀ j < k, Step objs n good (f j) (f (j + 1))) → k ≤ bound ∧ (f k).probes.length ≤ bound := by
  obtain ⟨b, l, m, J, early, hok⟩ := uniform_of_ok hok
  refine ⟨stepsMax (Fintype.card ι) b l m T, fun ts rest more s0 h0 hT k f hf hstep => ?_⟩
  obtain ⟨h1, ⟨φ, R, e, h2⟩, h3⟩ := run_bounded hok h0 f hf k hstep
  rw [hT] at h1 h2
  have h4 := h2.big_le h1
  have h5 := h2.few h1
  unfold stepsMax at h4 ⊢
  omega

/-- **C66.** Every schedule ends: for given objects and a given number `T` of threads (probes at the start) there are a bound for the number of steps and a bound for the number of probes, the same for all schedules and all choices of values. -/
theorem C66_ends [Fintype ι] (hd : ∀ i, Described n good (objs i) (size i) (right i)) (T : ℕ) :
    ∃ bound, ∀ (ts rest more : List F) (s0 : Fld F objs), Starts objs n good ts rest more s0 → ts.length + rest.length + more.length = T →
      ∀ (k : ℕ) (f : ℕ → Fld F objs), f 0 = s0 → (∀ j < k, Step objs n good (f j) (f (j + 1))) → k ≤ bound ∧ (f k).probes.length ≤ bound := by
  obtain ⟨L, M, J, early, hok⟩ := all_ok hd
  exact ends_of_ok hok T

/-- **C66.** From every state the threads can reach the end, if there are enough allowed values; together with `C66_ends` and `C66_no_deadlock`, every schedule does, and by `C66_all` all objects have their right results then. -/
theorem C66_finishes [Fintype ι] (hd : ∀ i, Described n good (objs i) (size i) (right i)) (T : ℕ) :
    ∃ bound, (∀ o, ∃ l : List F, l.Nodup ∧ bound ≤ l.length ∧ ∀ t ∈ l, good (t, o)) → ∀ (ts rest more : List F) (s0 s : Fld F objs), Starts objs n good ts rest more s0 →
      ts.length + rest.length + more.length = T → Reaches objs n good s0 s → ∃ s', Reaches objs n good s s' ∧ s'.Quiet ∧ ∀ i, (objs i).done (s'.st i) = true ∧ right i (s'.st i) := by
  obtain ⟨b, l, m, J, early, hok⟩ := uniform hd
  refine ⟨stepsMax (Fintype.card ι) b l m T + T + b, fun hmany ts rest more s0 s h0 hT hr => ?_⟩
  have key : ∀ (d : ℕ) (s : Fld F objs), Reaches objs n good s0 s → Sound objs n good (fun _ => b) J early T s → (∃ φ R e, Bounded objs n J early b l m T s φ R e) →
      stepsMax (Fintype.card ι) b l m T + small l s ≤ d + big l s → ∃ s', Reaches objs n good s s' ∧ s'.Quiet := by
    intro d
    induction d with
    | zero =>
      rintro s hr hs ⟨φ, R, e, hb⟩ hle
      by_cases hq : s.Quiet
      · exact ⟨s, Relation.ReflTransGen.refl, hq⟩
      · exfalso
        have h5 := hb.few hs
        obtain ⟨s1, h1⟩ := hs.next (L := fun _ => l) (M := fun _ => m) hok
          (by
            obtain ⟨L, l1, l2, l3⟩ := hmany (List.replicate (n - 1) 1)
            have c1 : cnt s.computed (List.replicate (n - 1) 1) ≤ s.probes.length := by
              refine le_trans (cnt_mono hs.compNodup hs.compSub _) ?_
              unfold cnt; exact List.length_filter_le _ _
            exact ⟨L, l1, by unfold stepsMax at l2; omega, l3⟩)
          (fun _ o => by obtain ⟨L, l1, l2, l3⟩ := hmany o; exact ⟨L, l1, by omega, l3⟩) hq
        have p := hb.progress hok hs h1
        obtain ⟨φ', R', e', hb'⟩ := hb.step hok hs h1
        have := hb'.big_le (hs.step (L := fun _ => l) (M := fun _ => m) hok h1)
        omega
    | succ d ih =>
      rintro s hr hs ⟨φ, R, e, hb⟩ hle
      by_cases hq : s.Quiet
      · exact ⟨s, Relation.ReflTransGen.refl, hq⟩
      · have h5 := hb.few hs
        obtain ⟨s1, h1⟩ := hs.next (L := fun _ => l) (M := fun _ => m) hok
          (by
            obtain ⟨L, l1, l2, l3⟩ := hmany (List.replicate (n - 1) 1)
            have c1 : cnt s.computed (List.replicate (n - 1) 1) ≤ s.probes.length := by
              refine le_trans (cnt_mono hs.compNodup hs.compSub _) ?_
              unfold cnt; exact List.length_filter_le _ _
            exact ⟨L, l1, by unfold stepsMax at l2; omega, l3⟩)
          (fun _ o => by obtain ⟨L, l1, l2, l3⟩ := hmany o; exact ⟨L, l1, by omega, l3⟩) hq
        have p := hb.progress hok hs h1
        obtain ⟨s2, h2, h3⟩ := ih s1 (Relation.ReflTransGen.tail hr h1) (hs.step (L := fun _ => l) (M := fun _ => m) hok h1) (hb.step hok hs h1) (by omega)
        exact ⟨s2, Relation.ReflTransGen.head h1 h2, h3⟩
  have hall : Sound objs n good (fun _ => b) J early T s ∧ ∃ φ R e, Bounded objs n J early b l m T s φ R e := by
    rw [← hT]
    clear key
    induction hr with
    | refl => exact ⟨Sound.start (L := fun _ => l) (M := fun _ => m) hok h0, Bounded.start hok h0⟩
    | tail _ h ih =>
      obtain ⟨i1, φ, R, e, i2⟩ := ih
      exact ⟨i1.step (L := fun _ => l) (M := fun _ => m) hok h, i2.step hok i1 h⟩
  obtain ⟨s', e1, e2⟩ := key (stepsMax (Fintype.card ι) b l m T + small l s) s hr hall.1 hall.2 (by omega)
  exact ⟨s', e1, e2, fun i => C66_all hd ts rest more s0 s' h0 (hr.trans e1) e2 i⟩

end FireFly.First
