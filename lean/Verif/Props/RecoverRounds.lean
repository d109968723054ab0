import Verif.Props.RecoverProps
/-! # C67: recovery in the first prime field -/
set_option linter.all false
namespace FireFly.Recover
open First
variable {F : Type} [Field F] [DecidableEq F] {m n thr : ℕ} {good : F × List ℕ → Prop} {objs : Fin m → Obj F} {size : Fin m → ℕ} {right : ∀ i, (objs i).S → Prop}

omit [Field F] [DecidableEq F] in
lemma firstApi_honest : Honest (firstApi objs) := by
  refine ⟨?_, fun _ => rfl⟩
  intro x y i d p h
  simp only [firstApi, Option.some.injEq, Prod.mk.injEq] at h ⊢
  obtain ⟨rfl, -, rfl, rfl⟩ := h
  exact ⟨⟨rfl, rfl⟩, le_rfl⟩

lemma stays_first {st : ∀ i, (objs i).S} {r : Status × Σ i, (objs i).S} (hr : r ∈ recsOf st) {y : Σ i, (objs i).S} (h : StaysOpen (firstCfg n thr m) (firstApi objs) r y) :
    ∃ i, r = (.reconstructing, ⟨i, st i⟩) ∧ y = ⟨i, st i⟩ ∧ (objs i).done (st i) = false := by
  obtain ⟨i, -, rfl⟩ := List.mem_map.mp hr
  obtain ⟨⟨-, h1⟩, j, p, h2, h3⟩ := h
  refine ⟨i, rfl, ?_, ?_⟩
  · simp only [firstApi, Option.some.injEq, Prod.mk.injEq] at h2; exact h2.1.symm
  · cases hd : (objs i).done (st i) with
    | false => rfl
    | true => simp [firstApi, firstCfg, hd] at h1

lemma first_stays {st : ∀ i, (objs i).S} {i : Fin m} (h : (objs i).done (st i) = false) : StaysOpen (firstCfg n thr m) (firstApi objs) (.reconstructing, ⟨i, st i⟩) ⟨i, st i⟩ := by
  refine ⟨⟨rfl, ?_⟩, false, 0, ?_, le_rfl⟩
  · simp [firstApi, firstCfg, h]
  · simp [firstApi, h]

lemma after_plain (hd : ∀ i, Described n good (objs i) (size i) (right i)) {got : Fin m → List (F × List ℕ)} {st : ∀ i, (objs i).S} (ha : After objs good got st) :
    ∀ r ∈ recsOf st, ∀ y, StaysOpen (firstCfg n thr m) (firstApi objs) r y → Plain (firstCfg n thr m) (firstApi objs) y ∧ ∃ l z, (firstApi objs).orders y = some (l, z) ∧ l ≠ [] := by
  intro r hr y hy
  obtain ⟨i, -, rfl, hdone⟩ := stays_first hr hy
  obtain ⟨x, e1, -, e3⟩ := C66_request (hd i) (got i) (ha i).1 (ha i).2.1
  rw [(ha i).2.2] at e1
  obtain rfl := Option.some.inj e1
  obtain ⟨l, z, o1, o2⟩ := e3 hdone
  refine ⟨fun l' z' h => ?_, l, z, o1, ?_⟩
  · have h : (objs i).orders (st i) = some (l', z') := h
    rw [o1] at h
    obtain ⟨rfl, rfl⟩ := Prod.mk.inj (Option.some.inj h)
    refine ⟨fun h => by simp [firstCfg] at h, fun _ hno el hel => ?_⟩
    rcases o2 with ⟨k, hk⟩ | ⟨-, -, o3⟩
    · exact absurd ⟨k, hk⟩ hno
    · exact (o3 el hel).1
  · rcases o2 with ⟨k, hk⟩ | ⟨⟨o, rest, hk, -⟩, -⟩ <;> rw [hk] <;> simp

/-- **C67.** In the first prime field the recovery works from every state of the objects, whatever probes they have got (the others may be lost): it does not fail; it promotes the run exactly if all functions are done with this field, and then their results are right;
otherwise it has queued for every function that is not done at least what the function lacks: `thr_n` probes `(1, …, 1)` as long as its degrees are not known, or the probes that are missing for its next system. It is only assumed that probes `(1, …, 1)`
had been started. -/
theorem C67_recovers (hd : ∀ i, Described n good (objs i) (size i) (right i)) (hm : 0 < m) (hthr : 1 ≤ thr) (got : Fin m → List (F × List ℕ)) (st : ∀ i, (objs i).S) (ha : After objs good got st) (s : St (Σ i, (objs i).S))
    (hs : s.recs = recsOf st) (h0 : s.done = false) (h1 : s.newPrime = false) (hone : (s.started.find? (List.replicate (n - 1) 1)).isSome = true) :
    ∃ s' fresh, (firstCfg n thr m).attempt (firstApi objs) s = .ok s' ∧ s'.done = false ∧ s'.queued = s.queued ++ fresh ∧
      (s'.newPrime = true ↔ ∀ i, (objs i).done (st i) = true) ∧ (∀ i, (objs i).done (st i) = true → right i (st i)) ∧
      (s'.newPrime = false → (s'.started.find? (List.replicate (n - 1) 1)).isSome = true) ∧
      ∀ i, (objs i).done (st i) = false →
        ((∃ k z, (objs i).orders (st i) = some ([(List.replicate (n - 1) 1, k)], z)) ∧ thr ≤ fresh.count (List.replicate (n - 1) 1)) ∨
        ∃ l z o rest, (objs i).orders (st i) = some (l, z) ∧ l = (o, z - cnt (got i) o) :: rest ∧ 1 ≤ z - cnt (got i) o ∧ z - cnt (got i) o ≤ fresh.count o := by
  have hpl := after_plain (thr := thr) hd ha
  have hp : ∀ r ∈ s.recs, ∀ y, StaysOpen (firstCfg n thr m) (firstApi objs) r y → Plain (firstCfg n thr m) (firstApi objs) y := fun r hr y hy => (hpl r (hs ▸ hr) y hy).1
  have hsame : (firstCfg n thr m).same 1 = List.replicate (n - 1) 1 := rfl
  have hdef : (firstCfg n thr m).attempt (firstApi objs) s ≠ .error .undefined :=
    C67_defined s (fun r _ _ => rfl) (fun r hr y hy => Or.inr (hpl r (hs ▸ hr) y hy).2)
  obtain ⟨g1, g2⟩ := C67_gives_up firstApi_honest s hp
  have hreq : ∀ i, (objs i).done (st i) = false → ∃ l z, (objs i).orders (st i) = some (l, z) ∧
        ((∃ k, l = [(List.replicate (n - 1) 1, k)] ∧ Wants (firstCfg n thr m) (firstApi objs) ⟨i, st i⟩ (List.replicate (n - 1) 1) thr thr) ∨
         ∃ o rest, l = (o, z - cnt (got i) o) :: rest ∧ cnt (got i) o < z ∧ Wants (firstCfg n thr m) (firstApi objs) ⟨i, st i⟩ o (min (z - cnt (got i) o) z) (max (z - cnt (got i) o) z)) := by
    intro i hdone
    obtain ⟨x, e1, -, e3⟩ := C66_request (hd i) (got i) (ha i).1 (ha i).2.1
    rw [(ha i).2.2] at e1
    obtain rfl := Option.some.inj e1
    obtain ⟨l, z, o1, o2⟩ := e3 hdone
    refine ⟨l, z, o1, ?_⟩
    have hn : ¬ ((firstCfg n thr m).safe = false ∧ (firstCfg n thr m).primeIt ≠ 0) := by simp [firstCfg]
    rcases o2 with ⟨k, hk⟩ | ⟨⟨o, rest, hk, hlt⟩, -, o3⟩
    · left
      exact ⟨k, hk, Wants.ones l z k _ [] hn o1 hk (Or.inr hk)⟩
    · right
      refine ⟨o, rest, hk, hlt, Wants.entry l z _ o hn o1 rfl ?_ (by rw [hk]; simp)⟩
      rintro ⟨j, hj⟩
      exact (o3 (List.replicate (n - 1) 1, j) (by rw [hj]; exact List.mem_singleton.mpr rfl)).1 rfl
  have hlen : s.recs.length = (firstCfg n thr m).items := by rw [hs]; simp [recsOf, firstCfg]
  have hdel : ∀ r ∈ s.recs, r.1 ≠ .delete := by
    intro r hr
    rw [hs] at hr
    obtain ⟨i, -, rfl⟩ := List.mem_map.mp hr
    simp
  cases hat : (firstCfg n thr m).attempt (firstApi objs) s with
  | error e =>
    exfalso
    cases e with
    | undefined => exact hdef hat
    | range => have := g2 hat; rw [hsame] at this; rw [this] at hone; simp at hone
    | cannot =>
      obtain ⟨k1, k2⟩ := g1 hat
      obtain ⟨r, hr, y, hy⟩ := k2 hdel hlen
      obtain ⟨i, e1, rfl, e3⟩ := stays_first (hs ▸ hr) hy
      obtain ⟨l, z, -, ⟨k, -, hw⟩ | ⟨o, rest, -, hlt, hw⟩⟩ := hreq i e3
      · have := k1 r hr _ hy _ _ _ hw; omega
      · have := k1 r hr _ hy _ _ _ hw; omega
  | ok s' =>
    obtain ⟨fresh, f1, f2, -⟩ := C67_enough firstApi_honest s s' hp hat
    obtain ⟨b1, b2, b3⟩ := C67_flags firstApi_honest s s' hp hat hdel hlen h0 h1
    rcases attempt_out firstApi_honest s hp with e | ⟨a, new, hl, ho⟩
    · exact absurd e hdef
    have hnew : s'.recs = new := by rw [hat] at ho; cases ho <;> rfl
    have hmem : ∀ i, (Status.reconstructing, (⟨i, st i⟩ : Σ i, (objs i).S)) ∈ s.recs := fun i => by rw [hs]; exact List.mem_map.mpr ⟨i, List.mem_finRange i, rfl⟩
    -- nothing is counted as finished in the first field
    have hnf : ∀ r ∈ new, ¬ Finished r := by
      intro r hr hf
      obtain ⟨q, hq, e⟩ := hl.fin r hr hf
      rw [hs] at hq
      obtain ⟨i, -, rfl⟩ := List.mem_map.mp hq
      simp [firstApi] at e
    have hdone' : s'.done = false := by
      cases hdd : s'.done with
      | false => rfl
      | true =>
        have := b1.mp hdd
        rw [hnew] at this
        have hl' : new.length = m := by rw [hl.len, hlen]; rfl
        match new, hl', this, hnf with
        | [], hl', _, _ => simp at hl'; omega
        | r :: _, _, t1, t2 => exact absurd (t1 r (by simp)) (t2 r (by simp))
    have hres : ∀ i, (objs i).done (st i) = true → right i (st i) := by
      intro i hi
      obtain ⟨x, e1, e2, -⟩ := C66_request (hd i) (got i) (ha i).1 (ha i).2.1
      rw [(ha i).2.2] at e1
      obtain rfl := Option.some.inj e1
      exact e2 hi
    refine ⟨s', fresh, rfl, hdone', f1, ?_, hres, ?_, ?_⟩
    · constructor
      · intro hnp i
        cases hi : (objs i).done (st i) with
        | true => rfl
        | false =>
          exfalso
          obtain ⟨r', hr', ho'⟩ := hl.stays _ (hmem i) _ (first_stays (n := n) (thr := thr) hi)
          rcases (b2.mp hnp).1 r' (hnew ▸ hr') with h | h
          · exact hnf r' hr' h
          · have := h.2.2; rw [ho'.2] at this; simp at this
      · intro hall
        cases hnp : s'.newPrime with
        | true => rfl
        | false =>
          exfalso
          obtain ⟨r', hr', ho'⟩ := b3 hdone' hnp
          rw [hnew] at hr'
          rcases hl.cases r' hr' ho'.1 with h | ⟨-, r, hr, y, hy⟩
          · have := h.2.2; rw [ho'.2] at this; simp at this
          · obtain ⟨i, -, -, e3⟩ := stays_first (hs ▸ hr) hy
            rw [hall i] at e3; simp at e3
    · intro hnp
      obtain ⟨fr, -, z2, -⟩ := C67_books firstApi_honest s s' hp hat hdone' hnp
      exact z2
    · intro i hi
      have hst := first_stays (n := n) (thr := thr) (st := st) hi
      obtain ⟨l, z, o1, ⟨k, hk, hw⟩ | ⟨o, rest, hk, hlt, hw⟩⟩ := hreq i hi
      · left
        exact ⟨⟨k, z, by rw [o1, hk]⟩, f2 _ (hmem i) _ hst _ _ _ hw⟩
      · right
        have := f2 _ (hmem i) _ hst _ _ _ hw
        exact ⟨l, z, o, rest, o1, hk, by omega, by omega⟩

omit [Field F] in
/-- feeding a list: the potential decreases, or the request stays the same -/
lemma fold_same {ob : Obj F} {B L M : ℕ} {J : List (F × List ℕ) → ob.S → ℕ → Prop} {early : ob.S → Bool} {right : ob.S → Prop} (hok : ob.OK n good B L M J early right) :
    ∀ (l past : List (F × List ℕ)) (x y : ob.S) (φ : ℕ), J past x φ → (past ++ l).Nodup → (∀ q ∈ past ++ l, good q) → l.foldlM ob.feed x = some y →
      ∃ φ', J (past ++ l) y φ' ∧ (φ' < φ ∨ (φ' ≤ φ ∧ (ob.orders y).map (fun r => (r.1.map Prod.fst, r.2)) = (ob.orders x).map (fun r => (r.1.map Prod.fst, r.2)) ∧ ob.done y = ob.done x)) := by
  intro l
  induction l with
  | nil =>
    intro past x y φ h _ _ hf
    have : x = y := by simpa using hf
    subst this
    exact ⟨φ, by simpa using h, Or.inr ⟨le_rfl, rfl, rfl⟩⟩
  | cons q l ih =>
    intro past x y φ h hnd hg hf
    have e : past ++ q :: l = (past ++ [q]) ++ l := by simp
    rw [e] at hnd hg ⊢
    obtain ⟨x', φ', e1, e2, e3⟩ := hok.feed past q x φ h (List.Nodup.of_append_left hnd) (fun y hy => hg y (List.mem_append_left _ hy))
    rw [List.foldlM_cons, e1] at hf
    obtain ⟨φ2, h1, h2⟩ := ih _ x' y φ' e2 hnd hg hf
    refine ⟨φ2, h1, ?_⟩
    rcases e3 with e3 | ⟨e3, e4, e5⟩
    · rcases h2 with h2 | ⟨h2, -⟩ <;> (left; omega)
    · rcases h2 with h2 | ⟨h2, h3, h4⟩
      · left; omega
      · exact Or.inr ⟨by omega, by rw [h3, e4], by rw [h4, e5]⟩

/-- the potential of an object -/
def mu (M n : ℕ) (φ : ℕ) (past : List (F × List ℕ)) : ℕ := φ * (M + 2) + (M + 1 - cnt past (List.replicate (n - 1) 1))

omit [Field F] in
lemma mu_lt {M φ φ' : ℕ} {p p' : List (F × List ℕ)} (h : φ' < φ) : mu M n φ' p' < mu M n φ p := by
  unfold mu
  have h1 : (φ' + 1) * (M + 2) ≤ φ * (M + 2) := Nat.mul_le_mul_right _ h
  have h2 : (φ' + 1) * (M + 2) = φ' * (M + 2) + (M + 2) := by ring
  omega

omit [Field F] in
/-- an object that gets what it lacks makes progress -/
lemma mu_step {ob : Obj F} {B L M : ℕ} {J : List (F × List ℕ) → ob.S → ℕ → Prop} {early : ob.S → Bool} {right : ob.S → Prop} (hok : ob.OK n good B L M J early right) {l past : List (F × List ℕ)} {x y : ob.S} {φ : ℕ}
    (hJ : J past x φ) (hnd : (past ++ l).Nodup) (hg : ∀ q ∈ past ++ l, good q) (hf : l.foldlM ob.feed x = some y) :
    ∃ φ', J (past ++ l) y φ' ∧ mu M n φ' (past ++ l) ≤ mu M n φ past ∧
      (ob.done x = false → (((∃ k z, ob.orders x = some ([(List.replicate (n - 1) 1, k)], z)) ∧ 1 ≤ cnt l (List.replicate (n - 1) 1)) ∨
        ∃ L' z o rest, ob.orders x = some (L', z) ∧ L' = (o, z - cnt past o) :: rest ∧ 1 ≤ z - cnt past o ∧ z - cnt past o ≤ cnt l o) → mu M n φ' (past ++ l) < mu M n φ past) := by
  have hnd0 : past.Nodup := List.Nodup.of_append_left hnd
  obtain ⟨φ', h1, h2⟩ := fold_same hok l past x y φ hJ hnd hg hf
  refine ⟨φ', h1, ?_⟩
  rcases h2 with h2 | ⟨h2, h3, h4⟩
  · exact ⟨le_of_lt (mu_lt h2), fun _ _ => mu_lt h2⟩
  have hle : φ' * (M + 2) ≤ φ * (M + 2) := Nat.mul_le_mul_right _ h2
  refine ⟨?_, fun hdx hgot => ?_⟩
  · unfold mu; rw [cnt_append]; omega
  have hdy : ob.done y = false := by rw [h4, hdx]
  obtain ⟨lx, zx, w1, -, -, w4, w5⟩ := hok.wants past x φ hJ hnd0 hdx
  obtain ⟨ly, zy, v1, -, -, v4, v5⟩ := hok.wants (past ++ l) y φ' h1 hnd hdy
  rw [w1, v1] at h3
  simp only [Option.map_some, Option.some.injEq, Prod.mk.injEq] at h3
  obtain ⟨hk, hz⟩ := h3
  rcases hgot with ⟨⟨k, z, o1⟩, hc⟩ | ⟨L', z, o, rest, o1, o2, o3, o4⟩
  · rw [w1] at o1
    obtain ⟨rfl, rfl⟩ := Prod.mk.inj (Option.some.inj o1)
    cases hey : early y with
    | true =>
      have := (v4 hey).2
      rw [cnt_append] at this
      unfold mu; rw [cnt_append]; omega
    | false =>
      obtain ⟨⟨o, rest, e1, -⟩, e2⟩ := v5 hey
      have hne := (e2 _ (by rw [e1]; exact List.mem_cons_self ..)).1
      rw [e1] at hk
      simp at hk
      exact absurd hk.1 hne
  · rw [w1] at o1
    obtain ⟨rfl, rfl⟩ := Prod.mk.inj (Option.some.inj o1)
    cases hex : early x with
    | true =>
      obtain ⟨⟨k, e1⟩, e2⟩ := w4 hex
      rw [o2] at e1
      rw [List.cons.injEq, Prod.mk.injEq] at e1
      obtain ⟨⟨rfl, -⟩, rfl⟩ := e1
      cases hey : early y with
      | true =>
        have := (v4 hey).2
        rw [cnt_append] at this
        unfold mu; rw [cnt_append]; omega
      | false =>
        obtain ⟨⟨o, rest, e1, -⟩, e2⟩ := v5 hey
        have hne := (e2 _ (by rw [e1]; exact List.mem_cons_self ..)).1
        rw [e1, o2] at hk
        simp at hk
        exact absurd hk.1 hne
    | false =>
      have hne := ((w5 hex).2 _ (by rw [o2]; exact List.mem_cons_self ..)).1
      cases hey : early y with
      | true =>
        obtain ⟨⟨k, e1⟩, -⟩ := v4 hey
        rw [e1, o2] at hk
        simp at hk
        exact absurd hk.1.symm hne
      | false =>
        obtain ⟨⟨o', rest', e1, e2⟩, -⟩ := v5 hey
        rw [e1, o2] at hk
        simp at hk
        rw [hk.1, cnt_append, hz] at e2
        omega

/-- **C67.** In the first prime field a bounded number of recoveries suffices, whatever was lost before: if after each recovery the functions get the probes it has queued (and any others), then after at most `bound` rounds the recovery promotes the run, by
`C67_recovers` with right results. -/
theorem C67_rounds (hd : ∀ i, Described n good (objs i) (size i) (right i)) (hm : 0 < m) (hthr : 1 ≤ thr) :
    ∃ bound, ∀ (k : ℕ) (got : ℕ → Fin m → List (F × List ℕ)) (st : ℕ → ∀ i, (objs i).S), After objs good (got 0) (st 0) → (∀ j < k, Round objs n thr good (got j) (st j) (got (j + 1)) (st (j + 1))) → k ≤ bound := by
  obtain ⟨b, L, M, J, early, hok⟩ := uniform hd
  refine ⟨m * (M * (M + 2) + (M + 1)), fun k got st h0 hr => ?_⟩
  have key : ∀ k, (∀ j < k, Round objs n thr good (got j) (st j) (got (j + 1)) (st (j + 1))) →
      After objs good (got k) (st k) ∧ ∃ φ : Fin m → ℕ, (∀ i, J i (got k i) (st k i) (φ i)) ∧ k + ∑ i, mu M n (φ i) (got k i) ≤ m * (M * (M + 2) + (M + 1)) := by
    intro k
    induction k with
    | zero =>
      intro _
      refine ⟨h0, ?_⟩
      have : ∀ i, ∃ φ, J i (got 0 i) (st 0 i) φ ∧ φ ≤ M := by
        intro i
        have := fold_J (objs := objs) (i := i) (B := fun _ => b) (L := fun _ => L) (M := fun _ => M) (hok i) (got 0 i) [] _ (st 0 i) M (hok i).init (by simpa using (h0 i).1) (by simpa using (h0 i).2.1) (h0 i).2.2
        simpa using this
      choose φ h1 h2 using this
      refine ⟨φ, h1, ?_⟩
      rw [Nat.zero_add]
      calc ∑ i, mu M n (φ i) (got 0 i) ≤ ∑ i : Fin m, (M * (M + 2) + (M + 1)) := by
            apply Finset.sum_le_sum
            intro i _
            unfold mu
            have := Nat.mul_le_mul_right (M + 2) (h2 i)
            omega
        _ = _ := by simp
    | succ k ih =>
      intro hr
      obtain ⟨ha, φ, hφ, hle⟩ := ih (fun j hj => hr j (by omega))
      obtain ⟨s, s', fresh, hs, hat, hd', hn', hq, hall⟩ := hr k (by omega)
      choose l l1 l2 l3 l4 l5 using hall
      have hp : ∀ r ∈ s.recs, ∀ y, StaysOpen (firstCfg n thr m) (firstApi objs) r y → Plain (firstCfg n thr m) (firstApi objs) y := fun r hr y hy => (after_plain (thr := thr) hd ha r (hs ▸ hr) y hy).1
      have hgood : ∀ i, ∀ q ∈ got k i ++ l i, good q := by
        intro i q hq'
        rcases List.mem_append.mp hq' with h | h
        · exact (ha i).2.1 q h
        · exact l3 i q h
      have ha' : After objs good (got (k + 1)) (st (k + 1)) := by
        intro i
        rw [l1 i]
        refine ⟨l2 i, hgood i, ?_⟩
        rw [List.foldlM_append, (ha i).2.2]
        exact l4 i
      refine ⟨ha', ?_⟩
      -- the state for `C67_recovers`
      have h0' : s.done = false ∧ s.newPrime = false ∧ (s.started.find? (List.replicate (n - 1) 1)).isSome = true ∨ ∃ i, (objs i).done (st k i) = false := by
        right
        rcases attempt_out firstApi_honest s hp with e | ⟨a, new, hl, ho⟩
        · rw [e] at hat; cases hat
        · rw [hat] at ho
          have hlen : s.recs.length = (firstCfg n thr m).items := by rw [hs]; simp [recsOf, firstCfg]
          have hdel : ∀ r ∈ s.recs, r.1 ≠ .delete := by
            intro r hr
            rw [hs] at hr
            obtain ⟨i, -, rfl⟩ := List.mem_map.mp hr
            simp
          have hW := countP_le_length' new Finished (Waits (firstCfg n thr m) (firstApi objs)) (fun r _ => finished_waits r)
          rw [hl.len, hlen] at hW
          have fin : new.countP (fun r => decide (Finished r)) + new.countP (fun r => decide (Waits (firstCfg n thr m) (firstApi objs) r)) ≠ (firstCfg n thr m).items → ∃ i, (objs i).done (st k i) = false := by
            intro c2
            obtain ⟨-, r, hr, y, hy⟩ := some_open hl hdel (fun e => c2 (hW.2.mpr e))
            obtain ⟨i, -, -, e3⟩ := stays_first (hs ▸ hr) hy
            exact ⟨i, e3⟩
          cases ho with
          | complete c1 => simp at hd'
          | promote c1 c2 => simp at hn'
          | ones _ c1 c2 => exact fin c2
          | other c1 c2 => exact fin c2
      obtain ⟨i0, hi0⟩ : ∃ i, (objs i).done (st k i) = false := by
        rcases h0' with ⟨g1, g2, g3⟩ | h
        · obtain ⟨s2, fr, e1, e2, e3, e4, -⟩ := C67_recovers hd hm hthr (got k) (st k) ha s hs g1 g2 g3
          rw [hat] at e1
          injection e1 with e1
          subst e1
          by_contra hno
          push Not at hno
          rw [e4.mpr (fun i => by simpa using hno i)] at hn'
          simp at hn'
        · exact h
      -- what the objects have got
      obtain ⟨fr, f1, f2, -⟩ := C67_enough firstApi_honest s s' hp hat
      have hfr : fr = fresh := List.append_cancel_left (f1.symm.trans hq)
      subst hfr
      have hreq : (((∃ k' z, (objs i0).orders (st k i0) = some ([(List.replicate (n - 1) 1, k')], z)) ∧ 1 ≤ cnt (l i0) (List.replicate (n - 1) 1)) ∨
        ∃ L' z o rest, (objs i0).orders (st k i0) = some (L', z) ∧ L' = (o, z - cnt (got k i0) o) :: rest ∧ 1 ≤ z - cnt (got k i0) o ∧ z - cnt (got k i0) o ≤ cnt (l i0) o) := by
        obtain ⟨x, e1, -, e3⟩ := C66_request (hd i0) (got k i0) (ha i0).1 (ha i0).2.1
        rw [(ha i0).2.2] at e1
        obtain rfl := Option.some.inj e1
        obtain ⟨L', z, o1, o2⟩ := e3 hi0
        have hn : ¬ ((firstCfg n thr m).safe = false ∧ (firstCfg n thr m).primeIt ≠ 0) := by simp [firstCfg]
        have hmem : (Status.reconstructing, (⟨i0, st k i0⟩ : Σ i, (objs i).S)) ∈ s.recs := by rw [hs]; exact List.mem_map.mpr ⟨i0, List.mem_finRange i0, rfl⟩
        have hst := first_stays (n := n) (thr := thr) (st := st k) hi0
        rcases o2 with ⟨k', hk⟩ | ⟨⟨o, rest, hk, hlt⟩, -, o3⟩
        · left
          refine ⟨⟨k', z, by rw [o1, hk]⟩, ?_⟩
          have w := f2 _ hmem _ hst _ _ _ (Wants.ones L' z k' _ [] hn o1 hk (Or.inr hk))
          have : thr ≤ fr.count (List.replicate (n - 1) 1) := w
          have := l5 i0 (List.replicate (n - 1) 1)
          omega
        · right
          have w := f2 _ hmem _ hst _ _ _ (Wants.entry L' z _ o hn o1 rfl (by
            rintro ⟨j, hj⟩
            exact (o3 (List.replicate (n - 1) 1, j) (by rw [hj]; exact List.mem_singleton.mpr rfl)).1 rfl) (by rw [hk]; exact List.mem_cons_self ..))
          have := l5 i0 o
          exact ⟨L', z, o, rest, o1, hk, by omega, by omega⟩
      have hstep : ∀ i, ∃ φ', J i (got (k + 1) i) (st (k + 1) i) φ' ∧ mu M n φ' (got (k + 1) i) ≤ mu M n (φ i) (got k i) ∧ (i = i0 → mu M n φ' (got (k + 1) i) < mu M n (φ i) (got k i)) := by
        intro i
        rw [l1 i]
        obtain ⟨φ', m1, m2, m3⟩ := mu_step (hok i) (hφ i) (l2 i) (hgood i) (l4 i)
        refine ⟨φ', m1, m2, ?_⟩
        rintro rfl
        exact m3 hi0 hreq
      choose φ' m1 m2 m3 using hstep
      refine ⟨φ', m1, ?_⟩
      have : ∑ i, mu M n (φ' i) (got (k + 1) i) < ∑ i, mu M n (φ i) (got k i) := Finset.sum_lt_sum (fun i _ => m2 i) ⟨i0, Finset.mem_univ _, m3 i0 rfl⟩
      omega
  obtain ⟨-, φ, -, h⟩ := key k hr
  omega

end FireFly.Recover
