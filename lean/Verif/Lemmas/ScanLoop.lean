import Verif.Lemmas.ScanObj
/-! # The rounds of the scan -/
set_option linter.all false
namespace FireFly.RMulti
open Polynomial
variable {F : Type} [Field F] [DecidableEq F]

lemma mapM_forall₂ {α β : Type} {f : α → Option β} {P : α → β → Prop} : ∀ l : List α, (∀ t ∈ l, ∃ b, f t = some b ∧ P t b) → ∃ l', l.mapM f = some l' ∧ List.Forall₂ P l l' := by
  intro l
  induction l with
  | nil => intro _; exact ⟨[], rfl, .nil⟩
  | cons a l ih =>
    intro h
    obtain ⟨b, h1, h2⟩ := h a (by simp)
    obtain ⟨l', h3, h4⟩ := ih (fun t ht => h t (by simp [ht]))
    exact ⟨b :: l', by rw [List.mapM_cons, h1, h3]; rfl, .cons h2 h4⟩

lemma scanRun_spec {full : Bool} {food : ℕ → List (F × F)} {objs : List (ScanObj F)} {nf df : ℕ → F[X]} (hline : ∀ i < objs.length, LineOK (food i) (nf i) (df i))
    (hobj : ∀ o ∈ objs, o.done = false ∧ o.thiele = {} ∧ (full = true ∨ o.allDegs ≠ none)) :
    ∃ objs', scanRun full food objs = some objs' ∧ objs'.length = objs.length ∧
      ∀ i (h : i < objs.length) (h' : i < objs'.length), After full (nf i) (df i) objs[i] objs'[i] := by
  obtain ⟨l', e1, e2⟩ := mapM_forall₂ (P := fun (t : ScanObj F × ℕ) o' => After full (nf t.2) (df t.2) t.1 o') (f := fun (t : ScanObj F × ℕ) => do
    let o ← (food t.2).foldlM (ScanObj.probe full) t.1
    if o.done then some o else none) objs.zipIdx (by
      rintro ⟨o, i⟩ ht
      rw [List.mem_zipIdx_iff_getElem?] at ht
      change objs[i]? = some o at ht
      obtain ⟨hi, rfl⟩ := List.getElem?_eq_some_iff.mp ht
      show ∃ b, (do
          let o ← List.foldlM (ScanObj.probe full) objs[i] (food i)
          if o.done = true then some o else none) = some b ∧ After full (nf i) (df i) objs[i] b
      obtain ⟨g1, g2, g3⟩ := hobj _ (List.getElem_mem hi)
      obtain ⟨o', h1, h2⟩ := round_obj (hline i hi) g1 g2 g3
      refine ⟨o', ?_, h2⟩
      simp only [h1, Option.bind_eq_bind, Option.bind_some]
      rw [if_pos h2.done])
  have hlen : l'.length = objs.length := by
    have := e2.length_eq
    simpa using this.symm
  refine ⟨l', e1, hlen, ?_⟩
  intro i h h'
  have := e2.get (i := i) (by simpa using h) h'
  simpa using this

/-- objects between two rounds; `a`: the degrees for the shift of all variables -/
def Ready (m : ℕ) (a : ℕ → ℕ × ℕ) (objs : List (ScanObj F)) : Prop :=
  objs.length = m ∧ ∀ i (h : i < objs.length), objs[i].done = false ∧ objs[i].thiele = {} ∧ objs[i].allDegs = some (a i)

/-- one round -/
lemma round_spec {n m : ℕ} {food : ℕ → List ℕ → ℕ → List (F × F)} {nf df : ℕ → List ℕ → ℕ → F[X]} {s : ScanSt F} {cur sh : List ℕ} {k : ℕ} (hk : k = if s.first then 0 else s.counter + 1)
    (hpick : s.pick n = some (cur, sh)) (hf : s.found = false) (hline : ∀ i < m, LineOK (food k sh i) (nf k sh i) (df k sh i)) (hlen : s.objs.length = m)
    (hobj : ∀ o ∈ s.objs, o.done = false ∧ o.thiele = {} ∧ (sh = List.replicate n 1 ∨ o.allDegs ≠ none)) :
    ∃ objs' : List (ScanObj F), objs'.length = m ∧
      (∀ fuel, scanLoop n food (fuel + 1) s = scanLoop n food fuel
        { objs := objs', cur := cur, first := false, found := (objs'.all (fun o => o.works)) && !s.first, counter := if s.first then s.counter else s.counter + 1 }) ∧
      (∀ i (h : i < s.objs.length) (h' : i < objs'.length), ∃ o', After (decide (sh = List.replicate n 1)) (nf k sh i) (df k sh i) s.objs[i] o' ∧ objs'[i] = { o' with done := false }) := by
  obtain ⟨l, e1, e2, e3⟩ := scanRun_spec (full := decide (sh = List.replicate n 1)) (food := food k sh) (objs := s.objs) (nf := nf k sh) (df := df k sh) (by rw [hlen]; exact hline)
    (by
      intro o ho
      obtain ⟨g1, g2, g3⟩ := hobj o ho
      exact ⟨g1, g2, by simpa using g3⟩)
  refine ⟨l.map (fun o => { o with done := false }), by rw [List.length_map, e2, hlen], ?_, ?_⟩
  · intro fuel
    rw [scanLoop, if_neg (by simp [hf]), hpick]
    simp only
    rw [← hk, e1]
    simp only [Option.bind_eq_bind, Option.bind_some, List.all_map]
    rfl
  · intro i h h'
    rw [List.length_map] at h'
    exact ⟨l[i], e3 i h h', by simp⟩

/-- what the scan gives; `L` are the sets of variables in the order in which they are tried -/
def ScanFinal (n m : ℕ) (nf df : ℕ → List ℕ → ℕ → F[X]) (L : List (List ℕ)) (s : ScanSt F) : Prop :=
  s.objs.length = m ∧
  ((s.found = true ∧ ∃ j, ∃ hj : j < L.length, s.cur = L[j] ∧ L[j] ≠ List.replicate n 1 ∧ Keeps n m nf df (j + 1) L[j] ∧
      (∀ j' (h' : j' < j), ¬ Keeps n m nf df (j' + 1) (L[j']'(by omega))) ∧
      ∀ i (h : i < s.objs.length), Info (nf (j + 1) L[j] i) (df (j + 1) L[j] i) s.objs[i] ∧ (s.objs[i].normDen = true ↔ (df (j + 1) L[j] i).coeff 0 ≠ 0)) ∨
   (s.found = false ∧ (∀ j (hj : j < L.length), L[j] ≠ List.replicate n 1 → ¬ Keeps n m nf df (j + 1) L[j]) ∧
      ∀ i (h : i < s.objs.length), Info (nf L.length (List.replicate n 1) i) (df L.length (List.replicate n 1) i) s.objs[i]))

lemma loop_spec {n m : ℕ} (hm : 1 ≤ m) {food : ℕ → List ℕ → ℕ → List (F × F)} {nf df : ℕ → List ℕ → ℕ → F[X]} {L : List (List ℕ)}
    (hline : ∀ k (h : k < L.length), ∀ i < m, LineOK (food (k + 1) L[k] i) (nf (k + 1) L[k] i) (df (k + 1) L[k] i))
    (hone : ∀ j (hj : j < L.length), L[j] = List.replicate n 1 ↔ j + 1 = L.length) :
    ∀ (rest pre : List (List ℕ)) (s : ScanSt F) (fuel : ℕ), L = pre ++ rest → rest.length + 1 ≤ fuel → s.found = false → s.first = false → s.counter = pre.length →
    s.pick n = rest.head?.map (fun p => (p, p)) → rest.IsChain (fun a b => generateNextPermutation a = (true, b)) → (∀ last, rest.getLast? = some last → (generateNextPermutation last).1 = false) →
    s.objs.length = m →
    (rest ≠ [] → Ready m (fun i => ((nf 0 (List.replicate n 1) i).natDegree, (df 0 (List.replicate n 1) i).natDegree)) s.objs) →
    (rest = [] → ∀ i (h : i < s.objs.length), Info (nf L.length (List.replicate n 1) i) (df L.length (List.replicate n 1) i) s.objs[i]) →
    (∀ j (hj : j < L.length), j < pre.length → L[j] ≠ List.replicate n 1 → ¬ Keeps n m nf df (j + 1) L[j]) →
    ∃ s', scanLoop n food fuel s = some s' ∧ ScanFinal n m nf df L s' := by
  intro rest
  induction rest with
  | nil =>
    intro pre s fuel hL hfuel hf hfirst hc hpick _ _ hlen _ hinfo hnot
    obtain ⟨fuel, rfl⟩ : ∃ f, fuel = f + 1 := ⟨fuel - 1, by simp at hfuel; omega⟩
    rw [scanLoop, if_neg (by simp [hf]), hpick]
    refine ⟨s, rfl, hlen, Or.inr ⟨hf, ?_, hinfo rfl⟩⟩
    intro j hj
    exact hnot j hj (by rw [hL, List.append_nil] at hj; exact hj)
  | cons p rest ih =>
    intro pre s fuel hL hfuel hf hfirst hc hpick hchain hlast hlen hready _ hnot
    obtain ⟨fuel, rfl⟩ : ∃ f, fuel = f + 1 := ⟨fuel - 1, by simp at hfuel; omega⟩
    obtain ⟨r1, r2⟩ := hready (by simp)
    have hp : ∃ h : pre.length < L.length, L[pre.length] = p := by
      refine ⟨by rw [hL]; simp, ?_⟩
      simp [hL]
    obtain ⟨hpl, hpe⟩ := hp
    have hk : pre.length + 1 = if s.first then 0 else s.counter + 1 := by rw [hfirst, hc]; rfl
    obtain ⟨objs', e1, e2, e3⟩ := round_spec (nf := nf) (df := df) (food := food) hk (by rw [hpick]; rfl) hf (by have := hline _ hpl; rw [hpe] at this; exact this) hlen
      (by
        intro o ho
        obtain ⟨i, hi, rfl⟩ := List.mem_iff_getElem.mp ho
        obtain ⟨g1, g2, g3⟩ := r2 i hi
        exact ⟨g1, g2, Or.inr (by rw [g3]; simp)⟩)
    rw [e2 fuel]
    -- what the round finds
    have hw : objs'.all (fun o => o.works) = true ↔ p ≠ List.replicate n 1 ∧ Keeps n m nf df (pre.length + 1) p := by
      rw [List.all_eq_true]
      constructor
      · intro h
        have hi : ∀ i (hi : i < m), decide (p = List.replicate n 1) = false ∧ s.objs[i].allDegs = some ((nf (pre.length + 1) p i).natDegree, (df (pre.length + 1) p i).natDegree) := by
          intro i hi
          obtain ⟨o', a1, a2⟩ := e3 i (by omega) (by omega)
          have := h objs'[i] (List.getElem_mem _)
          rw [a2] at this
          exact a1.works.mp this
        refine ⟨by simpa using (hi 0 (by omega)).1, ?_⟩
        intro i him
        have g := (hi i him).2
        rw [(r2 i (by omega)).2.2] at g
        simp only [Option.some.injEq, Prod.mk.injEq] at g
        exact ⟨g.1.symm, g.2.symm⟩
      · rintro ⟨h1, h2⟩ o ho
        obtain ⟨i, hi, rfl⟩ := List.mem_iff_getElem.mp ho
        obtain ⟨o', a1, a2⟩ := e3 i (by omega) hi
        rw [a2]
        show o'.works = true
        refine a1.works.mpr ⟨by simpa using h1, ?_⟩
        rw [(r2 i (by omega)).2.2]
        obtain ⟨g1, g2⟩ := h2 i (by omega)
        rw [g1, g2]
    have hinfo : ∀ i (h : i < objs'.length), Info (nf (pre.length + 1) p i) (df (pre.length + 1) p i) objs'[i] := by
      intro i h
      obtain ⟨o', a1, a2⟩ := e3 i (by omega) h
      rw [a2]
      exact ⟨a1.memN, a1.memD, a1.nodupN, a1.nodupD⟩
    have hbefore : ∀ j' (h' : j' < pre.length), ¬ Keeps n m nf df (j' + 1) (L[j']'(by omega)) := by
      intro j' h'
      refine hnot j' (by omega) h' ?_
      rw [ne_eq, hone]
      omega
    rw [hfirst]
    simp only [Bool.not_false, Bool.and_true, Bool.false_eq_true, if_false]
    by_cases hfound : objs'.all (fun o => o.works) = true
    · obtain ⟨w1, w2⟩ := hw.mp hfound
      refine ⟨{ objs := objs', cur := p, first := false, found := true, counter := s.counter + 1 }, ?_, e1, Or.inl ⟨rfl, pre.length, hpl, hpe.symm, by rw [hpe]; exact w1, by rw [hpe]; exact w2, hbefore, ?_⟩⟩
      · rw [hfound]
        obtain ⟨fuel, rfl⟩ : ∃ f, fuel = f + 1 := ⟨fuel - 1, by simp at hfuel; omega⟩
        rw [scanLoop]
        rfl
      · intro i h
        simp only [hpe]
        refine ⟨hinfo i h, ?_⟩
        obtain ⟨o', a1, a2⟩ := e3 i (by show i < s.objs.length; have h0 : i < objs'.length := h; omega) h
        have hwi : o'.works = true := by
          have := (List.all_eq_true.mp hfound) objs'[i] (List.getElem_mem h)
          rw [a2] at this; exact this
        show objs'[i].normDen = true ↔ _
        rw [a2]
        show o'.normDen = true ↔ _
        rw [a1.norm, if_pos hwi]
        simp
    · have hff : objs'.all (fun o => o.works) = false := by simpa using hfound
      rw [hff]
      have hnk : p ≠ List.replicate n 1 → ¬ Keeps n m nf df (pre.length + 1) p := fun h1 h2 => hfound (hw.mpr ⟨h1, h2⟩)
      refine ih (pre ++ [p]) _ fuel (by rw [hL]; simp) (by simp at hfuel ⊢; omega) rfl rfl (by simp [hc]) ?_ ?_ ?_ e1 ?_ ?_ ?_
      · -- the next set of variables
        unfold ScanSt.pick
        simp only [Bool.false_eq_true, if_false]
        rw [if_pos (by omega)]
        cases rest with
        | nil =>
          have := hlast p (by simp)
          rw [this]; rfl
        | cons p' rest' =>
          have : generateNextPermutation p = (true, p') := by
            cases hchain with
            | cons_cons h _ => exact h
          rw [this]; rfl
      · exact hchain.tail
      · intro last hl
        apply hlast last
        cases rest with
        | nil => simp at hl
        | cons a b => simpa using hl
      · intro hne
        refine ⟨e1, ?_⟩
        intro i h
        obtain ⟨o', a1, a2⟩ := e3 i (by show i < s.objs.length; have h0 : i < objs'.length := h; omega) h
        have hnone : p ≠ List.replicate n 1 := by
          intro h0
          have := (hone _ hpl).mp (by rw [hpe]; exact h0)
          have hl : 1 ≤ rest.length := List.length_pos_iff.mpr hne
          have h2 : L.length = pre.length + (rest.length + 1) := by rw [hL]; simp
          omega
        show objs'[i].done = false ∧ objs'[i].thiele = {} ∧ objs'[i].allDegs = _
        rw [a2]
        refine ⟨rfl, a1.thiele, ?_⟩
        show o'.allDegs = _
        rw [a1.all, if_neg (by simpa using hnone)]
        exact (r2 i (by have h0 : i < objs'.length := h; omega)).2.2
      · intro h0 i h
        have h1 : p = List.replicate n 1 := by
          rw [← hpe, hone]
          rw [hL, h0]; simp
        have h2 : pre.length + 1 = L.length := by rw [hL, h0]; simp
        have := hinfo i h
        rw [h2, h1] at this
        exact this
      · intro j hj hj2 hj3
        rw [List.length_append, List.length_singleton] at hj2
        by_cases hjp : j < pre.length
        · exact hnot j hj hjp hj3
        · obtain rfl : j = pre.length := by omega
          rw [hpe] at hj3 ⊢
          exact hnk hj3

lemma last_ones {n : ℕ} {v : List ℕ} (hlen : v.length = n) (hbin : ∀ x ∈ v, x = 0 ∨ x = 1) (h : (generateNextPermutation v).1 = false) : v = List.replicate n 1 := by
  unfold generateNextPermutation at h
  split at h
  · simp at h
  · simp only at h
    split at h
    · rename_i hc
      rw [List.eq_replicate_iff]
      refine ⟨hlen, ?_⟩
      have := List.count_eq_length.mp hc
      intro b hb
      exact (this b hb).symm
    · simp at h

end FireFly.RMulti
