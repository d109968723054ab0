import Verif.Spec.FactorFiles
import Verif.Lemmas.SaveLoad
import Verif.Props.FactorProps
/-!
# Lemmas for C53: the files of the factor scan
-/
set_option linter.all false
namespace FireFly

/-! ### files -/

lemma natStr_inj53 {a b : ℕ} (h : natStr a = natStr b) : a = b := by
  rw [← digitsAcc_natStr a, h, digitsAcc_natStr]

lemma facFile_inj {a b : ℕ} (h : facFile a = facFile b) : a = b := natStr_inj53 (List.append_cancel_right h)

lemma fileNumber_facFile {i : ℕ} (h : i < 2 ^ 31) : fileNumber (facFile i) = .ok i := by
  have e : (facFile i).takeWhile (· ≠ '.') = natStr i := by
    unfold facFile
    rw [List.takeWhile_append_of_pos]
    · show natStr i ++ List.takeWhile (· ≠ '.') ['.', 'g', 'z'] = natStr i
      rw [List.takeWhile_cons_of_neg (by decide)]
      simp
    · intro c hc
      have := natStr_digits i c hc
      rw [decide_eq_true_eq]
      rintro rfl
      exact absurd this (by decide)
  unfold fileNumber
  rw [e, stoi_natStr h]
  show Except.ok (toU32 (i : ℤ)) = _
  rw [toU32_nat h]

lemma putFile_new {d : Folder} {name : Str} (h : name ∉ d.map Prod.fst) (c : Str) : putFile d name c = d ++ [(name, c)] := by
  unfold putFile
  rw [if_neg h]

/-- writing to an empty directory -/
lemma putFiles {α : Type} (g : α → Str) : ∀ (l : List (ℕ × α)) (d : Folder), (l.map Prod.fst).Nodup → (∀ q ∈ l, facFile q.1 ∉ d.map Prod.fst) →
    l.foldl (fun f q => putFile f (facFile q.1) (g q.2)) d = d ++ l.map fun q => (facFile q.1, g q.2)
  | [], d, _, _ => by simp
  | q :: l, d, hn, hd => by
    rw [List.map_cons, List.nodup_cons] at hn
    rw [List.foldl_cons, putFile_new (hd q (by simp)), putFiles g l _ hn.2]
    · simp
    · intro r hr h
      rw [List.map_append, List.mem_append] at h
      rcases h with h | h
      · exact hd r (by simp [hr]) h
      · simp only [List.map_cons, List.map_nil, List.mem_singleton] at h
        have := facFile_inj h
        exact hn.1 (this ▸ List.mem_map_of_mem hr)

lemma putFile_fst (d : Folder) (name c : Str) : (putFile d name c).map Prod.fst = if name ∈ d.map Prod.fst then d.map Prod.fst else d.map Prod.fst ++ [name] := by
  unfold putFile
  split
  · rw [List.map_map]
    apply List.map_congr_left
    intro q _
    show (if q.1 = name then (name, c) else q).1 = q.1
    split
    · rename_i h; exact h.symm
    · rfl
  · simp

lemma putFile_nodup {d : Folder} (h : (d.map Prod.fst).Nodup) (name c : Str) : ((putFile d name c).map Prod.fst).Nodup := by
  rw [putFile_fst]
  split
  · exact h
  · rename_i h0
    rw [List.nodup_append]
    refine ⟨h, by simp, ?_⟩
    intro a ha b hb
    rw [List.mem_singleton] at hb
    subst hb
    rintro rfl
    exact h0 ha

lemma mem_putFile {d : Folder} {name c : Str} {x : Str × Str} : x ∈ putFile d name c ↔ x = (name, c) ∨ (x ∈ d ∧ x.1 ≠ name) := by
  unfold putFile
  split
  · rename_i h
    rw [List.mem_map]
    constructor
    · rintro ⟨q, hq, rfl⟩
      by_cases h1 : q.1 = name
      · left; rw [if_pos h1]
      · right; rw [if_neg h1]; exact ⟨hq, h1⟩
    · rintro (rfl | ⟨h1, h2⟩)
      · obtain ⟨q, hq, h1⟩ := List.mem_map.mp h
        exact ⟨q, hq, by rw [if_pos h1]⟩
      · exact ⟨x, h1, by rw [if_neg h2]⟩
  · rename_i h
    rw [List.mem_append, List.mem_singleton]
    constructor
    · rintro (h1 | rfl)
      · exact Or.inr ⟨h1, fun h2 => h (h2 ▸ List.mem_map_of_mem h1)⟩
      · exact Or.inl rfl
    · rintro (rfl | ⟨h1, -⟩)
      · exact Or.inr rfl
      · exact Or.inl h1

/-- writing over old files of the same names -/
lemma putFiles_mem {α : Type} (g : α → Str) : ∀ (l : List (ℕ × α)) (d : Folder), (l.map Prod.fst).Nodup → (d.map Prod.fst).Nodup →
    ((l.foldl (fun f q => putFile f (facFile q.1) (g q.2)) d).map Prod.fst).Nodup ∧
    ∀ x, x ∈ l.foldl (fun f q => putFile f (facFile q.1) (g q.2)) d ↔ x ∈ l.map (fun q => (facFile q.1, g q.2)) ∨ (x ∈ d ∧ ∀ q ∈ l, x.1 ≠ facFile q.1)
  | [], d, _, hd => by simp [hd]
  | q :: l, d, hn, hd => by
    rw [List.map_cons, List.nodup_cons] at hn
    rw [List.foldl_cons]
    obtain ⟨h1, h2⟩ := putFiles_mem g l (putFile d (facFile q.1) (g q.2)) hn.2 (putFile_nodup hd _ _)
    refine ⟨h1, fun x => ?_⟩
    rw [h2 x, mem_putFile, List.map_cons, List.mem_cons]
    constructor
    · rintro (h | ⟨h | ⟨h, h'⟩, h3⟩)
      · exact Or.inl (Or.inr h)
      · exact Or.inl (Or.inl h)
      · refine Or.inr ⟨h, ?_⟩
        intro r hr
        rcases List.mem_cons.mp hr with rfl | hr
        · exact h'
        · exact h3 r hr
    · rintro ((h | h) | ⟨h, h3⟩)
      · refine Or.inr ⟨Or.inl h, ?_⟩
        intro r hr hc
        rw [h] at hc
        have := facFile_inj hc
        exact hn.1 (this ▸ List.mem_map_of_mem hr)
      · exact Or.inl h
      · exact Or.inr ⟨Or.inr ⟨h, h3 q (by simp)⟩, fun r hr => h3 r (by simp [hr])⟩

lemma putFiles_perm {α : Type} (g : α → Str) (l : List (ℕ × α)) (d : Folder) (hl : (l.map Prod.fst).Nodup) (hd : (d.map Prod.fst).Nodup) (h : ∀ q ∈ d, ∃ i ∈ l.map Prod.fst, q.1 = facFile i) :
    (l.foldl (fun f q => putFile f (facFile q.1) (g q.2)) d).Perm (l.map fun q => (facFile q.1, g q.2)) := by
  obtain ⟨h1, h2⟩ := putFiles_mem g l d hl hd
  rw [List.perm_ext_iff_of_nodup (List.Nodup.of_map _ h1)]
  · intro x
    rw [h2 x]
    constructor
    · rintro (h3 | ⟨h3, h4⟩)
      · exact h3
      · obtain ⟨i, hi, h5⟩ := h x h3
        obtain ⟨q, hq, rfl⟩ := List.mem_map.mp hi
        exact absurd h5 (h4 q hq)
    · exact Or.inl
  · apply List.Nodup.of_map (fun x => x.1)
    rw [List.map_map]
    have : (Prod.fst ∘ fun q : ℕ × α => (facFile q.1, g q.2)) = facFile ∘ Prod.fst := rfl
    show (List.map (Prod.fst ∘ fun q : ℕ × α => (facFile q.1, g q.2)) l).Nodup
    rw [this, ← List.map_map]
    exact hl.map fun a b h => facFile_inj h

/-! ### the order -/

lemma readOrder_fold (f : ℕ → ℕ) : ∀ (l : List ℕ) (o : List (ℕ × ℕ)), l.Nodup → (∀ i ∈ l, i ∉ o.map Prod.fst) → (∀ i ∈ l, i < 2 ^ 31 ∧ f i < 2 ^ 31) →
    (l.map fun i => natStr i ++ [' '] ++ natStr (f i) ++ [' ']).foldlM (fun o line => (do
      let v ← orThrow (parseVec32 line 2)
      match v.1 with
      | a :: b :: _ => Except.ok (dmSet o a b)
      | _ => Except.error LoadErr.ub : Except LoadErr (List (ℕ × ℕ)))) o = .ok (o ++ l.map fun i => (i, f i))
  | [], o, _, _, _ => by rw [List.map_nil, List.map_nil, List.append_nil]; rfl
  | i :: l, o, hn, ho, hb => by
    rw [List.nodup_cons] at hn
    rw [List.map_cons, List.foldlM_cons]
    have h := parseVec32_prefix [i, f i] (by intro x hx; have := hb i (by simp); simp at hx; rcases hx with rfl | rfl <;> omega) (by simp) []
    rw [List.append_nil, show vecStr [i, f i] = natStr i ++ [' '] ++ natStr (f i) ++ [' '] by simp [vecStr]] at h
    rw [show [i, f i].length = 2 from rfl] at h
    rw [h]
    show List.foldlM _ (dmSet o i (f i)) _ = _
    rw [dmSet_new (ho i (by simp))]
    have := readOrder_fold f l (o ++ [(i, f i)]) hn.2 (by
      intro j hj h
      rw [List.map_append, List.mem_append] at h
      rcases h with h | h
      · exact ho j (by simp [hj]) h
      · simp only [List.map_cons, List.map_nil, List.mem_singleton] at h
        exact hn.1 (h ▸ hj)) (fun j hj => hb j (by simp [hj]))
    rw [List.map_cons]
    refine this.trans ?_
    simp

lemma readOrder_text {n : ℕ} {order : List (ℕ × ℕ)} (hn : n ≤ 2 ^ 31) (h : ∀ i < n, (order.lookup i).getD 0 < 2 ^ 31) :
    readOrder (orderText n order) = .ok ((List.range n).map fun i => (i, (order.lookup i).getD 0)) := by
  unfold readOrder orderText
  rw [linesOf_unlines]
  · have := readOrder_fold (fun i => (order.lookup i).getD 0) (List.range n) [] List.nodup_range (by simp) (by
      intro i hi
      have := List.mem_range.mp hi
      exact ⟨by omega, h i this⟩)
    rw [List.nil_append] at this
    exact this
  · intro l hl
    obtain ⟨i, -, rfl⟩ := List.mem_map.mp hl
    simp only [List.mem_append, not_or, List.mem_singleton]
    exact ⟨⟨⟨nl_natStr _, by decide⟩, nl_natStr _⟩, by decide⟩

lemma varOrder_map (d : List ℕ) : (List.range d.length).map (fun i => (i, ((varOrder d).lookup i).getD 0)) = varOrder d := by
  apply List.ext_getElem?
  intro i
  unfold varOrder
  by_cases h : i < d.length
  · have hl := sorted_length d
    have h2 : i < (sortedIndices d).length := by omega
    simp only [List.getElem?_map, List.getElem?_range h, Option.map_some, List.getElem?_zipIdx]
    have := varOrder_lookup d i
    unfold varOrder at this
    rw [this, List.getElem?_eq_getElem h2]
    simp
  · have hl := sorted_length d
    rw [List.getElem?_eq_none (by simpa using h), List.getElem?_eq_none (by simp; omega)]

lemma fillOrder_id : ∀ (l : List ℕ) (o : List (ℕ × ℕ)), (∀ i ∈ l, (o.lookup i).isSome) → l.foldl (fun o i => if (o.lookup i).isSome then o else o ++ [(i, 0)]) o = o
  | [], o, _ => rfl
  | i :: l, o, h => by
    rw [List.foldl_cons, if_pos (h i (by simp))]
    exact fillOrder_id l o fun j hj => h j (by simp [hj])

lemma orderChanged_eq (d : List ℕ) : orderChanged d.length (varOrder d) = changeOrder (varOrder d) := by
  unfold orderChanged changeOrder
  conv_rhs => rw [← varOrder_map d]
  rw [List.any_map]
  rfl

/-! ### the factors of the results -/

/-- the factor after loading -/
def Factor.loaded (f : Factor) : Polynomial × Polynomial := (filePoly f.pos f.num, filePoly f.pos f.den)

lemma filePos_rf {f : Factor} (h : f.num ≠ [] ∨ f.den ≠ []) : filePos f.rf = f.pos := by
  unfold filePos Factor.rf facPoly
  by_cases h1 : f.num = []
  · have h2 := h.resolve_left (by simp [h1])
    simp [h1, h2]
  · simp [h1]

lemma rf_coefs (f : Factor) : f.rf.1.coefs = f.num ∧ f.rf.2.coefs = f.den := by
  unfold Factor.rf facPoly
  by_cases h1 : f.num = [] <;> by_cases h2 : f.den = [] <;> simp [h1, h2]

lemma facLines_eq {m : List (List ℕ × RationalNumber)} (h : SavableMap 1 m) : facLines m = rnLines m := by
  unfold facLines rnLines
  apply List.map_congr_left
  intro t ht
  obtain ⟨e, c⟩ := t
  have hl := (h.2 _ ht).1
  match e, hl with
  | [k], _ => simp [vecStr]

/-- the first character of a line of monomials is no letter -/
lemma facLine_head {m : List (List ℕ × RationalNumber)} {l : Str} (h : l ∈ facLines m) : l ≠ "var".toList ∧ l ≠ "numerator".toList ∧ l ≠ "denominator".toList := by
  unfold facLines at h
  obtain ⟨t, -, rfl⟩ := List.mem_map.mp h
  obtain ⟨c, cs, h1, h2⟩ := natStr_cons (t.1.getD 0 0)
  rw [h1]
  refine ⟨?_, ?_, ?_⟩ <;>
  · intro h
    have := congrArg List.head? h
    simp at this
    rw [this] at h2
    exact absurd h2 (by decide)

lemma intStr_head (z : ℤ) : intStr z ≠ "var".toList ∧ intStr z ≠ "numerator".toList ∧ intStr z ≠ "denominator".toList := by
  have hne := intStr_ne z
  have hc := intStr_chars z
  refine ⟨?_, ?_, ?_⟩ <;>
  · intro h
    rw [h] at hc
    revert hc
    decide

lemma rf_num_lines (s : RfSt) (g : RnMap) (ls : List Str) (hs : ∀ l ∈ ls, l ≠ "var".toList ∧ l ≠ "numerator".toList ∧ l ≠ "denominator".toList)
    (h1 : s.isVar = false) (h2 : s.isNum = true) (h : ls.foldlM (readRn 1) s.num = .ok g) : ls.foldlM rfLine s = .ok { s with num := g } := by
  induction ls generalizing s with
  | nil =>
    have : s.num = g := by injection h
    subst this; rfl
  | cons l ls ih =>
    rw [List.foldlM_cons] at h ⊢
    obtain ⟨a, b, c⟩ := hs l (by simp)
    have e : rfLine s l = (readRn 1 s.num l).bind fun m => .ok { s with num := m } := by
      unfold rfLine
      rw [if_neg a, if_neg b, if_neg c, h1, h2]; rfl
    rw [e]
    cases hr : readRn 1 s.num l with
    | error x => rw [hr] at h; exact absurd h (by intro h; injection h)
    | ok m1 =>
      rw [hr] at h
      exact ih { s with num := m1 } (fun l hl => hs l (by simp [hl])) h1 h2 h

lemma rf_den_lines (s : RfSt) (g : RnMap) (ls : List Str) (hs : ∀ l ∈ ls, l ≠ "var".toList ∧ l ≠ "numerator".toList ∧ l ≠ "denominator".toList)
    (h1 : s.isVar = false) (h2 : s.isNum = false) (h : ls.foldlM (readRn 1) s.den = .ok g) : ls.foldlM rfLine s = .ok { s with den := g } := by
  induction ls generalizing s with
  | nil =>
    have : s.den = g := by injection h
    subst this; rfl
  | cons l ls ih =>
    rw [List.foldlM_cons] at h ⊢
    obtain ⟨a, b, c⟩ := hs l (by simp)
    have e : rfLine s l = (readRn 1 s.den l).bind fun m => .ok { s with den := m } := by
      unfold rfLine
      rw [if_neg a, if_neg b, if_neg c, h1, h2]; rfl
    rw [e]
    cases hr : readRn 1 s.den l with
    | error x => rw [hr] at h; exact absurd h (by intro h; injection h)
    | ok m1 =>
      rw [hr] at h
      exact ih { s with den := m1 } (fun l hl => hs l (by simp [hl])) h1 h2 h

lemma rf_one (f : Factor) (hf : f.Saved) (s : RfSt) : (rfLines f.rf).foldlM rfLine s = .ok { isNum := false, isVar := false, pos := f.pos, num := f.num, den := f.den, out := s.flush } := by
  unfold rfLines
  rw [filePos_rf hf.nonempty, (rf_coefs f).1, (rf_coefs f).2]
  rw [List.append_assoc, List.append_assoc, List.foldlM_append]
  have a1 : (["var".toList, intStr (f.pos : ℤ), "numerator".toList]).foldlM rfLine s = .ok { isNum := true, isVar := false, pos := f.pos, num := [], den := [], out := s.flush } := by
    rw [List.foldlM_cons]
    have e1 : rfLine s "var".toList = .ok { s with isVar := true, isNum := false, out := s.flush, num := [], den := [] } := by
      unfold rfLine; rw [if_pos rfl]
    rw [e1]
    show List.foldlM rfLine _ _ = _
    rw [List.foldlM_cons]
    obtain ⟨x, y, z⟩ := intStr_head f.pos
    have hp := hf.pos
    have e2 : rfLine { s with isVar := true, isNum := false, out := s.flush, num := [], den := [] } (intStr (f.pos : ℤ)) =
        .ok { isVar := false, isNum := false, pos := f.pos, out := s.flush, num := [], den := [] } := by
      unfold rfLine
      rw [if_neg x, if_neg y, if_neg z, if_pos rfl, stoi_intStr (by omega) (by norm_num; omega)]; rfl
    rw [e2]; rfl
  rw [a1]
  show List.foldlM rfLine _ (facLines f.num ++ (["denominator".toList] ++ facLines f.den)) = _
  rw [List.foldlM_append]
  have a2 := readRn_all 1 (by norm_num) f.num [] (by rw [List.nil_append]; exact hf.num) hf.numv
  have a3 := readRn_all 1 (by norm_num) f.den [] (by rw [List.nil_append]; exact hf.den) hf.denv
  rw [List.nil_append, ← facLines_eq hf.num] at a2
  rw [List.nil_append, ← facLines_eq hf.den] at a3
  rw [rf_num_lines _ f.num (facLines f.num) (fun l hl => facLine_head hl) rfl rfl a2]
  show List.foldlM rfLine _ (["denominator".toList] ++ facLines f.den) = _
  rw [List.foldlM_append, List.foldlM_cons]
  show List.foldlM rfLine _ (facLines f.den) = _
  rw [rf_den_lines _ f.den (facLines f.den) (fun l hl => facLine_head hl) rfl rfl a3]

lemma rf_all : ∀ (fs : List Factor), (∀ f ∈ fs, f.Saved) → ∀ s : RfSt, ∃ s', ((fs.map Factor.rf).map rfLines).flatten.foldlM rfLine s = .ok s' ∧ s'.flush = s.flush ++ fs.map Factor.loaded
  | [], _, s => ⟨s, rfl, by simp⟩
  | f :: fs, h, s => by
    rw [List.map_cons, List.map_cons, List.flatten_cons, List.foldlM_append, rf_one f (h f (by simp)) s]
    obtain ⟨s', h1, h2⟩ := rf_all fs (fun g hg => h g (by simp [hg])) { isNum := false, isVar := false, pos := f.pos, num := f.num, den := f.den, out := s.flush }
    refine ⟨s', h1, ?_⟩
    rw [h2]
    have : RfSt.flush { isNum := false, isVar := false, pos := (f.pos : ℤ), num := f.num, den := f.den, out := s.flush } = s.flush ++ [f.loaded] := by
      unfold RfSt.flush
      rw [if_pos (h f (by simp)).nonempty]; rfl
    rw [this]; simp

lemma nl_facLines (m : List (List ℕ × RationalNumber)) : ∀ l ∈ facLines m, '\n' ∉ l := by
  intro l hl
  obtain ⟨t, -, rfl⟩ := List.mem_map.mp hl
  simp only [List.mem_append, not_or, List.mem_singleton]
  exact ⟨⟨nl_natStr _, by decide⟩, ⟨nl_intStr _, by decide⟩, nl_intStr _⟩

lemma nl_rfLines (r : Polynomial × Polynomial) : ∀ l ∈ rfLines r, '\n' ∉ l := by
  intro l hl
  unfold rfLines at hl
  simp only [List.mem_append, List.mem_cons, List.not_mem_nil, or_false] at hl
  rcases hl with (((rfl | rfl | rfl) | hl) | rfl) | hl
  · decide
  · exact nl_intStr _
  · decide
  · exact nl_facLines _ l hl
  · decide
  · exact nl_facLines _ l hl

lemma readRf_text {fs : List Factor} (h : ∀ f ∈ fs, f.Saved) : readRf (unlines ((fs.map Factor.rf).map rfLines).flatten) = .ok (fs.map Factor.loaded) := by
  unfold readRf
  rw [linesOf_unlines]
  · obtain ⟨s', h1, h2⟩ := rf_all fs h {}
    rw [h1]
    show Except.ok s'.flush = _
    rw [h2]; rfl
  · intro l hl
    rw [List.mem_flatten] at hl
    obtain ⟨L, hL, hl⟩ := hl
    obtain ⟨r, -, rfl⟩ := List.mem_map.mp hL
    exact nl_rfLines r l hl

lemma parseRf_fold : ∀ (l : List (ℕ × List Factor)) (m : List (ℕ × List (Polynomial × Polynomial))), (l.map Prod.fst).Nodup → (∀ q ∈ l, q.1 ∉ m.map Prod.fst) → (∀ q ∈ l, q.1 < 2 ^ 31 ∧ ∀ f ∈ q.2, f.Saved) →
    (l.map fun q => (facFile q.1, unlines ((q.2.map Factor.rf).map rfLines).flatten)).foldlM (fun m q => (do
      let rs ← readRf q.2
      if rs = [] then .ok m
      else do
        let i ← fileNumber q.1
        .ok (dmSet m i ((m.lookup i).getD [] ++ rs)) : Except LoadErr (List (ℕ × List (Polynomial × Polynomial))))) m =
      .ok (m ++ (l.filter fun q => !q.2.isEmpty).map fun q => (q.1, q.2.map Factor.loaded))
  | [], m, _, _, _ => by simp; rfl
  | q :: l, m, hn, hm, hs => by
    rw [List.map_cons, List.nodup_cons] at hn
    rw [List.map_cons, List.foldlM_cons, readRf_text (hs q (by simp)).2]
    by_cases h0 : q.2 = []
    · show (if List.map Factor.loaded q.2 = [] then Except.ok m else _) >>= _ = _
      rw [if_pos (by simp [h0])]
      have := parseRf_fold l m hn.2 (fun r hr => hm r (by simp [hr])) (fun r hr => hs r (by simp [hr]))
      rw [List.filter_cons_of_neg (by simp [h0])]
      exact this
    · show (if List.map Factor.loaded q.2 = [] then Except.ok m else _) >>= _ = _
      rw [if_neg (by simp [h0]), fileNumber_facFile (hs q (by simp)).1]
      show List.foldlM _ (dmSet m q.1 ((m.lookup q.1).getD [] ++ List.map Factor.loaded q.2)) _ = _
      rw [lookup_none_of_notMem (hm q (by simp)), dmSet_new (hm q (by simp))]
      have := parseRf_fold l (m ++ [(q.1, q.2.map Factor.loaded)]) hn.2 (by
        intro r hr h
        rw [List.map_append, List.mem_append] at h
        rcases h with h | h
        · exact hm r (by simp [hr]) h
        · simp only [List.map_cons, List.map_nil, List.mem_singleton] at h
          exact hn.1 (h ▸ List.mem_map_of_mem hr)) (fun r hr => hs r (by simp [hr]))
      rw [List.filter_cons_of_pos (by simpa using h0), List.map_cons]
      refine this.trans ?_
      simp

lemma lookup_filter {α β : Type} (g : List α → β) (e : β) (he : g [] = e) : ∀ (l : List (ℕ × List α)) (i : ℕ), (l.map Prod.fst).Nodup →
    (((l.filter fun q => !q.2.isEmpty).map fun q => (q.1, g q.2)).lookup i).getD e = g ((l.lookup i).getD [])
  | [], i, _ => by simp [he]
  | q :: l, i, hn => by
    rw [List.map_cons, List.nodup_cons] at hn
    have ih := lookup_filter g e he l i hn.2
    by_cases hi : i = q.1
    · subst hi
      have hno : l.lookup q.1 = none := lookup_none_of_notMem hn.1
      by_cases h0 : q.2 = []
      · rw [List.filter_cons_of_neg (by simp [h0]), ih, hno, List.lookup_cons_self, h0]; rfl
      · rw [List.filter_cons_of_pos (by simpa using h0), List.map_cons, List.lookup_cons_self, List.lookup_cons_self]; rfl
    · have hb : (i == q.1) = false := by simpa using hi
      by_cases h0 : q.2 = []
      · rw [List.filter_cons_of_neg (by simp [h0]), ih, List.lookup_cons, hb]
      · rw [List.filter_cons_of_pos (by simpa using h0), List.map_cons, List.lookup_cons, hb, ih, List.lookup_cons, hb]

/-! ### the texts -/

lemma nl_rat (r : RationalNumber) : '\n' ∉ r.str := by
  have h1 := nl_intStr r.num
  have h2 := nl_intStr r.den
  unfold RationalNumber.str
  split <;> split <;> simp [h1, h2]

lemma nl_powStr (k : ℕ) : '\n' ∉ powStr k := by
  have := nl_natStr k
  unfold powStr
  split <;> simp [this]

lemma nl_facName (i : ℕ) : '\n' ∉ facName i := by
  have := nl_natStr (i + 1)
  unfold facName; simp [this]

lemma nl_monoTxt (i : ℕ) (t : List ℕ × RationalNumber) : '\n' ∉ monoTxt (facName i) t := by
  have h1 := nl_rat t.2
  have h2 := nl_facName i
  have h3 := nl_powStr (t.1.getD 0 0)
  unfold monoTxt
  split
  · exact h1
  · split <;> simp [h1, h2] <;> simpa using h3

lemma nl_uniText (i : ℕ) (m : List (List ℕ × RationalNumber)) : '\n' ∉ uniText i m := by
  unfold uniText
  intro h
  have := List.mem_of_mem_dropLast h
  rw [List.mem_flatten] at this
  obtain ⟨l, hl, h⟩ := this
  obtain ⟨t, -, rfl⟩ := List.mem_map.mp hl
  have := nl_monoTxt i t
  simp [this] at h

lemma nl_productText {l : List Str} (h : ∀ s ∈ l, '\n' ∉ s) : '\n' ∉ productText l := by
  unfold productText
  intro hc
  have := List.mem_of_mem_dropLast hc
  rw [List.mem_flatten] at this
  obtain ⟨t, ht, hc⟩ := this
  obtain ⟨s, hs, rfl⟩ := List.mem_map.mp ht
  have := h s hs
  simp [this] at hc

lemma nl_factorText {a b : List Str} (h1 : ∀ s ∈ a, '\n' ∉ s) (h2 : ∀ s ∈ b, '\n' ∉ s) : '\n' ∉ factorText a b := by
  have h3 := nl_productText h1
  have h4 := nl_productText h2
  unfold factorText
  split <;> split <;> simp [h3, h4]
  all_goals (split <;> simp)

lemma linesOf_text {s : Str} (h : '\n' ∉ s) : linesOf (s ++ [';', '\n']) = [s ++ [';']] := by
  have := linesOf_append_newline (s ++ [';']) (by simp [h]) []
  rw [List.append_assoc] at this
  exact this

lemma parseFac_fold : ∀ (l : List (ℕ × Str)) (m : List (ℕ × List Str)), (l.map Prod.fst).Nodup → (∀ q ∈ l, q.1 ∉ m.map Prod.fst) → (∀ q ∈ l, q.1 < 2 ^ 31 ∧ '\n' ∉ q.2 ∧ (parse q.2).isSome) →
    ∃ r, (l.map fun q => (facFile q.1, q.2 ++ [';', '\n'])).foldlM (fun m q =>
      (match linesOf q.2 with
      | [] => .error .ub
      | line :: _ =>
        if line = [] then .error .ub
        else match parse line.dropLast with
          | none => .error .exit
          | some T => do
            let i ← fileNumber q.1
            .ok (if (m.lookup i).isSome then m else m ++ [(i, T)]) : Except LoadErr (List (ℕ × List Str)))) m = .ok (m ++ r) ∧
      ∀ i, r.lookup i = (l.lookup i).bind parse
  | [], m, _, _, _ => ⟨[], by simp; rfl, by simp⟩
  | q :: l, m, hn, hm, hs => by
    rw [List.map_cons, List.nodup_cons] at hn
    obtain ⟨g1, g2, g3⟩ := hs q (by simp)
    obtain ⟨T, hT⟩ := Option.isSome_iff_exists.mp g3
    obtain ⟨r, h1, h2⟩ := parseFac_fold l (m ++ [(q.1, T)]) hn.2 (by
        intro r hr h
        rw [List.map_append, List.mem_append] at h
        rcases h with h | h
        · exact hm r (by simp [hr]) h
        · simp only [List.map_cons, List.map_nil, List.mem_singleton] at h
          exact hn.1 (h ▸ List.mem_map_of_mem hr)) (fun r hr => hs r (by simp [hr]))
    refine ⟨(q.1, T) :: r, ?_, ?_⟩
    · rw [List.map_cons, List.foldlM_cons]
      show (match linesOf (q.2 ++ [';', '\n']) with
        | [] => .error .ub
        | line :: _ =>
          if line = [] then .error .ub
          else match parse line.dropLast with
            | none => .error .exit
            | some T => do
              let i ← fileNumber (facFile q.1)
              .ok (if (m.lookup i).isSome then m else m ++ [(i, T)]) : Except LoadErr (List (ℕ × List Str))) >>= _ = _
      rw [linesOf_text g2]
      simp only [List.dropLast_concat, hT]
      rw [if_neg (by simp), fileNumber_facFile g1]
      show List.foldlM _ (if (m.lookup q.1).isSome then m else m ++ [(q.1, T)]) _ = _
      rw [lookup_none_of_notMem (hm q (by simp)), if_neg (by simp)]
      refine h1.trans ?_
      simp
    · intro i
      rw [List.lookup_cons, List.lookup_cons]
      cases hi : i == q.1
      · exact h2 i
      · exact hT.symm

end FireFly
