import Verif.Props.ParserObjOps
/-!
# C64: trimming and the public evaluation
-/
set_option linter.all false
namespace FireFly

section
variable [LongDouble] {vars : List Str}

/-! ### what a parser lists -/

/-- The stored functions `Us` stand for the list `Vs`. -/
structure Listing (P : SyParser) (Us Vs : List (List Str)) : Prop where
  plain : P.checkIsEqual = false → Vs = Us
  len : P.checkIsEqual = true → P.evaluationPositions.length = Vs.length
  get : P.checkIsEqual = true → ∀ (i k : ℕ), P.evaluationPositions[i]? = some k → ∃ V, Us[k]? = some V ∧ Vs[i]? = some V
  le : P.checkIsEqual = true → Us.length ≤ P.evaluationPositions.length
  ident : P.checkIsEqual = true → Us.length = P.evaluationPositions.length → P.evaluationPositions = List.range P.evaluationPositions.length

lemma mapM_of_all {α β : Type} {f : α → Option β} : ∀ {l : List α}, (∀ a ∈ l, ∃ b, f a = some b) → ∃ bs, l.mapM f = some bs ∧ bs.map some = l.map f
  | [], _ => ⟨[], rfl, rfl⟩
  | a :: l, h => by
    obtain ⟨b, hb⟩ := h a (by simp)
    obtain ⟨bs, h1, h2⟩ := mapM_of_all (f := f) (l := l) (fun a ha => h a (by simp [ha]))
    exact ⟨b :: bs, by rw [List.mapM_cons, hb, h1]; rfl, by simp only [List.map_cons, hb, h2]⟩

lemma map_some_get {α β : Type} {f : α → Option β} {bs : List β} {l : List α} (h : bs.map some = l.map f) {i : ℕ} {a : α} (hi : l[i]? = some a) :
    ∃ b, bs[i]? = some b ∧ f a = some b := by
  have := congrArg (fun l => l[i]?) h
  simp only [List.getElem?_map, hi, Option.map_some] at this
  cases hb : bs[i]? with
  | none => rw [hb] at this; simp at this
  | some b => rw [hb] at this; simp only [Option.map_some, Option.some.injEq] at this; exact ⟨b, rfl, this.symm⟩

lemma map_some_ext {α β : Type} {f : α → Option β} {bs : List β} {l : List α} (hlen : bs.length = l.length)
    (h : ∀ (i : ℕ) a, l[i]? = some a → ∃ b, bs[i]? = some b ∧ f a = some b) : bs.map some = l.map f := by
  apply List.ext_getElem?
  intro i
  rw [List.getElem?_map, List.getElem?_map]
  cases hi : l[i]? with
  | none =>
    have := List.getElem?_eq_none_iff.mp hi
    rw [List.getElem?_eq_none (by omega)]; rfl
  | some a =>
    obtain ⟨b, h1, h2⟩ := h i a hi
    rw [h1]; simp [h2]

lemma listing_positions {P : SyParser} {Us Vs : List (List Str)} (h : Listing P Us Vs) (hf : P.functions = Us ∨ P.functions = [])
    {g : List Str → Option ℕ} {res : List ℕ} (hres : res.map some = Us.map g) :
    ∃ cs, P.positions res = some cs ∧ cs.map some = Vs.map g := by
  have hrl : res.length = Us.length := by have := congrArg List.length hres; simpa using this
  unfold SyParser.positions
  cases hc : P.checkIsEqual with
  | false => rw [if_pos rfl]; exact ⟨res, rfl, by rw [h.plain hc]; exact hres⟩
  | true =>
    rw [if_neg (by simp)]
    have key : ∀ cs : List ℕ, cs.map some = P.evaluationPositions.map (fun k => res[k]?) → cs.map some = Vs.map g := by
      intro cs hcs
      have hl : cs.length = Vs.length := by
        have := congrArg List.length hcs
        simp only [List.length_map] at this
        rw [this, h.len hc]
      refine map_some_ext hl ?_
      intro i V hV
      have hi : i < P.evaluationPositions.length := by rw [h.len hc]; exact (List.getElem?_eq_some_iff.mp hV).1
      obtain ⟨c, h1, h2⟩ := map_some_get hcs (List.getElem?_eq_getElem hi)
      obtain ⟨V', g1, g2⟩ := h.get hc i _ (List.getElem?_eq_getElem hi)
      rw [hV] at g2; cases g2
      obtain ⟨c', k1, k2⟩ := map_some_get hres g1
      rw [h2] at k1; cases k1
      exact ⟨c, h1, k2⟩
    by_cases hlen : P.functions.length = P.evaluationPositions.length
    · rw [if_neg (by rw [hlen]; simp)]
      refine ⟨res, rfl, key res ?_⟩
      have hU : Us.length = P.evaluationPositions.length := by
        rcases hf with hf | hf
        · rw [← hf]; exact hlen
        · have := h.le hc; rw [hf] at hlen; simp at hlen; omega
      rw [h.ident hc hU, ← hU, ← hrl]
      refine map_some_ext (by simp) ?_
      intro i a ha
      obtain ⟨hi, rfl⟩ := List.getElem?_eq_some_iff.mp ha
      simp only [List.getElem_range]
      have hi' : i < res.length := by simpa using hi
      exact ⟨res[i], List.getElem?_eq_getElem hi', List.getElem?_eq_getElem hi'⟩
    · rw [if_pos hlen]
      obtain ⟨cs, h1, h2⟩ := mapM_of_all (f := fun k => res[k]?) (l := P.evaluationPositions) (by
        intro k hk
        obtain ⟨i, hi, rfl⟩ := List.mem_iff_getElem.mp hk
        obtain ⟨V, g1, -⟩ := h.get hc i _ (List.getElem?_eq_getElem hi)
        obtain ⟨c, k1, -⟩ := map_some_get hres g1
        exact ⟨c, k1⟩)
      exact ⟨cs, h1, key cs h2⟩

/-- the values of a parser with precomputed tokens -/
lemma listing_evaluate {P : SyParser} {l : ℕ} (hl : l ∈ primes63) {Us Vs : List (List Str)} (hU : ∀ T ∈ Us, RpnOK vars T) (hvar : P.vars = vars)
    (hpre : P.precompTokens.map some = Us.map fun T => (precompute l P.vars T).map Prod.fst) (h : Listing P Us Vs)
    (hf : P.functions = Us ∨ P.functions = []) {values : List ℕ} (hv : Canonical l vars values) :
    ∃ cs, P.evaluatePreAll l values = some cs ∧ cs.map some = Vs.map (evaluateRpn opTokens l vars values) := by
  rw [hvar] at hpre
  obtain ⟨res, k1, k2⟩ := ready_values hl hv.2 hv.1 hU hpre
  obtain ⟨cs, m1, m2⟩ := listing_positions h hf k2
  refine ⟨cs, ?_, m2⟩
  unfold SyParser.evaluatePreAll
  rw [k1, Option.bind_some]; exact m1

lemma listing_of_dedup {P : SyParser} {κ : Type} {key : List Str → κ} {Ts Us : List (List Str)} (hc : P.checkIsEqual = true)
    (hd : Dedup key Ts Us P.evaluationPositions) : ∃ Vs, Listing P Us Vs ∧ Vs.length = Ts.length := by
  obtain ⟨Vs, h1, h2⟩ := mapM_of_all (f := fun k => Us[k]?) (l := P.evaluationPositions) (by
    intro k hk
    obtain ⟨i, hi, rfl⟩ := List.mem_iff_getElem.mp hk
    obtain ⟨T, U, -, h2, -⟩ := hd.get i _ (List.getElem?_eq_getElem hi)
    exact ⟨U, h2⟩)
  have hl : P.evaluationPositions.length = Vs.length := by
    have := congrArg List.length h2; simp only [List.length_map] at this; exact this.symm
  refine ⟨Vs, ⟨by rw [hc]; simp, fun _ => hl, fun _ i k hk => ?_, fun _ => hd.le, fun _ => hd.ident⟩, by rw [← hl, hd.len]⟩
  obtain ⟨V, g1, g2⟩ := map_some_get h2 hk
  exact ⟨V, g2, g1⟩

/-! ### trim -/

/-- the kept ones of the first `m` positions -/
def kept (keep : ℕ → Bool) (m : ℕ) : List ℕ := (List.range m).filter keep

lemma kept_succ_pos {keep : ℕ → Bool} {m : ℕ} (h : keep m = true) : kept keep (m + 1) = kept keep m ++ [m] := by
  simp [kept, List.range_succ, List.filter_append, h]

lemma kept_succ_neg {keep : ℕ → Bool} {m : ℕ} (h : keep m = false) : kept keep (m + 1) = kept keep m := by
  simp [kept, List.range_succ, List.filter_append, h]

/-- the precomputed tokens belong to the stored functions, or there are none -/
def PreOf (P : SyParser) (Us : List (List Str)) (tok : List Str → Option (List PTok)) : Prop :=
  P.precompTokens = [] ∨ P.precompTokens.map some = Us.map tok

/-- the vectors of `trim` hold functions with their tokens -/
def TrimTok (P : SyParser) (tok : List Str → Option (List PTok)) (s : TrimState) : Prop :=
  if P.precompTokens = [] then s.precompTokens = [] else s.precompTokens.map some = s.functions.map tok

lemma trimCopy_spec {P : SyParser} {Us : List (List Str)} {tok : List Str → Option (List PTok)} (hP : PreOf P Us tok) (hf : P.functions = Us) {k : ℕ}
    {T : List Str} (hk : Us[k]? = some T) {s : TrimState} (hs : TrimTok P tok s) :
    ∃ s', P.trimCopy k s = some s' ∧ s'.functions = s.functions ++ [T] ∧ TrimTok P tok s' ∧ s'.evaluationPositions = s.evaluationPositions ∧
      s'.newPositions = s.newPositions ∧ s'.copied = s.copied := by
  unfold SyParser.trimCopy
  rw [hf, hk, Option.bind_some]
  by_cases hn : P.precompTokens = []
  · rw [if_pos hn]
    refine ⟨_, rfl, rfl, ?_, rfl, rfl, rfl⟩
    unfold TrimTok at hs ⊢
    rw [if_pos hn] at hs ⊢
    exact hs
  · rw [if_neg hn]
    rcases hP with hP | hP
    · exact absurd hP hn
    · obtain ⟨ts, h1, h2⟩ := map_some_get hP hk
      rw [h1, Option.map_some]
      refine ⟨_, rfl, rfl, ?_, rfl, rfl, rfl⟩
      unfold TrimTok at hs ⊢
      rw [if_neg hn] at hs ⊢
      simp only [List.map_append, List.map_cons, List.map_nil, hs, h2]

lemma trimTok_np {P : SyParser} {tok : List Str → Option (List PTok)} {s s' : TrimState} (h : TrimTok P tok s) (h1 : s'.functions = s.functions)
    (h2 : s'.precompTokens = s.precompTokens) : TrimTok P tok s' := by
  unfold TrimTok at h ⊢
  rw [h1, h2]; exact h

lemma syp_zipIdx_snoc {α : Type} (l : List α) (a : α) : (l ++ [a]).zipIdx = l.zipIdx ++ [(a, l.length)] := by
  simp [List.zipIdx_append]

lemma foldlM_one {α β : Type} (f : β → α → Option β) (b : β) (a : α) : List.foldlM f b [a] = f b a := by
  rw [List.foldlM_cons]; cases f b a <;> rfl

lemma trimPlain_fold {P : SyParser} {Us : List (List Str)} {tok : List Str → Option (List PTok)} (hP : PreOf P Us tok) (hf : P.functions = Us) (keep : ℕ → Bool) :
    ∀ m, m ≤ Us.length → ∃ s, (List.range m).foldlM (P.trimPlain keep) {} = some s ∧ s.functions.map some = (kept keep m).map (fun i => Us[i]?) ∧
      TrimTok P tok s ∧ s.newPositions = (kept keep m).zipIdx
  | 0, _ => ⟨{}, by simp, by simp [kept], by unfold TrimTok; split <;> simp, by simp [kept]⟩
  | m + 1, hm => by
    obtain ⟨s, h1, h2, h3, h4⟩ := trimPlain_fold hP hf keep m (by omega)
    rw [List.range_succ, List.foldlM_append, h1]
    show ∃ s', List.foldlM (P.trimPlain keep) s [m] = some s' ∧ _
    rw [foldlM_one]
    unfold SyParser.trimPlain
    cases hk : keep m with
    | false =>
      rw [if_neg (by simp)]
      rw [kept_succ_neg hk]
      exact ⟨s, rfl, h2, h3, h4⟩
    | true =>
      rw [if_pos rfl]
      have hT : Us[m]? = some Us[m] := List.getElem?_eq_getElem (by omega)
      obtain ⟨s', g1, g2, g3, g4, g5, g6⟩ := trimCopy_spec hP hf hT h3
      have hlen : s.functions.length = (kept keep m).length := by have := congrArg List.length h2; simpa using this
      rw [g1, Option.map_some, kept_succ_pos hk]
      refine ⟨_, rfl, ?_, trimTok_np g3 rfl rfl, ?_⟩
      · simp only [g2, List.map_append, List.map_cons, List.map_nil, h2, hT]
      · rw [syp_zipIdx_snoc]
        simp [g5, g2, h4, hlen]

/-- the state of the loop of `trim` with the search for equal functions -/
structure TrimInv (P : SyParser) (Us Vs : List (List Str)) (tok : List Str → Option (List PTok)) (K : List ℕ) (s : TrimState) : Prop where
  tok : TrimTok P tok s
  np : s.newPositions = K.zipIdx
  len : s.evaluationPositions.length = K.length
  get : ∀ (j i k' : ℕ), K[j]? = some i → s.evaluationPositions[j]? = some k' → ∃ V, Vs[i]? = some V ∧ s.functions[k']? = some V
  cop : ∀ k k' : ℕ, s.copied.lookup k = some k' → ∃ U, Us[k]? = some U ∧ s.functions[k']? = some U
  le : s.functions.length ≤ s.evaluationPositions.length
  ident : s.functions.length = s.evaluationPositions.length → s.evaluationPositions = List.range s.evaluationPositions.length

lemma lookup_snoc {l : List (ℕ × ℕ)} {a b k k' : ℕ} (h : (l ++ [(a, b)]).lookup k = some k') : l.lookup k = some k' ∨ (k = a ∧ k' = b) := by
  induction l with
  | nil =>
    by_cases hk : k = a
    · subst hk; right; simp at h; exact ⟨rfl, h.symm⟩
    · have : (k == a) = false := by simpa using hk
      simp [List.lookup_cons, this] at h
  | cons x l ih =>
    obtain ⟨x1, x2⟩ := x
    rw [List.cons_append, List.lookup_cons] at h
    rw [List.lookup_cons]
    cases hb : (k == x1) with
    | true => rw [hb] at h; left; exact h
    | false => rw [hb] at h; exact ih h

lemma trimCheck_fold {P : SyParser} {Us Vs : List (List Str)} {tok : List Str → Option (List PTok)} (hP : PreOf P Us tok) (hf : P.functions = Us)
    (hc : P.checkIsEqual = true) (hL : Listing P Us Vs) (keep : ℕ → Bool) :
    ∀ m, m ≤ Vs.length → ∃ s, (List.range m).foldlM (P.trimCheck keep) {} = some s ∧ TrimInv P Us Vs tok (kept keep m) s
  | 0, _ => ⟨{}, by simp, by unfold TrimTok; split <;> simp, by simp [kept], by simp [kept], by simp [kept], by simp, by simp, by simp⟩
  | m + 1, hm => by
    obtain ⟨s, h1, hs⟩ := trimCheck_fold hP hf hc hL keep m (by omega)
    rw [List.range_succ, List.foldlM_append, h1]
    show ∃ s', List.foldlM (P.trimCheck keep) s [m] = some s' ∧ _
    rw [foldlM_one]
    unfold SyParser.trimCheck
    cases hk : keep m with
    | false =>
      rw [if_neg (by simp), kept_succ_neg hk]
      exact ⟨s, rfl, hs⟩
    | true =>
      rw [if_pos rfl, kept_succ_pos hk]
      have hmp : m < P.evaluationPositions.length := by rw [hL.len hc]; omega
      obtain ⟨k, hkk⟩ : ∃ k, P.evaluationPositions[m]? = some k := ⟨_, List.getElem?_eq_getElem hmp⟩
      obtain ⟨V, hV1, hV2⟩ := hL.get hc m k hkk
      rw [hkk, Option.bind_some]
      cases hl : s.copied.lookup k with
      | some k' =>
        obtain ⟨U, hU1, hU2⟩ := hs.cop k k' hl
        rw [hV1] at hU1; cases hU1
        refine ⟨_, rfl, trimTok_np hs.tok rfl rfl, ?_, by simp [hs.len], ?_, hs.cop, ?_, ?_⟩
        · rw [syp_zipIdx_snoc]; simp [hs.np, hs.len]
        · intro j i k'' hj hk''
          rcases getElem?_snoc_some hk'' with h | ⟨rfl, rfl⟩
          · rcases getElem?_snoc_some hj with hj | ⟨rfl, rfl⟩
            · exact hs.get j i k'' hj h
            · have := (List.getElem?_eq_some_iff.mp h).1; rw [hs.len] at this; omega
          · rcases getElem?_snoc_some hj with hj | ⟨hj1, rfl⟩
            · have := (List.getElem?_eq_some_iff.mp hj).1; rw [hs.len] at this; omega
            · exact ⟨V, hV2, hU2⟩
        · have := hs.le; simp; omega
        · intro he; have := hs.le; simp at he; omega
      | none =>
        obtain ⟨s', g1, g2, g3, g4, g5, g6⟩ := trimCopy_spec hP hf hV1 hs.tok
        simp only [g1, Option.map_some]
        have hlen' : s'.functions.length = s.functions.length + 1 := by rw [g2]; simp
        refine ⟨_, rfl, trimTok_np g3 rfl rfl, ?_, by simp [g4, hs.len], ?_, ?_, ?_, ?_⟩
        · rw [syp_zipIdx_snoc]; simp [g5, g4, hs.np, hs.len]
        · intro j i k'' hj hk''
          simp only [g4] at hk''
          rcases getElem?_snoc_some hk'' with h | ⟨rfl, rfl⟩
          · rcases getElem?_snoc_some hj with hj | ⟨rfl, rfl⟩
            · obtain ⟨V', e1, e2⟩ := hs.get j i k'' hj h
              exact ⟨V', e1, by rw [g2]; exact getElem?_snoc_left e2⟩
            · have := (List.getElem?_eq_some_iff.mp h).1; rw [hs.len] at this; omega
          · rcases getElem?_snoc_some hj with hj | ⟨hj1, rfl⟩
            · have := (List.getElem?_eq_some_iff.mp hj).1; rw [hs.len] at this; omega
            · refine ⟨V, hV2, ?_⟩
              rw [hlen', g2]; simp
        · intro a b hab
          simp only [g6] at hab
          rcases lookup_snoc hab with h | ⟨rfl, rfl⟩
          · obtain ⟨U, e1, e2⟩ := hs.cop a b h
            exact ⟨U, e1, by rw [g2]; exact getElem?_snoc_left e2⟩
          · refine ⟨V, hV1, ?_⟩
            rw [hlen', g2]; simp
        · have := hs.le; simp [g4, hlen']; omega
        · intro he
          simp only [g4, hlen', List.length_append, List.length_singleton] at he ⊢
          have := hs.ident (by omega)
          rw [List.range_succ, ← this, Nat.add_sub_cancel]
          congr 2; omega

/-- `trim` of a parser that lists `Vs`: it lists the kept ones -/
lemma trim_spec {P : SyParser} {Us Vs : List (List Str)} {tok : List Str → Option (List PTok)} (hP : PreOf P Us tok) (hf : P.functions = Us)
    (hL : Listing P Us Vs) (keep : ℕ → Bool) :
    ∃ P' Us' Vs', P.trim keep = some (P', (kept keep Vs.length).zipIdx) ∧ Vs'.map some = (kept keep Vs.length).map (fun i => Vs[i]?) ∧
      P'.functions = Us' ∧ Listing P' Us' Vs' ∧ PreOf P' Us' tok ∧ (∀ U ∈ Us', U ∈ Us) ∧ P'.vars = P.vars ∧ P'.checkIsEqual = P.checkIsEqual ∧ P'.keepRpn = P.keepRpn := by
  have htok : ∀ s : TrimState, TrimTok P tok s → PreOf { P with functions := s.functions, precompTokens := s.precompTokens, evaluationPositions := s.evaluationPositions } s.functions tok := by
    intro s hs
    unfold TrimTok at hs
    split at hs
    · exact Or.inl hs
    · exact Or.inr hs
  unfold SyParser.trim
  rcases Bool.eq_false_or_eq_true P.checkIsEqual with hc | hc
  rotate_left
  · rw [if_pos hc]
    obtain rfl := hL.plain hc
    obtain ⟨s, h1, h2, h3, h4⟩ := trimPlain_fold hP hf keep Vs.length le_rfl
    rw [hf, h1, Option.map_some, h4]
    refine ⟨_, s.functions, s.functions, rfl, h2, rfl, ⟨fun _ => rfl, ?_, ?_, ?_, ?_⟩, htok s h3, ?_, rfl, rfl, rfl⟩
    · intro h; rw [hc] at h; cases h
    · intro h; rw [hc] at h; cases h
    · intro h; rw [hc] at h; cases h
    · intro h; rw [hc] at h; cases h
    intro U hU
    obtain ⟨i, hi, rfl⟩ := List.mem_iff_getElem.mp hU
    have hil : i < (kept keep Vs.length).length := by have := congrArg List.length h2; simp only [List.length_map] at this; omega
    obtain ⟨b, k1, k2⟩ := map_some_get h2 (List.getElem?_eq_getElem hil)
    rw [List.getElem?_eq_getElem hi] at k1; cases k1
    exact List.mem_of_getElem? k2
  · rw [if_neg (by rw [hc]; simp)]
    obtain ⟨s, h1, hs⟩ := trimCheck_fold hP hf hc hL keep Vs.length le_rfl
    rw [hL.len hc, h1, Option.map_some, hs.np]
    have hkm : ∀ i ∈ kept keep Vs.length, i < Vs.length := by
      intro i hi
      unfold kept at hi
      exact List.mem_range.mp (List.mem_filter.mp hi).1
    obtain ⟨Vs', e1, e2⟩ := mapM_of_all (f := fun i => Vs[i]?) (l := kept keep Vs.length) (fun i hi => ⟨_, List.getElem?_eq_getElem (hkm i hi)⟩)
    have hl2 : Vs'.length = (kept keep Vs.length).length := by have := congrArg List.length e2; simpa using this
    refine ⟨_, s.functions, Vs', rfl, e2, rfl, ⟨?_, ?_, ?_, ?_, ?_⟩, htok s hs.tok, ?_, rfl, rfl, rfl⟩
    · intro h; rw [hc] at h; cases h
    · intro _; simp only; rw [hs.len, hl2]
    · intro _ j k' hj
      simp only at hj
      have hjl : j < (kept keep Vs.length).length := by rw [← hs.len]; exact (List.getElem?_eq_some_iff.mp hj).1
      obtain ⟨V, d1, d2⟩ := hs.get j _ k' (List.getElem?_eq_getElem hjl) hj
      obtain ⟨V', f1, f2⟩ := map_some_get e2 (List.getElem?_eq_getElem hjl)
      rw [d1] at f2; cases f2
      exact ⟨V, d2, f1⟩
    · intro _; exact hs.le
    · intro _; exact hs.ident
    · have hsub : ∀ m, ∀ s, (List.range m).foldlM (P.trimCheck keep) {} = some s → ∀ U ∈ s.functions, U ∈ Us := by
        intro m
        induction m with
        | zero => intro s hs; simp at hs; subst hs; simp
        | succ m ih =>
          intro s hs
          rw [List.range_succ, List.foldlM_append] at hs
          obtain ⟨s0, hs0, hs1⟩ := Option.bind_eq_some_iff.mp hs
          have ih0 := ih s0 hs0
          rw [foldlM_one] at hs1
          unfold SyParser.trimCheck at hs1
          split at hs1
          · obtain ⟨k, -, hs2⟩ := Option.bind_eq_some_iff.mp hs1
            obtain ⟨s2, hs3, rfl⟩ := Option.map_eq_some_iff.mp hs2
            split at hs3
            · cases hs3; exact ih0
            · obtain ⟨s4, hs5, rfl⟩ := Option.map_eq_some_iff.mp hs3
              unfold SyParser.trimCopy at hs5
              obtain ⟨T, hT, hs6⟩ := Option.bind_eq_some_iff.mp hs5
              rw [hf] at hT
              have hmem : T ∈ Us := List.mem_of_getElem? hT
              have happ : ∀ U ∈ s0.functions ++ [T], U ∈ Us := by
                intro U hU
                rcases List.mem_append.mp hU with hU | hU
                · exact ih0 U hU
                · simp only [List.mem_singleton] at hU; subst hU; exact hmem
              split at hs6
              · cases hs6; exact happ
              · obtain ⟨ts, -, rfl⟩ := Option.map_eq_some_iff.mp hs6; exact happ
          · cases hs1; exact ih0
      exact hsub _ s h1

lemma kept_values {keep : ℕ → Bool} {g : List Str → Option ℕ} {Vs Vs' : List (List Str)} {cs cs' : List ℕ} (hV : Vs'.map some = (kept keep Vs.length).map (fun i => Vs[i]?))
    (h : cs.map some = Vs.map g) (h' : cs'.map some = Vs'.map g) : cs'.map some = (kept keep cs.length).map (fun i => cs[i]?) := by
  have hl : cs.length = Vs.length := by have := congrArg List.length h; simpa using this
  have hl' : cs'.length = Vs'.length := by have := congrArg List.length h'; simpa using this
  have hlV : Vs'.length = (kept keep Vs.length).length := by have := congrArg List.length hV; simpa using this
  rw [hl]
  refine map_some_ext (by omega) ?_
  intro j i hj
  obtain ⟨V, a1, a2⟩ := map_some_get hV hj
  obtain ⟨c', b1, b2⟩ := map_some_get h' a1
  obtain ⟨c, d1, d2⟩ := map_some_get h a2
  rw [b2] at d2; cases d2
  exact ⟨c', b1, d1⟩

end

end FireFly
