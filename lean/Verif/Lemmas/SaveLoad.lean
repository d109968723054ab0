import Verif.Lemmas.SaveLemmas
import Verif.Spec.Poly
/-! The entries of a state file, one after the other. -/
set_option linter.all false
namespace FireFly
variable {F : Type} [Field F] [DecidableEq F]

/-! ### folding over the lines of an entry -/

lemma load_foldlM_congr {α β : Type} {f g : β → α → Except LoadErr β} (ls : List α) (h : ∀ l ∈ ls, ∀ s, f s l = g s l) (s : β) :
    ls.foldlM f s = ls.foldlM g s := by
  induction ls generalizing s with
  | nil => rfl
  | cons l ls ih =>
    rw [List.foldlM_cons, List.foldlM_cons, h l (by simp) s]
    congr 1
    funext s'
    exact ih (fun x hx => h x (by simp [hx])) s'

/-- the state after the line that introduces an entry -/
def LoadSt.enter (st : LoadSt F) (k : Kw) : LoadSt F :=
  if k = .individualDegreesNum ∨ k = .individualDegreesDen then { st with cur := k } else { st with cur := k, seen := k :: st.seen }

lemma load_entry (rand : ℕ → F) (st : LoadSt F) {k : Kw} (hk : k ≠ .combinedPrime) (ls rest : List Str) (h : ∀ l ∈ ls, kwOf l = none) :
    (entry k ls ++ rest).foldlM (loadLine rand) st =
      (ls.foldlM (readData rand) (st.enter k)) >>= fun s => rest.foldlM (loadLine rand) s := by
  have h1 : loadLine rand st k.str = .ok (st.enter k) := by
    unfold loadLine LoadSt.enter
    rw [kwOf_str k hk]
    simp only
    split <;> rfl
  unfold entry
  rw [List.cons_append, List.foldlM_cons, h1]
  show List.foldlM (loadLine rand) (st.enter k) (ls ++ rest) = _
  rw [List.foldlM_append, load_foldlM_congr ls (g := readData rand)]
  intro l hl s
  unfold loadLine
  rw [h l hl]

lemma foldlM_lift {α β γ : Type} (step : β → α → Except LoadErr β) (inner : γ → α → Except LoadErr γ) (get : β → γ) (put : β → γ → β)
    (P : β → Prop) (hstep : ∀ s l, P s → step s l = (inner (get s) l).map (put s))
    (hP : ∀ s g, P s → P (put s g)) (hgp : ∀ s g, get (put s g) = g) (hpp : ∀ s g g', put (put s g) g' = put s g') (hpg : ∀ s, put s (get s) = s)
    (ls : List α) (s : β) (hs : P s) : ls.foldlM step s = (ls.foldlM inner (get s)).map (put s) := by
  induction ls generalizing s with
  | nil =>
    show Except.ok s = Except.map (put s) (Except.ok (get s))
    show Except.ok s = Except.ok (put s (get s))
    rw [hpg]
  | cons l ls ih =>
    rw [List.foldlM_cons, List.foldlM_cons, hstep s l hs]
    cases hi : inner (get s) l with
    | error e => rfl
    | ok g =>
      show List.foldlM step (put s g) ls = Except.map (put s) (List.foldlM inner g ls)
      rw [ih (put s g) (hP s g hs), hgp]
      congr 1
      funext g'
      exact hpp s g g'

/-! ### maps -/

lemma find?_none_of_notMem {α : Type} {m : FFMap α} {k : List ℕ} (h : k ∉ m.map Prod.fst) : m.find? k = none := by
  unfold FFMap.find?
  rw [List.lookup_eq_none_iff]
  intro t ht
  have : k ≠ t.1 := by
    rintro rfl
    exact h (List.mem_map.mpr ⟨t, ht, rfl⟩)
  simpa using this

lemma emplace_new {α : Type} {m : FFMap α} {k : List ℕ} (h : k ∉ m.map Prod.fst) (v : α) : m.emplace k v = m ++ [(k, v)] := by
  unfold FFMap.emplace
  rw [find?_none_of_notMem h]
  rfl

/-- what a map to be saved has to satisfy: the keys are distinct, have `n` entries and are numbers below `2^31` -/
def SavableMap {α : Type} (n : ℕ) (m : FFMap α) : Prop :=
  (m.map Prod.fst).Nodup ∧ ∀ t ∈ m, t.1.length = n ∧ ∀ x ∈ t.1, x < 2 ^ 31

lemma readRn_all (n : ℕ) (hn : 0 < n) (m g : RnMap) (h : SavableMap n (g ++ m)) (hv : ∀ t ∈ m, t.2.Valid) :
    (rnLines m).foldlM (readRn n) g = .ok (g ++ m) := by
  induction m generalizing g with
  | nil => rw [List.append_nil]; rfl
  | cons t m ih =>
    have ht := h.2 t (by simp)
    have hne : t.1 ≠ [] := by
      intro h0; rw [h0] at ht; simp at ht; omega
    have hnew : t.1 ∉ g.map Prod.fst := by
      have := h.1
      rw [List.map_append, List.map_cons, List.nodup_append] at this
      intro hc
      exact this.2.2 _ hc _ (by simp) rfl
    have e : readRn n g (vecStr t.1 ++ intStr t.2.num ++ [' '] ++ intStr t.2.den) = .ok (g ++ [t]) := by
      unfold readRn
      rw [if_neg (by omega)]
      have := parseVec32_prefix t.1 ht.2 hne (intStr t.2.num ++ ' ' :: intStr t.2.den)
      rw [ht.1] at this
      rw [show vecStr t.1 ++ intStr t.2.num ++ [' '] ++ intStr t.2.den = vecStr t.1 ++ (intStr t.2.num ++ ' ' :: intStr t.2.den) by simp,
        this]
      show (orThrow (parseRational (intStr t.2.num ++ ' ' :: intStr t.2.den))).bind (fun r => Except.ok (g.emplace t.1 r)) = _
      rw [parseRational_str (hv t (by simp))]
      show Except.ok (g.emplace t.1 t.2) = _
      rw [emplace_new hnew]
    show List.foldlM (readRn n) g ((vecStr t.1 ++ intStr t.2.num ++ [' '] ++ intStr t.2.den) :: rnLines m) = _
    rw [List.foldlM_cons, e]
    show List.foldlM (readRn n) (g ++ [t]) (rnLines m) = _
    rw [ih (g ++ [t]) (by rwa [List.append_assoc]) (fun x hx => hv x (by simp [hx])), List.append_assoc]
    rfl

lemma readMpz_all (n : ℕ) (hn : 0 < n) (m g : MpzMap) (h : SavableMap n (g ++ m)) :
    (mpzLines m).foldlM (readMpz n) g = .ok (g ++ m) := by
  induction m generalizing g with
  | nil => rw [List.append_nil]; rfl
  | cons t m ih =>
    have ht := h.2 t (by simp)
    have hne : t.1 ≠ [] := by
      intro h0; rw [h0] at ht; simp at ht; omega
    have hnew : t.1 ∉ g.map Prod.fst := by
      have := h.1
      rw [List.map_append, List.map_cons, List.nodup_append] at this
      intro hc
      exact this.2.2 _ hc _ (by simp) rfl
    have e : readMpz n g (vecStr t.1 ++ intStr t.2) = .ok (g ++ [t]) := by
      unfold readMpz
      rw [if_neg (by omega)]
      have := parseVec32_prefix t.1 ht.2 hne (intStr t.2)
      rw [ht.1] at this
      rw [this]
      show (orThrow (mpzLine (intStr t.2))).bind (fun r => Except.ok (g.emplace t.1 r)) = _
      rw [mpzLine_intStr]
      show Except.ok (g.emplace t.1 t.2) = _
      rw [emplace_new hnew]
    show List.foldlM (readMpz n) g ((vecStr t.1 ++ intStr t.2) :: mpzLines m) = _
    rw [List.foldlM_cons, e]
    show List.foldlM (readMpz n) (g ++ [t]) (mpzLines m) = _
    rw [ih (g ++ [t]) (by rwa [List.append_assoc]), List.append_assoc]
    rfl

/-! ### subtraction terms -/

lemma lookup_none_of_notMem {α : Type} {m : List (ℕ × α)} {k : ℕ} (h : k ∉ m.map Prod.fst) : m.lookup k = none := by
  rw [List.lookup_eq_none_iff]
  intro t ht
  have : k ≠ t.1 := by
    rintro rfl
    exact h (List.mem_map.mpr ⟨t, ht, rfl⟩)
  simpa using this

lemma lookup_append_new {α : Type} {m : List (ℕ × α)} {k : ℕ} (h : k ∉ m.map Prod.fst) (v : α) : (m ++ [(k, v)]).lookup k = some v := by
  rw [List.lookup_append, lookup_none_of_notMem h]
  simp [List.lookup]

lemma dmSet_new {α : Type} {m : List (ℕ × α)} {k : ℕ} (h : k ∉ m.map Prod.fst) (v : α) : dmSet m k v = m ++ [(k, v)] := by
  unfold dmSet
  rw [lookup_none_of_notMem h]
  rfl

lemma dmSet_last {α : Type} {m : List (ℕ × α)} {k : ℕ} (h : k ∉ m.map Prod.fst) (v w : α) : dmSet (m ++ [(k, v)]) k w = m ++ [(k, w)] := by
  unfold dmSet
  rw [lookup_append_new h, if_pos (by rfl), List.map_append]
  congr 1
  · conv_rhs => rw [← List.map_id m]
    apply List.map_congr_left
    intro t ht
    rw [if_neg]
    · rfl
    · rintro rfl
      exact h (List.mem_map.mpr ⟨t, ht, rfl⟩)
  · simp

/-- a subtraction term as it is saved: the monomials with non-zero coefficients -/
def support (q : FFMap F) : List (List ℕ) := (q.filter (fun t => t.2 ≠ 0)).map Prod.fst

/-- what remains of the subtraction terms: the monomials, with coefficients one -/
def supports (m : List (ℕ × FFMap F)) : List (ℕ × FFMap F) :=
  (m.filter (fun el => support el.2 ≠ [])).map (fun el => (el.1, (support el.2).map (fun e => (e, (1 : F)))))

lemma set_new {α : Type} {m : FFMap α} {k : List ℕ} (h : k ∉ m.map Prod.fst) (v : α) : m.set k v = m ++ [(k, v)] := by
  unfold FFMap.set
  rw [find?_none_of_notMem h]
  rfl

lemma addAssign_new {q : FFMap F} {e : List ℕ} (h : e ∉ q.map Prod.fst) : PolyFF.addAssign q [(e, 1)] = q ++ [(e, 1)] := by
  unfold PolyFF.addAssign PolyFF.addAssignStep
  simp only [List.foldl_cons, List.foldl_nil]
  rw [if_pos one_ne_zero, find?_none_of_notMem h]
  exact set_new h _

lemma readSub_one (n : ℕ) (hn : 0 < n) (m : List (ℕ × FFMap F)) {k : ℕ} (hk : k < 2 ^ 31) {e : List ℕ} (he : e.length = n) (hx : ∀ x ∈ e, x < 2 ^ 31) :
    readSub n m (natStr k ++ [' '] ++ vecStr e ++ [' ']) = .ok (addSub m k e) := by
  unfold readSub
  rw [if_neg (by omega)]
  have h1 := parseVec32_prefix [k] (by simpa using hk) (by simp) (vecStr e ++ [' '])
  have h2 := parseVec32_prefix e hx (by intro h0; rw [h0] at he; simp at he; omega) [' ']
  rw [he] at h2
  rw [show natStr k ++ [' '] ++ vecStr e ++ [' '] = vecStr [k] ++ (vecStr e ++ [' ']) by simp [vecStr]]
  simp only [List.length_cons, List.length_nil, Nat.zero_add] at h1
  rw [h1]
  show (orThrow (parseVec32 (vecStr e ++ [' ']) n)).bind (fun b => Except.ok (addSub m k b.1)) = _
  rw [h2]
  rfl

lemma readSub_rest (n : ℕ) (hn : 0 < n) (m : List (ℕ × FFMap F)) {k : ℕ} (hk : k < 2 ^ 31) (hkm : k ∉ m.map Prod.fst) (es : List (List ℕ)) (q : FFMap F)
    (hes : ∀ e ∈ es, e.length = n ∧ ∀ x ∈ e, x < 2 ^ 31) (hnd : (q.map Prod.fst ++ es).Nodup) :
    (es.map (fun e => natStr k ++ [' '] ++ vecStr e ++ [' '])).foldlM (readSub n) (m ++ [(k, q)]) =
      .ok (m ++ [(k, q ++ es.map (fun e => (e, (1 : F))))]) := by
  induction es generalizing q with
  | nil => rw [List.map_nil, List.map_nil, List.append_nil]; rfl
  | cons e es ih =>
    rw [List.map_cons, List.foldlM_cons, readSub_one n hn _ hk (hes e (by simp)).1 (hes e (by simp)).2]
    have hnew : e ∉ q.map Prod.fst := by
      rw [List.nodup_append] at hnd
      intro hc
      exact hnd.2.2 _ hc _ (by simp) rfl
    have ea : addSub (m ++ [(k, q)]) k e = m ++ [(k, q ++ [(e, 1)])] := by
      unfold addSub
      rw [lookup_append_new hkm]
      simp only
      rw [addAssign_new hnew, dmSet_last hkm]
    show List.foldlM (readSub n) (addSub (m ++ [(k, q)]) k e) _ = _
    rw [ea, ih (q ++ [(e, 1)]) (fun x hx => hes x (by simp [hx])) (by simpa using hnd)]
    simp

/-- what subtraction terms to be saved have to satisfy -/
def SavableSub (n : ℕ) (m : List (ℕ × FFMap F)) : Prop :=
  (m.map Prod.fst).Nodup ∧ ∀ el ∈ m, el.1 < 2 ^ 31 ∧ SavableMap n el.2

lemma support_zero {q : FFMap F} (h : PolyFF.zero q = true) : support q = [] := by
  unfold PolyFF.zero at h
  unfold support
  split at h
  · rfl
  · rename_i t
    simp only [decide_eq_true_eq] at h
    simp [h]
  · simp at h

lemma readSub_all (n : ℕ) (hn : 0 < n) (m g : List (ℕ × FFMap F)) (h : SavableSub n m) (hg : ∀ el ∈ m, el.1 ∉ g.map Prod.fst) :
    (subLines m).foldlM (readSub n) g = .ok (g ++ supports m) := by
  induction m generalizing g with
  | nil => rw [show supports ([] : List (ℕ × FFMap F)) = [] from rfl, List.append_nil]; rfl
  | cons el m ih =>
    have hel := h.2 el (by simp)
    have hnd := h.1
    rw [List.map_cons, List.nodup_cons] at hnd
    have e0 : subLines (el :: m) = (support el.2).map (fun e => natStr el.1 ++ [' '] ++ vecStr e ++ [' ']) ++ subLines m := by
      unfold subLines
      rw [List.map_cons, List.flatten_cons]
      congr 1
      split
      · rename_i hz
        rw [support_zero hz]; rfl
      · unfold support
        rw [List.map_map]
        rfl
    rw [e0, List.foldlM_append]
    have hm : SavableSub n m := ⟨hnd.2, fun x hx => h.2 x (by simp [hx])⟩
    by_cases hs : support el.2 = []
    · rw [hs]
      show List.foldlM (readSub n) g (subLines m) = _
      rw [ih g hm (fun x hx => hg x (by simp [hx]))]
      congr 2
      unfold supports
      rw [List.filter_cons_of_neg (by simp [hs])]
    · have hsup : ∀ e ∈ support el.2, e.length = n ∧ ∀ x ∈ e, x < 2 ^ 31 := by
        intro e he
        unfold support at he
        obtain ⟨t, ht, rfl⟩ := List.mem_map.mp he
        exact hel.2.2 t (List.mem_of_mem_filter ht)
      have hsn : (support el.2).Nodup := by
        unfold support
        exact List.Nodup.sublist (List.Sublist.map _ List.filter_sublist) hel.2.1
      have hgel := hg el (by simp)
      have key : ((support el.2).map (fun e => natStr el.1 ++ [' '] ++ vecStr e ++ [' '])).foldlM (readSub n) g =
          .ok (g ++ [(el.1, (support el.2).map (fun e => (e, (1 : F))))]) := by
        cases hc : support el.2 with
        | nil => exact absurd hc hs
        | cons e es =>
          rw [hc] at hsup hsn
          rw [List.map_cons, List.foldlM_cons, readSub_one n hn _ hel.1 (hsup e (by simp)).1 (hsup e (by simp)).2]
          have ea : addSub g el.1 e = g ++ [(el.1, [(e, 1)])] := by
            unfold addSub
            rw [lookup_none_of_notMem hgel]
            exact dmSet_new hgel _
          show List.foldlM (readSub n) (addSub g el.1 e) _ = _
          rw [ea, readSub_rest n hn g hel.1 hgel es [(e, 1)] (fun x hx => hsup x (by simp [hx])) (by simpa using hsn)]
          simp
      rw [key]
      show List.foldlM (readSub n) (g ++ [(el.1, (support el.2).map (fun e => (e, (1 : F))))]) (subLines m) = _
      rw [ih _ hm]
      · congr 1
        unfold supports
        rw [List.filter_cons_of_pos (by simpa using hs)]
        simp
      · intro x hx hc
        rw [List.map_append, List.mem_append] at hc
        rcases hc with hc | hc
        · exact hg x (by simp [hx]) hc
        · simp only [List.map_cons, List.map_nil, List.mem_singleton] at hc
          exact hnd.1 (List.mem_map.mpr ⟨x, hx, hc⟩)

/-! ### sets, bounds, shift -/

lemma setEmplace_all (xs s : List ℕ) (h : (s ++ xs).Nodup) : xs.foldl setEmplace s = s ++ xs := by
  induction xs generalizing s with
  | nil => simp
  | cons x xs ih =>
    have hx : x ∉ s := by
      rw [List.nodup_append] at h
      intro hc
      exact h.2.2 _ hc _ (by simp) rfl
    rw [List.foldl_cons]
    have : setEmplace s x = s ++ [x] := by unfold setEmplace; rw [if_neg hx]
    rw [this, ih (s ++ [x]) (by simpa using h)]
    simp

lemma zipBounds_all (n : ℕ) (b : List (ℕ × ℕ)) (h : b.length = n) : zipBounds n (b.map Prod.fst) (b.map Prod.snd) = .ok b := by
  unfold zipBounds
  rw [if_pos (by simp [h])]
  congr 1
  rw [← List.unzip_fst, ← List.unzip_snd, List.zip_unzip, ← h, List.take_length]

lemma shiftLine_eq (n : ℕ) (shift : List F) :
    ((List.range n).map (fun i => if shift.getD i 0 ≠ 0 then ['1', ' '] else ['0', ' '])).flatten =
      vecStr ((List.range n).map (fun i => if shift.getD i 0 ≠ 0 then 1 else 0)) := by
  unfold vecStr
  rw [List.map_map]
  congr 1
  apply List.map_congr_left
  intro i _
  simp only [Function.comp_apply]
  split
  · rw [show natStr 1 = ['1'] by decide +kernel]; rfl
  · rw [show natStr 0 = ['0'] by decide +kernel]; rfl

end FireFly
