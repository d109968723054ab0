import Verif.Lemmas.SaveLoad
/-! The state while loading a file, entry by entry. -/
set_option linter.all false
namespace FireFly
variable {F : Type} [Field F] [DecidableEq F]

lemma foldlM_single {α β : Type} (f : β → α → Except LoadErr β) (s : β) (d : α) : [d].foldlM f s = f s d := by
  simp only [List.foldlM_cons, List.foldlM_nil, bind_pure]

/-- an entry with one line -/
lemma load_entry1 (rand : ℕ → F) (st : LoadSt F) {k : Kw} (hk : k ≠ .combinedPrime) {d : Str} (hd : kwOf d = none) (rest : List Str) {s' : LoadSt F}
    (h : readData rand (st.enter k) d = .ok s') :
    (entry k [d] ++ rest).foldlM (loadLine rand) st = rest.foldlM (loadLine rand) s' := by
  rw [load_entry rand st hk _ rest (by simpa using hd), foldlM_single, h]
  rfl

lemma load_entryN (rand : ℕ → F) (st : LoadSt F) {k : Kw} (hk : k ≠ .combinedPrime) {ls : List Str} (hd : ∀ l ∈ ls, kwOf l = none) (rest : List Str)
    {s' : LoadSt F} (h : ls.foldlM (readData rand) (st.enter k) = .ok s') :
    (entry k ls ++ rest).foldlM (loadLine rand) st = rest.foldlM (loadLine rand) s' := by
  rw [load_entry rand st hk _ rest hd, h]
  rfl

/-- change of the object -/
def LoadSt.upd (st : LoadSt F) (k : Kw) (f : RatObj F → RatObj F) : LoadSt F := { st.enter k with obj := f st.obj }

section entries
variable (rand : ℕ → F) (st : LoadSt F) (rest : List Str)

lemma enter_obj (k : Kw) : (st.enter k).obj = st.obj := by unfold LoadSt.enter; split <;> rfl

lemma L_tag (x : Str) (h : kwOf x = none) : (entry .tagName [x] ++ rest).foldlM (loadLine rand) st =
    rest.foldlM (loadLine rand) (st.upd .tagName (fun o => { o with tagName := x })) :=
  load_entry1 rand st (by decide) h rest rfl

lemma orThrow_bool {s : Str} {b : Bool} (h : (stoi s).map (fun z => decide (z ≠ 0)) = some b) :
    ∃ z, orThrow (stoi s) = .ok z ∧ decide (z ≠ 0) = b := by
  cases hs : stoi s with
  | none => rw [hs] at h; simp at h
  | some z =>
    rw [hs, Option.map_some, Option.some.injEq] at h
    exact ⟨z, rfl, h⟩

lemma L_done (b : Bool) : (entry .isDone [boolStr b] ++ rest).foldlM (loadLine rand) st =
    rest.foldlM (loadLine rand) (st.upd .isDone (fun o => { o with done := b })) := by
  apply load_entry1 rand st (by decide) (kwOf_boolStr b)
  obtain ⟨z, h1, h2⟩ := orThrow_bool (stoi_boolStr b)
  show (orThrow (stoi (boolStr b))).bind _ = _
  rw [h1, ← h2]
  rfl

lemma L_maxNum (z : ℤ) (h1 : -2 ^ 31 ≤ z) (h2 : z < 2 ^ 31) : (entry .maxDegNum [intStr z] ++ rest).foldlM (loadLine rand) st =
    rest.foldlM (loadLine rand) (st.upd .maxDegNum (fun o => { o with maxDegNum := z })) := by
  apply load_entry1 rand st (by decide) (kwOf_intStr z)
  show (orThrow (stoi (intStr z))).bind _ = _
  rw [stoi_intStr h1 h2]
  rfl

lemma L_maxDen (z : ℤ) (h1 : -2 ^ 31 ≤ z) (h2 : z < 2 ^ 31) : (entry .maxDegDen [intStr z] ++ rest).foldlM (loadLine rand) st =
    rest.foldlM (loadLine rand) (st.upd .maxDegDen (fun o => { o with maxDegDen := z })) := by
  apply load_entry1 rand st (by decide) (kwOf_intStr z)
  show (orThrow (stoi (intStr z))).bind _ = _
  rw [stoi_intStr h1 h2]
  rfl

lemma L_indNum (xs : List ℕ) (h : ∀ x ∈ xs, x < 2 ^ 31) (h0 : st.degNum = []) : (entry .individualDegreesNum (boundsLine xs) ++ rest).foldlM (loadLine rand) st =
    rest.foldlM (loadLine rand) { st.enter .individualDegreesNum with degNum := xs } := by
  unfold boundsLine
  split
  · rename_i hx
    subst hx
    apply load_entryN rand st (by decide) (by simp)
    rw [List.foldlM_nil, ← h0]
    rfl
  · apply load_entry1 rand st (by decide) (kwOf_vecStr xs)
    show (orThrow (parseVec32 (vecStr xs) 0)).bind _ = _
    rw [parseVec32_all xs h]
    rfl

lemma L_indDen (xs : List ℕ) (h : ∀ x ∈ xs, x < 2 ^ 31) (h0 : st.degDen = []) : (entry .individualDegreesDen (boundsLine xs) ++ rest).foldlM (loadLine rand) st =
    rest.foldlM (loadLine rand) { st.enter .individualDegreesDen with degDen := xs } := by
  unfold boundsLine
  split
  · rename_i hx
    subst hx
    apply load_entryN rand st (by decide) (by simp)
    rw [List.foldlM_nil, ← h0]
    rfl
  · apply load_entry1 rand st (by decide) (kwOf_vecStr xs)
    show (orThrow (parseVec32 (vecStr xs) 0)).bind _ = _
    rw [parseVec32_all xs h]
    rfl

lemma L_need (b : Bool) : (entry .needPrimeShift [boolStr b] ++ rest).foldlM (loadLine rand) st =
    rest.foldlM (loadLine rand) { st.upd .needPrimeShift (fun o => { o with singularSet := if !o.done && b then setEmplace o.singularSet o.primeNumber else o.singularSet })
      with needShift := b } := by
  apply load_entry1 rand st (by decide) (kwOf_boolStr b)
  obtain ⟨z, h1, h2⟩ := orThrow_bool (stoi_boolStr b)
  show (orThrow (stoi (boolStr b))).bind _ = _
  rw [h1, ← h2]
  rfl

lemma L_normDeg (xs : List ℕ) (h : ∀ x ∈ xs, x < 2 ^ 31) : (entry .normalizerDeg [vecStr xs] ++ rest).foldlM (loadLine rand) st =
    rest.foldlM (loadLine rand) (st.upd .normalizerDeg (fun o => { o with normalizerDeg := xs, n := xs.length })) := by
  apply load_entry1 rand st (by decide) (kwOf_vecStr xs)
  show (orThrow (parseVec32 (vecStr xs) 0)).bind _ = _
  rw [parseVec32_all xs h]
  rfl

lemma L_ntd (b : Bool) : (entry .normalizeToDen [boolStr b] ++ rest).foldlM (loadLine rand) st =
    rest.foldlM (loadLine rand) (st.upd .normalizeToDen (fun o => { o with normalizeToDen := b })) := by
  apply load_entry1 rand st (by decide) (kwOf_boolStr b)
  obtain ⟨z, h1, h2⟩ := orThrow_bool (stoi_boolStr b)
  show (orThrow (stoi (boolStr b))).bind _ = _
  rw [h1, ← h2]
  rfl

lemma L_ndn (b : Bool) : (entry .normalizerDenNum [boolStr b] ++ rest).foldlM (loadLine rand) st =
    rest.foldlM (loadLine rand) (st.upd .normalizerDenNum (fun o => { o with normalizerDenNum := b })) := by
  apply load_entry1 rand st (by decide) (kwOf_boolStr b)
  obtain ⟨z, h1, h2⟩ := orThrow_bool (stoi_boolStr b)
  show (orThrow (stoi (boolStr b))).bind _ = _
  rw [h1, ← h2]
  rfl

lemma L_eqn (x : ℕ) (h : x < 2 ^ 31) : (entry .shiftedMaxNumEqn [natStr x] ++ rest).foldlM (loadLine rand) st =
    rest.foldlM (loadLine rand) (st.upd .shiftedMaxNumEqn (fun o => { o with shiftedMaxNumEqn := x })) := by
  apply load_entry1 rand st (by decide) (kwOf_natStr x)
  show (orThrow (stoi (natStr x))).bind _ = _
  rw [stoi_natStr h]
  show Except.ok _ = _
  simp only [toU32_nat h]
  rfl

/-- the shift of the loaded object -/
def newShift (rand : ℕ → F) (shift old : List F) : List F :=
  old.mapIdx (fun i s => if shift.getD i 0 ≠ 0 ∧ s = 0 then rand i else if shift.getD i 0 = 0 ∧ s ≠ 0 then 0 else s)

lemma L_shift (n : ℕ) (shift : List F) (hn : st.obj.n = n) (hs : st.obj.shift.length = n) :
    (entry .shift [((List.range n).map (fun i => if shift.getD i 0 ≠ 0 then ['1', ' '] else ['0', ' '])).flatten] ++ rest).foldlM (loadLine rand) st =
    rest.foldlM (loadLine rand) (st.upd .shift (fun o => { o with shift := if o.done then o.shift else newShift rand shift o.shift })) := by
  rw [shiftLine_eq]
  apply load_entry1 rand st (by decide) (kwOf_vecStr _)
  have hp : parseVec32 (vecStr ((List.range n).map (fun i => if shift.getD i 0 ≠ 0 then 1 else 0))) 0 =
      some ((List.range n).map (fun i => if shift.getD i 0 ≠ 0 then 1 else 0), []) := by
    apply parseVec32_all
    intro x hx
    obtain ⟨i, -, rfl⟩ := List.mem_map.mp hx
    split <;> norm_num
  show (if st.obj.done = true then Except.ok (st.enter .shift) else (orThrow (parseVec32 _ 0)).bind _) = _
  rw [hp]
  by_cases hd : st.obj.done = true
  · rw [if_pos hd]
    show Except.ok (st.enter .shift) = Except.ok { st.enter .shift with obj := { st.obj with shift := if st.obj.done = true then st.obj.shift else newShift rand shift st.obj.shift } }
    rw [if_pos hd]
    rfl
  · rw [if_neg hd]
    show (loadShift rand st.obj.n _ st.obj.shift).bind _ = _
    have : loadShift rand st.obj.n ((List.range n).map (fun i => if shift.getD i 0 ≠ 0 then 1 else 0)) st.obj.shift = .ok (newShift rand shift st.obj.shift) := by
      unfold loadShift
      rw [if_pos (by rw [hn, hs]; simp)]
      congr 1
      unfold newShift
      apply List.ext_getElem (by simp)
      intro i h1 h2
      have hi : i < n := by simpa [hs] using h1
      simp only [List.getElem_mapIdx]
      rw [if_pos (by rw [hn]; exact hi)]
      have hg : ((List.range n).map (fun i => if shift.getD i 0 ≠ 0 then 1 else 0)).getD i 0 = if shift.getD i 0 ≠ 0 then 1 else 0 := by
        rw [List.getD_eq_getElem?_getD, List.getElem?_map, List.getElem?_range hi]
        rfl
      rw [hg]
      by_cases h0 : shift.getD i 0 = 0 <;> simp [h0]
    rw [this]
    show _ = Except.ok { st.enter .shift with obj := { st.obj with shift := if st.obj.done = true then st.obj.shift else newShift rand shift st.obj.shift } }
    rw [if_neg hd]
    rfl

lemma kw_subLines (m : List (ℕ × FFMap F)) : ∀ l ∈ subLines m, kwOf l = none := by
  intro l hl
  unfold subLines at hl
  obtain ⟨ls, h1, h2⟩ := List.mem_flatten.mp hl
  obtain ⟨el, -, rfl⟩ := List.mem_map.mp h1
  split at h2
  · simp at h2
  · obtain ⟨t, -, rfl⟩ := List.mem_map.mp h2
    rw [List.append_assoc, List.append_assoc]
    exact kwOf_natStr_append _ _

lemma L_subNum (n : ℕ) (hn : 0 < n) (m : List (ℕ × FFMap F)) (h : SavableSub n m) (h1 : st.obj.n = n) (h2 : st.obj.subNum = []) :
    (entry .subNum (subLines m) ++ rest).foldlM (loadLine rand) st =
    rest.foldlM (loadLine rand) (st.upd .subNum (fun o => { o with subNum := supports m })) := by
  apply load_entryN rand st (by decide) (kw_subLines m)
  rw [foldlM_lift (readData rand) (readSub n) (fun s => s.obj.subNum) (fun s g => { s with obj := { s.obj with subNum := g } })
    (fun s => s.cur = .subNum ∧ s.obj.n = n)]
  · show Except.map _ (List.foldlM (readSub n) st.obj.subNum (subLines m)) = _
    rw [h2, readSub_all n hn m [] h (by simp)]
    rfl
  · rintro ⟨so, sc, ss, s1, s2, s3⟩ l ⟨hs1, hs2⟩
    simp only at hs1 hs2
    subst hs1 hs2
    show Except.bind (readSub so.n so.subNum l) _ = Except.map _ (readSub so.n so.subNum l)
    cases readSub so.n so.subNum l <;> rfl
  · rintro s g hs; exact hs
  · intro s g; rfl
  · intro s g g'; rfl
  · intro s; rfl
  · exact ⟨rfl, h1⟩

lemma L_subDen (n : ℕ) (hn : 0 < n) (m : List (ℕ × FFMap F)) (h : SavableSub n m) (h1 : st.obj.n = n) (h2 : st.obj.subDen = []) :
    (entry .subDen (subLines m) ++ rest).foldlM (loadLine rand) st =
    rest.foldlM (loadLine rand) (st.upd .subDen (fun o => { o with subDen := supports m })) := by
  apply load_entryN rand st (by decide) (kw_subLines m)
  rw [foldlM_lift (readData rand) (readSub n) (fun s => s.obj.subDen) (fun s g => { s with obj := { s.obj with subDen := g } })
    (fun s => s.cur = .subDen ∧ s.obj.n = n)]
  · show Except.map _ (List.foldlM (readSub n) st.obj.subDen (subLines m)) = _
    rw [h2, readSub_all n hn m [] h (by simp)]
    rfl
  · rintro ⟨so, sc, ss, s1, s2, s3⟩ l ⟨hs1, hs2⟩
    simp only at hs1 hs2
    subst hs1 hs2
    show Except.bind (readSub so.n so.subDen l) _ = Except.map _ (readSub so.n so.subDen l)
    cases readSub so.n so.subDen l <;> rfl
  · rintro s g hs; exact hs
  · intro s g; rfl
  · intro s g g'; rfl
  · intro s; rfl
  · exact ⟨rfl, h1⟩

lemma L_zeroNum (xs : List ℕ) (h : ∀ x ∈ xs, x < 2 ^ 31) (hnd : xs.Nodup) (h0 : st.obj.zeroDegsNum = []) :
    (entry .zeroDegsNum (boundsLine xs) ++ rest).foldlM (loadLine rand) st =
    rest.foldlM (loadLine rand) (st.upd .zeroDegsNum (fun o => { o with zeroDegsNum := xs })) := by
  unfold boundsLine
  split
  · rename_i hx
    subst hx
    apply load_entryN rand st (by decide) (by simp)
    rw [List.foldlM_nil, ← h0]
    rfl
  · apply load_entry1 rand st (by decide) (kwOf_vecStr xs)
    show (orThrow (parseVec32 (vecStr xs) 0)).bind _ = _
    rw [parseVec32_all xs h]
    show Except.ok ({ st.enter .zeroDegsNum with obj := { st.obj with zeroDegsNum := xs.foldl setEmplace st.obj.zeroDegsNum } }) = _
    rw [h0, setEmplace_all xs [] (by simpa using hnd)]
    rfl

lemma L_zeroDen (xs : List ℕ) (h : ∀ x ∈ xs, x < 2 ^ 31) (hnd : xs.Nodup) (h0 : st.obj.zeroDegsDen = []) :
    (entry .zeroDegsDen (boundsLine xs) ++ rest).foldlM (loadLine rand) st =
    rest.foldlM (loadLine rand) (st.upd .zeroDegsDen (fun o => { o with zeroDegsDen := xs })) := by
  unfold boundsLine
  split
  · rename_i hx
    subst hx
    apply load_entryN rand st (by decide) (by simp)
    rw [List.foldlM_nil, ← h0]
    rfl
  · apply load_entry1 rand st (by decide) (kwOf_vecStr xs)
    show (orThrow (parseVec32 (vecStr xs) 0)).bind _ = _
    rw [parseVec32_all xs h]
    show Except.ok ({ st.enter .zeroDegsDen with obj := { st.obj with zeroDegsDen := xs.foldl setEmplace st.obj.zeroDegsDen } }) = _
    rw [h0, setEmplace_all xs [] (by simpa using hnd)]
    rfl

lemma kw_rnLines {n : ℕ} (hn : 0 < n) (m : RnMap) (h : SavableMap n m) : ∀ l ∈ rnLines m, kwOf l = none := by
  intro l hl
  obtain ⟨t, ht, rfl⟩ := List.mem_map.mp hl
  rw [List.append_assoc, List.append_assoc]
  apply kwOf_vecStr_append
  intro h0
  have := (h.2 t ht).1
  rw [h0] at this
  simp at this
  omega

lemma kw_mpzLines {n : ℕ} (hn : 0 < n) (m : MpzMap) (h : SavableMap n m) : ∀ l ∈ mpzLines m, kwOf l = none := by
  intro l hl
  obtain ⟨t, ht, rfl⟩ := List.mem_map.mp hl
  apply kwOf_vecStr_append
  intro h0
  have := (h.2 t ht).1
  rw [h0] at this
  simp at this
  omega

lemma L_gNi (n : ℕ) (hn : 0 < n) (m : RnMap) (h : SavableMap n m) (hv : ∀ t ∈ m, t.2.Valid) (h1 : st.obj.n = n) (h2 : st.obj.coefs.gNi = []) :
    (entry .gNi (rnLines m) ++ rest).foldlM (loadLine rand) st =
    rest.foldlM (loadLine rand) (st.upd .gNi (fun o => { o with coefs := { o.coefs with gNi := m } })) := by
  apply load_entryN rand st (by decide) (kw_rnLines hn m h)
  rw [foldlM_lift (readData rand) (readRn n) (fun s => s.obj.coefs.gNi) (fun s g => { s with obj := { s.obj with coefs := { s.obj.coefs with gNi := g } } })
    (fun s => s.cur = .gNi ∧ s.obj.n = n)]
  · show Except.map _ (List.foldlM (readRn n) st.obj.coefs.gNi (rnLines m)) = _
    rw [h2, readRn_all n hn m [] h hv]
    rfl
  · rintro ⟨so, sc, ss, s1, s2, s3⟩ l ⟨hs1, hs2⟩
    simp only at hs1 hs2
    subst hs1 hs2
    show Except.bind (readRn so.n so.coefs.gNi l) _ = Except.map _ (readRn so.n so.coefs.gNi l)
    cases readRn so.n so.coefs.gNi l <;> rfl
  · rintro s g hs; exact hs
  · intro s g; rfl
  · intro s g g'; rfl
  · intro s; rfl
  · exact ⟨rfl, h1⟩

lemma L_gDi (n : ℕ) (hn : 0 < n) (m : RnMap) (h : SavableMap n m) (hv : ∀ t ∈ m, t.2.Valid) (h1 : st.obj.n = n) (h2 : st.obj.coefs.gDi = []) :
    (entry .gDi (rnLines m) ++ rest).foldlM (loadLine rand) st =
    rest.foldlM (loadLine rand) (st.upd .gDi (fun o => { o with coefs := { o.coefs with gDi := m } })) := by
  apply load_entryN rand st (by decide) (kw_rnLines hn m h)
  rw [foldlM_lift (readData rand) (readRn n) (fun s => s.obj.coefs.gDi) (fun s g => { s with obj := { s.obj with coefs := { s.obj.coefs with gDi := g } } })
    (fun s => s.cur = .gDi ∧ s.obj.n = n)]
  · show Except.map _ (List.foldlM (readRn n) st.obj.coefs.gDi (rnLines m)) = _
    rw [h2, readRn_all n hn m [] h hv]
    rfl
  · rintro ⟨so, sc, ss, s1, s2, s3⟩ l ⟨hs1, hs2⟩
    simp only at hs1 hs2
    subst hs1 hs2
    show Except.bind (readRn so.n so.coefs.gDi l) _ = Except.map _ (readRn so.n so.coefs.gDi l)
    cases readRn so.n so.coefs.gDi l <;> rfl
  · rintro s g hs; exact hs
  · intro s g; rfl
  · intro s g g'; rfl
  · intro s; rfl
  · exact ⟨rfl, h1⟩

lemma L_combNi (n : ℕ) (hn : 0 < n) (m : MpzMap) (h : SavableMap n m) (h1 : st.obj.n = n) (h2 : st.obj.coefs.combNi = []) :
    (entry .combinedNi (mpzLines m) ++ rest).foldlM (loadLine rand) st =
    rest.foldlM (loadLine rand) (st.upd .combinedNi (fun o => { o with coefs := { o.coefs with combNi := m } })) := by
  apply load_entryN rand st (by decide) (kw_mpzLines hn m h)
  rw [foldlM_lift (readData rand) (readMpz n) (fun s => s.obj.coefs.combNi) (fun s g => { s with obj := { s.obj with coefs := { s.obj.coefs with combNi := g } } })
    (fun s => s.cur = .combinedNi ∧ s.obj.n = n)]
  · show Except.map _ (List.foldlM (readMpz n) st.obj.coefs.combNi (mpzLines m)) = _
    rw [h2, readMpz_all n hn m [] h]
    rfl
  · rintro ⟨so, sc, ss, s1, s2, s3⟩ l ⟨hs1, hs2⟩
    simp only at hs1 hs2
    subst hs1 hs2
    show Except.bind (readMpz so.n so.coefs.combNi l) _ = Except.map _ (readMpz so.n so.coefs.combNi l)
    cases readMpz so.n so.coefs.combNi l <;> rfl
  · rintro s g hs; exact hs
  · intro s g; rfl
  · intro s g g'; rfl
  · intro s; rfl
  · exact ⟨rfl, h1⟩

lemma L_combDi (n : ℕ) (hn : 0 < n) (m : MpzMap) (h : SavableMap n m) (h1 : st.obj.n = n) (h2 : st.obj.coefs.combDi = []) :
    (entry .combinedDi (mpzLines m) ++ rest).foldlM (loadLine rand) st =
    rest.foldlM (loadLine rand) (st.upd .combinedDi (fun o => { o with coefs := { o.coefs with combDi := m } })) := by
  apply load_entryN rand st (by decide) (kw_mpzLines hn m h)
  rw [foldlM_lift (readData rand) (readMpz n) (fun s => s.obj.coefs.combDi) (fun s g => { s with obj := { s.obj with coefs := { s.obj.coefs with combDi := g } } })
    (fun s => s.cur = .combinedDi ∧ s.obj.n = n)]
  · show Except.map _ (List.foldlM (readMpz n) st.obj.coefs.combDi (mpzLines m)) = _
    rw [h2, readMpz_all n hn m [] h]
    rfl
  · rintro ⟨so, sc, ss, s1, s2, s3⟩ l ⟨hs1, hs2⟩
    simp only at hs1 hs2
    subst hs1 hs2
    show Except.bind (readMpz so.n so.coefs.combDi l) _ = Except.map _ (readMpz so.n so.coefs.combDi l)
    cases readMpz so.n so.coefs.combDi l <;> rfl
  · rintro s g hs; exact hs
  · intro s g; rfl
  · intro s g g'; rfl
  · intro s; rfl
  · exact ⟨rfl, h1⟩

lemma L_cpNi (n : ℕ) (hn : 0 < n) (m : MpzMap) (h : SavableMap n m) (h1 : st.obj.n = n) (h2 : st.obj.combPrimesNi = []) :
    (entry .combinedPrimesNi (mpzLines m) ++ rest).foldlM (loadLine rand) st =
    rest.foldlM (loadLine rand) (st.upd .combinedPrimesNi (fun o => { o with combPrimesNi := m })) := by
  apply load_entryN rand st (by decide) (kw_mpzLines hn m h)
  rw [foldlM_lift (readData rand) (readMpz n) (fun s => s.obj.combPrimesNi) (fun s g => { s with obj := { s.obj with combPrimesNi := g } })
    (fun s => s.cur = .combinedPrimesNi ∧ s.obj.n = n)]
  · show Except.map _ (List.foldlM (readMpz n) st.obj.combPrimesNi (mpzLines m)) = _
    rw [h2, readMpz_all n hn m [] h]
    rfl
  · rintro ⟨so, sc, ss, s1, s2, s3⟩ l ⟨hs1, hs2⟩
    simp only at hs1 hs2
    subst hs1 hs2
    show Except.bind (readMpz so.n so.combPrimesNi l) _ = Except.map _ (readMpz so.n so.combPrimesNi l)
    cases readMpz so.n so.combPrimesNi l <;> rfl
  · rintro s g hs; exact hs
  · intro s g; rfl
  · intro s g g'; rfl
  · intro s; rfl
  · exact ⟨rfl, h1⟩

lemma L_cpDi (n : ℕ) (hn : 0 < n) (m : MpzMap) (h : SavableMap n m) (h1 : st.obj.n = n) (h2 : st.obj.combPrimesDi = []) :
    (entry .combinedPrimesDi (mpzLines m) ++ rest).foldlM (loadLine rand) st =
    rest.foldlM (loadLine rand) (st.upd .combinedPrimesDi (fun o => { o with combPrimesDi := m })) := by
  apply load_entryN rand st (by decide) (kw_mpzLines hn m h)
  rw [foldlM_lift (readData rand) (readMpz n) (fun s => s.obj.combPrimesDi) (fun s g => { s with obj := { s.obj with combPrimesDi := g } })
    (fun s => s.cur = .combinedPrimesDi ∧ s.obj.n = n)]
  · show Except.map _ (List.foldlM (readMpz n) st.obj.combPrimesDi (mpzLines m)) = _
    rw [h2, readMpz_all n hn m [] h]
    rfl
  · rintro ⟨so, sc, ss, s1, s2, s3⟩ l ⟨hs1, hs2⟩
    simp only at hs1 hs2
    subst hs1 hs2
    show Except.bind (readMpz so.n so.combPrimesDi l) _ = Except.map _ (readMpz so.n so.combPrimesDi l)
    cases readMpz so.n so.combPrimesDi l <;> rfl
  · rintro s g hs; exact hs
  · intro s g; rfl
  · intro s g g'; rfl
  · intro s; rfl
  · exact ⟨rfl, h1⟩

lemma L_inter (x : ℕ) (h : x < 2 ^ 31) (hn : 0 < st.obj.n) : (entry .interpolations [natStr x]).foldlM (loadLine rand) st =
    .ok (st.upd .interpolations (fun o => { o with interpolations := x })) := by
  have := load_entry1 rand st (k := .interpolations) (by decide) (kwOf_natStr x) []
    (s' := st.upd .interpolations (fun o => { o with interpolations := x })) (by
      show (if st.obj.n = 0 then Except.error LoadErr.exit else (orThrow (stoi (natStr x))).bind _) = _
      rw [if_neg (by omega), stoi_natStr h]
      show Except.ok _ = _
      simp only [toU32_nat h]
      rfl)
  rw [List.append_nil] at this
  rw [this]
  rfl

end entries
end FireFly
