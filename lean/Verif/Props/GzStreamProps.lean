import Verif.Model.GzStream
import Verif.Lemmas.SaveLemmas
/-!
# C54: what is written to a compressed stream is what is read from it
-/
set_option linter.all false
namespace FireFly

/-- the characters of an operation -/
def GzOp.text : GzOp → Str
  | .put c => [c]
  | .str s => s
  | .flush => []

/-! ### writing -/

/-- between two operations: what has been written is in the file or in the buffer -/
structure OutInv (B : ℕ) (s : GzOut) (w : Str) : Prop where
  mode : s.mode = .out
  opened : s.opened = true
  room : s.pend.length ≤ B - 1
  all : s.file ++ s.pend = w

lemma OutInv.overflow {B : ℕ} {s : GzOut} {w : Str} (h : OutInv B s w) {ok : ℕ → Bool} (hok : ∀ k, ok k = true) (c : Char) : ∃ s', s.overflow ok c = (s', true) ∧ OutInv B s' (w ++ [c]) := by
  unfold GzOut.overflow GzOut.flush
  rw [if_neg (by simp [h.mode, h.opened]), if_pos (hok _)]
  refine ⟨_, rfl, ⟨h.mode, h.opened, by simp, ?_⟩⟩
  simp [← h.all]

lemma OutInv.putn {B : ℕ} {ok : ℕ → Bool} (hok : ∀ k, ok k = true) : ∀ (n : ℕ) (cs : Str), cs.length ≤ n → ∀ {s : GzOut} {w : Str}, OutInv B s w → ∃ s', s.putn B ok cs = (s', true) ∧ OutInv B s' (w ++ cs) := by
  intro n
  induction n with
  | zero =>
    intro cs hcs s w h
    obtain rfl : cs = [] := List.length_eq_zero_iff.mp (by omega)
    rw [GzOut.putn]
    split
    · exact ⟨_, rfl, h.mode, h.opened, by simpa using h.room, by simpa using h.all⟩
    · rename_i h'; simp at h'
  | succ n ih =>
    intro cs hcs s w h
    rw [GzOut.putn]
    split
    · rename_i h'
      rw [List.drop_eq_nil_iff] at h'
      refine ⟨_, rfl, h.mode, h.opened, ?_, by simp [← h.all]⟩
      have := h.room
      simp only [List.length_append]
      omega
    · rename_i c rest h'
      have hsplit : cs = cs.take (B - 1 - s.pend.length) ++ c :: rest := by rw [← h', List.take_append_drop]
      have hinv : OutInv B { s with pend := s.pend ++ cs.take (B - 1 - s.pend.length) } (w ++ cs.take (B - 1 - s.pend.length)) := by
        refine ⟨h.mode, h.opened, ?_, by simp [← h.all]⟩
        have := h.room
        simp only [List.length_append, List.length_take]
        omega
      obtain ⟨s1, h1, h2⟩ := hinv.overflow hok c
      rw [h1]
      have hl : rest.length ≤ n := by
        have := congrArg List.length hsplit
        simp only [List.length_append, List.length_cons] at this
        omega
      obtain ⟨s2, h3, h4⟩ := ih rest hl h2
      refine ⟨s2, h3, ?_⟩
      have e : w ++ cs = w ++ cs.take (B - 1 - s.pend.length) ++ [c] ++ rest := by
        conv_lhs => rw [hsplit]
        simp
      rw [e]; exact h4

lemma OutInv.step {B : ℕ} {ok : ℕ → Bool} (hok : ∀ k, ok k = true) {s : GzOut} {w : Str} (h : OutInv B s w) (o : GzOp) : ∃ s', gzStep B ok (s, true) o = (s', true) ∧ OutInv B s' (w ++ o.text) := by
  unfold gzStep
  rw [if_pos rfl]
  match o with
  | .put c =>
    show ∃ s', s.put B ok c = (s', true) ∧ OutInv B s' (w ++ [c])
    unfold GzOut.put
    split
    · refine ⟨_, rfl, h.mode, h.opened, ?_, by simp [← h.all]⟩
      simp only [List.length_append, List.length_singleton]; omega
    · exact h.overflow hok c
  | .str cs => exact OutInv.putn hok cs.length cs (le_refl _) h
  | .flush =>
    show ∃ s', s.sync ok = (s', true) ∧ OutInv B s' (w ++ [])
    unfold GzOut.sync GzOut.flush
    split
    · rw [if_pos (hok _)]
      exact ⟨_, rfl, h.mode, h.opened, by simp, by simpa using h.all⟩
    · exact ⟨_, rfl, h.mode, h.opened, h.room, by simpa using h.all⟩

/-- **C54 (writing).** For every size of the buffer and every sequence of characters, strings and flushes: if zlib accepts every block, the stream reports no failure and after `close` the file contains exactly what was written, in this order; an old content is lost. -/
theorem C54_write (B : ℕ) {ok : ℕ → Bool} (hok : ∀ k, ok k = true) (old : Str) (ops : List GzOp) : gzWrite B ok true .out old ops = ((ops.map GzOp.text).flatten, true) := by
  have key : ∀ (ops : List GzOp) (s : GzOut) (w : Str), OutInv B s w → ∃ s', ops.foldl (gzStep B ok) (s, true) = (s', true) ∧ OutInv B s' (w ++ (ops.map GzOp.text).flatten) := by
    intro ops
    induction ops with
    | nil => intro s w h; exact ⟨s, rfl, by simpa using h⟩
    | cons o ops ih =>
      intro s w h
      obtain ⟨s1, h1, h2⟩ := h.step hok o
      rw [List.foldl_cons, h1]
      obtain ⟨s2, h3, h4⟩ := ih s1 _ h2
      exact ⟨s2, h3, by simpa using h4⟩
  obtain ⟨s, h1, h2⟩ := key ops { mode := .out, file := [] } [] ⟨rfl, rfl, by simp, rfl⟩
  show (((ops.foldl (gzStep B ok) ({ mode := .out, file := [] }, true)).1.close ok true).1.file, (ops.foldl (gzStep B ok) ({ mode := .out, file := [] }, true)).2 && ((ops.foldl (gzStep B ok) ({ mode := .out, file := [] }, true)).1.close ok true).2) = _
  rw [h1]
  unfold GzOut.close
  rw [if_pos h2.opened]
  unfold GzOut.sync GzOut.flush
  have := h2.all
  rw [List.nil_append] at this
  split
  · rw [if_pos (hok _)]
    simp [this]
  · rename_i h
    have h : s.pend = [] := by simpa using h
    rw [h, List.append_nil] at this
    simp [this]

/-! #### when `gzwrite` fails -/

lemma OutInv.overflow_ok {B : ℕ} {s s' : GzOut} {w : Str} (h : OutInv B s w) {ok : ℕ → Bool} {c : Char} (he : s.overflow ok c = (s', true)) : OutInv B s' (w ++ [c]) := by
  unfold GzOut.overflow GzOut.flush at he
  rw [if_neg (by simp [h.mode, h.opened])] at he
  split at he
  · have := (Prod.mk.inj he).1
    subst this
    exact ⟨h.mode, h.opened, by simp, by simp [← h.all]⟩
  · simp at he

lemma OutInv.putn_ok {B : ℕ} {ok : ℕ → Bool} : ∀ (n : ℕ) (cs : Str), cs.length ≤ n → ∀ {s s' : GzOut} {w : Str}, OutInv B s w → s.putn B ok cs = (s', true) → OutInv B s' (w ++ cs) := by
  intro n
  induction n with
  | zero =>
    intro cs hcs s s' w h he
    obtain rfl : cs = [] := List.length_eq_zero_iff.mp (by omega)
    rw [GzOut.putn] at he
    split at he
    · have := (Prod.mk.inj he).1
      subst this
      exact ⟨h.mode, h.opened, by simpa using h.room, by simpa using h.all⟩
    · rename_i h'; simp at h'
  | succ n ih =>
    intro cs hcs s s' w h he
    rw [GzOut.putn] at he
    split at he
    · rename_i h'
      have := (Prod.mk.inj he).1
      subst this
      rw [List.drop_eq_nil_iff] at h'
      refine ⟨h.mode, h.opened, ?_, by simp [← h.all]⟩
      have := h.room
      simp only [List.length_append]
      omega
    · rename_i c rest h'
      have hsplit : cs = cs.take (B - 1 - s.pend.length) ++ c :: rest := by rw [← h', List.take_append_drop]
      have hinv : OutInv B { s with pend := s.pend ++ cs.take (B - 1 - s.pend.length) } (w ++ cs.take (B - 1 - s.pend.length)) := by
        refine ⟨h.mode, h.opened, ?_, by simp [← h.all]⟩
        have := h.room
        simp only [List.length_append, List.length_take]
        omega
      have hl : rest.length ≤ n := by
        have := congrArg List.length hsplit
        simp only [List.length_append, List.length_cons] at this
        omega
      split at he
      · rename_i s1 h1
        have := ih rest hl (hinv.overflow_ok h1) he
        have e : w ++ cs = w ++ cs.take (B - 1 - s.pend.length) ++ [c] ++ rest := by
          conv_lhs => rw [hsplit]
          simp
        rw [e]; exact this
      · simp at he

lemma OutInv.sync_ok {B : ℕ} {ok : ℕ → Bool} {s s' : GzOut} {w : Str} (h : OutInv B s w) (he : s.sync ok = (s', true)) : OutInv B s' w ∧ s'.pend = [] := by
  unfold GzOut.sync GzOut.flush at he
  split at he
  · split at he
    · have := (Prod.mk.inj he).1
      subst this
      exact ⟨⟨h.mode, h.opened, by simp, by simpa using h.all⟩, rfl⟩
    · simp at he
  · rename_i h0
    have := (Prod.mk.inj he).1
    subst this
    exact ⟨h, by simpa using h0⟩

lemma OutInv.step_ok {B : ℕ} {ok : ℕ → Bool} {s s' : GzOut} {w : Str} (h : OutInv B s w) {o : GzOp} (he : gzStep B ok (s, true) o = (s', true)) : OutInv B s' (w ++ o.text) := by
  unfold gzStep at he
  rw [if_pos rfl] at he
  match o with
  | .put c =>
    have he : s.put B ok c = (s', true) := he
    unfold GzOut.put at he
    split at he
    · have := (Prod.mk.inj he).1
      subst this
      refine ⟨h.mode, h.opened, ?_, by simp [← h.all, GzOp.text]⟩
      simp only [List.length_append, List.length_singleton]; omega
    · exact h.overflow_ok he
  | .str cs => exact OutInv.putn_ok cs.length cs (le_refl _) h he
  | .flush =>
    have := (h.sync_ok he).1
    simpa [GzOp.text] using this

lemma gzFold_false (B : ℕ) (ok : ℕ → Bool) : ∀ (ops : List GzOp) (s : GzOut), ops.foldl (gzStep B ok) (s, false) = (s, false)
  | [], s => rfl
  | o :: ops, s => by rw [List.foldl_cons]; exact gzFold_false B ok ops s

lemma OutInv.fold_ok {B : ℕ} {ok : ℕ → Bool} : ∀ (ops : List GzOp) {s s' : GzOut} {w : Str}, OutInv B s w → ops.foldl (gzStep B ok) (s, true) = (s', true) → OutInv B s' (w ++ (ops.map GzOp.text).flatten)
  | [], s, s', w, h, he => by
    have := (Prod.mk.inj he).1
    subst this
    simpa using h
  | o :: ops, s, s', w, h, he => by
    rw [List.foldl_cons] at he
    obtain ⟨s1, r, h1⟩ : ∃ s1 r, gzStep B ok (s, true) o = (s1, r) := ⟨_, _, rfl⟩
    rw [h1] at he
    cases r with
    | false => rw [gzFold_false] at he; simp at he
    | true =>
      have := OutInv.fold_ok ops (h.step_ok h1) he
      simpa using this

/-- **C54 (reported failures).** Whichever calls of `gzwrite` fail: if the stream reports no failure, the file is what was written, except that at most one buffer of characters at the end may be missing. -/
theorem C54_reported (B : ℕ) (ok : ℕ → Bool) (closed : Bool) (old : Str) (ops : List GzOp) (file : Str) (h : gzWrite B ok closed .out old ops = (file, true)) :
    ∃ lost, file ++ lost = (ops.map GzOp.text).flatten ∧ lost.length ≤ B - 1 := by
  obtain ⟨s, r, hs⟩ : ∃ s r, ops.foldl (gzStep B ok) ({ mode := .out, file := [] }, true) = (s, r) := ⟨_, _, rfl⟩
  have hw : gzWrite B ok closed .out old ops = ((s.close ok closed).1.file, r && (s.close ok closed).2) := by
    show (((ops.foldl (gzStep B ok) ({ mode := .out, file := [] }, true)).1.close ok closed).1.file, (ops.foldl (gzStep B ok) ({ mode := .out, file := [] }, true)).2 && ((ops.foldl (gzStep B ok) ({ mode := .out, file := [] }, true)).1.close ok closed).2) = _
    rw [hs]
  rw [hw] at h
  obtain ⟨h1, h2⟩ := Prod.mk.inj h
  have hr : r = true := by
    cases r
    · simp at h2
    · rfl
  subst hr
  have hinv := OutInv.fold_ok ops (B := B) (ok := ok) (s := { mode := .out, file := [] }) (w := []) ⟨rfl, rfl, by simp, rfl⟩ hs
  rw [List.nil_append] at hinv
  rw [← h1]
  unfold GzOut.close
  rw [if_pos hinv.opened]
  unfold GzOut.sync GzOut.flush
  split
  · split
    · exact ⟨[], by simpa using hinv.all, by simp⟩
    · exact ⟨s.pend, hinv.all, hinv.room⟩
  · exact ⟨s.pend, hinv.all, hinv.room⟩

/-- **C54 (flush before close).** If the last operation is a flush and the stream reports no failure, the file is exactly what was written, whichever calls of `gzwrite` fail. -/
theorem C54_flushed (B : ℕ) (ok : ℕ → Bool) (closed : Bool) (old : Str) (ops : List GzOp) (file : Str) (h : gzWrite B ok closed .out old (ops ++ [.flush]) = (file, true)) :
    file = (ops.map GzOp.text).flatten := by
  obtain ⟨s, r, hs⟩ : ∃ s r, ops.foldl (gzStep B ok) ({ mode := .out, file := [] }, true) = (s, r) := ⟨_, _, rfl⟩
  obtain ⟨s', r', hs'⟩ : ∃ s' r', gzStep B ok (s, r) .flush = (s', r') := ⟨_, _, rfl⟩
  have hf : (ops ++ [GzOp.flush]).foldl (gzStep B ok) ({ mode := .out, file := [] }, true) = (s', r') := by rw [List.foldl_append, hs]; exact hs'
  have hw : gzWrite B ok closed .out old (ops ++ [.flush]) = ((s'.close ok closed).1.file, r' && (s'.close ok closed).2) := by
    show ((((ops ++ [GzOp.flush]).foldl (gzStep B ok) ({ mode := .out, file := [] }, true)).1.close ok closed).1.file, ((ops ++ [GzOp.flush]).foldl (gzStep B ok) ({ mode := .out, file := [] }, true)).2 && (((ops ++ [GzOp.flush]).foldl (gzStep B ok) ({ mode := .out, file := [] }, true)).1.close ok closed).2) = _
    rw [hf]
  rw [hw] at h
  obtain ⟨h1, h2⟩ := Prod.mk.inj h
  have hr' : r' = true := by
    cases r'
    · simp at h2
    · rfl
  subst hr'
  have hr : r = true := by
    cases r
    · unfold gzStep at hs'; simp at hs'
    · rfl
  subst hr
  have hinv := OutInv.fold_ok ops (B := B) (ok := ok) (s := { mode := .out, file := [] }) (w := []) ⟨rfl, rfl, by simp, rfl⟩ hs
  rw [List.nil_append] at hinv
  obtain ⟨hi, hp⟩ := hinv.sync_ok (s' := s') (ok := ok) hs'
  rw [← h1]
  unfold GzOut.close
  rw [if_pos hi.opened]
  unfold GzOut.sync
  rw [if_neg (by simp [hp])]
  have := hi.all
  rw [hp, List.append_nil] at this
  exact this

/-- **C54 (a failure at the end).** `close` reports success although the last block was refused: a failure of `gzwrite` in `sync` is not passed on. Every text that fits into the buffer is lost without a report. -/
theorem C54_close_violated (B : ℕ) (w : Str) (hw : w ≠ []) (hB : w.length ≤ B - 1) : ∃ ok : ℕ → Bool, ok 0 = false ∧ gzWrite B ok true .out [] [.str w] = ([], true) := by
  refine ⟨fun _ => false, rfl, ?_⟩
  unfold gzWrite
  simp only [List.foldl_cons, List.foldl_nil]
  unfold gzStep
  rw [if_pos rfl]
  simp only
  rw [GzOut.putn]
  split
  · unfold GzOut.close GzOut.sync GzOut.flush
    simp [hw]
  · rename_i h
    have : w.drop (B - 1 - 0) = [] := List.drop_eq_nil_iff.mpr (by omega)
    simp only [List.length_nil] at h
    rw [this] at h
    exact absurd h (by simp)

/-- **C54 (appending).** A stream opened with `app` appends a text that fits into the buffer. -/
theorem C54_append_partial (B : ℕ) {ok : ℕ → Bool} (hok : ∀ k, ok k = true) (old w : Str) (hw : w.length ≤ B - 1) : gzWrite B ok true .app old [.str w] = (old ++ w, true) := by
  unfold gzWrite
  simp only [List.foldl_cons, List.foldl_nil]
  unfold gzStep
  rw [if_pos rfl]
  simp only
  rw [GzOut.putn]
  split
  · unfold GzOut.close GzOut.sync GzOut.flush
    by_cases h : w = [] <;> simp [h, hok]
  · rename_i h
    have : w.drop (B - 1 - 0) = [] := List.drop_eq_nil_iff.mpr (by omega)
    simp only [List.length_nil] at h
    rw [this] at h
    exact absurd h (by simp)

/-- **C54 (appending a long text).** `overflow` refuses a stream opened with `app`: of a text with at least `B` characters only the first `B - 1` reach the file, and the stream fails. -/
theorem C54_append_violated (B : ℕ) {ok : ℕ → Bool} (hok : ∀ k, ok k = true) (old w : Str) (hw : B ≤ w.length) (hB : 1 ≤ B) : gzWrite B ok true .app old [.str w] = (old ++ w.take (B - 1), false) := by
  unfold gzWrite
  simp only [List.foldl_cons, List.foldl_nil]
  unfold gzStep
  rw [if_pos rfl]
  simp only
  rw [GzOut.putn]
  split
  · rename_i h
    rw [List.drop_eq_nil_iff] at h
    simp only [List.length_nil] at h
    omega
  · unfold GzOut.overflow
    rw [if_pos (by simp)]
    simp only [List.length_nil, Nat.sub_zero, List.nil_append]
    unfold GzOut.close GzOut.sync GzOut.flush
    by_cases h : w.take (B - 1) = [] <;> simp [h, hok]

/-! ### reading -/

/-- the characters between `gptr` and `egptr` -/
def GzIn.window (s : GzIn) : Str := (List.range (s.egptr - s.gptr)).map fun i => s.buf (s.gptr + i)

/-- a length that leaves no block of one, two or three characters at the end -/
def NoTail (B k : ℕ) : Prop := k % (B - 4) = 0 ∨ 4 ≤ k % (B - 4)

/-- the stream has the characters `R` left -/
inductive InInv (B : ℕ) (s : GzIn) (R : Str) : Prop
  | start (h1 : s.eback = 4) (h2 : s.gptr = 4) (h3 : s.egptr = 4) (h4 : R = s.rest) (h5 : R.length ≤ B - 4 ∨ NoTail B R.length)
  | block (h1 : 4 ≤ s.gptr) (h2 : s.gptr ≤ s.egptr) (h3 : R = s.window ++ s.rest) (h4 : s.eback ≤ 4) (h5 : s.eback = 4 ∨ 8 ≤ s.egptr) (h6 : NoTail B s.rest.length)

lemma window_read (buf : ℕ → Char) (rest : Str) (len e : ℕ) : GzIn.window { buf := (gzRead buf rest len).1, eback := e, gptr := 4, egptr := 4 + (gzRead buf rest len).2.2, rest := (gzRead buf rest len).2.1 } = rest.take len := by
  unfold GzIn.window gzRead
  simp only [Nat.add_sub_cancel_left]
  apply List.ext_getElem
  · simp
  · intro i h1 h2
    simp only [List.length_map, List.length_range] at h1
    rw [List.getElem_map, List.getElem_range, List.getElem_take, if_pos ⟨by omega, by omega⟩, List.getD_eq_getElem?_getD, List.getElem?_eq_getElem (by omega)]
    simp

lemma noTail_drop {B k : ℕ} (hB : 8 ≤ B) (h : NoTail B k) : NoTail B (k - (B - 4)) ∧ (k = 0 ∨ 4 ≤ min (B - 4) k) := by
  unfold NoTail at h ⊢
  by_cases hk : B - 4 ≤ k
  · have : (k - (B - 4)) % (B - 4) = k % (B - 4) := by
      conv_rhs => rw [show k = k - (B - 4) + (B - 4) by omega, Nat.add_mod_right]
    rw [this]
    exact ⟨h, Or.inr (by omega)⟩
  · rw [Nat.mod_eq_of_lt (by omega)] at h
    have : k - (B - 4) = 0 := by omega
    rw [this]
    refine ⟨Or.inl (Nat.zero_mod _), ?_⟩
    rcases h with h | h
    · exact Or.inl h
    · exact Or.inr (by omega)

lemma InInv.next {B : ℕ} (hB : 8 ≤ B) {s : GzIn} {R : Str} (h : InInv B s R) : ∃ s', s.sbumpc B = some (s', R.head?) ∧ InInv B s' R.tail := by
  unfold GzIn.sbumpc GzIn.sgetc
  by_cases hlt : s.gptr < s.egptr
  · rw [if_pos hlt]
    cases h with
    | start h1 h2 h3 h4 h5 => omega
    | block h1 h2 h3 h4 h5 h6 =>
      have hw : s.window = s.buf s.gptr :: GzIn.window { s with gptr := s.gptr + 1 } := by
        unfold GzIn.window
        rw [show s.egptr - s.gptr = (s.egptr - (s.gptr + 1)) + 1 by omega, List.range_succ_eq_map, List.map_cons, List.map_map]
        simp only [Function.comp_def, Nat.add_zero, List.cons.injEq, true_and]
        apply List.map_congr_left
        intro i _
        congr 1; omega
      refine ⟨{ s with gptr := s.gptr + 1 }, ?_, ?_⟩
      · rw [h3, hw]; rfl
      · rw [h3, hw]
        exact InInv.block (by simp; omega) (by simp; omega) rfl h4 h5 h6
  · rw [if_neg hlt]
    unfold GzIn.underflow
    rw [if_neg hlt]
    -- what is left is not read yet
    have hR : R = s.rest := by
      cases h with
      | start h1 h2 h3 h4 h5 => exact h4
      | block h1 h2 h3 h4 h5 h6 =>
        rw [h3]
        unfold GzIn.window
        rw [show s.egptr - s.gptr = 0 by omega]
        rfl
    -- the copy is defined
    obtain ⟨buf, hbuf⟩ : ∃ buf, memcpy s.buf (4 - min 4 (s.gptr - s.eback)) (s.gptr - min 4 (s.gptr - s.eback)) (min 4 (s.gptr - s.eback)) = some buf := by
      unfold memcpy
      rw [if_pos]
      · exact ⟨_, rfl⟩
      · cases h with
        | start h1 h2 h3 h4 h5 => left; omega
        | block h1 h2 h3 h4 h5 h6 =>
          right; left
          omega
    simp only [hbuf, Option.map_some]
    by_cases h0 : (gzRead buf s.rest (B - 4)).2.2 = 0
    · have hr : s.rest = [] := by
        unfold gzRead at h0
        simp only at h0
        have : s.rest.length = 0 := by omega
        exact List.length_eq_zero_iff.mp this
      have hR0 : R = [] := by rw [hR, hr]
      rw [if_pos h0, hR0]
      refine ⟨{ s with buf := buf }, rfl, ?_⟩
      cases h with
      | start h1 h2 h3 h4 h5 => exact InInv.start h1 h2 h3 hr.symm (Or.inl (by simp))
      | block h1 h2 h3 h4 h5 h6 =>
        refine InInv.block h1 h2 ?_ h4 h5 h6
        show [] = GzIn.window { s with buf := buf } ++ s.rest
        unfold GzIn.window
        rw [show s.egptr - s.gptr = 0 by omega, hr]
        rfl
    · simp only [h0, if_false]
      have hw := window_read buf s.rest (B - 4) (4 - min 4 (s.gptr - s.eback))
      obtain ⟨N, hN⟩ : ∃ N : GzIn, N = { buf := (gzRead buf s.rest (B - 4)).1, eback := 4 - min 4 (s.gptr - s.eback), gptr := 4, egptr := 4 + (gzRead buf s.rest (B - 4)).2.2, rest := (gzRead buf s.rest (B - 4)).2.1 } := ⟨_, rfl⟩
      rw [← hN] at hw ⊢
      have hlen : N.egptr - N.gptr = min (B - 4) s.rest.length := by rw [hN]; simp [gzRead]
      have hpos : 0 < min (B - 4) s.rest.length := by
        have : (gzRead buf s.rest (B - 4)).2.2 = min (B - 4) s.rest.length := rfl
        omega
      have hg : N.gptr = 4 := by rw [hN]
      have hw2 : N.window = N.buf N.gptr :: GzIn.window { N with gptr := N.gptr + 1 } := by
        unfold GzIn.window
        rw [show N.egptr - N.gptr = (N.egptr - (N.gptr + 1)) + 1 by omega, List.range_succ_eq_map, List.map_cons, List.map_map]
        simp only [Function.comp_def, Nat.add_zero, List.cons.injEq, true_and]
        apply List.map_congr_left
        intro i _
        congr 1; omega
      have hrest : N.rest = s.rest.drop (B - 4) := by rw [hN]; rfl
      have hall : R = N.buf N.gptr :: (GzIn.window { N with gptr := N.gptr + 1 } ++ N.rest) := by
        rw [hR, ← List.cons_append, ← hw2, hw, hrest, List.take_append_drop]
      have hb4 : (gzRead buf s.rest (B - 4)).1 4 = N.buf N.gptr := by rw [hN]
      refine ⟨{ N with gptr := N.gptr + 1 }, ?_, ?_⟩
      · rw [hall, List.head?_cons, ← hb4, hN]
        rfl
      · rw [hall]
        refine InInv.block (by simp; omega) (by simp; omega) rfl ?_ ?_ ?_
        · rw [hN]; simp
        · cases h with
          | start h1 h2 h3 h4 h5 => left; rw [hN]; simp; omega
          | block h1 h2 h3 h4 h5 h6 =>
            right
            have := (noTail_drop hB h6).2
            show 8 ≤ N.egptr
            omega
        · show NoTail B N.rest.length
          rw [hrest, List.length_drop]
          cases h with
          | start h1 h2 h3 h4 h5 =>
            rw [h4] at h5
            rcases h5 with h5 | h5
            · left; rw [show s.rest.length - (B - 4) = 0 by omega]; simp
            · exact (noTail_drop hB h5).1
          | block h1 h2 h3 h4 h5 h6 => exact (noTail_drop hB h6).1

lemma getline_spec {B : ℕ} (hB : 8 ≤ B) : ∀ (R : Str) (s : GzIn) (fuel : ℕ), InInv B s R → R.length < fuel →
    (('\n' ∉ R ∧ ∃ s', gzGetline B fuel s = some (s', R, true, !R.isEmpty) ∧ InInv B s' []) ∨
      ∃ l R', R = l ++ '\n' :: R' ∧ '\n' ∉ l ∧ ∃ s', gzGetline B fuel s = some (s', l, false, true) ∧ InInv B s' R')
  | R, s, 0, _, hf => by omega
  | [], s, fuel + 1, h, hf => by
    left
    obtain ⟨s1, h1, h2⟩ := h.next hB
    refine ⟨by simp, s1, ?_, h2⟩
    unfold gzGetline
    rw [h1]; rfl
  | c :: R, s, fuel + 1, h, hf => by
    obtain ⟨s1, h1, h2⟩ := h.next hB
    simp only [List.head?_cons, List.tail_cons] at h1 h2
    by_cases hc : c = '\n'
    · right
      refine ⟨[], R, by simp [hc], by simp, s1, ?_, h2⟩
      unfold gzGetline
      rw [h1]
      simp [hc]
    · have hc' : ¬ '\n' = c := fun h => hc h.symm
      rcases getline_spec hB R s1 fuel h2 (by simp at hf; omega) with ⟨g1, s2, g2, g3⟩ | ⟨l, R', g1, g2, s2, g3, g4⟩
      · left
        refine ⟨by simp [g1, hc'], s2, ?_, g3⟩
        unfold gzGetline
        rw [h1]
        simp [hc, g2]
      · right
        refine ⟨c :: l, R', by simp [g1], by simp [g2, hc'], s2, ?_, g4⟩
        unfold gzGetline
        rw [h1]
        simp [hc, g3]

lemma linesOf_last : ∀ {l : Str}, l ≠ [] → '\n' ∉ l → linesOf l = [l]
  | [], h, _ => absurd rfl h
  | c :: l, _, h => by
    rw [List.mem_cons, not_or] at h
    unfold linesOf
    rw [if_neg (fun hc => h.1 hc.symm)]
    cases l with
    | nil => rfl
    | cons d l => rw [linesOf_last (by simp) h.2]

/-- **C54 (reading).** For every size `B ≥ 8` of the buffer and every content that does not end with a block of one, two or three characters behind a full block, reading the file line by line yields its lines. -/
theorem C54_read {B : ℕ} (hB : 8 ≤ B) (content : Str) (hc : content.length ≤ B - 4 ∨ NoTail B content.length) (fuel : ℕ) (hf : content.length < fuel) :
    gzLines B fuel { rest := content } = some (linesOf content) := by
  have key : ∀ (fuel : ℕ) (R : Str) (s : GzIn), InInv B s R → R.length < fuel → gzLines B fuel s = some (linesOf R) := by
    intro fuel
    induction fuel with
    | zero => intro R s _ h; omega
    | succ fuel ih =>
      intro R s h hl
      unfold gzLines
      rcases getline_spec hB R s (fuel + 1) h hl with ⟨g1, s2, g2, g3⟩ | ⟨l, R', g1, g2, s2, g3, g4⟩
      · rw [g2]
        by_cases h0 : R = []
        · subst h0; rfl
        · simp [h0, linesOf_last h0 g1]
      · rw [g3]
        simp only [Option.bind_some, if_true, Bool.false_eq_true, if_false]
        rw [ih R' s2 g4 (by rw [g1] at hl; simp at hl; omega), g1, linesOf_append_newline l g2]
        rfl
  exact key fuel content { rest := content } (InInv.start rfl rfl rfl rfl hc) hf

/-- the stream has the characters `R` left and will end with a short block -/
inductive InBad (B : ℕ) (s : GzIn) (R : Str) : Prop
  | start (h1 : s.eback = 4) (h2 : s.gptr = 4) (h3 : s.egptr = 4) (h4 : R = s.rest) (h5 : B - 4 < R.length) (h6 : ¬ NoTail B R.length)
  | block (h1 : 4 ≤ s.gptr) (h2 : s.gptr ≤ s.egptr) (h3 : R = s.window ++ s.rest) (h4 : s.eback ≤ 4) (h5 : 8 ≤ s.egptr) (h6 : ¬ NoTail B s.rest.length)
  | tail (h1 : 4 ≤ s.gptr) (h2 : s.gptr ≤ s.egptr) (h3 : R = s.window) (h4 : s.eback = 0) (h5 : 4 < s.egptr) (h6 : s.egptr < 8)

lemma window_cons {s : GzIn} (hlt : s.gptr < s.egptr) : s.window = s.buf s.gptr :: GzIn.window { s with gptr := s.gptr + 1 } := by
  unfold GzIn.window
  rw [show s.egptr - s.gptr = (s.egptr - (s.gptr + 1)) + 1 by omega, List.range_succ_eq_map, List.map_cons, List.map_map]
  simp only [Function.comp_def, Nat.add_zero, List.cons.injEq, true_and]
  apply List.map_congr_left
  intro i _
  congr 1; omega

lemma not_noTail_drop {B k : ℕ} (hB : 8 ≤ B) (h : ¬ NoTail B k) : (B - 4 < k ∧ ¬ NoTail B (k - (B - 4))) ∨ (0 < k ∧ k < 4) := by
  unfold NoTail at h ⊢
  by_cases hk : B - 4 ≤ k
  · left
    have : (k - (B - 4)) % (B - 4) = k % (B - 4) := by
      conv_rhs => rw [show k = k - (B - 4) + (B - 4) by omega, Nat.add_mod_right]
    rw [this]
    refine ⟨?_, h⟩
    by_contra hc
    have : k = B - 4 := by omega
    rw [this, Nat.mod_self] at h
    simp at h
  · rw [Nat.mod_eq_of_lt (by omega)] at h
    right; omega

lemma InBad.next {B : ℕ} (hB : 8 ≤ B) {s : GzIn} {R : Str} (h : InBad B s R) : (R = [] ∧ s.sbumpc B = none) ∨ ∃ c s', s.sbumpc B = some (s', some c) ∧ R = c :: R.tail ∧ InBad B s' R.tail := by
  unfold GzIn.sbumpc GzIn.sgetc
  by_cases hlt : s.gptr < s.egptr
  · rw [if_pos hlt]
    right
    have hw := window_cons hlt
    refine ⟨s.buf s.gptr, { s with gptr := s.gptr + 1 }, rfl, ?_⟩
    cases h with
    | start h1 h2 h3 h4 h5 h6 => omega
    | block h1 h2 h3 h4 h5 h6 =>
      rw [h3, hw]
      exact ⟨rfl, InBad.block (by simp; omega) (by simp; omega) rfl h4 h5 h6⟩
    | tail h1 h2 h3 h4 h5 h6 =>
      rw [h3, hw]
      exact ⟨rfl, InBad.tail (by simp; omega) (by simp; omega) rfl h4 h5 h6⟩
  · rw [if_neg hlt]
    unfold GzIn.underflow
    rw [if_neg hlt]
    have hw0 : s.window = [] := by
      unfold GzIn.window
      rw [show s.egptr - s.gptr = 0 by omega]
      rfl
    by_cases htail : s.eback = 0 ∧ s.egptr < 8 ∧ 4 < s.egptr ∧ s.gptr ≤ s.egptr ∧ R = s.window
    · left
      obtain ⟨t1, t2, t3, t4, t5⟩ := htail
      refine ⟨by rw [t5, hw0], ?_⟩
      have : memcpy s.buf (4 - min 4 (s.gptr - s.eback)) (s.gptr - min 4 (s.gptr - s.eback)) (min 4 (s.gptr - s.eback)) = none := by
        unfold memcpy
        rw [if_neg (by omega)]
      simp only [this, Option.map_none]
    · right
      have hR : R = s.rest ∧ ¬ NoTail B s.rest.length ∧ (s.eback = 4 ∧ s.gptr = 4 ∧ B - 4 < s.rest.length ∨ s.eback ≤ 4 ∧ 8 ≤ s.gptr) := by
        cases h with
        | start h1 h2 h3 h4 h5 h6 => exact ⟨h4, by rw [← h4]; exact h6, Or.inl ⟨h1, h2, by rw [← h4]; exact h5⟩⟩
        | block h1 h2 h3 h4 h5 h6 => exact ⟨by rw [h3, hw0]; rfl, h6, Or.inr ⟨h4, by omega⟩⟩
        | tail h1 h2 h3 h4 h5 h6 => exact absurd ⟨h4, h6, h5, h2, h3⟩ htail
      obtain ⟨hR, hno, hcase⟩ := hR
      obtain ⟨buf, hbuf⟩ : ∃ buf, memcpy s.buf (4 - min 4 (s.gptr - s.eback)) (s.gptr - min 4 (s.gptr - s.eback)) (min 4 (s.gptr - s.eback)) = some buf := by
        unfold memcpy
        rw [if_pos (by omega)]
        exact ⟨_, rfl⟩
      simp only [hbuf, Option.map_some]
      have hn : (gzRead buf s.rest (B - 4)).2.2 = min (B - 4) s.rest.length := rfl
      have hnd := not_noTail_drop hB hno
      have h0 : ¬ (gzRead buf s.rest (B - 4)).2.2 = 0 := by omega
      simp only [h0, if_false]
      have hw := window_read buf s.rest (B - 4) (4 - min 4 (s.gptr - s.eback))
      obtain ⟨N, hN⟩ : ∃ N : GzIn, N = { buf := (gzRead buf s.rest (B - 4)).1, eback := 4 - min 4 (s.gptr - s.eback), gptr := 4, egptr := 4 + (gzRead buf s.rest (B - 4)).2.2, rest := (gzRead buf s.rest (B - 4)).2.1 } := ⟨_, rfl⟩
      rw [← hN] at hw
      have hg : N.gptr = 4 := by rw [hN]
      have he : N.egptr = 4 + min (B - 4) s.rest.length := by rw [hN]; rfl
      have heb : N.eback = 4 - min 4 (s.gptr - s.eback) := by rw [hN]
      have hrest : N.rest = s.rest.drop (B - 4) := by rw [hN]; rfl
      have hlt' : N.gptr < N.egptr := by omega
      have hall : R = N.buf N.gptr :: (GzIn.window { N with gptr := N.gptr + 1 } ++ N.rest) := by
        rw [hR, ← List.cons_append, ← window_cons hlt', hw, hrest, List.take_append_drop]
      refine ⟨N.buf N.gptr, { N with gptr := N.gptr + 1 }, by rw [hN]; rfl, by rw [hall]; rfl, ?_⟩
      rw [hall, List.tail_cons]
      rcases hnd with ⟨hn1, hn2⟩ | hn1
      · exact InBad.block (by simp; omega) (by simp; omega) rfl (by simp; omega) (by simp; omega) (by
          show ¬ NoTail B N.rest.length
          rw [hrest, List.length_drop]; exact hn2)
      · have : N.rest = [] := by rw [hrest, List.drop_eq_nil_iff]; omega
        exact InBad.tail (by simp; omega) (by simp; omega) (by rw [this, List.append_nil]) (by simp; omega) (by simp; omega) (by simp; omega)

/-- **C54 (a short last block).** If the content is longer than the buffer and its last block has one, two or three characters, the two regions of the last `memcpy` overlap: for every such content the loop over the lines does not end without undefined behaviour. -/
theorem C54_read_violated {B : ℕ} (hB : 8 ≤ B) (content : Str) (h1 : B - 4 < content.length) (h2 : 0 < content.length % (B - 4) ∧ content.length % (B - 4) < 4) (fuel : ℕ) :
    gzLines B fuel { rest := content } = none := by
  have getl : ∀ (fuel : ℕ) (R : Str) (s : GzIn), InBad B s R → gzGetline B fuel s = none ∨ ∃ s' R' l, gzGetline B fuel s = some (s', l, false, true) ∧ InBad B s' R' := by
    intro fuel
    induction fuel with
    | zero => intro R s _; exact Or.inl rfl
    | succ fuel ih =>
      intro R s h
      unfold gzGetline
      rcases h.next hB with ⟨_, hn⟩ | ⟨c, s', hn, hR, h'⟩
      · left; rw [hn]; rfl
      · rw [hn]
        simp only [Option.bind_some]
        by_cases hc : c = '\n'
        · right
          rw [if_pos hc]
          exact ⟨s', _, [], rfl, h'⟩
        · rw [if_neg hc]
          rcases ih _ s' h' with g | ⟨s2, R2, l, g, h2⟩
          · left; rw [g]; rfl
          · right; rw [g]; exact ⟨s2, R2, c :: l, rfl, h2⟩
  have key : ∀ (fuel : ℕ) (R : Str) (s : GzIn), InBad B s R → gzLines B fuel s = none := by
    intro fuel
    induction fuel with
    | zero => intro R s _; rfl
    | succ fuel ih =>
      intro R s h
      unfold gzLines
      rcases getl (fuel + 1) R s h with g | ⟨s2, R2, l, g, h2⟩
      · rw [g]; rfl
      · rw [g]
        simp only [Option.bind_some, if_true, Bool.false_eq_true, if_false]
        rw [ih R2 s2 h2]; rfl
  exact key fuel content { rest := content } (InBad.start rfl rfl rfl rfl h1 (by unfold NoTail; omega))

/-- **C54 (round trip).** What the operations on an output stream write to a file, an input stream reads back line by line. -/
theorem C54_roundtrip {B : ℕ} (hB : 8 ≤ B) {ok : ℕ → Bool} (hok : ∀ k, ok k = true) (old : Str) (ops : List GzOp)
    (hc : ((ops.map GzOp.text).flatten).length ≤ B - 4 ∨ NoTail B ((ops.map GzOp.text).flatten).length) (fuel : ℕ) (hf : ((ops.map GzOp.text).flatten).length < fuel) :
    gzLines B fuel { rest := (gzWrite B ok true .out old ops).1 } = some (linesOf ((ops.map GzOp.text).flatten)) := by
  rw [C54_write B hok old ops]
  exact C54_read hB _ hc fuel hf

/-! ### concrete cases -/

/-- a buffer of 16 characters, 28 characters, three operations: `overflow` is called once by `sputn` and the text is read in three blocks -/
example : gzWrite 16 (fun _ => true) true .out "old".toList [.str "3 4 5\n6 7 8 9".toList, .put '\n', .flush, .str "10 11 12 13 14".toList] = ("3 4 5\n6 7 8 9\n10 11 12 13 14".toList, true) := by
  rw [C54_write 16 (fun _ => rfl)]; rfl

example : gzLines 16 29 { rest := "3 4 5\n6 7 8 9\n10 11 12 13 14".toList } = some ["3 4 5".toList, "6 7 8 9".toList, "10 11 12 13 14".toList] := by decide +kernel

example : NoTail 16 "3 4 5\n6 7 8 9\n10 11 12 13 14".toList.length := by unfold NoTail; decide

/-- the second block is refused: this is reported (`C54_reported` does not apply); in the second case it is the block written by `close`, and it is not -/
example : gzWrite 4 (fun k => decide (k < 1)) true .out [] [.put 'a', .put 'b', .put 'c', .put 'd', .put 'e', .flush] = ("abcd".toList, false) ∧
    gzWrite 4 (fun k => decide (k < 1)) true .out [] [.put 'a', .put 'b', .put 'c', .put 'd', .put 'e'] = ("abcd".toList, true) ∧
    gzWrite 4 (fun k => k != 2) true .out [] [.put 'a', .put 'b', .put 'c', .put 'd', .put 'e', .flush] = ("abcde".toList, true) := by decide +kernel

/-- with 26 characters the last block has two characters -/
example : gzLines 16 27 { rest := "3 4 5\n6 7 8 9\n10 11 12 13".toList } = none := C54_read_violated (by decide) _ (by decide) (by decide) _

/-- the size of the buffer of the program -/
example : 8 ≤ 47 + 1073741824 := by decide

end FireFly
