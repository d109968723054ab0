import Verif.Model.Crash
import Mathlib.Tactic
/-! The invariant of the state files. -/
set_option linter.all false
namespace FireFly.Crash

/-- There is exactly one state file, with number `k` and content `c`. -/
def Single (d : Disk) (k : ℕ) (c : Content) : Prop := d.state k = some c ∧ ∀ k', d.state k' ≠ none → k' = k

/-- Numbers and contents that fit. -/
def CValid (k : ℕ) : Content → Prop
  | .initial => k = 0
  | .broken => k = 0
  | .zero => True
  | .state f _ => f.Pairwise (· < ·) ∧ ∀ x ∈ f, x ≤ k

lemma CValid.mono {k k' : ℕ} {c : Content} (h : CValid k c) (h1 : c ≠ .initial) (h2 : c ≠ .broken) (hk : k ≤ k') : CValid k' c := by
  cases c with
  | initial => exact absurd rfl h1
  | broken => exact absurd rfl h2
  | zero => trivial
  | state f d => exact ⟨h.1, fun x hx => (h.2 x hx).trans hk⟩

lemma move_single {α : Type} {f : ℕ → Option α} {k : ℕ} {x : α} (h1 : f k = some x) (h2 : ∀ k', f k' ≠ none → k' = k) (a b : ℕ) :
    move f a b (if k = a then b else k) = some x ∧ ∀ k', move f a b k' ≠ none → k' = (if k = a then b else k) := by
  by_cases ha : k = a
  · subst ha
    rw [if_pos rfl]
    unfold move
    rw [h1]
    constructor
    · simp
    · intro k' hk'
      by_contra hn
      simp only [] at hk'
      rw [Function.update_of_ne hn] at hk'
      by_cases e : k' = k
      · subst e; simp at hk'
      · rw [Function.update_of_ne e] at hk'
        exact e (h2 k' hk')
  · rw [if_neg ha]
    have : f a = none := by
      by_contra hn
      exact ha (h2 a hn).symm
    unfold move
    rw [this]
    exact ⟨h1, h2⟩

lemma Single.move {d : Disk} {k : ℕ} {c : Content} (h : Single d k c) (a b : ℕ) : Single ((Op.moveState a b).run d) (if k = a then b else k) c :=
  move_single h.1 h.2 a b

lemma Single.congr {d d' : Disk} {k : ℕ} {c : Content} (h : Single d k c) (e : d'.state = d.state) : Single d' k c := by
  unfold Single; rw [e]; exact h

lemma Single.set {d : Disk} {k : ℕ} {c : Content} (h : Single d k c) (c' : Content) : Single { d with state := Function.update d.state k (some c') } k c' := by
  constructor
  · simp
  · intro k' hk'
    by_contra hn
    simp only [] at hk'
    rw [Function.update_of_ne hn] at hk'
    exact hn (h.2 k' hk')

/-- Operations that do not concern the state files. -/
def Op.Neutral : Op → Prop
  | .openTmp _ | .writeTmp _ _ | .moveProbe _ _ | .probeToTmp _ _ | .tmpToProbe _ | .createProbe _ | .removeProbe _ | .appendProbe _ _ => True
  | _ => False

lemma Op.Neutral.state {o : Op} (h : o.Neutral) (d : Disk) : (o.run d).state = d.state := by
  cases o <;> simp only [Op.Neutral] at h <;> simp only [Op.run]
  · split <;> rfl
  · split <;> rfl

lemma runOps_cons (d : Disk) (o : Op) (os : List Op) : runOps d (o :: os) = runOps (o.run d) os := rfl
lemma runOps_append (d : Disk) (a b : List Op) : runOps d (a ++ b) = runOps (runOps d a) b := by
  unfold runOps; rw [List.foldl_append]
@[simp] lemma runOps_nil (d : Disk) : runOps d [] = d := rfl

lemma runOps_neutral {os : List Op} (h : ∀ o ∈ os, o.Neutral) (d : Disk) : (runOps d os).state = d.state := by
  induction os generalizing d with
  | nil => rfl
  | cons o os ih => rw [runOps_cons, ih (fun x hx => h x (by simp [hx])), (h o (by simp)).state]

/-- `Q` holds now and after each of the operations. -/
def AllPrefix (Q : Disk → Prop) : Disk → List Op → Prop
  | d, [] => Q d
  | d, o :: os => Q d ∧ AllPrefix Q (o.run d) os

lemma AllPrefix.head {Q : Disk → Prop} {d : Disk} {os : List Op} (h : AllPrefix Q d os) : Q d := by
  cases os with
  | nil => exact h
  | cons o os => exact h.1

lemma AllPrefix.append {Q : Disk → Prop} {d : Disk} {a b : List Op} (h1 : AllPrefix Q d a) (h2 : AllPrefix Q (runOps d a) b) : AllPrefix Q d (a ++ b) := by
  induction a generalizing d with
  | nil => exact h2
  | cons o os ih => exact ⟨h1.1, ih h1.2 h2⟩

lemma AllPrefix.mono {Q Q' : Disk → Prop} (hq : ∀ d, Q d → Q' d) {d : Disk} {os : List Op} (h : AllPrefix Q d os) : AllPrefix Q' d os := by
  induction os generalizing d with
  | nil => exact hq _ h
  | cons o os ih => exact ⟨hq _ h.1, ih h.2⟩

lemma AllPrefix.neutral {Q : Disk → Prop} (hq : ∀ d d' : Disk, d'.state = d.state → Q d → Q d') {os : List Op} (ho : ∀ o ∈ os, o.Neutral) {d : Disk} (h : Q d) :
    AllPrefix Q d os := by
  induction os generalizing d with
  | nil => exact h
  | cons o os ih => exact ⟨h, ih (fun x hx => ho x (by simp [hx])) (hq _ _ ((ho o (by simp)).state d) h)⟩

/-- The state file of an object is in order: its content is the last or the one before, or unusable with number 0. -/
def QOk (o : Obj) (d : Disk) : Prop := ∃ k c, Single d k c ∧ CValid k c ∧ (c = o.saved ∨ c = o.prev ∨ c = .broken)

lemma QOk.congr {o : Obj} (d d' : Disk) (e : d'.state = d.state) (h : QOk o d) : QOk o d' := by
  obtain ⟨k, c, h1, h2, h3⟩ := h
  exact ⟨k, c, h1.congr e, h2, h3⟩

/-- The position of the state file of an object with nothing pending. -/
structure Good (P : ℕ) (o : Obj) (d : Disk) (k : ℕ) : Prop where
  single : Single d k o.saved
  valid : CValid k o.saved
  notBroken : o.saved ≠ .broken
  fields : o.fields = o.saved.fields
  done_not : o.done = true → o.saved ≠ .initial
  rel : o.done = false → (o.saved = .initial ∧ o.prime = 0) ∨ (o.saved ≠ .initial ∧ (k + 1 = o.prime ∨ (k + 2 = o.prime ∧ o.prime = P + 1)))
  ge : o.done = false → P ≤ o.prime

lemma Good.qok {P : ℕ} {o : Obj} {d : Disk} {k : ℕ} (h : Good P o d k) : QOk o d := ⟨k, _, h.single, h.valid, Or.inl rfl⟩

/-! ## the operations of an object -/

lemma newProbeOps_neutral (k : ℕ) : ∀ o ∈ newProbeOps k, o.Neutral := by
  intro o ho
  simp only [newProbeOps, List.mem_cons, List.not_mem_nil, or_false] at ho
  rcases ho with rfl | rfl | rfl | rfl <;> trivial

/-- `save_state`: the old content or the new one, at any time. -/
lemma saveOps_ok {d : Disk} {P k : ℕ} {c c' : Content} (h : Single d k c) (hc : CValid k c) (hk : k + 1 = P ∨ (k = 0 ∧ P = 0)) (hc' : CValid P c')
    (hi : P ≠ 0 → c ≠ .initial) (hb : c ≠ .broken) (Q : Disk → Prop) (hQ : ∀ d k, (Single d k c ∧ CValid k c) ∨ (Single d k c' ∧ CValid k c') → Q d) :
    AllPrefix Q d (saveOps P c') ∧ Single (runOps d (saveOps P c')) P c' := by
  have h1 : Single ((Op.openTmp P).run d) k c := h.congr rfl
  have h2 : Single ((Op.writeTmp P c').run ((Op.openTmp P).run d)) k c := h.congr rfl
  set d2 := (Op.writeTmp P c').run ((Op.openTmp P).run d) with hd2
  have ht : d2.tmpState P = some c' := by simp [hd2, Op.run]
  unfold saveOps
  by_cases hP : P = 0
  · subst hP
    have hk0 : k = 0 := by omega
    subst hk0
    have h3 : Single ((Op.tmpToState 0).run d2) 0 c' := by
      simp only [Op.run, ht]
      exact (h2.set c').congr rfl
    simp only [Nat.lt_irrefl, gt_iff_lt, if_false, List.append_nil]
    exact ⟨⟨hQ _ _ (Or.inl ⟨h, hc⟩), hQ _ _ (Or.inl ⟨h1, hc⟩), hQ _ _ (Or.inl ⟨h2, hc⟩), hQ _ _ (Or.inr ⟨h3, hc'⟩)⟩, h3⟩
  · have hk1 : k = P - 1 := by omega
    rw [if_pos (by omega)]
    have h3 : Single ((Op.moveState (P - 1) P).run d2) P c := by
      have := h2.move (P - 1) P
      rwa [if_pos hk1] at this
    have hc3 : CValid P c := hc.mono (hi hP) hb (by omega)
    set d3 := (Op.moveState (P - 1) P).run d2 with hd3
    have ht3 : d3.tmpState P = some c' := by rw [hd3]; exact ht
    have h4 : Single ((Op.tmpToState P).run d3) P c' := by
      simp only [Op.run, ht3]
      exact (h3.set c').congr rfl
    exact ⟨⟨hQ _ _ (Or.inl ⟨h, hc⟩), hQ _ _ (Or.inl ⟨h1, hc⟩), hQ _ _ (Or.inl ⟨h2, hc⟩), hQ _ _ (Or.inl ⟨h3, hc3⟩), hQ _ _ (Or.inr ⟨h4, hc'⟩)⟩, h4⟩

/-- Operations that move a state file to the next number or do not concern state files. -/
def Op.Shift : Op → Prop
  | .moveState a b => b = a + 1
  | o => o.Neutral

lemma shift_ok {os : List Op} (ho : ∀ o ∈ os, o.Shift) {d : Disk} {k : ℕ} {c : Content} (h : Single d k c) (hc : CValid k c) (h1 : c ≠ .initial) (h2 : c ≠ .broken)
    {Q : Disk → Prop} (hQ : ∀ d k, Single d k c → CValid k c → Q d) : AllPrefix Q d os := by
  induction os generalizing d k with
  | nil => exact hQ _ _ h hc
  | cons o os ih =>
    refine ⟨hQ _ _ h hc, ?_⟩
    have hs := ho o (by simp)
    by_cases hn : o.Neutral
    · exact ih (fun x hx => ho x (by simp [hx])) (h.congr (hn.state d)) hc
    · cases o with
      | moveState a b =>
        simp only [Op.Shift] at hs
        subst hs
        refine ih (fun x hx => ho x (by simp [hx])) (h.move a (a + 1)) ?_
        split_ifs with e
        · exact hc.mono h1 h2 (by omega)
        · exact hc
      | _ => exact absurd hs hn

lemma changeOps_shift (P : ℕ) : ∀ o ∈ changeOps P, o.Shift := by
  intro o ho
  unfold changeOps at ho
  rcases List.mem_append.mp ho with ho | ho
  · rw [List.mem_singleton] at ho; subst ho; trivial
  · split_ifs at ho with hP
    · rw [List.mem_singleton] at ho; subst ho
      show P = P - 1 + 1
      omega
    · simp at ho

lemma stopOps_shift (P : ℕ) : ∀ o ∈ stopOps P, o.Shift := by
  intro o ho
  unfold stopOps at ho
  rcases List.mem_append.mp ho with ho | ho
  · simp only [List.mem_cons, List.not_mem_nil, or_false] at ho
    rcases ho with rfl | rfl <;> trivial
  · split_ifs at ho with hP
    · rw [List.mem_singleton] at ho; subst ho
      show P = P - 1 + 1
      omega
    · simp at ho

/-! ## the operations of the main loop -/

/-- The pending operations of the main loop for function `i`. -/
def pend {N : ℕ} (i : Fin N) (l : List (Fin N × Op)) : List Op := l.filterMap (fun x => if x.1 = i then some x.2 else none)

lemma pend_append {N : ℕ} (i : Fin N) (a b : List (Fin N × Op)) : pend i (a ++ b) = pend i a ++ pend i b := List.filterMap_append ..

lemma pend_self {N : ℕ} (i : Fin N) (ops : List Op) : pend i (ops.map (fun o => (i, o))) = ops := by
  unfold pend
  rw [List.filterMap_map]
  induction ops with
  | nil => rfl
  | cons o os ih => simp [List.filterMap_cons]

lemma pend_other {N : ℕ} {i j : Fin N} (h : j ≠ i) (ops : List Op) : pend i (ops.map (fun o => (j, o))) = [] := by
  unfold pend
  rw [List.filterMap_eq_nil_iff]
  intro x hx
  obtain ⟨o, -, rfl⟩ := List.mem_map.mp hx
  simp [h]

lemma pend_forAll {N : ℕ} (i : Fin N) (ops : List Op) : pend i (forAll N ops) = ops := by
  unfold forAll
  have key : ∀ l : List (Fin N), l.Nodup → pend i (l.flatMap (fun i => ops.map (fun o => (i, o)))) = if i ∈ l then ops else [] := by
    intro l hl
    induction l with
    | nil => simp [pend]
    | cons a l ih =>
      rw [List.flatMap_cons, pend_append, ih (List.nodup_cons.mp hl).2]
      by_cases ha : a = i
      · subst ha
        rw [pend_self, if_neg (List.nodup_cons.mp hl).1, if_pos (by simp), List.append_nil]
      · rw [pend_other ha, List.nil_append]
        have : i ∈ a :: l ↔ i ∈ l := by simp [Ne.symm ha]
        simp only [this]
  rw [key _ (List.nodup_finRange N), if_pos (List.mem_finRange i)]

end FireFly.Crash
