import Verif.Model.Scheduler
import Verif.Props.RatQueueProps
import Mathlib.Tactic.Common
import Mathlib.Tactic.Linarith
import Mathlib.Algebra.BigOperators.Fin
import Mathlib.Algebra.Order.BigOperators.Group.Finset
set_option linter.all false
/-! # Invariants of the scheduler for one function (for C38) -/
namespace FireFly.Scheduler
open RatQueue (Obj)
variable {m : ℕ} {β V : Type}

/-! ## weights -/

/-- number of queued `interpolate_job`s of function `i` -/
def tI (i : Fin m) : Task m V → ℕ
  | .interpJob j => if j = i then 1 else 0
  | _ => 0
/-- number of begun `interpolate_job`s of function `i` that have not called `interpolate()` -/
def wI0 (i : Fin m) : Run m β V → ℕ
  | .interp0 j => if j = i then 1 else 0
  | _ => 0
/-- number of threads in `interpolate()` of function `i` -/
def wIn (i : Fin m) : Run m β V → ℕ
  | .interpIn j => if j = i then 1 else 0
  | _ => 0
/-- number of returned requests of a field beyond `k` -/
def wNew (i : Fin m) (k : ℕ) : Run m β V → ℕ
  | .interpRet j (true, false, p) => if j = i ∧ k < p then 1 else 0
  | _ => 0
/-- number of returned results -/
def wPD (i : Fin m) : Run m β V → ℕ
  | .interpRet j (true, true, _) => if j = i then 1 else 0
  | _ => 0

/-- the part of the state that concerns one function -/
@[ext] structure View (β V : Type) where
  k : ℕ
  o : Obj (β × V)
  st : Bool
  c : ℕ
  new : ℕ
  pd : ℕ
  nS : ℕ
  nIn : ℕ

def mkView (i : Fin m) (k : ℕ) (o : Obj (β × V)) (st : Bool) (c : ℕ) (tasks : List (Task m V)) (running : List (Run m β V)) : View β V :=
  { k := k, o := o, st := st, c := c, new := (running.map (wNew i k)).sum, pd := (running.map (wPD i)).sum
    nS := (tasks.map (tI i)).sum + (running.map (wI0 i)).sum, nIn := (running.map (wIn i)).sum }

def view (s : State m β V) (i : Fin m) : View β V := mkView i s.primeIt (s.obj i) (s.status i) (s.counted i) s.tasks s.running

/-- the invariant for one function -/
structure ItemInv (zero : V → Bool) (v : View β V) : Prop where
  reach : RatQueue.Reach (fun x : β × V => zero x.2) false v.o
  sched : v.o.scheduled = v.nS
  ins : v.o.inside.length = v.nIn
  le : v.o.done = false → v.k ≤ v.o.prime ∧ v.o.prime ≤ v.k + 1
  cur : v.o.done = false → v.o.prime = v.k → v.c = 0 ∧ v.new = 0 ∧ v.o.fedZero = false ∧ (v.o.firstFeed = true → v.o.inside = [])
  nxt : v.o.done = false → v.o.prime = v.k + 1 → v.o.queue = [] ∧ v.o.firstFeed = true ∧ (∀ w ∈ v.o.inside, w = .worked) ∧
    v.c + v.new + v.o.fedZero.toNat + v.o.inside.length = 1
  dn : v.o.done = true → v.c = 0 ∧ v.new = 0
  st : v.st = true → v.o.done = true
  pd : 0 < v.pd → v.o.done = true
  pend : v.o.done = true → v.st = false → 1 ≤ v.pd + v.o.inside.length ∨ (v.o.fedZero = true ∧ 1 ≤ v.o.scheduled)

lemma itemInv_init (zero : V → Bool) : ItemInv zero ({ k := 0, o := {}, st := false, c := 0, new := 0, pd := 0, nS := 0, nIn := 0 } : View β V) := by
  constructor <;> simp
  exact .init

variable {zero : V → Bool}

lemma reach_prime_acc {o : Obj (β × V)} (h : RatQueue.Reach (fun x : β × V => zero x.2) false o) : RatQueue.Inv false o := RatQueue.reach_inv h

lemma item_feed {v : View β V} (h : ItemInv zero v) (xs : List (β × V)) (hx : xs ≠ []) (hst : v.st = false) :
    ItemInv zero { v with o := { (v.o.feed (fun x => zero x.2) false xs v.k).1 with scheduled := v.o.scheduled + if (v.o.feed (fun x => zero x.2) false xs v.k).2 then 1 else 0 }, nS := v.nS + if (v.o.feed (fun x => zero x.2) false xs v.k).2 then 1 else 0 } := by
  have hre := RatQueue.Reach.step h.reach (.feed v.o xs v.k hx)
  have hinv := RatQueue.reach_inv h.reach
  obtain ⟨h0, h1, h2, h3, h4, h5, h6, h7, h8, h9⟩ := h
  by_cases hacc : (!v.o.done && decide (v.k = v.o.prime)) = true
  swap
  · have e : v.o.feed (fun x => zero x.2) false xs v.k = (v.o, false) := by unfold Obj.feed; rw [if_neg hacc]
    rw [e]
    exact ⟨h0, h1, h2, h3, h4, h5, h6, h7, h8, h9⟩
  have hd : v.o.done = false := by simp at hacc; exact hacc.1
  have hk : v.o.prime = v.k := by simp at hacc; exact hacc.2.symm
  obtain ⟨c1, c2, c3, c4⟩ := h4 hd hk
  refine ⟨hre, by simp only [h1], ?_, ?_, ?_, ?_, ?_, ?_, ?_, ?_⟩
  all_goals
    clear hre
    have e : v.o.feed (fun x => zero x.2) false xs v.k = (if (v.o.feedBody (fun x => zero x.2) false xs).startInterp then ({ v.o.feedBody (fun x => zero x.2) false xs with startInterp := false }, true)
      else (v.o.feedBody (fun x => zero x.2) false xs, false)) := by unfold Obj.feed; rw [if_pos hacc]
    rw [e]
    by_cases hz : (v.o.firstFeed && (xs.head?.map (fun x => zero x.2)).getD false) = true
    · obtain ⟨hff, hz⟩ : v.o.firstFeed = true ∧ (xs.head?.map (fun x => zero x.2)).getD false = true := by simpa using hz
      have hq0 := hinv.first rfl hff
      have eb : v.o.feedBody (fun x => zero x.2) false xs = { v.o with startInterp := true, fedZero := true, zeroCounter := v.o.zeroCounter + 1, prime := v.o.prime + 1, done := v.o.done || (decide (v.o.zeroCounter + 1 = 3) && decide (v.o.prime + 1 = 3)) } := by
        simp [Obj.feedBody, hff, hz]
      rw [eb]
      have := c4 hff
      simp only [if_true]
      first
        | exact h2
        | (intro a; constructor <;> omega)
        | (intro a b; have b' : v.o.prime + 1 = v.k := b; omega)
        | (intro a b; refine ⟨hq0, hff, ?_, ?_⟩ <;> simp [this, c1, c2])
        | (intro a; exact ⟨c1, c2⟩)
        | (intro a; exact absurd (hst.symm.trans a) (by simp))
        | (intro a; exact absurd (hd.symm.trans (h8 a)) (by simp))
        | (intro a b; right; simp)
    · have eb : ∃ b, v.o.feedBody (fun x => zero x.2) false xs = ({ v.o with startInterp := b, firstFeed := false } : Obj (β × V)).enqueue xs := by
        rcases hff : v.o.firstFeed with _ | _
        · refine ⟨v.o.startInterp, ?_⟩
          simp only [Obj.feedBody, hff, Bool.false_eq_true, if_false, Bool.false_and]
          have : v.o = { v.o with startInterp := v.o.startInterp, firstFeed := false } := by rw [← hff]
          rw [← this]
        · refine ⟨true, ?_⟩
          have hz' : (xs.head?.map (fun x => zero x.2)).getD false = false := by simpa [hff] using hz
          simp only [Obj.feedBody, hff, hz', if_true]
          simp
      obtain ⟨b, eb⟩ := eb
      rw [eb]
      rcases b with _ | _ <;> simp only [Obj.enqueue, if_true, Bool.false_eq_true, if_false]
      all_goals
        first
        | exact h2
        | exact h3
        | (intro a b; exact ⟨c1, c2, c3, fun x => (by simp at x)⟩)
        | (intro a b; have b' : v.o.prime = v.k + 1 := b; omega)
        | (intro a; exact ⟨c1, c2⟩)
        | exact h7
        | (intro a; exact absurd (hd.symm.trans (h8 a)) (by simp))
        | (intro a; exact absurd (hd.symm.trans a) (by simp))

lemma item_skip {v : View β V} (h : ItemInv zero v) (hst : v.st = true) (hp : 0 < v.nS) :
    ItemInv zero { v with o := { v.o with scheduled := v.o.scheduled - 1 }, nS := v.nS - 1 } := by
  have hre := RatQueue.Reach.step h.reach (.drop v.o (by rw [h.sched]; exact hp) (Or.inl (h.st hst)))
  obtain ⟨h0, h1, h2, h3, h4, h5, h6, h7, h8, h9⟩ := h
  exact ⟨hre, by simp only [h1], h2, h3, h4, h5, h6, h7, h8, fun _ b => absurd (hst.symm.trans b) (by simp)⟩

lemma item_counted {v : View β V} (h : ItemInv zero v) (hc : 0 < v.c) : v.o.done = false ∧ v.o.prime = v.k + 1 ∧ v.o.queue = [] ∧ v.o.fedZero = false ∧ v.o.inside = [] ∧
    v.new = 0 ∧ v.c = 1 ∧ v.st = false ∧ v.o.firstFeed = true := by
  have hd : v.o.done = false := by
    by_contra hd
    have := h.dn (by simpa using hd)
    omega
  have hl := h.le hd
  have hp : v.o.prime = v.k + 1 := by
    by_contra hp
    have := h.cur hd (by omega)
    omega
  obtain ⟨n1, n2, n3, n4⟩ := h.nxt hd hp
  refine ⟨hd, hp, n1, ?_, List.eq_nil_of_length_eq_zero (by omega), by omega, by omega, ?_, n2⟩
  · by_contra hf
    rw [show v.o.fedZero = true by simpa using hf] at n4
    simp at n4; omega
  · by_contra hf
    have := h.st (by simpa using hf)
    rw [hd] at this; cases this

lemma item_drop {v : View β V} (h : ItemInv zero v) (hst : v.st.toNat + v.c = 1) (hp : 0 < v.nS) :
    ItemInv zero { v with o := { v.o with scheduled := v.o.scheduled - 1 }, nS := v.nS - 1 } := by
  rcases hs : v.st with _ | _
  · have hc : 0 < v.c := by rw [hs] at hst; simp at hst; omega
    obtain ⟨a1, a2, a3, a4, a5, a6, a7, a8, a9⟩ := item_counted h hc
    have hre := RatQueue.Reach.step h.reach (.drop v.o (by rw [h.sched]; exact hp) (Or.inr ⟨a3, a4⟩))
    obtain ⟨h0, h1, h2, h3, h4, h5, h6, h7, h8, h9⟩ := h
    rw [← hs]
    exact ⟨hre, by simp only [h1], h2, h3, h4, h5, h6, h7, h8, fun b => absurd (a1.symm.trans b) (by simp)⟩
  · rw [← hs]
    exact item_skip h hs hp

lemma item_effect {v : View β V} (h : ItemInv zero v) (x : β × V) (hin : v.o.inside = [.working x]) (e : RatQueue.Effect) :
    ItemInv zero { v with o := Obj.apply { v.o with inside := [.worked] } e } := by
  have hre := RatQueue.Reach.step h.reach (.effect v.o x [] [] e hin)
  simp only [List.nil_append] at hre
  obtain ⟨h0, h1, h2, h3, h4, h5, h6, h7, h8, h9⟩ := h
  rw [hin] at h2
  have hpr : v.o.done = false → v.o.prime = v.k := by
    intro hd
    by_contra hp
    obtain ⟨n1, n2, n3, n4⟩ := h5 hd (by have := h3 hd; omega)
    have := n3 (.working x) (by rw [hin]; simp)
    cases this
  have hff : v.o.done = false → v.o.firstFeed = false := by
    intro hd
    by_contra hf
    have := (h4 hd (hpr hd)).2.2.2 (by simpa using hf)
    rw [hin] at this; cases this
  cases e with
  | nothing =>
    simp only [Obj.apply] at hre ⊢
    refine ⟨hre, h1, h2, h3, fun a b => ?_, fun a b => ?_, h6, h7, h8, fun a b => Or.inl (by simp)⟩
    · obtain ⟨c1, c2, c3, c4⟩ := h4 a b
      exact ⟨c1, c2, c3, fun x => absurd ((hff a).symm.trans x) (by simp)⟩
    · have b' : v.o.prime = v.k + 1 := b
      have := hpr a
      omega
  | done =>
    simp only [Obj.apply] at hre ⊢
    refine ⟨hre, h1, h2, fun a => (by simp at a), fun a => (by simp at a), fun a => (by simp at a), fun _ => ?_, fun _ => rfl, fun _ => rfl, fun a b => Or.inl (by simp)⟩
    rcases hd : v.o.done with _ | _
    · have := h4 hd (hpr hd); exact ⟨this.1, this.2.1⟩
    · exact h6 hd
  | newPrime =>
    rcases hd : v.o.done with _ | _
    · have e1 : Obj.apply { v.o with inside := [.worked] } .newPrime = { v.o with inside := [.worked], prime := v.o.prime + 1, queue := [], firstFeed := true } := by
        simp [Obj.apply, hd]
      rw [e1] at hre ⊢
      have hk := hpr hd
      obtain ⟨c1, c2, c3, c4⟩ := h4 hd hk
      refine ⟨hre, h1, h2, fun a => ?_, fun a b => ?_, fun a b => ⟨rfl, rfl, by simp, ?_⟩, h6, h7, h8, fun a => absurd (hd.symm.trans a) (by simp)⟩
      · simp only; omega
      · simp only at b; omega
      · simp [c1, c2, c3]
    · have e1 : Obj.apply { v.o with inside := [.worked] } .newPrime = { v.o with inside := [.worked] } := by
        simp [Obj.apply, hd]
      rw [e1] at hre ⊢
      exact ⟨hre, h1, h2, fun a => absurd (hd.symm.trans a) (by simp), fun a => absurd (hd.symm.trans a) (by simp), fun a => absurd (hd.symm.trans a) (by simp), h6, h7, h8, fun a b => Or.inl (by simp)⟩

lemma item_loop {v : View β V} (h : ItemInv zero v) (hin : v.o.inside = [.worked]) (i : Fin m) (w' : Run m β V)
    (hw : w' = if v.o.queue.isEmpty then .interpRet i (lastRet (v.o.loopHead [])) else .interpIn i) :
    ItemInv zero { v with o := v.o.loopHead [], new := v.new + wNew i v.k w', pd := v.pd + wPD i w', nIn := v.nIn - 1 + wIn i w', nS := v.nS + wI0 i w' } := by
  have hre := RatQueue.Reach.step h.reach (.loop v.o [] [] hin)
  simp only [List.nil_append] at hre
  have hinv := RatQueue.reach_inv h.reach
  obtain ⟨h0, h1, h2, h3, h4, h5, h6, h7, h8, h9⟩ := h
  rw [hin] at h2
  simp only [List.length_cons, List.length_nil] at h2
  rcases hq : v.o.queue with _ | ⟨y, ys⟩
  · have e1 : v.o.loopHead [] = { v.o with isInterp := false, startInterp := true, inside := [], returned := v.o.returned ++ [(true, v.o.done, v.o.prime)] } := by
      simp only [Obj.loopHead, hq]
    have e2 : lastRet (v.o.loopHead []) = (true, v.o.done, v.o.prime) := by rw [e1]; simp [lastRet]
    rw [if_pos (by simp [hq]), e2] at hw
    rw [e1] at hre ⊢
    subst hw
    rcases hd : v.o.done with _ | _ <;> rw [hd] at hre
    · refine ⟨hre, h1, by simp [wIn]; omega, h3, fun a b => ?_, fun a b => ?_, fun a => absurd (hd.symm.trans a) (by simp), ?_, ?_, fun a => absurd (hd.symm.trans a) (by simp)⟩
      · have b' : v.o.prime = v.k := b
        obtain ⟨c1, c2, c3, c4⟩ := h4 hd b
        refine ⟨c1, ?_, c3, fun _ => rfl⟩
        simp [wNew, c2, b']
      · obtain ⟨n1, n2, n3, n4⟩ := h5 hd b
        have b' : v.o.prime = v.k + 1 := b
        refine ⟨hq, n2, by simp, ?_⟩
        rw [hin] at n4
        simp only [List.length_cons, List.length_nil] at n4
        simp [wNew, b']
        omega
      · exact fun a => absurd (hd.symm.trans (h7 a)) (by simp)
      · intro a
        simp [wPD] at a
        exact absurd (hd.symm.trans (h8 a)) (by simp)
    · refine ⟨hre, h1, by simp [wIn]; omega, h3, fun a => absurd (hd.symm.trans a) (by simp), fun a => absurd (hd.symm.trans a) (by simp), fun a => ?_, h7, fun _ => hd, fun _ _ => Or.inl ?_⟩
      · have := h6 hd
        simpa [wNew] using this
      · simp [wPD]
  · have e1 : v.o.loopHead [] = { v.o with queue := ys, inside := [.working y], popped := v.o.popped ++ [(v.o.prime, y)] } := by
      simp only [Obj.loopHead, hq]
    rw [if_neg (by simp [hq])] at hw
    rw [e1] at hre ⊢
    subst hw
    simp only [wNew, wPD, wIn, wI0, Nat.add_zero, if_true]
    have hff : v.o.firstFeed = false := by
      by_contra hf
      have := hinv.first rfl (by simpa using hf)
      rw [hq] at this; cases this
    refine ⟨hre, h1, by simp; omega, h3, fun a b => ?_, fun a b => ?_, h6, h7, h8, fun _ _ => Or.inl (by simp)⟩
    · obtain ⟨c1, c2, c3, c4⟩ := h4 a b
      exact ⟨c1, c2, c3, fun x => absurd (hff.symm.trans x) (by simp)⟩
    · obtain ⟨n1, n2, n3, n4⟩ := h5 a b
      rw [hq] at n1; cases n1

lemma item_call {v : View β V} (h : ItemInv zero v) (hp : 0 < v.nS) (hst : v.st = false) (i : Fin m) (w' : Run m β V)
    (hw : w' = if v.o.fedZero || v.o.isInterp || v.o.queue.isEmpty then .interpRet i (lastRet (Obj.enter { v.o with scheduled := v.o.scheduled - 1 })) else .interpIn i) :
    ItemInv zero { v with o := Obj.enter { v.o with scheduled := v.o.scheduled - 1 }, new := v.new + wNew i v.k w', pd := v.pd + wPD i w', nIn := v.nIn + wIn i w', nS := v.nS - 1 + wI0 i w' } := by
  have hre := RatQueue.Reach.step h.reach (.call v.o (by rw [h.sched]; exact hp))
  have hinv := RatQueue.reach_inv h.reach
  obtain ⟨h0, h1, h2, h3, h4, h5, h6, h7, h8, h9⟩ := h
  rcases hz : v.o.fedZero with _ | _
  · by_cases hc : (v.o.isInterp || v.o.queue.isEmpty) = true
    · have e1 : Obj.enter { v.o with scheduled := v.o.scheduled - 1 } = { v.o with scheduled := v.o.scheduled - 1, returned := v.o.returned ++ [(false, v.o.done, v.o.prime)] } := by
        simp only [Obj.enter, hz, hc, if_true, Bool.false_eq_true, if_false]
      have e2 : lastRet (Obj.enter { v.o with scheduled := v.o.scheduled - 1 }) = (false, v.o.done, v.o.prime) := by rw [e1]; simp [lastRet]
      rw [hz, Bool.false_or, if_pos hc, e2] at hw
      rw [e1] at hre ⊢
      subst hw
      simp only [wNew, wPD, wIn, wI0, Nat.add_zero]
      refine ⟨hre, by simp only [h1], h2, h3, h4, h5, h6, h7, h8, fun a b => ?_⟩
      rcases h9 a b with h | ⟨h, -⟩
      · exact Or.inl h
      · rw [hz] at h; cases h
    · have hc' : v.o.isInterp = false ∧ v.o.queue ≠ [] := by simpa using hc
      have hin : v.o.inside = [] := by
        have := hinv.one
        rw [hc'.1] at this
        exact List.eq_nil_of_length_eq_zero (by simpa using this)
      obtain ⟨y, ys, hq⟩ : ∃ y ys, v.o.queue = y :: ys := by
        rcases hq : v.o.queue with _ | ⟨y, ys⟩
        · exact absurd hq hc'.2
        · exact ⟨_, _, rfl⟩
      have e1 : Obj.enter { v.o with scheduled := v.o.scheduled - 1 } = { v.o with scheduled := v.o.scheduled - 1, isInterp := true, queue := ys, inside := [.working y], popped := v.o.popped ++ [(v.o.prime, y)] } := by
        simp only [Obj.enter, hz, hc, Bool.false_eq_true, if_false, Obj.loopHead, hq, hin]
        simp [hc'.1]
      rw [hz, Bool.false_or, if_neg hc] at hw
      rw [e1] at hre ⊢
      subst hw
      rw [hin] at h2
      simp only [wNew, wPD, wIn, wI0, Nat.add_zero, if_true]
      have hff : v.o.firstFeed = false := by
        by_contra hf
        have := hinv.first rfl (by simpa using hf)
        rw [hq] at this; cases this
      refine ⟨hre, by simp only [h1], by simp at h2 ⊢; omega, h3, fun a b => ?_, fun a b => ?_, h6, h7, h8, fun _ _ => Or.inl (by simp)⟩
      · obtain ⟨c1, c2, c3, c4⟩ := h4 a b
        exact ⟨c1, c2, hz, fun x => absurd (hff.symm.trans x) (by simp)⟩
      · obtain ⟨n1, n2, n3, n4⟩ := h5 a b
        rw [hq] at n1; cases n1
  · have e1 : Obj.enter { v.o with scheduled := v.o.scheduled - 1 } = { v.o with scheduled := v.o.scheduled - 1, fedZero := false, returned := v.o.returned ++ [(true, v.o.done, v.o.prime)] } := by
      simp only [Obj.enter, hz, if_true]
    have e2 : lastRet (Obj.enter { v.o with scheduled := v.o.scheduled - 1 }) = (true, v.o.done, v.o.prime) := by rw [e1]; simp [lastRet]
    rw [hz, Bool.true_or, Bool.true_or, if_pos rfl, e2] at hw
    rw [e1] at hre ⊢
    subst hw
    rcases hd : v.o.done with _ | _ <;> rw [hd] at hre
    · have hpr : v.o.prime = v.k + 1 := by
        by_contra hpr
        have := (h4 hd (by have := h3 hd; omega)).2.2.1
        rw [hz] at this; cases this
      obtain ⟨n1, n2, n3, n4⟩ := h5 hd hpr
      rw [hz] at n4
      simp only [Bool.toNat_true] at n4
      refine ⟨hre, by simp [h1, wI0], by simpa [wIn] using h2, h3, fun a b => ?_, fun a b => ⟨n1, n2, n3, ?_⟩, fun a => absurd (hd.symm.trans a) (by simp), h7, fun a => ?_, fun a => absurd (hd.symm.trans a) (by simp)⟩
      · have b' : v.o.prime = v.k := b
        omega
      · simp [wNew, hpr]; omega
      · simp [wPD] at a
        exact h8 a
    · refine ⟨hre, by simp [h1, wI0], by simpa [wIn] using h2, h3, fun a => absurd (hd.symm.trans a) (by simp), fun a => absurd (hd.symm.trans a) (by simp), fun a => ?_, h7, fun _ => hd, fun _ _ => Or.inl ?_⟩
      · have := h6 hd
        simpa [wNew] using this
      · simp [wPD]; omega

lemma item_new {v : View β V} (h : ItemInv zero v) (hn : 0 < v.new) : v.o.done = false ∧ v.o.prime = v.k + 1 ∧ v.c = 0 ∧ v.new = 1 := by
  have hd : v.o.done = false := by
    by_contra hd
    have := h.dn (by simpa using hd)
    omega
  have hl := h.le hd
  have hp : v.o.prime = v.k + 1 := by
    by_contra hp
    have := h.cur hd (by omega)
    omega
  obtain ⟨n1, n2, n3, n4⟩ := h.nxt hd hp
  exact ⟨hd, hp, by omega, by omega⟩

lemma item_retNew {v : View β V} (h : ItemInv zero v) (hn : 0 < v.new) : ItemInv zero { v with new := v.new - 1, c := v.c + 1 } := by
  obtain ⟨hd, hp, hc, hn1⟩ := item_new h hn
  obtain ⟨h0, h1, h2, h3, h4, h5, h6, h7, h8, h9⟩ := h
  obtain ⟨n1, n2, n3, n4⟩ := h5 hd hp
  refine ⟨h0, h1, h2, h3, fun a b => ?_, fun a b => ⟨n1, n2, n3, ?_⟩, fun a => absurd (hd.symm.trans a) (by simp), h7, h8, h9⟩
  · have b' : v.o.prime = v.k := b
    omega
  · simp only; omega

lemma item_retDone {v : View β V} (h : ItemInv zero v) (hn : 0 < v.pd) : ItemInv zero { v with pd := v.pd - 1, st := true } := by
  have hd := h.pd hn
  obtain ⟨h0, h1, h2, h3, h4, h5, h6, h7, h8, h9⟩ := h
  exact ⟨h0, h1, h2, h3, h4, h5, h6, fun _ => hd, fun _ => hd, fun _ b => by simp at b⟩

lemma item_advance {v : View β V} (h : ItemInv zero v) (hst : v.st.toNat + v.c = 1) (hnew : v.new = 0) (hpd : v.pd = 0) (hS : v.nS = 0) (hI : v.nIn = 0) :
    ItemInv zero { v with k := v.k + 1, c := 0 } := by
  have hin : v.o.inside = [] := List.eq_nil_of_length_eq_zero (by rw [h.ins, hI])
  rcases hs : v.st with _ | _
  · have hc : 0 < v.c := by rw [hs] at hst; simp at hst; omega
    obtain ⟨a1, a2, a3, a4, a5, a6, a7, a8, a9⟩ := item_counted h hc
    obtain ⟨h0, h1, h2, h3, h4, h5, h6, h7, h8, h9⟩ := h
    refine ⟨h0, h1, h2, fun _ => by simp only; omega, fun a b => ⟨rfl, hnew, a4, fun _ => hin⟩, fun a b => ?_, fun _ => ⟨rfl, hnew⟩, fun a => (by simp at a), h8, fun a => absurd (a1.symm.trans a) (by simp)⟩
    have b' : v.o.prime = v.k + 1 + 1 := b
    omega
  · have hd := h.st hs
    obtain ⟨h0, h1, h2, h3, h4, h5, h6, h7, h8, h9⟩ := h
    exact ⟨h0, h1, h2, fun a => absurd (hd.symm.trans a) (by simp), fun a => absurd (hd.symm.trans a) (by simp), fun a => absurd (hd.symm.trans a) (by simp), fun _ => ⟨rfl, hnew⟩, fun _ => hd, h8, fun _ b => (by simp at b)⟩

end FireFly.Scheduler
