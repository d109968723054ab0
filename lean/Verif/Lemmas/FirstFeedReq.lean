import Verif.Lemmas.FirstFeedObj
/-! # The request of an object -/
set_option linter.all false
namespace FireFly
open MvPolynomial

namespace First

/-- An object, seen from the Reconstructor: `J past s φ` holds after the probes `past`; `φ` bounds the number of changes of its request; `early` says that the degrees are not known. -/
structure Obj.OK {F : Type} (ob : Obj F) (n : ℕ) (good : F × List ℕ → Prop) (B L M : ℕ) (J : List (F × List ℕ) → ob.S → ℕ → Prop) (early : ob.S → Bool) (right : ob.S → Prop) : Prop where
  init : J [] ob.init M
  feed : ∀ past q s φ, J past s φ → (past ++ [q]).Nodup → (∀ x ∈ past ++ [q], good x) → ∃ s' φ', ob.feed s q = some s' ∧ J (past ++ [q]) s' φ' ∧
    (φ' < φ ∨ (φ' ≤ φ ∧ (ob.orders s').map (fun r => (r.1.map Prod.fst, r.2)) = (ob.orders s).map (fun r => (r.1.map Prod.fst, r.2)) ∧ ob.done s' = ob.done s))
  wants : ∀ past s φ, J past s φ → past.Nodup → ob.done s = false → ∃ l size, ob.orders s = some (l, size) ∧ l.length ≤ L ∧ (early s = false → size ≤ B) ∧
    (early s = true → (∃ k, l = [(List.replicate (n - 1) 1, k)]) ∧ cnt past (List.replicate (n - 1) 1) ≤ M) ∧
    (early s = false → (∃ o rest, l = (o, size - cnt past o) :: rest ∧ cnt past o < size) ∧ ∀ el ∈ l, el.1 ≠ List.replicate (n - 1) 1 ∧ ∃ sv ≤ cnt past el.1, el.2 = RMulti.wrapSub size sv)
  result : ∀ past s φ, J past s φ → ob.done s = true → right s

end First

namespace RMulti
variable {F : Type} [Field F] [DecidableEq F] {c : Cfg F} {bounds : Option (List ℕ)} {Q N D : MvPolynomial ℕ F} {m T mN mD : ℕ} {G : F → List ℕ → Prop}

lemma Rec.vand {bounds : Option (List ℕ)} {k : ℕ} {p : MvPolynomial ℕ F} {mm : ℕ} {st : MPoly.St F} (h : Rec (c.poly bounds k) p mm st) : 1 ≤ st.vandermonde ∧ st.vandermonde ≤ bnd c k p + 1 := by
  obtain ⟨f, h1, h2⟩ := h
  unfold MPoly.St.vandermonde
  rcases h2 with ⟨-, rfl⟩ | ⟨h2, m1, h3, h4⟩
  · exact ⟨by simp [MPoly.Cfg.init], by simp [MPoly.Cfg.init]⟩
  · cases h4 with
    | first h => rw [h.zi]; simp
    | @later s i j R _ h =>
      have hz : st.zi ≠ 1 := by rw [h.zi]; have := h.pos; omega
      rw [if_neg hz, h.recDegs, h.nums]
      simp only [List.length_map, List.length_range]
      have := h.jle; have := h.jpos
      refine ⟨by omega, ?_⟩
      have hR : R.length ≤ (MPoly.keysOf f).card := by
        rw [← List.toFinset_card_of_nodup h.nodup]
        refine le_trans (Finset.card_le_card (fun x hx => h.sub x (List.mem_toFinset.mp hx))) ?_
        unfold MPoly.KK
        exact Finset.card_image_le
      have hb : (MPoly.keysOf f).card ≤ bnd c k p := by
        unfold bnd
        rw [← h1, ← support_card h2.wf h2.nonzero, MPoly.keysOf_card h2.wf.1]
        have hv : 0 < c.n - 1 := h2.vars
        have e : 1 * (1 * f.length) ≤ (c.n - 1) * ((2 * (k + 1) + c.thr + 1) * f.length) := Nat.mul_le_mul hv (Nat.mul_le_mul (by omega) le_rfl)
        simpa using e
      omega

lemma pickVand_fst : ∀ (l : List (ℕ × MPoly.St F)) (b : (ℕ × List ℕ) × ℕ), (pickVand l b).1 = pickNext l b.1 := by
  intro l
  induction l with
  | nil => intro b; rfl
  | cons t l ih =>
    intro b
    unfold pickVand pickNext at ih ⊢
    rw [List.foldl_cons, List.foldl_cons, ih]
    congr 1
    split_ifs <;> rfl

lemma pickVand_snd {A B : ℕ} : ∀ (l : List (ℕ × MPoly.St F)) (b : (ℕ × List ℕ) × ℕ), (∀ t ∈ l, A ≤ t.2.vandermonde ∧ t.2.vandermonde ≤ B) → A ≤ b.2 → b.2 ≤ B →
    A ≤ (pickVand l b).2 ∧ (pickVand l b).2 ≤ B := by
  intro l
  induction l with
  | nil => intro b _ h1 h2; exact ⟨h1, h2⟩
  | cons t l ih =>
    intro b h h1 h2
    have ht := h t (by simp)
    unfold pickVand at ih ⊢
    rw [List.foldl_cons]
    apply ih _ (fun x hx => h x (by simp [hx]))
    · split_ifs <;> first | exact ht.1 | exact h1
    · split_ifs <;> first | exact ht.2 | exact h2

lemma Both.vand (hp : Prob c N D mN mD) {s : St F} (h : Both c N D mN mD s) : 1 ≤ c.vand s ∧ c.vand s ≤ c.fuel := by
  have hs := hp.okN.fuel 0 (by omega)
  unfold Cfg.vand
  apply pickVand_snd
  · intro t ht
    have key : ∀ {bounds : Option (List ℕ)} {Q : MvPolynomial ℕ F} {m : ℕ} {sd : Side F}, SideOK c bounds Q m → Half c bounds Q m sd → t ∈ sd.coefs → 1 ≤ t.2.vandermonde ∧ t.2.vandermonde ≤ c.fuel := by
      intro bounds Q m sd hok hh ht
      have := (hh.el t ht).vand
      obtain ⟨T, hi⟩ := hh.inv
      have hle := hok.le (hi.el t.1 (List.mem_map.mpr ⟨t, ht, rfl⟩)).2
      have hf := hok.tgt_fuel sd.dense hle
      exact ⟨this.1, by omega⟩
    rcases List.mem_append.mp ht with ht | ht
    · exact key hp.okN h.num ht
    · exact key hp.okD h.den ht
  · exact le_rfl
  · show 1 ≤ c.fuel; omega

lemma advance_getD (zi : ℕ) (ord : List ℕ) (i j : ℕ) (hj : zi ≤ j + 2) : (advance zi ord i).getD j 0 = ord.getD j 0 := by
  unfold advance
  by_cases h : j < ord.length
  · rw [List.getD_eq_getElem _ _ (by simpa using h), List.getD_eq_getElem _ _ h, List.getElem_mapIdx, if_neg (by omega)]
  · rw [List.getD_eq_default _ _ (by simpa using h), List.getD_eq_default _ _ (by omega)]

open First in
lemma cnt_pts {past : List (F × List ℕ)} {ord : List ℕ} {pts : List F} (hnd : past.Nodup) (hp : pts.Nodup) (h : ∀ t, (t, ord) ∈ past ↔ t ∈ pts) : cnt past ord = pts.length := by
  unfold cnt
  have h1 : (past.filter (fun q => decide (q.2 = ord))).map Prod.fst |>.Nodup := by
    refine List.Nodup.map_on ?_ (hnd.filter _)
    intro x hx y hy hxy
    have e1 : x.2 = ord := by simpa using (List.mem_filter.mp hx).2
    have e2 : y.2 = ord := by simpa using (List.mem_filter.mp hy).2
    exact Prod.ext hxy (e1.trans e2.symm)
  have h2 : ((past.filter (fun q => decide (q.2 = ord))).map Prod.fst).Perm pts := by
    rw [List.perm_ext_iff_of_nodup h1 hp]
    intro t
    rw [← h t]
    constructor
    · intro ht
      obtain ⟨y, hy, rfl⟩ := List.mem_map.mp ht
      obtain ⟨e1, e2⟩ := List.mem_filter.mp hy
      have e2 : y.2 = ord := by simpa using e2
      rw [← e2]; exact e1
    · intro ht
      exact List.mem_map.mpr ⟨(t, ord), List.mem_filter.mpr ⟨ht, by simp⟩, rfl⟩
  have := h2.length_eq
  simpa using this

open First in
lemma pool_cnt {past : List (F × List ℕ)} {sv : FFMap (List (F × F))} (h : Pool c N D past sv) (hnd : past.Nodup) (o : List ℕ) : ((sv.find? o).getD []).length ≤ cnt past o := by
  cases hf : sv.find? o with
  | none => simp
  | some l =>
    have hm := FFMap.find?_mem hf
    have h1 := h.nodup _ hm
    have h2 := h.right _ hm
    simp only [Option.getD_some]
    unfold cnt
    have : l.length = (l.map (fun q => ((q.1, o) : F × List ℕ))).length := by simp
    rw [this]
    apply List.Subperm.length_le
    apply List.subperm_of_subset
    · have h1 : (l.map Prod.fst).Nodup := h1
      have e : l.map (fun q => ((q.1, o) : F × List ℕ)) = (l.map Prod.fst).map (fun t => (t, o)) := by rw [List.map_map]; rfl
      rw [e]
      exact h1.map (fun a b hab => (Prod.mk.inj hab).1)
    · intro x hx
      obtain ⟨q, hq, rfl⟩ := List.mem_map.mp hx
      exact List.mem_filter.mpr ⟨(h2 q hq).1, by simp⟩

lemma SameReq.orders {s s' : St F} (h : SameReq s s') : (c.orders s').map (fun r => (r.1.map Prod.fst, r.2)) = (c.orders s).map (fun r => (r.1.map Prod.fst, r.2)) := by
  obtain ⟨h1, h2, h3, h4, h5, h6, h7⟩ := h
  unfold Cfg.orders Cfg.vand
  rw [h2, h3, h4, h5, h6]
  split_ifs
  · rfl
  · rfl
  · simp only [Option.map_some, List.map_cons, List.map_map]; rfl

open First in
lemma Inv2.wants (hp : Prob c N D mN mD) {past : List (F × List ℕ)} {s : St F} {φ : ℕ} (h : Inv2 c N D mN mD G past s φ) (hnd : past.Nodup) (hr : s.result = none) :
    ∃ l size, c.orders s = some (l, size) ∧ l.length ≤ c.fuel ∧ (s.known = true → size ≤ mN + mD + 2) ∧
    (s.known = false → ∃ k, l = [(ones c, k)]) ∧
    (s.known = true → (∃ o rest, l = (o, size - cnt past o) :: rest ∧ cnt past o < size) ∧ ∀ el ∈ l, el.1 ≠ ones c ∧ ∃ sv ≤ cnt past el.1, el.2 = wrapSub size sv) := by
  have hfuel : 2 ≤ c.fuel := by have := hp.okN.fuel 0 (by omega); omega
  rcases h with ⟨-, r, h, -⟩ | ⟨h, hacc, ⟨hzi, hlt⟩, hφ⟩ | ⟨pts, h, hn, hφ⟩
  · rw [hr] at h; simp at h
  · unfold Cfg.orders
    rw [if_pos hzi]
    exact ⟨_, _, rfl, by simp; omega, fun hk => by rw [h.known] at hk; simp at hk, fun _ => ⟨_, by rw [h.ord]⟩, fun hk => by rw [h.known] at hk; simp at hk⟩
  · have hrun := h.late.run
    have hk := hrun.both.known
    have hlt := hrun.lt
    have hcnt : cnt past s.ord = pts.length := by
      rw [cnt_pts hnd hrun.rows.nodup, List.length_map]
      intro t
      constructor
      · intro ht
        rcases h.acc t _ ht with ⟨-, x⟩ | ⟨l, x, -⟩ | x
        · exact x
        · rw [hn] at x; simp at x
        · exact absurd rfl (x.ne hp hrun.both hrun.asks h.fresh)
      · intro ht
        obtain ⟨q, hq, rfl⟩ := List.mem_map.mp ht
        exact h.late.past q hq
    have hrows : s.rows.length = pts.length := by rw [hrun.rows.rows]; simp
    have hone : s.ord ≠ ones c := fun h0 => (h.first.ne hp hrun.both hrun.asks h.fresh) h0.symm
    have hhead : wrapSub s.numEqn s.rows.length = s.numEqn - cnt past s.ord := by
      rw [hrows, hcnt]; unfold wrapSub; rw [if_pos (by omega)]
    have hsize : s.numEqn ≤ mN + mD + 2 := by
      obtain ⟨_, a⟩ := hrun.both.num.inv
      obtain ⟨_, b⟩ := hrun.both.den.inv
      rw [hrun.eqn]
      have := a.count
      have := b.count
      omega
    have hent : s.ord ≠ ones c ∧ ∃ sv ≤ cnt past s.ord, s.numEqn - cnt past s.ord = wrapSub s.numEqn sv :=
      ⟨hone, s.rows.length, by omega, hhead.symm⟩
    obtain ⟨v1, v2⟩ := hrun.both.vand hp
    unfold Cfg.orders
    rw [hn]
    split_ifs with hz hv
    · refine ⟨_, _, rfl, by simp; omega, fun _ => hsize, fun h0 => by rw [hk] at h0; simp at h0, fun _ => ⟨⟨s.ord, [], by rw [hhead], by omega⟩, ?_⟩⟩
      intro el hel
      rw [List.mem_singleton.mp hel]
      dsimp only
      rw [hhead]; exact hent
    · omega
    · refine ⟨_, _, rfl, by simp; omega, fun _ => hsize, fun h0 => by rw [hk] at h0; simp at h0, fun _ => ⟨⟨s.ord, _, by rw [hhead], by omega⟩, ?_⟩⟩
      intro el hel
      rcases List.mem_cons.mp hel with rfl | hel
      · dsimp only
        rw [hhead]; exact hent
      · obtain ⟨i, -, rfl⟩ := List.mem_map.mp hel
        refine ⟨?_, _, pool_cnt h.late.pool hnd _, rfl⟩
        intro h0
        obtain ⟨z1, z2⟩ := Run.ziOrd hp hrun.both hrun.asks
        have h1 := congrArg (fun l => l.getD (s.zi - 2) 0) h0
        dsimp only at h1
        rw [advance_getD _ _ _ _ (by omega)] at h1
        have h2 : (ones c).getD (s.zi - 2) 0 ≤ 1 := by
          unfold ones
          by_cases hl : s.zi - 2 < c.n - 1
          · rw [List.getD_eq_getElem _ _ (by simpa using hl)]; simp
          · rw [List.getD_eq_default _ _ (by simpa using hl)]; omega
        rcases z2.two with h3 | h3
        · omega
        · rw [show s.zi - 1 - 1 = s.zi - 2 by omega] at h3
          omega

open First in
lemma Inv2.few (hp : Prob c N D mN mD) {past : List (F × List ℕ)} {s : St F} {φ : ℕ} (h : Inv2 c N D mN mD G past s φ) (hr : s.result = none) (hk : s.known = false) :
    cnt past (ones c) ≤ maxProbes c N D mN mD := by
  rcases h with ⟨-, r, h, -⟩ | ⟨h, hacc, ⟨hzi, hlt⟩, hφ⟩ | ⟨pts, h, hn, hφ⟩
  · rw [hr] at h; simp at h
  · have e : (first c N D past).length = cnt past (ones c) := by rw [first_eq]; simp [cnt]
    unfold maxProbes; omega
  · rw [h.late.run.both.known] at hk; simp at hk

open First in
lemma obj_ok (gtp : PivotOrder c.gt) (hp : Prob c N D mN mD) {good : F × List ℕ → Prop} (hG : GoodPts c N D (fun t ord => good (t, ord))) (hTG : ThieleGood c N D mN mD (fun t ord => good (t, ord))) :
    (obj c (valueOf c.shift c.anchor N D)).OK c.n good (mN + mD + 2) c.fuel (maxProbes c N D mN mD) (Inv2 c N D mN mD (fun t ord => good (t, ord))) (fun s => !s.known)
      (fun s => ∃ r, s.result = some r ∧ Good c N D r) := by
  refine ⟨Inv2.start c N D mN mD _, ?_, ?_, ?_⟩
  · intro past q s φ h hnd hg
    obtain ⟨s', φ', e1, e2, e3⟩ := feed2 gtp hp hG hTG (q := q) hg hnd h
    refine ⟨s', φ', e1, e2, ?_⟩
    rcases e3 with e3 | ⟨e3, e4, e5⟩
    · exact Or.inl e3
    · refine Or.inr ⟨e3, e4.orders, ?_⟩
      show s'.result.isSome = s.result.isSome; rw [e4.2.2.2.2.2.2]
  · intro past s φ h hnd hr
    have hr : s.result = none := by simpa [obj] using hr
    obtain ⟨l, size, h1, h2, h3, h4, h5⟩ := h.wants hp hnd hr
    exact ⟨l, size, h1, h2, fun h => h3 (by simpa using h), fun h0 => ⟨h4 (by simpa using h0), h.few hp hr (by simpa using h0)⟩, fun h => h5 (by simpa using h)⟩
  · intro past s φ h hd
    have hd : s.result.isSome = true := hd
    rcases h with ⟨-, r, h, hg⟩ | ⟨h, hacc, ⟨hzi, hlt⟩, hφ⟩ | ⟨pts, h, hn, hφ⟩
    · exact ⟨r, h, hg.1⟩
    · rw [h.result] at hd; simp at hd
    · rw [h.late.run.both.result] at hd; simp at hd

end RMulti
end FireFly
