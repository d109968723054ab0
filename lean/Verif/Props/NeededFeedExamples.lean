import Verif.Props.NeededFeedProps
import Verif.Props.RatLaterExamples
import Verif.Props.RatShiftExamples
/-!
# C65: examples
-/
set_option linter.all false
namespace FireFly.Needed
open MvPolynomial

/-- `(3 x + 7 y) / (1 + 5 x)` without shift: the numerator needs two order vectors, the denominator one -/
lemma exPlain : Described 2 (fun q => q ∈ RLater.exProbes) (RLater.obj RLater.exCfg RLater.exUN RLater.exUD (RLater.value RLater.exCfg.anchor RLater.exN RLater.exD)) [2, 1]
    (fun s => (s.out = some .accepted ∧ ∃ t, RLater.Passes RLater.exCfg RLater.exN RLater.exD t (ones 2 1)) ∨
      ∃ num den, s.out = some (.solved num den) ∧ WFMap 2 num ∧ WFMap 2 den ∧ denote num = RLater.exN ∧ denote den = RLater.exD) :=
  Described.plain RLater.exCfg RLater.exN RLater.exD RLater.exUN RLater.exUD rfl (exGt_spec 101) rfl RLater.exN_split RLater.exD_split (Or.inl (by simp [RLater.exUN])) (by intro g hg; simp [RLater.exCfg] at hg) RLater.exProbes_good

/-- two probes for `(1)`, one for `(2)` -/
example : requests [2, 1] = [(1, 2), (2, 1)] := by decide

/-- Two such objects: there is a run to the end, and both have the right result there. -/
example : ∃ s, Reaches (fun _ : Fin 2 => RLater.obj RLater.exCfg RLater.exUN RLater.exUD (RLater.value RLater.exCfg.anchor RLater.exN RLater.exD)) 2 (fun q => q ∈ RLater.exProbes) (Fld.start _ 2 [1]) s ∧
    s.Quiet ∧ ∀ i : Fin 2, ∃ num den, (s.st i).out = some (.solved num den) ∧ denote num = RLater.exN ∧ denote den = RLater.exD := by
  have hg : ∀ t ∈ ([1] : List (ZMod 101)), (t, ones 2 1) ∈ RLater.exProbes := by decide
  obtain ⟨s, h1, h2⟩ := C65_finishes (ι := Fin 2) (E := fun _ => [2, 1]) (fun _ => exPlain) [1] (by decide) hg (fun _ el hel => by
    rw [show requests [2, 1] = [(1, 2), (2, 1)] by decide] at hel
    simp only [List.mem_cons, List.not_mem_nil, or_false] at hel
    rcases hel with rfl | rfl
    · exact ⟨[1, 2], by decide, by decide, by decide⟩
    · exact ⟨[5], by decide, by decide, by decide⟩) _ Relation.ReflTransGen.refl
  refine ⟨s, h1, h2, fun i => ?_⟩
  obtain ⟨-, h3⟩ := C65_all (ι := Fin 2) (E := fun _ => [2, 1]) (fun _ => exPlain) [1] (by decide) (by decide) hg s h1 h2 i
  rcases h3 with ⟨-, t, g, hg, -⟩ | ⟨num, den, e1, -, -, e2, e3⟩
  · simp [RLater.exCfg] at hg
  · exact ⟨num, den, e1, e2, e3⟩

/-- `(x + 2 y) / x` with the shift `(1, 1)` -/
lemma exShift : Described 2 (fun q => q ∈ RShift.exProbes) (RShift.obj RShift.exCfg (RMulti.valueOf RShift.exCfg.shift RShift.exCfg.anchor RShift.exN RShift.exD))
    (parts 2 (!RShift.exCfg.normDen) RShift.exCfg.num ++ parts 2 RShift.exCfg.normDen RShift.exCfg.den)
    (fun s => (s.out = some .accepted ∧ ∃ t, RShift.Passes RShift.exCfg RShift.exN RShift.exD t (ones 2 1)) ∨ ∃ num den, s.out = some (.solved num den) ∧ RShift.Right RShift.exCfg RShift.exN RShift.exD num den) :=
  Described.shift RShift.exCfg RShift.exN RShift.exD rfl (exGt_spec 101) RShift.exProb (by intro g hg; simp [RShift.exCfg] at hg) RShift.exProbes_good

lemma exOrders : (RShift.asked 2 (!RShift.exCfg.normDen) RShift.exCfg.num = {0, 1} ∧ RShift.asked 2 RShift.exCfg.normDen RShift.exCfg.den = {1}) ∧
    (orders (!RShift.exCfg.normDen) RShift.exCfg.num 0 = 1 ∧ orders (!RShift.exCfg.normDen) RShift.exCfg.num 1 = 2 ∧ orders RShift.exCfg.normDen RShift.exCfg.den 1 = 1) := by decide +kernel

/-- three probes for `(1)`, one for `(2)` -/
lemma exShiftRequests : requests (parts 2 (!RShift.exCfg.normDen) RShift.exCfg.num ++ parts 2 RShift.exCfg.normDen RShift.exCfg.den) = [(1, 3), (2, 1)] := by
  have h1 : (parts 2 (!RShift.exCfg.normDen) RShift.exCfg.num ++ parts 2 RShift.exCfg.normDen RShift.exCfg.den).Perm [1, 2, 1] := by
    apply List.Perm.append (l₂ := [1, 2]) (t₂ := [1])
    · unfold parts
      rw [exOrders.1.1]
      refine ((show (({0, 1} : Finset ℕ)).toList.Perm [0, 1] from ?_).map _).trans (by simp [exOrders.2])
      rw [List.perm_ext_iff_of_nodup (Finset.nodup_toList _) (by simp)]
      intro a; simp
    · unfold parts
      rw [exOrders.1.2]
      simp [exOrders.2]
  rw [RShift.requests_perm h1]; decide

/-- there is a run to the end, and the result is right there -/
example : ∃ s, Reaches (fun _ : Unit => RShift.obj RShift.exCfg (RMulti.valueOf RShift.exCfg.shift RShift.exCfg.anchor RShift.exN RShift.exD)) 2 (fun q => q ∈ RShift.exProbes) (Fld.start _ 2 [1]) s ∧
    s.Quiet ∧ ∃ num den, (s.st ()).out = some (.solved num den) ∧ RShift.Right RShift.exCfg RShift.exN RShift.exD num den := by
  have hg : ∀ t ∈ ([1] : List (ZMod 101)), (t, ones 2 1) ∈ RShift.exProbes := by decide
  obtain ⟨s, h1, h2⟩ := C65_finishes (ι := Unit) (fun _ => exShift) [1] (by decide) hg (fun _ el hel => by
    have hel : el ∈ [(1, 3), (2, 1)] := by rw [← exShiftRequests]; exact hel
    simp only [List.mem_cons, List.not_mem_nil, or_false] at hel
    rcases hel with rfl | rfl
    · exact ⟨[1, 2, 3], by decide, by decide, by decide⟩
    · exact ⟨[1], by decide, by decide, by decide⟩) _ Relation.ReflTransGen.refl
  refine ⟨s, h1, h2, ?_⟩
  obtain ⟨-, h3⟩ := C65_all (ι := Unit) (fun _ => exShift) [1] (by decide) (by decide) hg s h1 h2 ()
  rcases h3 with ⟨-, t, g, hg, -⟩ | ⟨num, den, e1, e2⟩
  · simp [RShift.exCfg] at hg
  · exact ⟨num, den, e1, e2⟩

/-- a saved state: one probe for `(1)` is stored, `(2)` is complete -/
example : resume [(1, 3), (2, 1)] [([1], [(7, 8)]), ([2], [(5, 6), (3, 4)]), ([3], [(1, 1)])] = some ([(1, 2), (2, 0)], [(7, 8, [1]), (5, 6, [2]), (3, 4, [2]), (1, 1, [3])]) := by decide

/-- the first field: five equations are needed, two probes are stored, three are started -/
example : ((Req.askOrder 5 { started := [([1], 3)], queued := [] } ([1], 5 - 2)).started, (Req.askOrder 5 { started := [([1], 3)], queued := [] } ([1], 5 - 2)).queued) = ([([1], 5)], [[1], [1]]) := by decide

end FireFly.Needed
