import Verif.Model.PolyFF
/-!
# `ThieleInterpolator` (source/FFThieleInterpolator.cpp)
-/
namespace FireFly
variable {F : Type} [Field F] [DecidableEq F]

/-- The members `ai` and `ti` (source/include/firefly/FFThieleInterpolator.hpp 51-52). -/
structure Thiele (F : Type) where
  ai : List F := []
  ti : List F := []

/-- `comp_ai` (source/FFThieleInterpolator.cpp 46-56). -/
def Thiele.compAi (s : Thiele F) (i : ℕ) (num : F) : F :=
  (List.range' 1 i).foldl (fun (res : F) (ip : ℕ) =>
    (s.ti.getD i 0 - s.ti.getD (ip - 1) 0) / (res - s.ai.getD (ip - 1) 0)) num

/-- `comp_fyi` (source/FFThieleInterpolator.cpp 58-68). -/
def Thiele.compFyi (s : Thiele F) (i : ℕ) (y : F) : F :=
  (List.range' 1 i).foldl (fun (res : F) (ip : ℕ) =>
    s.ai.getD (i - ip) 0 + (-s.ti.getD (i - ip) 0 + y) / res) (s.ai.getD i 0)

/-- `add_point` (source/FFThieleInterpolator.cpp 25-39): the new state and the returned value. -/
def Thiele.addPoint (s : Thiele F) (num yi : F) : Thiele F × Bool :=
  let s := { s with ti := s.ti ++ [yi] }
  let i := s.ti.length - 1
  if i = 0 then ({ s with ai := s.ai ++ [num] }, false)
  else
    let check := decide (num = s.compFyi (i - 1) yi)
    if check then (s, true) else ({ s with ai := s.ai ++ [s.compAi i num] }, false)

/-- The loop of `iterate_canonical` (source/FFThieleInterpolator.cpp 95-99), `i_tmp` down to 1. -/
def Thiele.loop (s : Thiele F) : ℕ → FFMap F × FFMap F → FFMap F × FFMap F
  | 0, r => r
  | i + 1, r =>
    s.loop i (PolyFF.add (PolyFF.add (PolyFF.scale r.1 (s.ai.getD (i + 1) 0)) (PolyFF.mulVar r.2 1))
      (PolyFF.scale r.2 (-s.ti.getD (i + 1) 0)), r.1)

/-- `iterate_canonical` (source/FFThieleInterpolator.cpp 85-102), for at least two coefficients. -/
def Thiele.iterate (s : Thiele F) : FFMap F × FFMap F :=
  s.loop (s.ai.length - 2) ([([0], s.ai.getD (s.ai.length - 1) 0)], [([0], 1)])

/-- `construct_canonical` (source/FFThieleInterpolator.cpp 70-83). -/
def Thiele.construct (s : Thiele F) : FFMap F × FFMap F :=
  if s.ai.length = 1 then ([([0], s.ai.getD 0 0)], [([0], 1)])
  else
    let r := s.iterate
    (PolyFF.add (PolyFF.add (PolyFF.scale r.1 (s.ai.getD 0 0)) (PolyFF.scale r.2 (-s.ti.getD 0 0)))
      (PolyFF.mulVar r.2 1), r.1)

/-- `get_result` (source/FFThieleInterpolator.cpp 41-44). -/
def Thiele.getResult (s : Thiele F) : FFMap F × FFMap F :=
  ({ s with ti := s.ti.dropLast } : Thiele F).construct

/-- Feeding a sequence of `(num, yi)` pairs to a fresh interpolator until `add_point` returns true. -/
def Thiele.run : Thiele F → List (F × F) → Thiele F × Bool
  | s, [] => (s, false)
  | s, pt :: rest =>
    let r := s.addPoint pt.1 pt.2
    if r.2 then r else Thiele.run r.1 rest

end FireFly
