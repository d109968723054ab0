import Verif.Model.RatReconst
import Verif.Model.MultiPoly
import Verif.Model.PolyFF
/-!
# `PolyReconst` over several prime fields (source/PolyReconst.cpp 32-53, 75-157, 475-529, 535-547, 591-602)

The interpolation in one prime field (`Model/MultiPoly.lean`), the guess of the rational coefficients and the combination of the residues put together: the life of an object that is not used by
`RatReconst` (`with_rat_reconst == false`), from the constructor to `done`. Any number of variables. Mutexes are left out (one thread interpolates at a time, `is_interpolating`).
-/
namespace FireFly.PRun

/-- The members that survive a change of the prime field: `combined_ci`, `combined_prime`, `use_chinese_remainder`, `new_prime`, `prime_number`. -/
structure Cross where
  ci : MpzMap := []
  prime : ℤ
  crt : Bool := false
  newPrime : Bool := false
  primeNumber : ℕ := 0

/-- The object while the prime is `p`; `done` with `gi`. -/
structure Obj (p : ℕ) where
  cross : Cross
  st : MPoly.St (ZMod p)
  done : Option RnMap := none

/-- The new object (source/PolyReconst.cpp 32-53; `new_prime` is `false`, source/include/firefly/BaseReconst.hpp 116) for the first prime `p0`. -/
def Cross.initial (p0 : ℕ) : Cross := { prime := p0 }

/-- The guess (source/PolyReconst.cpp 123-133): `some none` if a coefficient cannot be reconstructed. -/
def guess (M : ℤ) : MpzMap → RnMap → Option (Option RnMap)
  | [], g => some (some g)
  | t :: ts, g => do
    let w ← getRationalCoef t.2 M
    if w.1 then guess M ts (g.emplace t.1 w.2) else some none

/-- The Chinese remainders (source/PolyReconst.cpp 482-506): the new residues and the new modulus, which is 0 if there is no coefficient (`p3` is not set). `gi` is empty. -/
def crtMaps (inv : ℤ → ℤ → ℤ) (ci : MpzMap) (M : ℤ) (tmp : MpzMap) (p : ℤ) : MpzMap × ℤ :=
  let tmp := ci.foldl (fun (tmp : MpzMap) el => if tmp.find? el.1 = none then tmp.emplace el.1 0 else tmp) tmp
  tmp.foldl (fun (acc : MpzMap × ℤ) t =>
    let r := runChineseRemainder inv ((acc.1.find? t.1).getD 0, M) (t.2, p)
    (acc.1.set t.1 r.1, r.2)) (ci, 0)

/-- The end of a prime field (source/PolyReconst.cpp 475-507, 526-528). -/
def Cross.combine (inv : ℤ → ℤ → ℤ) {p : ℕ} (c : Cross) (res : FFMap (ZMod p)) : Cross :=
  let k := if c.crt then crtMaps inv c.ci c.prime (convertToMpz res) p else (convertToMpz res, c.prime)
  { c with ci := k.1, prime := k.2, newPrime := true, primeNumber := c.primeNumber + 1 }

section
variable {p : ℕ} [Fact p.Prime]

/-- `test_guess` (source/PolyReconst.cpp 591-602) -/
def testGuess (cfg : MPoly.Cfg (ZMod p)) (g : RnMap) (num : ZMod p) : Option Bool :=
  (PolyFF.calc cfg.n (convertToFF p g) ((List.range' 1 cfg.n).map (fun i => cfg.point i 1))).map (fun v => decide (v = num))

/-- A value for the wanted orders (source/PolyReconst.cpp 160-529). At the end of the field `curr_zi_order` is `(1, …, 1)`; the other containers are cleared at the beginning of the next field
(110-120, 153) or are empty already (`nums`, `tmp_solved_degs`), `rec_degs` is overwritten before it is used. The model puts them into their initial state at once. -/
def Obj.work (inv : ℤ → ℤ → ℤ) (cfg : MPoly.Cfg (ZMod p)) (o : Obj p) (num : ZMod p) (ord : List ℕ) : Option (Obj p) := do
  let st ← cfg.interpolate o.st num ord
  match st.result with
  | none => some { o with st := st }
  | some res => some { o with cross := o.cross.combine inv res, st := cfg.init }

/-- `interpolate(num, feed_zi_ord)` (source/PolyReconst.cpp 101-533). -/
def Obj.interpolate (inv : ℤ → ℤ → ℤ) (cfg : MPoly.Cfg (ZMod p)) (o : Obj p) (num : ZMod p) (ord : List ℕ) : Option (Obj p) := do
  if ord = o.st.ord ∧ o.done = none then
    if o.cross.newPrime then
      match ← guess o.cross.prime o.cross.ci [] with
      | some g =>
        if ← testGuess cfg g num then
          some { o with done := some g, cross := { o.cross with prime := 0, ci := [], crt := false, newPrime := false } }
        else ({ o with cross := { o.cross with crt := true, newPrime := false } } : Obj p).work inv cfg num ord
      | none => ({ o with cross := { o.cross with crt := true, newPrime := false } } : Obj p).work inv cfg num ord
    else o.work inv cfg num ord
  else some o

/-- The loop of `interpolate()` (source/PolyReconst.cpp 82-99) over the queue: it is not emptied when a new prime field is requested. -/
def Obj.feedAll (inv : ℤ → ℤ → ℤ) (cfg : MPoly.Cfg (ZMod p)) (o : Obj p) (probes : List (ZMod p × List ℕ)) : Option (Obj p) :=
  probes.foldlM (fun o q => o.interpolate inv cfg q.1 q.2) o

end

/-- A prime field: the prime, the settings of the object with its anchor points, the values with their orders as they are fed. -/
structure Field where
  p : ℕ
  fact : Fact p.Prime
  cfg : MPoly.Cfg (ZMod p)
  probes : List (ZMod p × List ℕ)

/-- What a prime field leads to. -/
inductive Out where
  | running
  | finished (g : RnMap)
  | nextPrime (c : Cross)

/-- All values of a prime field. The field is finished if the number of the prime has changed (`get_prime`). -/
def field (inv : ℤ → ℤ → ℤ) (c : Cross) (r : Field) : Option Out :=
  haveI := r.fact
  do
  let o ← ({ cross := c, st := r.cfg.init } : Obj r.p).feedAll inv r.cfg r.probes
  match o.done with
  | some g => some (.finished g)
  | none => some (if o.cross.newPrime ∧ c.primeNumber < o.cross.primeNumber then .nextPrime o.cross else .running)

/-- The state after a number of prime fields. -/
inductive RunOut where
  | finished (g : RnMap)
  | waiting (c : Cross)
  | running

/-- The use of an object by its caller: the values of each prime field are fed until the object requests the next one or is done. -/
def run (inv : ℤ → ℤ → ℤ) : Cross → List Field → Option RunOut
  | c, [] => some (.waiting c)
  | c, r :: rs => do
    match ← field inv c r with
    | .finished g => some (.finished g)
    | .nextPrime c' => run inv c' rs
    | .running => some .running

end FireFly.PRun
