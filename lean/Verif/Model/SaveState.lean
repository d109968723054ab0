import Verif.Model.Printer
import Verif.Model.RatReconst
/-!
# Saving and loading the state of a reconstruction

source/RatReconst.cpp: `save_state`, `save_zero_state`, `set_tag_name` (the contents they write),
`start_from_saved_file`; source/ParserUtils.cpp: `parse_vector_32`, `parse_rational_number`,
`parse_prime_number`.

The content of a file is the text before compression (gzip is not modelled: the stream classes of gzstream are taken to
deliver what was written). A file is a list of lines. Which file exists at which time is part of `Verif.Model.Crash`.
-/
namespace FireFly

/-! ## numbers -/

/-- `std::stoi(s)`: white space, an optional sign, digits, anything. `none` is the exception
(`invalid_argument` or `out_of_range`). -/
def stoi (s : Str) : Option ℤ :=
  let t := takeSign (s.dropWhile isSpaceC)
  let ds := t.2.takeWhile isDigitC
  let v : ℤ := if t.1 then -(digitsAcc 0 ds : ℤ) else digitsAcc 0 ds
  if ds = [] then none else if -2 ^ 31 ≤ v ∧ v < 2 ^ 31 then some v else none

/-- the conversion of an `int` to `uint32_t` -/
def toU32 (z : ℤ) : ℕ := (z % 2 ^ 32).toNat

/-- `mpz_class(line)`. White space is ignored (`mpz_set_str`); a superset of the strings accepted by GMP: white space
after the sign is ignored, too. -/
def mpzLine (s : Str) : Option ℤ := mpzOfStr (s.filter (fun c => !isSpaceC c))

/-! ## source/ParserUtils.cpp -/

/-- `line.find(" ")`, the part before the first blank and the part behind it. -/
def cutBlank : Str → Option (Str × Str)
  | [] => none
  | c :: cs => if c = ' ' then some ([], cs) else (cutBlank cs).map (fun t => (c :: t.1, t.2))

lemma cutBlank_length {s a b : Str} (h : cutBlank s = some (a, b)) : b.length < s.length := by
  induction s generalizing a b with
  | nil => simp [cutBlank] at h
  | cons c cs ih =>
    unfold cutBlank at h
    split at h
    · simp only [Option.some.injEq, Prod.mk.injEq] at h
      rw [← h.2]; simp
    · cases hc : cutBlank cs with
      | none => rw [hc] at h; simp at h
      | some t =>
        rw [hc] at h
        simp only [Option.map_some, Option.some.injEq, Prod.mk.injEq] at h
        have := ih (a := t.1) (b := t.2) hc
        rw [← h.2]
        simp only [List.length_cons]
        omega

/-- The loop of `parse_vector_32` (source/ParserUtils.cpp 33-39). `limit = 0` stands for the default argument `-1`: `i` is at
least 1 at the comparison, so that both never lead to the `break`. The result is the vector and what remains of `line`. -/
def parseVecLoop (limit : ℕ) (i : ℕ) (line : Str) : Option (List ℕ × Str) :=
  match _h : cutBlank line with
  | none => some ([], line)
  | some (a, b) =>
    match stoi a with
    | none => none
    | some z =>
      if i + 1 = limit then some ([toU32 z], b)
      else (parseVecLoop limit (i + 1) b).map (fun t => (toU32 z :: t.1, t.2))
termination_by line.length
decreasing_by exact cutBlank_length _h

/-- `parse_vector_32` (source/ParserUtils.cpp 24-42); `none` is the exception of `std::stoi`. -/
def parseVec32 (line : Str) (limit : ℕ) : Option (List ℕ × Str) := parseVecLoop limit 0 line

/-- `parse_rational_number` (source/ParserUtils.cpp 65-68). Without a blank `pos` is `npos`: the first part is the line, and so is the second one
(`npos + 1 = 0`). `none`: an exception, or the division by zero of the constructor for 0/0. -/
def parseRational (line : Str) : Option RationalNumber :=
  match cutBlank line with
  | none => do RationalNumber.ctor (← mpzLine line) (← mpzLine line)
  | some (a, b) => do RationalNumber.ctor (← mpzLine a) (← mpzLine b)

/-- `parse_prime_number` (source/ParserUtils.cpp 70-78). -/
def parsePrimeNumber (fileName : Str) : Option ℕ :=
  (stoi ((fileName.reverse.drop 3).takeWhile (· ≠ '_')).reverse).map toU32

/-! ## the object -/

/-- The members of a `RatReconst` that are written to or restored from a file, or computed while loading
(source/include/firefly/RatReconst.hpp 375-459, BaseReconst.hpp), including the static members `shift` and
`singular_system_set`. Not included: members that are used within one prime field only. -/
structure RatObj (F : Type) where
  n : ℕ
  coefs : RatCoefs
  combPrimesNi : MpzMap := []
  combPrimesDi : MpzMap := []
  tagName : Str := []
  done : Bool := false
  maxDegNum : ℤ := -1
  maxDegDen : ℤ := -1
  degBounds : List (ℕ × ℕ) := []
  isSetDegBounds : Bool := false
  isSingularSystem : Bool := false
  normalizerDeg : List ℕ := []
  normalizeToDen : Bool := true
  normalizerDenNum : Bool := false
  shiftedMaxNumEqn : ℕ := 0
  shift : List F
  singularSet : List ℕ := []
  subNum : List (ℕ × FFMap F) := []
  subDen : List (ℕ × FFMap F) := []
  zeroDegsNum : List ℕ := []
  zeroDegsDen : List ℕ := []
  interpolations : ℕ := 1
  nonSolvedNum : List (ℕ × List (List ℕ)) := []
  nonSolvedDen : List (ℕ × List (List ℕ)) := []
  numEqn : ℕ := 0
  primeNumber : ℕ := 0
  zeroCounter : ℕ := 0
  checkInterpolation : Bool := false
  newPrime : Bool := false

/-! ## the contents of the files -/

/-- the enumeration `save_variables` (source/include/firefly/RatReconst.hpp 467-472) -/
inductive Kw where
  | combinedPrime | tagName | isDone | maxDegNum | maxDegDen | needPrimeShift | normalizerDeg | normalizeToDen
  | normalizerDenNum | shiftedMaxNumEqn | shift | subNum | subDen | zeroDegsNum | zeroDegsDen | gNi | gDi
  | combinedNi | combinedDi | combinedPrimesNi | combinedPrimesDi | interpolations
  | individualDegreesNum | individualDegreesDen
deriving DecidableEq, Repr

/-- The lines that introduce the entries (source/RatReconst.cpp 2541-2708, 2816-2881). -/
def Kw.str : Kw → Str
  | .combinedPrime => "combined_prime".toList
  | .tagName => "tag_name".toList
  | .isDone => "is_done".toList
  | .maxDegNum => "max_deg_num".toList
  | .maxDegDen => "max_deg_den".toList
  | .needPrimeShift => "need_prime_shift".toList
  | .normalizerDeg => "normalizer_deg".toList
  | .normalizeToDen => "normalize_to_den".toList
  | .normalizerDenNum => "normalizer_den_num".toList
  | .shiftedMaxNumEqn => "shifted_max_num_eqn".toList
  | .shift => "shift".toList
  | .subNum => "sub_num".toList
  | .subDen => "sub_den".toList
  | .zeroDegsNum => "zero_degs_num".toList
  | .zeroDegsDen => "zero_degs_den".toList
  | .gNi => "g_ni".toList
  | .gDi => "g_di".toList
  | .combinedNi => "combined_ni".toList
  | .combinedDi => "combined_di".toList
  | .combinedPrimesNi => "combined_primes_ni".toList
  | .combinedPrimesDi => "combined_primes_di".toList
  | .interpolations => "interpolations".toList
  | .individualDegreesNum => "individual_degrees_num".toList
  | .individualDegreesDen => "individual_degrees_den".toList

/-- `file << b` for a `bool` -/
def boolStr (b : Bool) : Str := if b then ['1'] else ['0']

/-- `file << x << " "` for all elements of a vector of `uint32_t` -/
def vecStr (xs : List ℕ) : Str := (xs.map (fun x => natStr x ++ [' '])).flatten

/-- the lines as a text -/
def unlines (ls : List Str) : Str := (ls.map (fun l => l ++ ['\n'])).flatten

/-- an entry of the file -/
def entry (k : Kw) (ls : List Str) : List Str := k.str :: ls

/-- the individual degree bounds (source/RatReconst.cpp 2547-2565, 2490-2508) -/
def boundsLine (xs : List ℕ) : List Str := if xs = [] then [] else [vecStr xs]

section
variable {F : Type} [Field F] [DecidableEq F]

/-- the monomials of the subtraction terms (source/RatReconst.cpp 2601-2632); `file << " \n"` -/
def subLines (m : List (ℕ × FFMap F)) : List Str :=
  (m.map (fun el => if PolyFF.zero el.2 then [] else
    (el.2.filter (fun t => t.2 ≠ 0)).map (fun t => natStr el.1 ++ [' '] ++ vecStr t.1 ++ [' ']))).flatten

/-- the guesses (source/RatReconst.cpp 2656-2674) -/
def rnLines (m : RnMap) : List Str := m.map (fun t => vecStr t.1 ++ intStr t.2.num ++ [' '] ++ intStr t.2.den)

/-- the combined residues (source/RatReconst.cpp 2676-2710) -/
def mpzLines (m : MpzMap) : List Str := m.map (fun t => vecStr t.1 ++ intStr t.2)

/-- `save_state` (source/RatReconst.cpp 2537-2712): the lines of the file. Simplification: the keys of the maps and
`normalizer_deg` have `n` entries (otherwise `[i]` is undefined behaviour). -/
def RatObj.stateLines (o : RatObj F) : List Str :=
  entry .combinedPrime [intStr o.coefs.combPrime] ++
  entry .tagName [o.tagName] ++
  entry .isDone [boolStr o.done] ++
  entry .maxDegNum [intStr o.maxDegNum] ++
  entry .maxDegDen [intStr o.maxDegDen] ++
  entry .individualDegreesNum (boundsLine (o.degBounds.map Prod.fst)) ++
  entry .individualDegreesDen (boundsLine (o.degBounds.map Prod.snd)) ++
  entry .needPrimeShift [if o.interpolations ≠ 1 then ['1'] else boolStr o.isSingularSystem] ++
  entry .normalizerDeg [vecStr o.normalizerDeg] ++
  entry .normalizeToDen [boolStr o.normalizeToDen] ++
  entry .normalizerDenNum [boolStr o.normalizerDenNum] ++
  entry .shiftedMaxNumEqn [natStr o.shiftedMaxNumEqn] ++
  entry .shift [((List.range o.n).map (fun i => if o.shift.getD i 0 ≠ 0 then ['1', ' '] else ['0', ' '])).flatten] ++
  entry .subNum (subLines o.subNum) ++
  entry .subDen (subLines o.subDen) ++
  entry .zeroDegsNum (boundsLine o.zeroDegsNum) ++
  entry .zeroDegsDen (boundsLine o.zeroDegsDen) ++
  entry .gNi (rnLines o.coefs.gNi) ++
  entry .gDi (rnLines o.coefs.gDi) ++
  entry .combinedNi (mpzLines o.coefs.combNi) ++
  entry .combinedDi (mpzLines o.coefs.combDi) ++
  entry .combinedPrimesNi (mpzLines o.combPrimesNi) ++
  entry .combinedPrimesDi (mpzLines o.combPrimesDi) ++
  entry .interpolations [natStr o.interpolations]

/-- `set_tag_name` (source/RatReconst.cpp 2482-2510): the file of a new object. -/
def RatObj.initialLines (o : RatObj F) : List Str :=
  entry .tagName [o.tagName] ++ entry .normalizeToDen [['1']] ++
  entry .individualDegreesNum (boundsLine (o.degBounds.map Prod.fst)) ++
  entry .individualDegreesDen (boundsLine (o.degBounds.map Prod.snd))

/-- `save_zero_state` (source/RatReconst.cpp 2519-2527). -/
def RatObj.zeroLines (o : RatObj F) : List Str :=
  ["ZERO".toList, if o.interpolations > 1 then ['1'] else ['0'], o.tagName]

end

/-- The names of the state and probe files (source/RatReconst.cpp 2485, 2521, 2714). -/
def stateName (tag : Str) (k : ℕ) : Str := "ff_save/states/".toList ++ tag ++ ['_'] ++ natStr k ++ ".gz".toList

/-! ## `start_from_saved_file` -/

/-- The lines which `while (std::getline(file, line))` yields. -/
def linesOf : Str → List Str
  | [] => []
  | c :: cs => if c = '\n' then [] :: linesOf cs else
    match linesOf cs with
    | [] => [[c]]
    | l :: ls => (c :: l) :: ls

/-- A single `std::getline(file, line)` whose result is not checked; `ls` are the lines left, `term` says whether the
last line of the file is terminated. At the end of the file `line` becomes empty, or is left as it is if the end
has been met already. -/
def getLine (term : Bool) (ls : List Str) (line : Str) : Str × List Str :=
  match ls with
  | l :: r => (l, r)
  | [] => (if term then [] else line, [])

/-- how the loading fails -/
inductive LoadErr where
  /-- `std::exit(EXIT_FAILURE)` with an error message -/
  | exit
  /-- an uncaught exception of `std::stoi` or `mpz_class` -/
  | throw
  /-- undefined behaviour: an element of a vector beyond its end, or a division by zero in GMP -/
  | ub
deriving DecidableEq, Repr

/-- the members and local variables used while loading: `cur` is `curr_parsed_variable`, `seen` is `parsed_variables`. -/
structure LoadSt (F : Type) where
  obj : RatObj F
  cur : Kw
  seen : List Kw
  degNum : List ℕ := []
  degDen : List ℕ := []
  needShift : Bool := false

/-- an exception -/
def orThrow {α : Type} : Option α → Except LoadErr α
  | some a => .ok a
  | none => .error .throw

/-- The entry a line introduces: the chain of comparisons source/RatReconst.cpp 2815-2881; `combined_prime` is not among them. -/
def kwOf (line : Str) : Option Kw :=
  [Kw.isDone, .tagName, .maxDegNum, .maxDegDen, .needPrimeShift, .normalizerDeg, .normalizeToDen, .normalizerDenNum, .shiftedMaxNumEqn, .shift,
   .subNum, .subDen, .zeroDegsNum, .zeroDegsDen, .gNi, .gDi, .combinedNi, .combinedDi, .combinedPrimesNi, .combinedPrimesDi, .interpolations,
   .individualDegreesNum, .individualDegreesDen].find? (fun k => line == k.str)

/-- `set.emplace(x)` of a set of numbers -/
def setEmplace (s : List ℕ) (x : ℕ) : List ℕ := if x ∈ s then s else s ++ [x]

/-- `m[k] = v` of a map with numbers as keys -/
def dmSet {α : Type} (m : List (ℕ × α)) (k : ℕ) (v : α) : List (ℕ × α) :=
  if (m.lookup k).isSome then m.map (fun t => if t.1 = k then (k, v) else t) else m ++ [(k, v)]

/-- `add_non_solved_num/den` (source/RatReconst.cpp 2318-2333); the degree is a `uint32_t`. -/
def addNonSolved (m : List (ℕ × List (List ℕ))) (deg : List ℕ) : List (ℕ × List (List ℕ)) :=
  let k := deg.foldl (fun s x => (s + x) % 2 ^ 32) 0
  dmSet m k ((m.lookup k).getD [] ++ [deg])

/-- the individual degree bounds (source/RatReconst.cpp 2765-2770, 3125-3131); reading beyond the end is undefined. -/
def zipBounds (n : ℕ) (a b : List ℕ) : Except LoadErr (List (ℕ × ℕ)) :=
  if n ≤ a.length ∧ n ≤ b.length then .ok ((a.zip b).take n) else .error .ub

section
variable {F : Type} [Field F] [DecidableEq F]

/-- `sub_num[deg]`: `=` or `+=` (source/RatReconst.cpp 2961-2964, 2978-2981) -/
def addSub (m : List (ℕ × FFMap F)) (deg : ℕ) (e : List ℕ) : List (ℕ × FFMap F) :=
  match m.lookup deg with
  | none => dmSet m deg [(e, 1)]
  | some q => dmSet m deg (PolyFF.addAssign q [(e, 1)])

/-- the new shift (source/RatReconst.cpp 2942-2947); `rand i` is the random number drawn for the entry `i` -/
def loadShift (rand : ℕ → F) (n : ℕ) (tmp : List ℕ) (shift : List F) : Except LoadErr (List F) :=
  if n ≤ tmp.length ∧ n ≤ shift.length then
    .ok (shift.mapIdx (fun i s => if i < n then
      (if tmp.getD i 0 ≠ 0 ∧ s = 0 then rand i else if tmp.getD i 0 = 0 ∧ s ≠ 0 then 0 else s) else s))
  else .error .ub

/-- a line of the subtraction terms (source/RatReconst.cpp 2953-2967, 2970-2984) -/
def readSub (n : ℕ) (m : List (ℕ × FFMap F)) (line : Str) : Except LoadErr (List (ℕ × FFMap F)) := do
  if n = 0 then .error .exit
  else
    let a ← orThrow (parseVec32 line 1)
    match a.1 with
    | [] => .error .ub
    | deg :: _ =>
      let b ← orThrow (parseVec32 a.2 n)
      .ok (addSub m deg b.1)

/-- a line of the guesses (source/RatReconst.cpp 3007-3017, 3019-3029); 0/0 is undefined -/
def readRn (n : ℕ) (m : RnMap) (line : Str) : Except LoadErr RnMap := do
  if n = 0 then .error .exit
  else
    let a ← orThrow (parseVec32 line n)
    .ok (m.emplace a.1 (← orThrow (parseRational a.2)))

/-- a line of the combined residues (source/RatReconst.cpp 3031-3041 and similarly up to 3077) -/
def readMpz (n : ℕ) (m : MpzMap) (line : Str) : Except LoadErr MpzMap := do
  if n = 0 then .error .exit
  else
    let a ← orThrow (parseVec32 line n)
    .ok (m.emplace a.1 (← orThrow (mpzLine a.2)))

/-- The `switch` (source/RatReconst.cpp 2882-3091) on a line that introduces no entry. -/
def readData (rand : ℕ → F) (st : LoadSt F) (line : Str) : Except LoadErr (LoadSt F) := do
  let o := st.obj
  match st.cur with
  | .combinedPrime => .ok { st with obj := { o with coefs := { o.coefs with combPrime := ← orThrow (mpzLine line) } } }
  | .tagName => .ok { st with obj := { o with tagName := line } }
  | .isDone => .ok { st with obj := { o with done := decide ((← orThrow (stoi line)) ≠ 0) } }
  | .maxDegNum => .ok { st with obj := { o with maxDegNum := ← orThrow (stoi line) } }
  | .maxDegDen => .ok { st with obj := { o with maxDegDen := ← orThrow (stoi line) } }
  | .individualDegreesNum => .ok { st with degNum := (← orThrow (parseVec32 line 0)).1 }
  | .individualDegreesDen => .ok { st with degDen := (← orThrow (parseVec32 line 0)).1 }
  | .needPrimeShift =>
    let b := decide ((← orThrow (stoi line)) ≠ 0)
    .ok { st with needShift := b, obj := { o with singularSet := if !o.done && b then setEmplace o.singularSet o.primeNumber else o.singularSet } }
  | .normalizerDeg =>
    let v ← orThrow (parseVec32 line 0)
    .ok { st with obj := { o with normalizerDeg := v.1, n := v.1.length } }
  | .normalizeToDen => .ok { st with obj := { o with normalizeToDen := decide ((← orThrow (stoi line)) ≠ 0) } }
  | .normalizerDenNum => .ok { st with obj := { o with normalizerDenNum := decide ((← orThrow (stoi line)) ≠ 0) } }
  | .shiftedMaxNumEqn => .ok { st with obj := { o with shiftedMaxNumEqn := toU32 (← orThrow (stoi line)) } }
  | .shift =>
    if o.done then .ok st
    else
      let v ← orThrow (parseVec32 line 0)
      .ok { st with obj := { o with shift := ← loadShift rand o.n v.1 o.shift } }
  | .subNum => .ok { st with obj := { o with subNum := ← readSub o.n o.subNum line } }
  | .subDen => .ok { st with obj := { o with subDen := ← readSub o.n o.subDen line } }
  | .zeroDegsNum => .ok { st with obj := { o with zeroDegsNum := (← orThrow (parseVec32 line 0)).1.foldl setEmplace o.zeroDegsNum } }
  | .zeroDegsDen => .ok { st with obj := { o with zeroDegsDen := (← orThrow (parseVec32 line 0)).1.foldl setEmplace o.zeroDegsDen } }
  | .gNi => .ok { st with obj := { o with coefs := { o.coefs with gNi := ← readRn o.n o.coefs.gNi line } } }
  | .gDi => .ok { st with obj := { o with coefs := { o.coefs with gDi := ← readRn o.n o.coefs.gDi line } } }
  | .combinedNi => .ok { st with obj := { o with coefs := { o.coefs with combNi := ← readMpz o.n o.coefs.combNi line } } }
  | .combinedDi => .ok { st with obj := { o with coefs := { o.coefs with combDi := ← readMpz o.n o.coefs.combDi line } } }
  | .combinedPrimesNi => .ok { st with obj := { o with combPrimesNi := ← readMpz o.n o.combPrimesNi line } }
  | .combinedPrimesDi => .ok { st with obj := { o with combPrimesDi := ← readMpz o.n o.combPrimesDi line } }
  | .interpolations =>
    if o.n = 0 then .error .exit
    else .ok { st with obj := { o with interpolations := toU32 (← orThrow (stoi line)) } }

/-- A line behind the first one of a file of `save_state` (source/RatReconst.cpp 2814-3092). -/
def loadLine (rand : ℕ → F) (st : LoadSt F) (line : Str) : Except LoadErr (LoadSt F) :=
  match kwOf line with
  | some k =>
    if k = .individualDegreesNum ∨ k = .individualDegreesDen then .ok { st with cur := k }
    else .ok { st with cur := k, seen := k :: st.seen }
  | none => readData rand st line

/-- The 22 entries that must occur (`parsed_variables`, source/include/firefly/RatReconst.hpp 418). -/
def requiredKws : List Kw :=
  [.combinedPrime, .tagName, .isDone, .maxDegNum, .maxDegDen, .needPrimeShift, .normalizerDeg, .normalizeToDen,
   .normalizerDenNum, .shiftedMaxNumEqn, .shift, .subNum, .subDen, .zeroDegsNum, .zeroDegsDen, .gNi, .gDi,
   .combinedNi, .combinedDi, .combinedPrimesNi, .combinedPrimesDi, .interpolations]

/-- The end of `start_from_saved_file` (source/RatReconst.cpp 3096-3146). -/
def loadEnd (st : LoadSt F) : Except LoadErr (RatObj F × Bool) := do
  if !requiredKws.all (fun k => st.seen.contains k) then .error .exit
  else
    let o := st.obj
    let bounds ← (if st.degNum.length ≠ 0 then (zipBounds o.n st.degNum st.degDen).map (fun b => (true, b)) else .ok (o.isSetDegBounds, o.degBounds))
    let nn := (o.coefs.combNi.map Prod.fst).foldl addNonSolved o.nonSolvedNum
    let nd := (o.coefs.combDi.map Prod.fst).foldl addNonSolved o.nonSolvedDen
    .ok ({ o with isSetDegBounds := bounds.1, degBounds := bounds.2, nonSolvedNum := nn, nonSolvedDen := nd, newPrime := true,
                  numEqn := if o.interpolations ≤ o.primeNumber then nn.length + nd.length else o.numEqn }, st.needShift)

/-- the file of `set_tag_name` (source/RatReconst.cpp 2750-2781); `ls` are the lines behind the first one, `tag_name` -/
def loadInitial (term : Bool) (o : RatObj F) (ls : List Str) : Except LoadErr (RatObj F × Bool) := do
  let l1 := getLine term ls Kw.tagName.str
  let l2 := getLine term l1.2 l1.1
  let l3 := getLine term l2.2 l2.1
  let ntd := decide ((← orThrow (stoi l3.1)) ≠ 0)
  let l4 := getLine term l3.2 l3.1
  let l5 := getLine term l4.2 l4.1
  let o' := { o with tagName := l1.1, normalizeToDen := ntd, primeNumber := 0, checkInterpolation := false }
  if l5.1 ≠ Kw.individualDegreesDen.str then
    let a ← orThrow (parseVec32 l5.1 0)
    -- `parse_vector_32` erases what it has read from `line`
    let l6 := getLine term l5.2 a.2
    let l7 := getLine term l6.2 l6.1
    let b ← orThrow (parseVec32 l7.1 0)
    .ok ({ o' with isSetDegBounds := true, degBounds := ← zipBounds o.n a.1 b.1 }, true)
  else .ok (o', true)

/-- the file of `save_zero_state` (source/RatReconst.cpp 2791-2813); `ls` are the lines behind `ZERO`, of which there is at least
one. `set_safe_interpolation` (source/RatReconst.cpp 3336-3338) sets `interpolations` to 300. -/
def loadZero (term : Bool) (o : RatObj F) (line : Str) (ls : List Str) : RatObj F × Bool :=
  let t := (getLine term ls line).1
  let o' := if o.primeNumber > 2 then
      { o with newPrime := false, done := true,
               coefs := { o.coefs with gNi := o.coefs.gNi.set (List.replicate o.n 0) ⟨0, 1⟩, gDi := o.coefs.gDi.set (List.replicate o.n 0) ⟨1, 1⟩ } }
    else { o with interpolations := if line = ['1'] then 300 else o.interpolations, checkInterpolation := false
                  zeroCounter := o.primeNumber, newPrime := true }
  ({ o' with tagName := t }, false)

/-- `start_from_saved_file` (source/RatReconst.cpp 2726-3152) of the object `o0` for an existing file. The second
component of the result is the first one of the returned pair, whose second one is the (new) `prime_number`. -/
def load (rand : ℕ → F) (o0 : RatObj F) (fileName content : Str) : Except LoadErr (RatObj F × Bool) := do
  let k ← orThrow (parsePrimeNumber fileName)
  let o := { o0 with primeNumber := (k + 1) % 2 ^ 32, checkInterpolation := true }
  let term := content.getLast? == some '\n'
  match linesOf content with
  | [] => loadEnd { obj := o, cur := .combinedPrime, seen := [] }
  | first :: ls =>
    if first = "ZERO".toList then
      match ls with
      | [] => .error .exit  -- incomplete: 3099-3105
      | l :: ls => .ok (loadZero term o l ls)
    else if first = Kw.tagName.str then loadInitial term o ls
    else if first ≠ Kw.combinedPrime.str then .error .exit
    else loadEnd (← ls.foldlM (loadLine rand) { obj := o, cur := .combinedPrime, seen := [.combinedPrime] })

end
end FireFly
