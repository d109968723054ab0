import Verif.Model.SaveState
/-!
# The files of the probes

source/RatReconst.cpp: `write_food_to_file`, `read_in_probes`; source/ParserUtils.cpp: `parse_vector_FFInt`. As in `Verif.Model.SaveState` the
content of a file is the text before compression.
-/
namespace FireFly

/-- `std::stoul(s)` for 64-bit `unsigned long`: white space, an optional sign, digits, anything; a minus sign negates modulo `2^64`.
`none` is the exception. -/
def stoul (s : Str) : Option ℕ :=
  let t := takeSign (s.dropWhile isSpaceC)
  let ds := t.2.takeWhile isDigitC
  let v := digitsAcc 0 ds
  if ds = [] then none else if v < 2 ^ 64 then some (if t.1 then (2 ^ 64 - v) % 2 ^ 64 else v) else none

/-- The loop of `parse_vector_FFInt` (source/ParserUtils.cpp 53-59), `p` is the current prime. `limit = 0` stands for the
default argument `-1`. -/
def parseFFLoop (p : ℕ) (limit : ℕ) (i : ℕ) (line : Str) : Option (List ℕ × Str) :=
  match _h : cutBlank line with
  | none => some ([], line)
  | some (a, b) =>
    match stoul a with
    | none => none
    | some z =>
      if i + 1 = limit then some ([z % p], b)
      else (parseFFLoop p limit (i + 1) b).map (fun t => (z % p :: t.1, t.2))
termination_by line.length
decreasing_by exact cutBlank_length _h

/-- `parse_vector_FFInt` (source/ParserUtils.cpp 44-62): the words of the numbers. -/
def parseVecFF (p : ℕ) (line : Str) (limit : ℕ) : Option (List ℕ × Str) := parseFFLoop p limit 0 line

/-- A probe: the orders of the variables, the value of the homogenization variable, the value of the function (words). -/
structure Probe where
  zi : List ℕ
  t : ℕ
  v : ℕ
deriving DecidableEq, Repr

/-- A line of `write_food_to_file` (source/RatReconst.cpp 3691-3695). -/
def Probe.line (q : Probe) : Str := vecStr q.zi ++ natStr q.t ++ [' '] ++ natStr q.v ++ [' ']

/-- What `write_food_to_file` (source/RatReconst.cpp 3674-3701) appends to the file. -/
def probeText (qs : List Probe) : Str := unlines (qs.map Probe.line)

/-- A line in `read_in_probes` (source/RatReconst.cpp 3712-3717). A missing number is read beyond the end of the vector. -/
def readProbe (p n : ℕ) (line : Str) : Except LoadErr Probe := do
  let a ← (if n > 1 then orThrow (parseVec32 line (n - 1)) else .ok ([], line))
  match (← orThrow (parseVecFF p a.2 2)).1 with
  | t :: v :: _ => .ok ⟨a.1, t, v⟩
  | _ => .error .ub

/-- `read_in_probes` (source/RatReconst.cpp 3703-3731): the probes that are handed to the reconstruction, in the order of the
file (for the prime number 0 through `queue`, otherwise through `parsed_probes`, sorted by the orders). `done` and `primeNumber`
are those of the object. -/
def readProbes (p n : ℕ) (done : Bool) (primeNumber : ℕ) (fileName content : Str) : Except LoadErr (List Probe) := do
  let k ← orThrow (parsePrimeNumber fileName)
  if !done && k == primeNumber then (linesOf content).mapM (readProbe p n) else .ok []

/-- The names of the files (source/RatReconst.cpp 3683). -/
def probeName (tag : Str) (k : ℕ) : Str := "ff_save/probes/".toList ++ tag ++ ['_'] ++ natStr k ++ ".gz".toList

end FireFly
