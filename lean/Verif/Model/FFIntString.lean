import Verif.Model.FFInt
/-!
# The string constructor of `FFInt` and `parse_longint`

Characters are `Char`; strings are `List Char`. `std::isdigit`, `std::isalpha`, `std::isspace` are
the "C" locale ones. Simplification: bytes outside ASCII are treated as characters that belong to
none of these classes.
-/
namespace FireFly

/-- Result of a constructor call: a stored word, an exception, or undefined behaviour. -/
inductive CtorResult where
  | ok (n : Nat)
  | throws
  | ub
deriving DecidableEq, Repr

def isDigitC (c : Char) : Bool := '0' ≤ c && c ≤ '9'
def isAlphaC (c : Char) : Bool := ('a' ≤ c && c ≤ 'z') || ('A' ≤ c && c ≤ 'Z')
def isSpaceC (c : Char) : Bool :=
  c == ' ' || c == '\t' || c == '\n' || c == '\r' || c == '\x0b' || c == '\x0c'

/-- Value of a list of decimal digits accumulated on top of `acc`, as the standard numeric
extraction does. -/
def digitsAcc (acc : Nat) (cs : List Char) : Nat :=
  cs.foldl (fun v c => v * 10 + (c.toNat - '0'.toNat)) acc

/-- Optional sign of the numeric extraction. -/
def takeSign (s : List Char) : Bool × List Char :=
  match s with
  | [] => (false, [])
  | c :: t => if c = '-' then (true, t) else if c = '+' then (false, t) else (false, c :: t)

/-- `std::istringstream ss{s}; ss >> n` for `uint64_t n`: skip white space, optional sign, digits.
`none` if the extraction fails (no digits or overflow), otherwise the value stored and the
characters left in the buffer. A leading minus negates modulo `2^64` (C++ standard, as `strtoull`). -/
def extractU64 (s : List Char) : Option (Nat × List Char) :=
  let neg := (takeSign (s.dropWhile isSpaceC)).1
  let s := (takeSign (s.dropWhile isSpaceC)).2
  let ds := s.takeWhile isDigitC
  let rest := s.dropWhile isDigitC
  if ds = [] then none
  else
    let v := digitsAcc 0 ds
    if v ≥ 2 ^ 64 then none
    else some (if neg then u64 (-(v : Int)) else v, rest)

/-- The chunk loop of `parse_longint` (source/FFInt.cpp 258-283): `rest` is `str.substr(pos)`.
`none` propagates undefined behaviour of `mod_mul`. The extraction of a chunk consisting of 1 to
18 digits cannot fail; if it did, `intchunk` would be 0. -/
def parseChunks [LongDouble] (p : Nat) (len result : Nat) (rest : List Char) : Option Nat :=
  if h : rest = [] then some result
  else if hl : len = 0 then none
  else do
    let strchunk := rest.take len
    let intchunk := ((extractU64 strchunk).map (·.1)).getD 0
    let result ← if result ≠ 0 then ffMul p (ctorU p result) (ctorU p 1000000000000000000)
                 else some result
    parseChunks p 18 (ffAdd p (ctorU p result) (ctorU p intchunk)) (rest.drop len)
termination_by rest.length
decreasing_by
  have : 0 < rest.length := by cases rest <;> simp_all
  simp only [List.length_drop]; omega

/-- `FFInt::parse_longint` (source/FFInt.cpp 247-286). -/
def parseLongint [LongDouble] (p : Nat) (str : List Char) : CtorResult :=
  if str.any (fun c => !isDigitC c) then .throws
  else
    match parseChunks p ((u64 ((str.length : Int) - 1)) % 18 + 1) 0 str with
    | some n => .ok n
    | none => .ub

/-- `FFInt::FFInt(const std::string&, const std::vector<std::pair<std::string, uint64_t>>&)`
(source/FFInt.cpp 55-86). `str.front()` on an empty string is undefined behaviour and comes before
the test for emptiness. -/
def ctorStr [LongDouble] (p : Nat) (str : List Char) (replacements : List (List Char × Nat)) :
    CtorResult :=
  match replacements.find? (fun v => v.1 == str) with
  | some v => .ok (if v.2 > p then v.2 % p else v.2)
  | none =>
    match str with
    | [] => .ub
    | c :: _ =>
      if c = '-' then .throws
      else
        match extractU64 str with
        | some (n, []) => .ok (if n ≥ p then n % p else n)
        | _ => if isAlphaC c then .throws else parseLongint p str

end FireFly
