import Verif.Model.Parser
import Verif.Model.PrimeTable
/-!
# The object `ShuntingYardParser`: collections of functions (source/ShuntingYardParser.cpp, ShuntingYardParser.hpp)

The functions `validate`, `parse`, `evaluate`, `precompute` and `evaluate_pre` for a single function are those of
`Verif.Model.Parser`. Here: the constructors with the search for equal functions, `parse_function`, `add_otf`,
`add_otf_precompute`, `precompute_tokens`, `trim` and the public evaluations. `none` is undefined behaviour (an index
outside of a vector) or `std::exit`. The current prime `FFInt::p` is an argument `p` of the operations.
Simplifications: the messages are not modelled; hash maps are association lists; memory is not limited.
-/
namespace FireFly

/-- The members of `ShuntingYardParser` (ShuntingYardParser.hpp 143-158). `vars` are the names in `vars_map` in the order of
their indices. -/
structure SyParser where
  vars : List Str
  checkIsEqual : Bool := false
  keepRpn : Bool := false
  functions : List (List Str) := []
  precompTokens : List (List PTok) := []
  partialRpn : List (List (Nat × List Str)) := []
  primeCounter : Nat := 0
  precomputed : Bool := false
  checkVars1 : List Nat := []
  checkVars2 : List Nat := []
  checkMap : List ((Nat × Nat) × Nat) := []
  evaluationPositions : List Nat := []
  primeInternal : Nat := 0

/-- The index of the prime in the table, 300 if it is not there (source/ShuntingYardParser.cpp 66-71). -/
def sypPrimeIndex (p : Nat) : Nat := primes63.findIdx (· == p)

/-- The prime of the first check (source/ShuntingYardParser.cpp 81, 130, 166, 356). -/
def sypCheckPrime (pc : Nat) : Option Nat := primes63[if pc ≠ 299 then pc + 1 else pc - 1]?

/-- The values by which equal functions are recognized (source/ShuntingYardParser.cpp 130-133, 166-169, 356-359). -/
def SyParser.checkValues [LongDouble] (P : SyParser) (T : List Str) : Option (Nat × Nat) :=
  (sypCheckPrime P.primeCounter).bind fun q => (primes63[P.primeCounter]?).bind fun p =>
    (evaluateRpn opTokens q P.vars P.checkVars1 T).bind fun v1 =>
      (evaluateRpn opTokens p P.vars P.checkVars2 T).map fun v2 => (v1, v2)

/-- What happens to the RPN of a function of the collection (source/ShuntingYardParser.cpp 126-142, 162-178). -/
def SyParser.insertRpn [LongDouble] (P : SyParser) (T : List Str) : Option SyParser :=
  let P1 := { P with functions := P.functions ++ [T] }
  if P.checkIsEqual then
    (P1.checkValues T).map fun v =>
      match P1.checkMap.lookup v with
      | some k => { P1 with functions := P1.functions.dropLast, evaluationPositions := P1.evaluationPositions ++ [k] }
      | none =>
        { P1 with
          checkMap := P1.checkMap ++ [(v, P1.functions.length - 1)]
          evaluationPositions := P1.evaluationPositions ++ [P1.functions.length - 1] }
  else some P1

/-- One function of the collection (source/ShuntingYardParser.cpp 124-142, 159-178). -/
def SyParser.parseOne [LongDouble] (P : SyParser) (f : Str) : Option SyParser :=
  (validate f).bind fun f => (parse f).bind P.insertRpn

/-- The refresh of the numbers of one function (source/ShuntingYardParser.cpp 585-588); `none` for a position outside of the
tokens. -/
def refreshTokens [LongDouble] (p : Nat) (vars : List Str) (s : PreState) : Option (List PTok) :=
  if s.2.all (fun e => decide (e.1 < s.1.length)) then (refresh p vars s).map Prod.fst else none

/-- The loop over all functions that refreshes the numbers (source/ShuntingYardParser.cpp 583-589). -/
def refreshAll [LongDouble] (p : Nat) (vars : List Str) :
    List (List PTok) → List (List (Nat × List Str)) → Option (List (List PTok))
  | [], _ => some []
  | _ :: _, [] => none
  | ts :: tss, pr :: prs =>
    (refreshTokens p vars (ts, pr)).bind fun ts' => (refreshAll p vars tss prs).map (ts' :: ·)

/-- `precompute_tokens` (source/ShuntingYardParser.cpp 547-591). The moves at 566-568 and 574-577 leave `functions` empty. -/
def SyParser.precomputeTokens [LongDouble] (p : Nat) (force : Bool) (P : SyParser) : Option SyParser :=
  if p = P.primeInternal ∧ force = false then some { P with precomputed := true }
  else
    let P := { P with primeInternal := p, checkVars1 := [], checkVars2 := [], checkMap := [] }
    if P.precomputed = false ∨ force = true then
      (P.functions.mapM (precompute p P.vars)).map fun ss =>
        { P with
          precompTokens := ss.map Prod.fst
          partialRpn := ss.map Prod.snd
          precomputed := true
          functions := if P.keepRpn then P.functions else [] }
    else
      (refreshAll p P.vars P.precompTokens P.partialRpn).map fun tss => { P with precompTokens := tss }

/-- `parse_collection` for a list of functions (source/ShuntingYardParser.cpp 60-199). Simplification: the random check
points `r1` and `r2` (73-93, one word for each variable) are arguments. The prime is the one at the beginning again when the
loop is over. -/
def SyParser.parseCollection [LongDouble] (p : Nat) (r1 r2 : List Nat) (funs : List Str) (P : SyParser) : Option SyParser :=
  let P := { P with primeCounter := P.primeCounter + sypPrimeIndex p }
  let P := if P.checkIsEqual then { P with checkVars1 := r1, checkVars2 := r2 } else P
  (funs.foldlM SyParser.parseOne P).bind (SyParser.precomputeTokens p false)

/-- The constructor for a list of functions (source/ShuntingYardParser.cpp 45-58). -/
def SyParser.construct [LongDouble] (p : Nat) (r1 r2 : List Nat) (vars : List Str) (check keep : Bool) (funs : List Str) :
    Option SyParser :=
  SyParser.parseCollection p r1 r2 funs { vars := vars, checkIsEqual := check, keepRpn := keep }

/-- The characters that are removed from a function in a file (source/ShuntingYardParser.cpp 118-121). -/
def sypBlank (c : Char) : Bool := c == ' ' || c == '\t' || c == '\n'

/-- The functions in a file (source/ShuntingYardParser.cpp 115-123): the pieces between the semicolons without blanks, as far
as they are not empty. -/
def sypFileFunctions (content : Str) : List Str :=
  ((content.splitOn ';').map fun l => l.filter fun c => !sypBlank c).filter fun l => decide (l.length > 0)

/-- The constructor for a file (source/ShuntingYardParser.cpp 32-43, 100-147) with the given content. -/
def SyParser.constructFile [LongDouble] (p : Nat) (r1 r2 : List Nat) (vars : List Str) (check keep : Bool) (content : Str) :
    Option SyParser :=
  SyParser.construct p r1 r2 vars check keep (sypFileFunctions content)

/-- `parse_function` (source/ShuntingYardParser.cpp 315-331). -/
def SyParser.parseFunction [LongDouble] (f : Str) (vars : List Str) (validateFun : Bool) (P : SyParser) : Option SyParser :=
  let P := if P.vars = [] then { P with vars := vars } else P
  (if validateFun then validate f else some f).bind fun f =>
    (parse f).map fun T => { P with functions := P.functions ++ [T] }

/-- `add_otf_precompute` (source/ShuntingYardParser.cpp 333-343): the parser and the returned position. The new tokens are
written to the index `precomp_tokens.size() - 1` of both vectors. -/
def SyParser.addOtfPrecompute [LongDouble] (p : Nat) (T : List Str) (P : SyParser) : Option (SyParser × Nat) :=
  let pr := P.partialRpn ++ [[]]
  let k := P.precompTokens.length
  (pr[k]?).bind fun pr0 =>
    (T.foldlM (preStep p P.vars) ([], pr0)).map fun s =>
      ({ P with primeInternal := p, precompTokens := P.precompTokens ++ [s.1], partialRpn := pr.set k s.2 }, k)

/-- `add_otf` (source/ShuntingYardParser.cpp 349-377): the parser, the returned position and the prime `FFInt::p`
afterwards. -/
def SyParser.addOtf [LongDouble] (p : Nat) (f : Str) (noDuplicates : Bool) (P : SyParser) : Option (SyParser × Nat × Nat) :=
  (validate f).bind fun f => (parse f).bind fun T =>
    if P.checkIsEqual = false then
      some ({ P with functions := P.functions ++ [T] }, P.functions.length, p)
    else
      (P.checkValues T).bind fun v => (primes63[P.primeCounter]?).map fun p' =>
        match P.checkMap.lookup v with
        | some k =>
          ({ P with evaluationPositions := if noDuplicates then P.evaluationPositions else P.evaluationPositions ++ [k] }, k, p')
        | none =>
          ({ P with
              functions := P.functions ++ [T]
              checkMap := P.checkMap ++ [(v, P.functions.length)]
              evaluationPositions := P.evaluationPositions ++ [P.functions.length] }, P.functions.length, p')

/-- The end of the public evaluations (ShuntingYardParser.hpp 346-362, 462-478, 574-590): the values of the functions that are
stored are copied to the positions of the equal ones. -/
def SyParser.positions (P : SyParser) (res : List Nat) : Option (List Nat) :=
  if P.checkIsEqual = false then some res
  else if P.functions.length ≠ P.evaluationPositions.length then P.evaluationPositions.mapM (fun k => res[k]?)
  else some res

/-- The public `evaluate` (ShuntingYardParser.hpp 240-363). -/
def SyParser.evaluate [LongDouble] (p : Nat) (values : List Nat) (P : SyParser) : Option (List Nat) :=
  (P.functions.mapM (evaluateRpn opTokensPublic p P.vars values)).bind P.positions

/-- `evaluate_pre` (ShuntingYardParser.hpp 365-479). -/
def SyParser.evaluatePreAll [LongDouble] (p : Nat) (values : List Nat) (P : SyParser) : Option (List Nat) :=
  (P.precompTokens.mapM (evaluatePre p values)).bind P.positions

/-- `evaluate_pre_2` (ShuntingYardParser.hpp 481-591). -/
def SyParser.evaluatePre2All [LongDouble] (p : Nat) (values : List Nat) (P : SyParser) : Option (List Nat) :=
  (P.precompTokens.mapM (evaluatePre2 p values)).bind P.positions

/-- `get_size` (source/ShuntingYardParser.cpp 543-545). -/
def SyParser.getSize (P : SyParser) : Nat := P.functions.length

/-- The local variables of `trim` (source/ShuntingYardParser.cpp 721-724, 744). -/
structure TrimState where
  functions : List (List Str) := []
  precompTokens : List (List PTok) := []
  evaluationPositions : List Nat := []
  newPositions : List (Nat × Nat) := []
  copied : List (Nat × Nat) := []

/-- Moving the function `k` to the new vectors (source/ShuntingYardParser.cpp 733-737, 753-757). Simplification: the old
vector keeps the function (a function is moved at most once). -/
def SyParser.trimCopy (P : SyParser) (k : Nat) (s : TrimState) : Option TrimState :=
  (P.functions[k]?).bind fun T =>
    if P.precompTokens = [] then some { s with functions := s.functions ++ [T] }
    else (P.precompTokens[k]?).map fun ts =>
      { s with functions := s.functions ++ [T], precompTokens := s.precompTokens ++ [ts] }

/-- One position without the search for equal functions (source/ShuntingYardParser.cpp 731-741). -/
def SyParser.trimPlain (P : SyParser) (keep : Nat → Bool) (s : TrimState) (i : Nat) : Option TrimState :=
  if keep i then
    (P.trimCopy i s).map fun s => { s with newPositions := s.newPositions ++ [(i, s.functions.length - 1)] }
  else some s

/-- One position with the search for equal functions (source/ShuntingYardParser.cpp 746-766). -/
def SyParser.trimCheck (P : SyParser) (keep : Nat → Bool) (s : TrimState) (i : Nat) : Option TrimState :=
  if keep i then
    (P.evaluationPositions[i]?).bind fun k =>
      (match s.copied.lookup k with
        | some k' => some { s with evaluationPositions := s.evaluationPositions ++ [k'] }
        | none =>
          (P.trimCopy k s).map fun (s : TrimState) =>
            { s with
              copied := s.copied ++ [(k, s.functions.length - 1)]
              evaluationPositions := s.evaluationPositions ++ [s.functions.length - 1] }).map fun (s : TrimState) =>
      { s with newPositions := s.newPositions ++ [(i, s.evaluationPositions.length - 1)] }
  else some s

/-- `trim` (source/ShuntingYardParser.cpp 720-776): the parser and the new positions. `keep` is the set of the elements to
keep. The other members, in particular `partial_rpn` and `check_map`, stay as they are. -/
def SyParser.trim (keep : Nat → Bool) (P : SyParser) : Option (SyParser × List (Nat × Nat)) :=
  (if P.checkIsEqual = false then (List.range P.functions.length).foldlM (P.trimPlain keep) {}
    else (List.range P.evaluationPositions.length).foldlM (P.trimCheck keep) {}).map fun s =>
    ({ P with
        functions := s.functions
        precompTokens := s.precompTokens
        evaluationPositions := s.evaluationPositions }, s.newPositions)

end FireFly
