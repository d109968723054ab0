import Verif.Model.FFIntString
import Verif.Spec.Expr
/-!
# `ShuntingYardParser` (source/ShuntingYardParser.cpp, source/include/firefly/ShuntingYardParser.hpp)

Strings are `List Char`. Field elements are the stored words (`Nat`) with the operations of
`Verif.Model.FFInt`. `none` is undefined behaviour (e.g. `top()` of an empty stack) or `std::exit`.
Simplifications: strings contain no `'\0'` and are shorter than `2^31`; progress messages and
timings are not modelled.
-/
namespace FireFly

/-! ## validate -/

/-- `+-` at index `i` becomes `$-` (source/ShuntingYardParser.cpp 785-786); `r[r.size()]` is `'\0'`. -/
def validatePM (r : Str) (i : Nat) : Str :=
  if r.getD i '\x00' = '+' ∧ r.getD (i + 1) '\x00' = '-' then r.set i '$' else r

/-- `-+` at index `i` becomes `-$` (source/ShuntingYardParser.cpp 788-789). -/
def validateMP (r : Str) (i : Nat) : Str :=
  if r.getD i '\x00' = '-' ∧ r.getD (i + 1) '\x00' = '+' then r.set (i + 1) '$' else r

/-- The parentheses at index `i` (source/ShuntingYardParser.cpp 791-816): `none` is the exit for a
closing parenthesis too many. -/
def validateParen (r : Str) (st : List Int) (i : Nat) : Option (Str × List Int) :=
  let size := r.length + 1
  if r.getD i '\x00' = '(' then
    if i ≠ 0 ∧ r.getD (i - 1) '\x00' = '(' then some (r, (-(i : Int)) :: st)
    else some (r, (i : Int) :: st)
  else if r.getD i '\x00' = ')' then
    match st with
    | [] => none
    | top :: st =>
      if i ≠ size - 1 ∧ r.getD (i + 1) '\x00' = ')' ∧ top < 0 then
        some ((r.set (-top).toNat '$').set i '$', st)
      else some (r, st)
  else some (r, st)

/-- One iteration of the loop of `validate` at index `i` (source/ShuntingYardParser.cpp 784-816) on the
string and the stack `st`. -/
def validateStep (s : Str × List Int) (i : Nat) : Option (Str × List Int) :=
  validateParen (validateMP (validatePM s.1 i) i) s.2 i

/-- `validate` (source/ShuntingYardParser.cpp 778-838): `none` is the exit for mismatched parentheses. -/
def validate (r : Str) : Option Str :=
  match (List.range (r.length + 1)).foldlM validateStep (r, []) with
  | none => none
  | some (r, st) => if st = [] then some (r.filter (· ≠ '$')) else none

/-! ## parse -/

/-- `is_operator` (source/ShuntingYardParser.cpp 512-517). -/
def isOperator (c : Char) : Bool := c == '+' || c == '-' || c == '*' || c == '/' || c == '^'
/-- `is_variable` (source/ShuntingYardParser.cpp 519-524, 28): the letters. -/
def isVariable (c : Char) : Bool := isAlphaC c
/-- `is_operand` (source/ShuntingYardParser.cpp 505-510). -/
def isOperand (c : Char) : Bool := !isOperator c && c != '(' && c != ')' && !isAlphaC c && c != ' '

/-- `get_weight` (source/ShuntingYardParser.cpp 484-503). -/
def getWeight (c : Char) : Nat :=
  if c = '^' ∨ c = '!' ∨ c = '~' ∨ c = ';' then 3
  else if c = '/' ∨ c = '*' then 2
  else if c = '+' ∨ c = '-' then 1
  else 0

/-- The local variables of `parse` (source/ShuntingYardParser.cpp 212-216). The top of the operator
stack is the head of `ops`. -/
structure PState where
  tokens : List Str := []
  ops : List Char := []
  tmp : Str := []
  negExp : Bool := false

/-- Move a nonempty `tmp` to the tokens (source/ShuntingYardParser.cpp 228-231, 274-277). -/
def PState.flush (s : PState) : PState :=
  if s.tmp = [] then s else { s with tokens := s.tokens ++ [s.tmp], tmp := [] }

/-- The loop popping operators of at least the weight of `ex` (source/ShuntingYardParser.cpp 246-249). -/
def popWhile (ex : Char) : List Str → List Char → List Str × List Char
  | tokens, [] => (tokens, [])
  | tokens, top :: ops =>
    if top ≠ '(' ∧ getWeight top ≥ getWeight ex then popWhile ex (tokens ++ [[top]]) ops
    else (tokens, top :: ops)

/-- The loop popping operators up to the opening parenthesis (source/ShuntingYardParser.cpp 281-289). -/
def popParen : List Str → List Char → List Str × List Char
  | tokens, [] => (tokens, [])
  | tokens, top :: ops => if top = '(' then (tokens, ops) else popParen (tokens ++ [[top]]) ops

/-- Does the power refer to a signed token (source/ShuntingYardParser.cpp 254, 260)? -/
def signedBase (b : Str) (prev : Char) : Bool :=
  decide (b.length > 1) && b.head? == some '-' && prev != ')'

/-- An operator `ex` in `parse` once the operand before it is a token (source/ShuntingYardParser.cpp
233-267); `prev` is `fun[c_counter - 1]`, `rest` the string from `c_counter + 1` on. `none`:
`tokens.back()` of an empty vector. -/
def PState.operatorFlushed (prev ex : Char) (rest : Str) (s : PState) : Option PState :=
  let next := rest.getD 0 '\x00'
  if s.ops ≠ [] ∧ prev = '(' then
    if next = '(' then some { s with tokens := s.tokens ++ [['0']], ops := ex :: s.ops }
    else if s.negExp then some { s with negExp := false }
    else some { s with tmp := ex :: s.tmp }
  else if s.ops = [] ∧ s.tokens = [] then some { s with tmp := ex :: s.tmp }
  else
    let r := popWhile ex s.tokens s.ops
    let s := { s with tokens := r.1, ops := r.2 }
    if ex = '^' ∧ next = '(' ∧ rest.getD 1 '\x00' = '-' then
      match s.tokens.getLast? with
      | none => none
      | some b =>
        if signedBase b prev then
          some { s with negExp := true, tokens := s.tokens.dropLast ++ [b.tail], ops := ';' :: s.ops }
        else some { s with negExp := true, ops := '~' :: s.ops }
    else if ex = '^' then
      match s.tokens.getLast? with
      | none => none
      | some b =>
        if signedBase b prev then
          some { s with tokens := s.tokens.dropLast ++ [b.tail], ops := '!' :: s.ops }
        else some { s with ops := ex :: s.ops }
    else some { s with ops := ex :: s.ops }

/-- An operator `ex` in `parse` (source/ShuntingYardParser.cpp 227-267). -/
def PState.operator (prev ex : Char) (rest : Str) (s : PState) : Option PState :=
  (if s.negExp then s else s.flush).operatorFlushed prev ex rest

/-- One character of `parse` (source/ShuntingYardParser.cpp 223-290). -/
def PState.step (prev ex : Char) (rest : Str) (s : PState) : Option PState :=
  if isOperand ex then some { s with tmp := s.tmp ++ [ex] }
  else if isVariable ex then some { s with tmp := s.tmp ++ [ex] }
  else if isOperator ex then s.operator prev ex rest
  else if ex = '(' then some { s with ops := ex :: s.ops }
  else if ex = ')' then
    let s := s.flush
    let r := popParen s.tokens s.ops
    some { s with tokens := r.1, ops := r.2 }
  else some s

/-- The loop over the characters (source/ShuntingYardParser.cpp 219-294). -/
def parseLoop (prev : Char) : Str → PState → Option PState
  | [], s => some s
  | ex :: rest, s => (s.step prev ex rest).bind fun s => parseLoop ex rest s

/-- The treatment of a global sign (source/ShuntingYardParser.cpp 204-210). -/
def globalSign (f : Str) : Str :=
  if f.length > 2 ∧ (f.getD 0 '\x00' = '+' ∨ f.getD 0 '\x00' = '-') ∧ f.getD 1 '\x00' = '(' then
    if f.getD 0 '\x00' = '+' then f.tail else '0' :: f
  else f

/-- The end of `parse`: what is left is moved to the tokens (source/ShuntingYardParser.cpp 296-303). -/
def PState.finish (s : PState) : List Str :=
  let s := s.flush
  s.tokens ++ s.ops.map fun c => [c]

/-- `parse` (source/ShuntingYardParser.cpp 201-313). -/
def parse (f : Str) : Option (List Str) :=
  (parseLoop '\x00' (globalSign f) {}).map PState.finish

/-! ## evaluate -/

/-- `vars_map` (source/ShuntingYardParser.cpp 37-39, 53-55): `emplace` keeps the first of equal names. -/
def varIndex (vars : List Str) (name : Str) : Option Nat := vars.findIdx? (· == name)

/-- `std::stoull` of a string that starts with a digit and has at most 18 characters: the leading digits. -/
def stoull (s : Str) : Nat := digitsAcc 0 (s.takeWhile isDigitC)

/-- the digits of an octal number -/
def isOctalC (c : Char) : Bool := decide ('0' ≤ c) && decide (c ≤ '7')

/-- the number written by a string of octal digits -/
def octal (s : Str) : Nat := s.foldl (fun v c => v * 8 + (c.toNat - '0'.toNat)) 0

/-- `mpz_class(tmp)` without the sign. The constructor takes `base = 0` as default (gmpxx.h), for which a leading zero
means that the number is octal (`mpz_set_str`). Simplification: strings with the prefixes `0x` and `0b`, which are no
numbers of the documented format, count as invalid. -/
def mpzNat (t : Str) : Option Nat :=
  if t = [] then none
  else if t.head? = some '0' then (if t.all isOctalC then some (octal t) else none)
  else if t.all isDigitC then some (digitsAcc 0 t) else none

/-- `mpz_class(tmp)` for a string with an optional minus sign: throws (`none`) on anything but digits. -/
def mpzOfStr (s : Str) : Option Int :=
  match s with
  | '-' :: t => (mpzNat t).map fun n => -Int.ofNat n
  | t => (mpzNat t).map Int.ofNat

/-- What an operand token denotes before a field is chosen: the same cascade of tests occurs in
`evaluate` (source/ShuntingYardParser.cpp 432-471, ShuntingYardParser.hpp 295-335) and `precompute`
(source/ShuntingYardParser.cpp 670-712). -/
inductive Operand where
  | var (i : Nat)
  | negVar (i : Nat)
  | big (z : Int)
  | nat (n : Nat)
  | negNat (n : Nat)
deriving DecidableEq

/-- Classification of an operand token; `none` is the exit for an undeclared variable or the exception
of `mpz_class`. -/
def classify (vars : List Str) (token : Str) : Option Operand :=
  if token.length > 18 then
    (mpzOfStr (if token.head? = some '+' then token.tail else token)).map .big
  else if token.head? = some '-' then
    match varIndex vars token.tail with
    | some i => some (.negVar i)
    | none => if isDigitC (token.tail.getD 0 '\x00') then some (.negNat (stoull token.tail)) else none
  else if token.head? = some '+' then
    match varIndex vars token.tail with
    | some i => some (.var i)
    | none => if isDigitC (token.tail.getD 0 '\x00') then some (.nat (stoull token.tail)) else none
  else
    match varIndex vars token with
    | some i => some (.var i)
    | none => if isDigitC (token.getD 0 '\x00') then some (.nat (stoull token)) else none

/-- The word pushed for an operand; `none` for an index outside of `values`. -/
def Operand.word (p : Nat) (values : List Nat) : Operand → Option Nat
  | .var i => values[i]?
  | .negVar i => (values[i]?).map (ffNeg p)
  | .big z => ctorZ p z
  | .nat n => some (ctorU p n)
  | .negNat n => some (ffNeg p (ctorU p n))

/-- The operator switch (source/ShuntingYardParser.cpp 391-431): `x` is below `a` on the stack. -/
def applyOp [LongDouble] (p : Nat) (op : Char) (x a : Nat) : Option Nat :=
  if op = '+' then some (ffAddAssign p x a)
  else if op = '-' then some (ffSubAssign p x a)
  else if op = '*' then ffMulAssign p x a
  else if op = '/' then ffDivAssign p x a
  else if op = '^' then ffPow p x a
  else if op = '!' then (ffPow p x a).map (ffNeg p)
  else if op = '~' then (toNegInt a).bind fun k => ffPowInt p 32 x k
  else if op = ';' then ((toNegInt a).bind fun k => ffPowInt p 32 x k).map (ffNeg p)
  else none

/-- the operator tokens of the private `evaluate` and of `precompute`
(source/ShuntingYardParser.cpp 385, 602) -/
def opTokens : List Str := [['+'], ['-'], ['*'], ['/'], ['^'], ['!'], ['~'], [';']]

/-- the operator tokens of the public `evaluate` (ShuntingYardParser.hpp 249): without `~` and `;` -/
def opTokensPublic : List Str := [['+'], ['-'], ['*'], ['/'], ['^'], ['!']]

/-- One token of `evaluate`: the stack `nums` with its top at the head. -/
def evalStep [LongDouble] (opToks : List Str) (p : Nat) (vars : List Str) (values : List Nat)
    (nums : List Nat) (token : Str) : Option (List Nat) :=
  if token ∈ opToks then
    match nums with
    | a :: x :: rest => (applyOp p (token.getD 0 '\x00') x a).map (· :: rest)
    | _ => none
  else
    (classify vars token).bind fun o => (o.word p values).map (· :: nums)

/-- `evaluate(fun, values)` (source/ShuntingYardParser.cpp 379-482): the top of the stack at the end,
exit if there is none. -/
def evaluateRpn [LongDouble] (opToks : List Str) (p : Nat) (vars : List Str) (values : List Nat)
    (tokens : List Str) : Option Nat :=
  (tokens.foldlM (evalStep opToks p vars values) []).bind List.head?

/-! ## precompute -/

/-- The entries of `precomp_tokens` (ShuntingYardParser.hpp 219-237). -/
inductive PTok where
  | plus | minus | mult | div | pow | negPow | powNeg | negPowNeg
  | var (i : Nat)
  | negVar (i : Nat)
  | num (w : Nat)
deriving DecidableEq

/-- The operator token for everything but a division (source/ShuntingYardParser.cpp 602-669). -/
def opTok (c : Char) : PTok :=
  if c = '+' then .plus
  else if c = '-' then .minus
  else if c = '*' then .mult
  else if c = '^' then .pow
  else if c = '~' then .negPow
  else if c = ';' then .negPowNeg
  else if c = '!' then .powNeg
  else .div

/-- The state of `precompute`: `precomp_tokens[i][0..j-1]` and `partial_rpn[i]`. -/
abbrev PreState := List PTok × List (Nat × List Str)

/-- The token an operand is stored as and its partial RPN (source/ShuntingYardParser.cpp 670-712): for a
long token without the plus sign, otherwise the token. -/
def preOperand (p : Nat) (vars : List Str) (token : Str) (s : PreState) : Option PreState :=
  match classify vars token with
  | none => none
  | some (.var i) => some (s.1 ++ [.var i], s.2)
  | some (.negVar i) => some (s.1 ++ [.negVar i], s.2)
  | some (.big z) =>
    (ctorZ p z).map fun w => (s.1 ++ [.num w],
      s.2 ++ [(s.1.length, [if token.head? = some '+' then token.tail else token])])
  | some (.nat n) => some (s.1 ++ [.num (ctorU p n)], s.2 ++ [(s.1.length, [token])])
  | some (.negNat n) => some (s.1 ++ [.num (ffNeg p (ctorU p n))], s.2 ++ [(s.1.length, [token])])

/-- A division in `precompute` (source/ShuntingYardParser.cpp 619-648); `none` if there are no two
tokens before it (the index wraps around). -/
def preDiv [LongDouble] (p : Nat) (s : PreState) : Option PreState :=
  match s.1.reverse with
  | t1 :: t2 :: rest =>
    match t2, t1 with
    | .num a, .num b =>
      (ffDiv p a b).bind fun q =>
        match s.2.reverse with
        | (_, v1) :: (_, v2) :: prest =>
          some (rest.reverse ++ [.num q], prest.reverse ++ [(rest.length, v2 ++ v1 ++ [['/']])])
        | _ => none
    | .var i, .num b =>
      (ffDiv p (ctorU p 1) b).bind fun inv =>
        match s.2.reverse with
        | (k, v) :: prest =>
          some (rest.reverse ++ [.var i, .num inv, .mult],
            prest.reverse ++ [(k, [['1'], v.getD 0 [], ['/']])])
        | _ => none
    | .negVar i, .num b =>
      (ffDiv p (ctorU p 1) b).bind fun inv =>
        match s.2.reverse with
        | (k, v) :: prest =>
          some (rest.reverse ++ [.negVar i, .num inv, .mult],
            prest.reverse ++ [(k, [['1'], v.getD 0 [], ['/']])])
        | _ => none
    | _, _ => some (s.1 ++ [.div], s.2)
  | _ => none

/-- One token of `precompute` (source/ShuntingYardParser.cpp 599-714). -/
def preStep [LongDouble] (p : Nat) (vars : List Str) (s : PreState) (token : Str) : Option PreState :=
  if token ∈ opTokens then
    if token = ['/'] then preDiv p s
    else some (s.1 ++ [opTok (token.getD 0 '\x00')], s.2)
  else preOperand p vars token s

/-- `precompute` (source/ShuntingYardParser.cpp 593-718). The vector is allocated with its final length
and shrinks by two for every merged division, which is the same as appending to it. -/
def precompute [LongDouble] (p : Nat) (vars : List Str) (tokens : List Str) : Option PreState :=
  tokens.foldlM (preStep p vars) ([], [])

/-- Recomputing the numbers after a change of the prime (source/ShuntingYardParser.cpp 584-590). -/
def refresh [LongDouble] (p : Nat) (vars : List Str) (s : PreState) : Option PreState :=
  (s.2.foldlM (fun (ts : List PTok) (e : Nat × List Str) =>
    (evaluateRpn opTokens p vars [0] e.2).map fun w => ts.set e.1 (.num w)) s.1).map (·, s.2)

/-- One token of `evaluate_pre` (ShuntingYardParser.hpp 378-449). -/
def evalPreStep [LongDouble] (p : Nat) (values : List Nat) (nums : List Nat) (t : PTok) : Option (List Nat) :=
  match t with
  | .var i => (values[i]?).map (· :: nums)
  | .negVar i => ((values.map (ffNeg p))[i]?).map (· :: nums)
  | .num w => some (w :: nums)
  | op =>
    match nums with
    | a :: x :: rest =>
      (match op with
        | .plus => some (ffAddAssign p x a)
        | .minus => some (ffSubAssign p x a)
        | .mult => ffMulAssign p x a
        | .div => ffDivAssign p x a
        | .pow => ffPow p x a
        | .negPow => (toNegInt a).bind fun k => ffPowInt p 32 x k
        | .powNeg => (ffPow p x a).map (ffNeg p)
        | .negPowNeg => ((toNegInt a).bind fun k => ffPowInt p 32 x k).map (ffNeg p)
        | _ => none).map (· :: rest)
    | _ => none

/-- `evaluate_pre` for one function (ShuntingYardParser.hpp 375-458). -/
def evaluatePre [LongDouble] (p : Nat) (values : List Nat) (ts : List PTok) : Option Nat :=
  (ts.foldlM (evalPreStep p values) []).bind List.head?

/-- One token of `evaluate_pre_2` (ShuntingYardParser.hpp 496-567) on the array `stack` and the depth;
`none` is an access outside of the array (or an index that wraps around). Simplification: the entries
of the new array are zero (the default constructor of `FFInt`, source/FFInt.cpp 88-90). -/
def evalPre2Step [LongDouble] (p : Nat) (values : List Nat) (s : List Nat × Nat) (t : PTok) : Option (List Nat × Nat) :=
  let push (w : Nat) : Option (List Nat × Nat) :=
    if s.2 + 1 < s.1.length then some (s.1.set (s.2 + 1) w, s.2 + 1) else none
  match t with
  | .var i => (values[i]?).bind push
  | .negVar i => ((values.map (ffNeg p))[i]?).bind push
  | .num w => push w
  | op =>
    if s.2 = 0 then none
    else
      (s.1[s.2]?).bind fun a => (s.1[s.2 - 1]?).bind fun x =>
        (match op with
          | .plus => some (ffAddAssign p x a)
          | .minus => some (ffSubAssign p x a)
          | .mult => ffMulAssign p x a
          | .div => ffDivAssign p x a
          | .pow => ffPow p x a
          | .negPow => (toNegInt a).bind fun k => ffPowInt p 32 x k
          | .powNeg => (ffPow p x a).map (ffNeg p)
          | .negPowNeg => ((toNegInt a).bind fun k => ffPowInt p 32 x k).map (ffNeg p)
          | _ => none).map fun c => (s.1.set (s.2 - 1) c, s.2 - 1)

/-- `evaluate_pre_2` for one function (ShuntingYardParser.hpp 492-579): an array with as many entries as
there are tokens; exit (`none`) unless the depth is one at the end. -/
def evaluatePre2 [LongDouble] (p : Nat) (values : List Nat) (ts : List PTok) : Option Nat :=
  (ts.foldlM (evalPre2Step p values) (List.replicate ts.length 0, 0)).bind fun s =>
    if s.2 = 1 then s.1[1]? else none

end FireFly
