import Verif.Spec.Expr
import Mathlib.Algebra.BigOperators.Group.List.Basic
/-!
# Specification: expressions in functions, and rules that replace them

What `ff_insert` reads: a sum of terms `F[1,2]*c` with functions `F[...]` of given names and coefficients `c` (an expression in the variables, written as in `Verif.Spec.Expr`,
without a sum that is not in parentheses), and tables of rules `F[1,2]->...` whose right-hand sides are such sums, or `0`.
-/
namespace FireFly

/-- the sign of a term -/
inductive ASign where
  | none
  | plus
  | minus
deriving DecidableEq, Repr

/-- the text of a sign -/
def ASign.text : ASign → Str
  | .none => []
  | .plus => ['+']
  | .minus => ['-']

/-- a term: a sign, a function and a coefficient -/
structure ATerm where
  sign : ASign
  fam : Str
  args : Str
  coef : Option Expr
deriving DecidableEq, Repr

/-- the name of a function with its arguments -/
def fnName (fam args : Str) : Str := fam ++ '[' :: args ++ [']']

/-- the function of a term -/
def ATerm.name (t : ATerm) : Str := fnName t.fam t.args

/-- the text of a coefficient: nothing, or `*c` -/
def coefText : Option Expr → Str
  | none => []
  | some c => '*' :: c.render

/-- the text of a term -/
def ATerm.text (t : ATerm) : Str := t.sign.text ++ t.name ++ coefText t.coef

/-- the value of the coefficient of a term with its sign -/
def ATerm.value {K : Type} [Field K] (env : Str → K) (t : ATerm) : K :=
  let c := match t.coef with | none => 1 | some c => c.denote env
  match t.sign with | .minus => -c | _ => c

/-- the text of a sum of terms -/
def sumText (ts : List ATerm) : Str := (ts.map ATerm.text).flatten

/-- the value of a sum of terms if the functions have the values `φ` -/
def sumValue {K : Type} [Field K] (env φ : Str → K) (ts : List ATerm) : K := (ts.map fun t => t.value env * φ t.name).sum

/-- a rule -/
structure ARule where
  fam : Str
  args : Str
  rhs : List ATerm
deriving DecidableEq, Repr

/-- the function a rule replaces -/
def ARule.name (r : ARule) : Str := fnName r.fam r.args

/-- the text of a rule -/
def ARule.text (r : ARule) : Str := r.name ++ ['-', '>'] ++ (if r.rhs = [] then ['0'] else sumText r.rhs)

/-- the text of a table -/
def tableText : List ARule → Str
  | [] => []
  | [r] => r.text
  | r :: rs => r.text ++ ',' :: tableText rs

/-- the right-hand side for a function, if there is a rule -/
def ruleFor (rules : List ARule) (x : Str) : Option (List ATerm) := (rules.find? fun r => r.name = x).map ARule.rhs

/-- the value of a sum of terms after the replacement -/
def replacedValue {K : Type} [Field K] (rules : List ARule) (env φ : Str → K) (ts : List ATerm) : K :=
  (ts.map fun t => t.value env * (match ruleFor rules t.name with | none => φ t.name | some rhs => sumValue env φ rhs)).sum

/-- the coefficient of the function `n` in a sum of terms after the replacement -/
def masterCoef {K : Type} [Field K] (rules : List ARule) (env : Str → K) (ts : List ATerm) (n : Str) : K :=
  (ts.map fun t => t.value env * (match ruleFor rules t.name with | none => if t.name = n then 1 else 0 | some rhs => ((rhs.filter fun r => r.name = n).map (·.value env)).sum)).sum

/-- the functions that are left after the replacement -/
def IsMaster (rules : List ARule) (ts : List ATerm) (n : Str) : Prop :=
  ∃ t ∈ ts, match ruleFor rules t.name with | none => t.name = n | some rhs => ∃ r ∈ rhs, r.name = n

/-- names of functions: letters, digits and `_`; no name is a part of another one -/
structure FamsOK (fams : List Str) : Prop where
  chars : ∀ f ∈ fams, f ≠ [] ∧ ∀ c ∈ f, isAlphaC c = true ∨ isDigitC c = true ∨ c = '_'
  apart : ∀ f ∈ fams, ∀ g ∈ fams, f <:+: g → f = g

/-- a function: a name of the list, arguments without brackets, braces, `>`, `;` and white space -/
def FnOK (fams : List Str) (fam args : Str) : Prop := fam ∈ fams ∧ ∀ c ∈ args, c ∉ ['[', ']', '{', '}', '>', ';', ' ', '\t', '\n']

/-- a coefficient: a product in the variables in which no name of a function occurs -/
def CoefOK (fams vars : List Str) (P N : ℕ) (c : Expr) : Prop := c.WF vars P N ∧ 2 ≤ c.level ∧ ∀ f ∈ fams, ¬ f <:+: c.render

/-- a term -/
def ATerm.OK (fams vars : List Str) (P N : ℕ) (t : ATerm) : Prop := FnOK fams t.fam t.args ∧ ∀ c, t.coef = some c → CoefOK fams vars P N c

/-- a sum: all terms but the first one have a sign -/
def SumOK (fams vars : List Str) (P N : ℕ) (ts : List ATerm) : Prop := (∀ t ∈ ts, t.OK fams vars P N) ∧ ∀ t ∈ ts.tail, t.sign ≠ .none

/-- a rule -/
def ARule.OK (fams vars : List Str) (P N : ℕ) (r : ARule) : Prop := FnOK fams r.fam r.args ∧ SumOK fams vars P N r.rhs

/-- a text with white space anywhere, with or without braces -/
def Spelled (text s : Str) : Prop :=
  s.filter (fun c => c ≠ ' ' ∧ c ≠ '\t' ∧ c ≠ '\n') = text ∨ s.filter (fun c => c ≠ ' ' ∧ c ≠ '\t' ∧ c ≠ '\n') = '{' :: text ++ ['}']

end FireFly
