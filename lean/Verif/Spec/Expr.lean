import Verif.Model.FFIntString
import Mathlib.Algebra.Field.Basic
/-!
# Specification: the documented input format of the parser

README.md 161-213: numbers, variables, `+ - * / ^`, parentheses, negative exponents in parentheses,
`+-` and `-+` as `-`; no implicit operators, no sign directly after another operator, exponents are
number literals. An expression is an abstract syntax tree together with the text it is written as
(`render`) and its value (`denote`); `WF` says that the text needs no other parentheses than those
written, under the usual precedence (power before product before sum, left to right).
-/
namespace FireFly

/-- strings -/
abbrev Str := List Char

/-- the ways to write a minus sign -/
inductive Minus where
  | m
  | pm
  | mp
deriving DecidableEq, Repr

/-- the text of a minus sign -/
def Minus.render : Minus → Str
  | .m => ['-']
  | .pm => ['+', '-']
  | .mp => ['-', '+']

/-- exponents: `n`, `(n)`, `(-n)` -/
inductive Exponent where
  | plain (ds : Str)
  | paren (ds : Str)
  | neg (ds : Str)
deriving DecidableEq, Repr

/-- expressions as they are written -/
inductive Expr where
  | num (ds : Str)
  | var (name : Str)
  | paren (e : Expr)
  | pow (a : Expr) (x : Exponent)
  | mul (a b : Expr)
  | div (a b : Expr)
  | add (a b : Expr)
  | sub (k : Minus) (a b : Expr)
  | neg (k : Minus) (a : Expr)
  | pos (a : Expr)
deriving DecidableEq, Repr

/-- the text of an exponent -/
def Exponent.render : Exponent → Str
  | .plain ds => ds
  | .paren ds => '(' :: ds ++ [')']
  | .neg ds => '(' :: '-' :: ds ++ [')']

/-- the text of an expression -/
def Expr.render : Expr → Str
  | .num ds => ds
  | .var name => name
  | .paren e => '(' :: e.render ++ [')']
  | .pow a x => a.render ++ '^' :: x.render
  | .mul a b => a.render ++ '*' :: b.render
  | .div a b => a.render ++ '/' :: b.render
  | .add a b => a.render ++ '+' :: b.render
  | .sub k a b => a.render ++ k.render ++ b.render
  | .neg k a => k.render ++ a.render
  | .pos a => '+' :: a.render

/-- the number written by a string of decimal digits -/
def decimal (ds : Str) : ℕ := ds.foldl (fun v c => v * 10 + (c.toNat - '0'.toNat)) 0

/-- the value of an expression in a field, given the values of the variables -/
def Expr.denote {K : Type} [Field K] (env : Str → K) : Expr → K
  | .num ds => (decimal ds : K)
  | .var name => env name
  | .paren e => e.denote env
  | .pow a (.plain ds) => a.denote env ^ decimal ds
  | .pow a (.paren ds) => a.denote env ^ decimal ds
  | .pow a (.neg ds) => (a.denote env ^ decimal ds)⁻¹
  | .mul a b => a.denote env * b.denote env
  | .div a b => a.denote env / b.denote env
  | .add a b => a.denote env + b.denote env
  | .sub _ a b => a.denote env - b.denote env
  | .neg _ a => -a.denote env
  | .pos a => a.denote env

/-- precedence level: 4 for atoms, 3 for powers, 2 for products, 1 for sums -/
def Expr.level : Expr → ℕ
  | .num _ => 4
  | .var _ => 4
  | .paren _ => 4
  | .pow _ _ => 3
  | .mul _ _ => 2
  | .div _ _ => 2
  | _ => 1

/-- number literals: a nonempty string of decimal digits; a literal with more than 17 digits does not begin with zero -/
def IsNum (ds : Str) : Prop := ds ≠ [] ∧ (∀ c ∈ ds, isDigitC c = true) ∧ (17 < ds.length → ds.head? ≠ some '0')

/-- variable names: letters and digits, at most 16 of them, not a number -/
def IsName (s : Str) : Prop :=
  s.length ≤ 16 ∧ (∀ c ∈ s, isAlphaC c = true ∨ isDigitC c = true) ∧ ∃ c ∈ s, isAlphaC c = true

/-- admissible exponents: `maxPos` bounds the positive, `maxNeg` the negative ones -/
def Exponent.WF (maxPos maxNeg : ℕ) : Exponent → Prop
  | .plain ds => IsNum ds ∧ decimal ds < maxPos
  | .paren ds => IsNum ds ∧ decimal ds < maxPos
  | .neg ds => IsNum ds ∧ decimal ds < maxNeg

/-- well-formed expressions in the variables `vars` -/
def Expr.WF (vars : List Str) (maxPos maxNeg : ℕ) : Expr → Prop
  | .num ds => IsNum ds
  | .var name => name ∈ vars
  | .paren e => e.WF vars maxPos maxNeg
  | .pow a x => a.WF vars maxPos maxNeg ∧ 4 ≤ a.level ∧ x.WF maxPos maxNeg
  | .mul a b => a.WF vars maxPos maxNeg ∧ 2 ≤ a.level ∧ b.WF vars maxPos maxNeg ∧ 3 ≤ b.level
  | .div a b => a.WF vars maxPos maxNeg ∧ 2 ≤ a.level ∧ b.WF vars maxPos maxNeg ∧ 3 ≤ b.level
  | .add a b => a.WF vars maxPos maxNeg ∧ b.WF vars maxPos maxNeg ∧ 2 ≤ b.level
  | .sub _ a b => a.WF vars maxPos maxNeg ∧ b.WF vars maxPos maxNeg ∧ 2 ≤ b.level
  | .neg _ a => a.WF vars maxPos maxNeg ∧ 2 ≤ a.level
  | .pos a => a.WF vars maxPos maxNeg ∧ 2 ≤ a.level

end FireFly
