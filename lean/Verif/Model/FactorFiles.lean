import Verif.Model.Factors
import Verif.Model.SaveState
/-!
# The files of the factor scan (source/include/firefly/Reconstructor.hpp 563-623, 1786-1827, 1841-1868, 1911-1921, source/ParserUtils.cpp 79-210)

At the end of the factor scan the order of the variables, the factors of the results and the text of the factors to be divided out of the probes are written to `ff_save`; a resumed run reads them instead of scanning again.

Simplifications: the compression of the streams is the identity; opening, writing and reading do not fail; a hash table keeps the order of insertion; the messages are left out.
-/
namespace FireFly

/-- A directory: names and contents. -/
abbrev Folder := List (Str × Str)

/-- What `ff_save` contains of the factor scan: the file `var_order.gz` and the directories `factors_rf` and `factors`. -/
structure FacDir where
  order : Option Str := none
  rf : Folder := []
  fac : Folder := []

/-- `file.open(file_name.c_str())`, the output and `file.close()` (source/include/firefly/Reconstructor.hpp 1787-1795, 1800-1826, 1914-1920): an old file of this name is overwritten. -/
def putFile (d : Folder) (name content : Str) : Folder :=
  if name ∈ d.map Prod.fst then d.map fun q => if q.1 = name then (name, content) else q else d ++ [(name, content)]

/-- `std::to_string(tmp_rfs.first) + ".gz"` (source/include/firefly/Reconstructor.hpp 1801, 1916). -/
def facFile (i : ℕ) : Str := natStr i ++ ".gz".toList

/-- The content of `var_order.gz` (source/include/firefly/Reconstructor.hpp 1791-1793). -/
def orderText (n : ℕ) (order : List (ℕ × ℕ)) : Str := unlines ((List.range n).map fun i => natStr i ++ [' '] ++ natStr ((order.lookup i).getD 0) ++ [' '])

/-- `tmp_var_pos` (source/include/firefly/Reconstructor.hpp 1806-1809). -/
def filePos (r : Polynomial × Polynomial) : ℤ :=
  match r.1.varPos with
  | some i => i
  | none => match r.2.varPos with
    | some i => i
    | none => -1

/-- The lines of the monomials (source/include/firefly/Reconstructor.hpp 1814-1817, 1821-1824): only the first power is written. -/
def facLines (m : List (List ℕ × RationalNumber)) : List Str := m.map fun t => natStr (t.1.getD 0 0) ++ [' '] ++ (intStr t.2.num ++ [' '] ++ intStr t.2.den)

/-- The lines of one factor (source/include/firefly/Reconstructor.hpp 1805-1824). -/
def rfLines (r : Polynomial × Polynomial) : List Str :=
  ["var".toList, intStr (filePos r), "numerator".toList] ++ facLines r.1.coefs ++ ["denominator".toList] ++ facLines r.2.coefs

/-- What the factor scan writes to `ff_save` (source/include/firefly/Reconstructor.hpp 1786-1827, 1841-1921): `texts` are the functions with factors and the text `tmp_fac_s`. -/
def saveFactors (n : ℕ) (order : List (ℕ × ℕ)) (factors : List (ℕ × List (Polynomial × Polynomial))) (texts : List (ℕ × Str)) (d : FacDir) : FacDir :=
  { order := if changeOrder order then some (orderText n order) else d.order
    rf := factors.foldl (fun f q => putFile f (facFile q.1) (unlines (q.2.map rfLines).flatten)) d.rf
    fac := texts.foldl (fun f q => putFile f (facFile q.1) (q.2 ++ [';', '\n'])) d.fac }

/-! ### reading -/

/-- The order of the variables (source/include/firefly/Reconstructor.hpp 576-579): `optimal_var_order` is empty before. -/
def readOrder (content : Str) : Except LoadErr (List (ℕ × ℕ)) :=
  (linesOf content).foldlM (fun o line => do
    let v ← orThrow (parseVec32 line 2)
    match v.1 with
    | a :: b :: _ => .ok (dmSet o a b)
    | _ => .error .ub) []

/-- `optimal_var_order[i]` in the loop (source/include/firefly/Reconstructor.hpp 585-595): a missing entry becomes zero. -/
def fillOrder (n : ℕ) (order : List (ℕ × ℕ)) : List (ℕ × ℕ) := (List.range n).foldl (fun o i => if (o.lookup i).isSome then o else o ++ [(i, 0)]) order

/-- `change_var_order` (source/include/firefly/Reconstructor.hpp 585-588). -/
def orderChanged (n : ℕ) (order : List (ℕ × ℕ)) : Bool := (List.range n).any fun i => (order.lookup i).getD 0 != i

/-- `Polynomial tmp_num(tmp_numerator); tmp_num.set_var_pos(var_pos)` (source/ParserUtils.cpp 124-127, 150-153, source/Polynomial.cpp 26-35). A negative position stands for `-1`. -/
def filePoly (pos : ℤ) (m : RnMap) : Polynomial :=
  { n := match m with
      | [] => 0
      | t :: _ => t.1.length
    coefs := m
    varPos := if pos < 0 then none else some pos.toNat }

/-- The local variables of the loop over the lines and the factors of this file (source/ParserUtils.cpp 108-116). -/
structure RfSt where
  isNum : Bool := false
  isVar : Bool := true
  pos : ℤ := -1
  num : RnMap := []
  den : RnMap := []
  out : List (Polynomial × Polynomial) := []

/-- The factor which has been read is appended (source/ParserUtils.cpp 123-129, 149-155). -/
def RfSt.flush (s : RfSt) : List (Polynomial × Polynomial) :=
  if s.num ≠ [] ∨ s.den ≠ [] then s.out ++ [(filePoly s.pos s.num, filePoly s.pos s.den)] else s.out

/-- One line (source/ParserUtils.cpp 118-147). -/
def rfLine (s : RfSt) (line : Str) : Except LoadErr RfSt :=
  if line = "var".toList then .ok { s with isVar := true, isNum := false, out := s.flush, num := [], den := [] }
  else if line = "numerator".toList then .ok { s with isNum := true }
  else if line = "denominator".toList then .ok { s with isNum := false }
  else if s.isVar then do
    let z ← orThrow (stoi line)
    .ok { s with isVar := false, pos := z }
  else if s.isNum then do
    let m ← readRn 1 s.num line
    .ok { s with num := m }
  else do
    let m ← readRn 1 s.den line
    .ok { s with den := m }

/-- The factors in one file (source/ParserUtils.cpp 108-155). -/
def readRf (content : Str) : Except LoadErr (List (Polynomial × Polynomial)) := do
  let s ← (linesOf content).foldlM rfLine {}
  .ok s.flush

/-- `std::stoi(fac_number)` as a number of a function (source/ParserUtils.cpp 99-106, 128, 154, 188-195, 205). -/
def fileNumber (name : Str) : Except LoadErr ℕ := do
  let z ← orThrow (stoi (name.takeWhile (· ≠ '.')))
  .ok (toU32 z)

/-- `parse_factors_rf` (source/ParserUtils.cpp 79-161): a file without a factor makes no entry, and its name is not read. -/
def parseFactorsRf (d : Folder) : Except LoadErr (List (ℕ × List (Polynomial × Polynomial))) :=
  d.foldlM (fun m q => do
    let rs ← readRf q.2
    if rs = [] then .ok m
    else do
      let i ← fileNumber q.1
      .ok (dmSet m i ((m.lookup i).getD [] ++ rs))) []

/-- `parse_factors` (source/ParserUtils.cpp 163-210) up to `precompute_tokens`: the tokens of the first line of each file without its last character. `pop_back` of an empty line is undefined; `none` of `parse`
is an end of the program. -/
def parseFactors (d : Folder) : Except LoadErr (List (ℕ × List Str)) :=
  d.foldlM (fun m q =>
    match linesOf q.2 with
    | [] => .error .ub
    | line :: _ =>
      if line = [] then .error .ub
      else match parse line.dropLast with
        | none => .error .exit
        | some T => do
          let i ← fileNumber q.1
          .ok (if (m.lookup i).isSome then m else m ++ [(i, T)])) []

/-- What a resumed run knows of the factor scan. -/
structure FacMem where
  order : List (ℕ × ℕ)
  change : Bool
  parsed : List (ℕ × List Str)
  rfs : List (ℕ × List (Polynomial × Polynomial))

/-- `optimal_var_order` of a resumed run (source/include/firefly/Reconstructor.hpp 569-595): empty without the file. -/
def resumeOrder (n : ℕ) (file : Option Str) : Except LoadErr (List (ℕ × ℕ)) :=
  match file with
  | none => .ok []
  | some c => (readOrder c).map (fillOrder n)

/-- The beginning of `resume_from_saved_state` (source/include/firefly/Reconstructor.hpp 566-623). -/
def resumeFactors (n : ℕ) (d : FacDir) : Except LoadErr FacMem := do
  let order ← resumeOrder n d.order
  let parsed ← parseFactors d.fac
  let rfs ← parseFactorsRf d.rf
  .ok { order := order, change := d.order.isSome && orderChanged n order, parsed := parsed, rfs := rfs }

/-- A result of the resumed run (source/include/firefly/Reconstructor.hpp 1131-1141, 1179-1188). -/
def FacMem.dress (m : FacMem) (i : ℕ) (num den : Polynomial) : RationalFunction :=
  { num := num, den := den, order := if m.change then m.order else [], factors := (m.rfs.lookup i).getD [] }

/-- The point of a probe of the resumed run (source/include/firefly/Reconstructor.hpp 2936-2950). -/
def FacMem.point {F : Type} [Zero F] (m : FacMem) (n : ℕ) (coord : ℕ → F) : List F :=
  if m.change then m.order.foldl (fun v el => v.set el.2 (coord el.1)) (List.replicate n 0) else (List.range n).map coord

end FireFly
