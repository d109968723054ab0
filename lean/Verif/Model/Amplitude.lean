import Verif.Model.Parser
/-!
# Insertion of replacement rules into an expression

source/AmplitudeParser.cpp, source/include/firefly/AmplitudeParser.hpp: the class `AmplitudeParser` (used by `ff_insert`). Strings are lists of characters, the
positions are those of the code (`find`, `rfind`, `substr`); subtraction of positions is that of `size_t`. Hash maps are lists of pairs; where the code iterates over
one, the order is a parameter. Messages, times and the log file are not modelled.
-/
namespace FireFly

/-- how a call can fail: `std::exit`, an exception, undefined behaviour, a loop without end -/
inductive AmpErr where
  | exit
  | throw
  | ub
  | hang
deriving DecidableEq, Repr

/-! ## strings -/

/-- `s.find(pat)` -/
def strFind (pat : Str) : Str → Option ℕ
  | [] => if pat = [] then some 0 else none
  | c :: cs => if pat <+: c :: cs then some 0 else (strFind pat cs).map (· + 1)

/-- `s.find(pat, pos)` for a pattern that is not empty -/
def strFindFrom (pat s : Str) (pos : ℕ) : Option ℕ := (strFind pat (s.drop pos)).map (· + pos)

/-- `s.rfind(pat)` -/
def strRFind (pat : Str) : Str → Option ℕ
  | [] => if pat = [] then some 0 else none
  | c :: cs => match strRFind pat cs with
    | some k => some (k + 1)
    | none => if pat <+: c :: cs then some 0 else none

/-- `s.rfind(pat, pos)`: the last position up to `pos` -/
def strRFindFrom (pat s : Str) (pos : ℕ) : Option ℕ := strRFind pat (s.take (pos + pat.length))

/-- the difference of two `size_t` -/
def subSize (a b : ℕ) : ℕ := if b ≤ a then a - b else a + 2 ^ 64 - b

/-- `s.substr(pos, len)` for `pos <= s.size()` -/
def subStr (s : Str) (pos len : ℕ) : Str := (s.drop pos).take len

/-- the removal of blanks, tabulators and newlines (source/AmplitudeParser.cpp 95-97, 235-237) -/
def stripWs (s : Str) : Str := s.filter fun c => c ≠ ' ' ∧ c ≠ '\t' ∧ c ≠ '\n'

/-- the removal of braces (source/AmplitudeParser.cpp 99-103, 239-243). The last character of an empty string is undefined. -/
def stripBraces (s : Str) : Except AmpErr Str :=
  let a := if s.head? = some '{' then s.tail else s
  match a.getLast? with
  | none => .error .ub
  | some c => .ok (if c = '}' then a.dropLast else a)

/-! ## `parse_string` -/

/-- The loop over the families that looks for the next function (source/AmplitudeParser.cpp 147-158): the coefficient and `found`. -/
def ampNext (fams : List Str) (seed2 : Str) (fo2 found : ℕ) : Str × ℕ :=
  fams.foldl (fun r fam => match strRFind fam seed2 with
    | none => r
    | some k => (if seed2.head? = some '*' then subStr seed2 1 (subSize k 2) else subStr seed2 0 (subSize k 2), subSize (subSize fo2 fam.length) 2)) ([], found)

/-- The coefficient of a function whose `]` is at `found` (source/AmplitudeParser.cpp 141-163). -/
def ampCoef (fams : List Str) (amp : Str) (found : ℕ) : Str × ℕ :=
  if found + 1 < amp.length - 1 ∧ amp[found + 1]? = some '*' then
    match strFindFrom ['['] amp (found + 1) with
    | some fo2 => ampNext fams (subStr amp (found + 1) (fo2 - (found + 1))) fo2 found
    | none => (amp.drop (found + 2), found)
  else (['1'], found)

/-- An iteration of the loop (source/AmplitudeParser.cpp 112-180): the function, its coefficient, and the new value of `found`. -/
def ampTerm (fams : List Str) (amp : Str) (oldPos found : ℕ) : Except AmpErr ((Str × Str) × ℕ) :=
  let seed := subStr amp oldPos (found + 1 - oldPos)
  let fo := strFind ['['] seed
  let intFam := match fo with | some k => seed.take k | none => seed
  match fams.findSome? (fun fam => strFind fam intFam) with
  | none => .error .exit
  | some fo2 =>
    match fo with
    | none => .error .throw
    | some fo =>
      let prefac : Option Char := if fo2 ≠ 0 then intFam[fo2 - 1]? else none
      if prefac = some '*' then .error .exit
      else
        let c := ampCoef fams amp found
        .ok ((intFam.drop fo2 ++ seed.drop fo, if prefac = some '-' then '-' :: '(' :: c.1 ++ [')'] else c.1), c.2)

/-- The loop of `parse_string` (source/AmplitudeParser.cpp 109-185). An iteration that does not move `found` forward can only be repeated without end. -/
def ampLoop (fams : List Str) (amp : Str) : ℕ → ℕ → Option ℕ → Except AmpErr (List (Str × Str))
  | _, _, none => .ok []
  | 0, _, some _ => .error .hang
  | fuel + 1, oldPos, some found => do
    let (t, found') ← ampTerm fams amp oldPos found
    let ts ← ampLoop fams amp fuel (found' + 1) (strFindFrom [']'] amp (found' + 1))
    .ok (t :: ts)

/-- `parse_string` (source/AmplitudeParser.cpp 91-201) with `replacement` set. -/
def ampParse (fams : List Str) (amp : Str) : Except AmpErr (List (Str × Str)) :=
  if amp = [] then .error .exit else ampLoop fams amp amp.length 0 (strFind [']'] amp)

/-- `parse_string` for an expression (source/AmplitudeParser.cpp 94-104). -/
def ampParseTop (fams : List Str) (s : Str) : Except AmpErr (List (Str × Str)) := do
  ampParse fams (← stripBraces (stripWs s))

/-! ## the object -/

/-- The members of `AmplitudeParser` (source/include/firefly/AmplitudeParser.hpp 139-151). -/
structure AmpSt where
  fams : List Str
  integrals : List (Str × ℕ) := []
  repl : List Str := []
  masters : List (Str × ℕ) := []
  mastersInv : List (ℕ × Str) := []
  mapping : List (ℕ × List (ℕ × ℕ)) := []
  functions : List Str := []
  integralCount : ℕ := 0
  masterCount : ℕ := 2
  parserCount : ℕ := 0
deriving DecidableEq, Repr

/-- `m[key].emplace_back(x)` -/
def mapPush (m : List (ℕ × List (ℕ × ℕ))) (key : ℕ) (x : ℕ × ℕ) : List (ℕ × List (ℕ × ℕ)) :=
  if key ∈ m.map (·.1) then m.map fun q => if q.1 = key then (q.1, q.2 ++ [x]) else q else m ++ [(key, [x])]

/-- `m.emplace(key, {x})` -/
def mapEmplace (m : List (ℕ × List (ℕ × ℕ))) (key : ℕ) (x : ℕ × ℕ) : List (ℕ × List (ℕ × ℕ)) :=
  if key ∈ m.map (·.1) then m else m ++ [(key, [x])]

/-- a pair in `parse_amplitude_string` (source/AmplitudeParser.cpp 71-83) -/
def AmpSt.addTerm (s : AmpSt) (q : Str × Str) : AmpSt :=
  match s.integrals.lookup q.1 with
  | some i => { s with functions := s.functions ++ [q.2], mapping := mapPush s.mapping i (s.parserCount, 0), parserCount := s.parserCount + 1 }
  | none => { s with
      integrals := s.integrals ++ [(q.1, s.integralCount)]
      functions := s.functions ++ [q.2]
      mapping := mapEmplace s.mapping s.integralCount (s.parserCount, 0)
      parserCount := s.parserCount + 1
      integralCount := s.integralCount + 1 }

/-- `parse_amplitude_string` (source/AmplitudeParser.cpp 62-89) -/
def AmpSt.parseAmplitude (s : AmpSt) (text : Str) : Except AmpErr AmpSt := do
  let res ← ampParseTop s.fams text
  .ok (res.foldl AmpSt.addTerm { s with integralCount := 0, parserCount := 0 })

/-- `parse_file` (source/AmplitudeParser.cpp 38-60): the text up to the first semicolon; nothing happens for an empty file. A missing file ends the program and is not modelled. -/
def AmpSt.parseFile (s : AmpSt) (content : Str) : Except AmpErr AmpSt :=
  if content = [] then .ok s else s.parseAmplitude (content.takeWhile (· ≠ ';'))

/-- a master with its coefficient in a rule (source/AmplitudeParser.cpp 271-283, 310-322): `i` is the number of the replaced function -/
def AmpSt.addMaster (i : ℕ) (s : AmpSt) (q : Str × Str) : AmpSt :=
  let s1 := match s.masters.lookup q.1 with
    | some _ => s
    | none => { s with masters := s.masters ++ [(q.1, s.masterCount)], mastersInv := s.mastersInv ++ [(s.masterCount - 2, q.1)], masterCount := s.masterCount + 1 }
  { s1 with
    mapping := mapPush s1.mapping i (s1.parserCount, (s1.masters.lookup q.1).getD 0)
    functions := s1.functions ++ [q.2]
    parserCount := s1.parserCount + 1 }

/-- a rule of a table (source/AmplitudeParser.cpp 256-284 and, with the same text, 295-323); a left-hand side without a function is read beyond the end of a vector -/
def AmpSt.addRule (s : AmpSt) (lhs rhs : Str) : Except AmpErr AmpSt := do
  match ← ampParse s.fams lhs with
  | [] => .error .ub
  | q :: _ =>
    match s.integrals.lookup q.1 with
    | none => .ok s
    | some i =>
      if q.1 ∈ s.repl then .error .exit
      else do
        let ms ← ampParse s.fams rhs
        .ok (ms.foldl (AmpSt.addMaster i) { s with repl := s.repl ++ [q.1] })

/-- The loop of `parse_ibp_table_string` (source/AmplitudeParser.cpp 249-324); `npos` is `none`. The length `tmp_pos - old_pos` of the right-hand side is a difference of
`size_t`; if no comma is found, `tmp_pos` is `npos`, the right-hand side is the rest of the text and the loop ends. -/
def ampTable (tbl : Str) : ℕ → AmpSt → ℕ → Option ℕ → Except AmpErr AmpSt
  | _, s, _, none => .ok s
  | 0, _, _, some _ => .error .hang
  | fuel + 1, s, oldPos, some pos =>
    let lhs := subStr tbl oldPos (subSize pos oldPos)
    let oldPos' := pos + 2
    match strFindFrom ['-', '>'] tbl oldPos' with
    | none => s.addRule lhs (tbl.drop oldPos')
    | some t =>
      let b := match strRFindFrom ['['] tbl t with | some b => strRFindFrom [','] tbl b | none => strRFind [','] tbl
      match b with
      | none => s.addRule lhs (tbl.drop oldPos')
      | some k => do
        let s' ← s.addRule lhs (subStr tbl oldPos' (subSize k oldPos'))
        ampTable tbl fuel s' k (strFindFrom ['-', '>'] tbl k)

/-- `parse_ibp_table_string` (source/AmplitudeParser.cpp 232-339) -/
def AmpSt.parseTable (s : AmpSt) (text : Str) : Except AmpErr AmpSt := do
  let tbl ← stripBraces (stripWs text)
  ampTable tbl tbl.length s 0 (strFind ['-', '>'] tbl)

/-- an integral in `check_for_unreplaced_masters` (source/AmplitudeParser.cpp 344-364) -/
def AmpSt.checkOne (s : AmpSt) (q : Str × ℕ) : AmpSt :=
  if q.1 ∈ s.repl then s
  else
    let s1 := match s.masters.lookup q.1 with
      | none => { s with
          masters := s.masters ++ [(q.1, s.masterCount)]
          mastersInv := s.mastersInv ++ [(s.masterCount - 2, q.1)]
          mapping := mapPush s.mapping q.2 (s.parserCount, s.masterCount)
          masterCount := s.masterCount + 1 }
      | some m => { s with mapping := mapPush s.mapping q.2 (s.parserCount, m) }
    { s1 with functions := s1.functions ++ [['1']], parserCount := s1.parserCount + 1 }

/-- `check_for_unreplaced_masters` (source/AmplitudeParser.cpp 341-374): `order` is the order of the hash map; the result is the number of masters. -/
def AmpSt.check (s : AmpSt) (order : List (Str × ℕ)) : AmpSt × ℕ :=
  let s' := order.foldl AmpSt.checkOne s
  (s', s'.masterCount - 2)

/-- The text while the entries of a function are visited (source/AmplitudeParser.cpp 393-420): the text, `pref_done`, `got_pref`, `got_fun`. `functions[k]` beyond the end is undefined. -/
def ampEntry (functions : List Str) (master : ℕ) (r : Str × Bool × Bool × Bool) (e : ℕ × ℕ) : Except AmpErr (Str × Bool × Bool × Bool) :=
  let (txt, prefDone, gotPref, gotFun) := r
  if e.2 = 0 ∨ e.2 = 1 then
    match functions[e.1]? with
    | none => .error .ub
    | some f => .ok (if gotPref then (txt ++ '+' :: '(' :: f ++ [')'], prefDone, true, gotFun) else (txt ++ '(' :: f ++ [')'], prefDone, true, gotFun))
  else if e.2 = master + 2 then
    match functions[e.1]? with
    | none => .error .ub
    | some f =>
      let txt := if prefDone then txt else txt ++ [')', '*', '(']
      .ok (if gotFun then (txt ++ '+' :: '(' :: f ++ [')'], true, gotPref, true) else (txt ++ '(' :: f ++ [')'], true, gotPref, true))
  else .ok r

/-- an integral in `get_unsimplified_coef` (source/AmplitudeParser.cpp 379-425); `amplitude_mapping.at(i)` throws -/
def AmpSt.coefOf (s : AmpSt) (master i : ℕ) : Except AmpErr Str :=
  match s.mapping.lookup i with
  | none => .error .throw
  | some es =>
    if es.any fun e => e.2 = master + 2 then do
      let r ← es.foldlM (ampEntry s.functions master) (['+', '('], false, false, false)
      .ok (r.1 ++ [')'])
    else .ok []

/-- `get_unsimplified_coef` (source/AmplitudeParser.cpp 376-428), and the text that `build_black_box` (430-484, the same statements) hands to the parser. The comparison
with `master` is `mi_map.second - 2 == master`, which wraps for the entries 0 and 1; `master` is below `2^64 - 2`. -/
def AmpSt.getCoef (s : AmpSt) (master : ℕ) : Except AmpErr Str := do
  let parts ← (List.range s.integralCount).mapM (s.coefOf master)
  .ok parts.flatten

/-- `get_master` (source/AmplitudeParser.cpp 486-488) -/
def AmpSt.getMaster (s : AmpSt) (i : ℕ) : Except AmpErr Str :=
  match s.mastersInv.lookup i with
  | none => .error .throw
  | some m => .ok m

end FireFly
