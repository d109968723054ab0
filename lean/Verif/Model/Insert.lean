import Verif.Model.Amplitude
/-!
# `ff_insert`: the files with the coefficients and the merge of files

ff_insert.cpp 435-452 (`--no_interpolation`) and 476-535 (`--merge`). Command line, configuration files, directories, log and the interpolation itself are not modelled; the files of a directory are the list of
their contents.
-/
namespace FireFly

/-- the file of a master (ff_insert.cpp 448-452) -/
def coefFile (master coef : Str) : Str := "{\n + ".toList ++ master ++ "*(".toList ++ coef ++ ")\n}\n".toList

/-- the files of all masters (ff_insert.cpp 435-454), without a list of functions to skip; `n` is the number of masters -/
def AmpSt.insertFiles (s : AmpSt) (n : ℕ) : Except AmpErr (List Str) :=
  (List.range n).mapM fun m => do
    let name ← s.getMaster m
    let coef ← s.getCoef m
    .ok (coefFile name coef)

/-- the removal of white space and semicolons (ff_insert.cpp 518-521) -/
def mergeStrip (s : Str) : Str := s.filter fun c => c ≠ ' ' ∧ c ≠ '\t' ∧ c ≠ '\n' ∧ c ≠ ';'

/-- what a file contributes (ff_insert.cpp 512-530): nothing for an empty file; files without the character 0 -/
def mergeOne (content : Str) : Except AmpErr Str :=
  if content = [] then .ok [] else do
    let line ← stripBraces (mergeStrip content)
    .ok (line ++ ['\n'])

/-- the merged file (ff_insert.cpp 503-535) -/
def mergeFiles (contents : List Str) : Except AmpErr Str := do
  let ls ← contents.mapM mergeOne
  .ok ("{\n".toList ++ ls.flatten ++ "}\n".toList)

end FireFly
