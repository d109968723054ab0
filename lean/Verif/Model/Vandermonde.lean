import Verif.Model.PolyFF
/-!
# The Vandermonde solvers

`PolyReconst::solve_transposed_vandermonde` (source/PolyReconst.cpp 843-893) and
`solve_vandermonde_system` (source/utils.cpp 242-303), over an arbitrary field. Vectors of field
elements are functions `ℕ → F`, of which only the entries below the length matter.
-/
namespace FireFly
variable {F : Type} [Field F] [DecidableEq F]

/-- Body of the loop over `i` building the master polynomial (source/PolyReconst.cpp 862-868,
source/utils.cpp 273-279): `cis[j] -= vis[i] * cis[j+1]` for `j = m-1-i, …, m-2` (ascending), then
`cis[m-1] -= vis[i]`. -/
def masterStep (m : ℕ) (vis : ℕ → F) (cis : ℕ → F) (i : ℕ) : ℕ → F :=
  let cis := (List.range' (m - 1 - i) i).foldl
    (fun (c : ℕ → F) (j : ℕ) => Function.update c j (c j - vis i * c (j + 1))) cis
  Function.update cis (m - 1) (cis (m - 1) - vis i)

/-- The coefficients `c_0 … c_{m-1}` of the master polynomial (source/PolyReconst.cpp 852-868,
source/utils.cpp 263-279); `FFInt`s are default-initialised to 0. -/
def masterCoefs (m : ℕ) (vis : ℕ → F) : ℕ → F :=
  (List.range' 1 (m - 1)).foldl (masterStep m vis) (Function.update (fun _ => 0) (m - 1) (-vis 0))

/-- The loop `for (int j = m - 1; j > 0; j--)` (source/PolyReconst.cpp 880-884, source/utils.cpp
291-295) on the variables `t`, `b`, `s`; the first argument is the current `j`. -/
def vdmLoop (cis fis : ℕ → F) (v : F) : ℕ → F → F → F → F × F
  | 0, t, _, s => (t, s)
  | j + 1, t, b, s =>
    let b := cis (j + 1) + v * b
    vdmLoop cis fis v j (v * t + b) b (s + fis j * b)

/-- One entry of the result (source/PolyReconst.cpp 875-887): `s / t / vis[i]`. -/
def vdmEntry (m : ℕ) (vis fis : ℕ → F) (i : ℕ) : F :=
  let r := vdmLoop (masterCoefs m vis) fis (vis i) (m - 1) 1 1 (fis (m - 1))
  r.2 / r.1 / vis i

/-- `PolyReconst::solve_transposed_vandermonde` (source/PolyReconst.cpp 843-893). `none` is the
undefined behaviour of reading beyond the end of `fis`. -/
def solveTransposedVandermonde (vis fis : List F) : Option (List F) :=
  if vis.length = 0 then some [0]
  else if fis.length < vis.length then none
  else some ((List.range vis.length).map
    (vdmEntry vis.length (fun i => vis.getD i 0) (fun i => fis.getD i 0)))

/-- The base entries `vi = Π_i val[i]^(el[i+1])` (source/utils.cpp 254-264). -/
def vdmBase (val : List F) (el : List ℕ) : F :=
  (List.range val.length).foldl (fun (vi : F) (i : ℕ) => vi * val.getD i 0 ^ el.getD (i + 1) 0) 1

/-- `solve_vandermonde_system` (source/utils.cpp 242-303): the map `degs[i] ↦ s / t / vis[i]`.
`none` is undefined behaviour: an empty system (`cis[num_eqn - 1]`, `vis[0]`), or reading beyond the
end of `nums` or of an exponent vector. -/
def solveVandermondeSystem (degs : List (List ℕ)) (nums val : List F) : Option (FFMap F) :=
  if degs = [] ∨ nums.length < degs.length ∨ ¬ ∀ el ∈ degs, val.length + 1 ≤ el.length then none
  else
    let vis := degs.map (vdmBase val)
    some ((List.range degs.length).foldl (fun (poly : FFMap F) (i : ℕ) =>
      poly.emplace (degs.getD i [])
        (vdmEntry degs.length (fun i => vis.getD i 0) (fun i => nums.getD i 0) i)) [])

end FireFly
