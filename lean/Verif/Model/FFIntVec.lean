import Verif.Model.FFInt
/-!
# `FFIntVec<N>` (source/FFIntVec.cpp, source/include/firefly/FFIntVec.hpp)

Layer A: a vector is the function giving the stored word of each of its `N` entries
(`std::array<FFInt, N> vec`). Undefined behaviour of an entry operation is undefined behaviour of
the vector operation (`none`).
-/
namespace FireFly

/-- The stored words of an `FFIntVec<N>` (FFIntVec.hpp 95). -/
abbrev Vec (N : ℕ) := Fin N → ℕ

/-- `for (int i = 0; i != N; ++i) v[i] = f(i, v[i]);`, the loop of all operators of
source/FFIntVec.cpp 78-300, executed entry by entry in place. -/
def vecLoop {N : ℕ} (f : Fin N → ℕ → Option ℕ) (v : Vec N) : Option (Vec N) :=
  (List.finRange N).foldlM (fun (v : Vec N) i => (f i (v i)).map (Function.update v i)) v

/-- `FFIntVec(const FFInt&)` (FFIntVec.hpp 79-81). -/
def vecFill {N : ℕ} (x : ℕ) : Vec N := fun _ => x

/-- `v += a` where `a` may be `v` itself: the right operand is read from the current state of the
loop if `same` (source/FFIntVec.cpp 81-88); likewise the next three with their entry operation. -/
def vecCompound {N : ℕ} (f : ℕ → ℕ → Option ℕ) (same : Bool) (v a : Vec N) : Option (Vec N) :=
  (List.finRange N).foldlM
    (fun (v : Vec N) i => (f (v i) (if same then v i else a i)).map (Function.update v i)) v

/-- `operator+=` (source/FFIntVec.cpp 81-88). -/
def vecAddAssign {N : ℕ} (p : ℕ) (same : Bool) (v a : Vec N) : Option (Vec N) :=
  vecCompound (fun x y => some (ffAddAssign p x y)) same v a
/-- `operator-=` (source/FFIntVec.cpp 90-97). -/
def vecSubAssign {N : ℕ} (p : ℕ) (same : Bool) (v a : Vec N) : Option (Vec N) :=
  vecCompound (fun x y => some (ffSubAssign p x y)) same v a
/-- `operator*=` (source/FFIntVec.cpp 99-106). -/
def vecMulAssign [LongDouble] {N : ℕ} (p : ℕ) (same : Bool) (v a : Vec N) : Option (Vec N) :=
  vecCompound (fun x y => ffMulAssign p x y) same v a
/-- `operator/=` (source/FFIntVec.cpp 108-115). -/
def vecDivAssign [LongDouble] {N : ℕ} (p : ℕ) (same : Bool) (v a : Vec N) : Option (Vec N) :=
  vecCompound (fun x y => ffDivAssign p x y) same v a

/-- `pow(const FFIntVec&)`, member and free function (source/FFIntVec.cpp 117-125, 293-302). -/
def vecPow [LongDouble] {N : ℕ} (p : ℕ) (a e : Vec N) : Option (Vec N) :=
  vecLoop (fun i x => ffPow p x (e i)) a
/-- `pow(const FFInt&)` (source/FFIntVec.cpp 127-135). -/
def vecPowS [LongDouble] {N : ℕ} (p : ℕ) (a : Vec N) (e : ℕ) : Option (Vec N) :=
  vecLoop (fun _ x => ffPow p x e) a
/-- `pow<T>(const T&)` (FFIntVec.hpp 138-147). -/
def vecPowInt [LongDouble] {N : ℕ} (p bits : ℕ) (a : Vec N) (e : ℤ) : Option (Vec N) :=
  vecLoop (fun _ x => ffPowInt p bits x e) a
/-- `pow(const std::vector<T>&)` (FFIntVec.hpp 123-136): `none` also stands for the thrown
`out_of_range` if the lengths differ. -/
def vecPowVec [LongDouble] {N : ℕ} (p bits : ℕ) (a : Vec N) (e : List ℤ) : Option (Vec N) :=
  if e.length ≠ N then none else vecLoop (fun i x => ffPowInt p bits x (e.getD i 0)) a

/-- `operator+(vec, vec)` (source/FFIntVec.cpp 137-146). -/
def vecAdd {N : ℕ} (p : ℕ) (a b : Vec N) : Option (Vec N) :=
  vecLoop (fun i x => some (ffAddAssign p x (b i))) a
/-- `operator-(vec, vec)` (source/FFIntVec.cpp 159-168). -/
def vecSub {N : ℕ} (p : ℕ) (a b : Vec N) : Option (Vec N) :=
  vecLoop (fun i x => some (ffSubAssign p x (b i))) a
/-- unary `operator-` (source/FFIntVec.cpp 170-179): assigns into a default-constructed result. -/
def vecNeg {N : ℕ} (p : ℕ) (a : Vec N) : Option (Vec N) :=
  vecLoop (fun i _ => some (ffNeg p (a i))) (vecFill 0)
/-- unary `operator+` (source/FFIntVec.cpp 148-157); `+x` is a copy of `x`
(source/FFInt.cpp 194-196). -/
def vecPos {N : ℕ} (a : Vec N) : Option (Vec N) :=
  vecLoop (fun i _ => some (a i)) (vecFill 0)
/-- `operator*(vec, vec)` (source/FFIntVec.cpp 181-190). -/
def vecMul [LongDouble] {N : ℕ} (p : ℕ) (a b : Vec N) : Option (Vec N) :=
  vecLoop (fun i x => ffMulAssign p x (b i)) a
/-- `operator/(vec, vec)` (source/FFIntVec.cpp 192-201). -/
def vecDiv [LongDouble] {N : ℕ} (p : ℕ) (a b : Vec N) : Option (Vec N) :=
  vecLoop (fun i x => ffDivAssign p x (b i)) a

/-- `operator+(vec, FFInt)` (source/FFIntVec.cpp 203-212). -/
def vecAddS {N : ℕ} (p : ℕ) (a : Vec N) (b : ℕ) : Option (Vec N) :=
  vecLoop (fun _ x => some (ffAddAssign p x b)) a
/-- `operator-(vec, FFInt)` (source/FFIntVec.cpp 214-223). -/
def vecSubS {N : ℕ} (p : ℕ) (a : Vec N) (b : ℕ) : Option (Vec N) :=
  vecLoop (fun _ x => some (ffSubAssign p x b)) a
/-- `operator*(vec, FFInt)` (source/FFIntVec.cpp 225-234). -/
def vecMulS [LongDouble] {N : ℕ} (p : ℕ) (a : Vec N) (b : ℕ) : Option (Vec N) :=
  vecLoop (fun _ x => ffMulAssign p x b) a
/-- `operator/(vec, FFInt)` (source/FFIntVec.cpp 236-245). -/
def vecDivS [LongDouble] {N : ℕ} (p : ℕ) (a : Vec N) (b : ℕ) : Option (Vec N) :=
  vecLoop (fun _ x => ffDivAssign p x b) a

/-- `operator+(FFInt b, vec a)` (source/FFIntVec.cpp 247-256). -/
def sAddVec {N : ℕ} (p b : ℕ) (a : Vec N) : Option (Vec N) :=
  vecLoop (fun _ x => some (ffAddAssign p x b)) a
/-- `operator-(FFInt b, vec a)` (source/FFIntVec.cpp 258-267): `result(a); result.vec[i] -= b`. -/
def sSubVec {N : ℕ} (p b : ℕ) (a : Vec N) : Option (Vec N) :=
  vecLoop (fun _ x => some (ffSubAssign p x b)) a
/-- `operator*(FFInt b, vec a)` (source/FFIntVec.cpp 269-278). -/
def sMulVec [LongDouble] {N : ℕ} (p b : ℕ) (a : Vec N) : Option (Vec N) :=
  vecLoop (fun _ x => ffMulAssign p x b) a
/-- `operator/(FFInt b, vec a)` (source/FFIntVec.cpp 280-289): `result(a); result.vec[i] /= b`. -/
def sDivVec [LongDouble] {N : ℕ} (p b : ℕ) (a : Vec N) : Option (Vec N) :=
  vecLoop (fun _ x => ffDivAssign p x b) a

/-- `operator==` (source/FFIntVec.cpp 53-56): comparison of the arrays, entry by entry. -/
def vecEq {N : ℕ} (a b : Vec N) : Bool := (List.finRange N).all fun i => ffEq (a i) (b i)

/-- `operator!` (FFIntVec.hpp 149-157): true iff some entry is zero. -/
def vecNot {N : ℕ} (a : Vec N) : Bool := (List.finRange N).any fun i => a i == 0

/-- `at(i)` (FFIntVec.hpp 112-117): `none` is the thrown `out_of_range`; the test is `i < N - 1`.
Negative indices (undefined behaviour) are not modelled. -/
def vecAt {N : ℕ} (a : Vec N) (i : Fin N) : Option ℕ := if i.1 < N - 1 then some (a i) else none

end FireFly
