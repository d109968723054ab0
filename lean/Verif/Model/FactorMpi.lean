import Verif.Model.FactorFiles
/-!
# The broadcast of the factors to the workers

Master: `mpi_setup` (source/include/firefly/Reconstructor.hpp 3849-3906) at the start of a run and the end of `scan_for_factors` (1877-1909, 1923-1928). Worker: `run` (source/include/firefly/MPIWorker.hpp 126-183) and the branch for the tag `FACTORS` in `communicate`
(302-352), which contain the same loop.

Simplifications: a broadcast is a message in a list, all workers get the same list. A call of `MPI_Bcast` on the two sides whose types or counts differ, a negative count and an access outside the string are `none`. The batch size is a parameter (2147483645 in the code).
-/
namespace FireFly

/-- What one call of `MPI_Bcast` transfers. -/
inductive BMsg
  | int (z : ℤ)
  | chars (s : Str)
  | u32 (k : ℕ)
  deriving DecidableEq

/-- `static_cast<int>(s.size())`: the value modulo `2^32` between `-2^31` and `2^31 - 1`. -/
def intSize (s : Str) : ℤ := (s.length : ℤ).bmod (2 ^ 32)

/-- `batch_size` (source/include/firefly/Reconstructor.hpp 1878, 3865). -/
def batchSize : ℤ := 2147483645

/-- `MPI_Bcast(&amount, 1, MPI_INT, ..); MPI_Bcast(&s[start], amount, MPI_CHAR, ..)`. -/
def sendPart (s : Str) (start amount : ℤ) : Option (List BMsg) :=
  if 0 ≤ start ∧ 0 ≤ amount ∧ start + amount ≤ s.length then some [.int amount, .chars ((s.drop start.toNat).take amount.toNat)] else none

/-- One iteration of the loop over the parts (source/include/firefly/Reconstructor.hpp 1894-1906, 3882-3894). -/
def sendIter (batch : ℤ) (s : Str) (split i : ℤ) : Option (List BMsg) :=
  if i = split then
    let amount := intSize s - i * batch
    if amount ≠ 0 then sendPart s (i * batch) amount else some []
  else sendPart s (i * batch) batch

/-- The loop over the parts: `i` from 0 to `split` (source/include/firefly/Reconstructor.hpp 1894, 3882). -/
def sendParts (batch : ℤ) (s : Str) (split : ℤ) : ℕ → ℕ → Option (List BMsg)
  | 0, _ => some []
  | k + 1, i =>
    (sendIter batch s split i).bind fun a => (sendParts batch s split k (i + 1)).map fun b => a ++ b

/-- The number of the parts, if there are several (source/include/firefly/Reconstructor.hpp 1881-1892, 3868-3880). -/
def sendCount (batch : ℤ) (s : Str) : List BMsg :=
  let split := (intSize s).tdiv batch
  if split > 1 then [.int (if (intSize s).tmod batch = 0 then -split else -1 - split)]
  else if split = 1 ∧ intSize s ≠ batch then [.int (-1 - split)]
  else []

/-- The text of one function and its number (source/include/firefly/Reconstructor.hpp 1878-1909, 3865-3898). -/
def sendFactor (batch : ℤ) (q : ℕ × Str) : Option (List BMsg) :=
  (sendParts batch q.2 ((intSize q.2).tdiv batch) (1 + (intSize q.2).tdiv batch).toNat 0).map fun ps => sendCount batch q.2 ++ ps ++ [.u32 q.1]

/-- All functions and the end `-1` (source/include/firefly/Reconstructor.hpp 1843, 1924-1925, 3864, 3902-3903). -/
def sendFactors (batch : ℤ) : List (ℕ × Str) → Option (List BMsg)
  | [] => some [.int (-1)]
  | q :: l => (sendFactor batch q).bind fun a => (sendFactors batch l).map fun b => a ++ b

/-- `mpi_setup` (source/include/firefly/Reconstructor.hpp 3849-3906): the number of the prime, then the factors; `texts` are those of `get_factors_string`, `any` is `!parsed_factors.empty()`. -/
def mpiSetup (batch : ℤ) (primeIt : ℕ) (any : Bool) (texts : List Str) : Option (List BMsg) :=
  (sendFactors batch (if any then texts.zipIdx.map fun q => (q.2, q.1) else [])).map fun ms => .u32 primeIt :: ms

/-- `get_factors_string` (source/include/firefly/Reconstructor.hpp 1097-1120) of a resumed run. -/
def FacMem.factorsString (m : FacMem) (n items : ℕ) (vars : List Str) : Option (List Str) :=
  (List.range items).mapM fun i =>
    let one : Polynomial := { n := n, coefs := [(List.replicate n 0, { num := 1, den := 1 })] }
    (m.dress i one one).toStr vars

/-! ### the worker -/

/-- `MPI_Bcast(fac_c, amount, MPI_CHAR, ..)` (source/include/firefly/MPIWorker.hpp 160-165, 333-338). -/
def recvChars (amount : ℤ) : List BMsg → Option (Str × List BMsg)
  | .chars s :: ms => if (s.length : ℤ) = amount then some (s, ms) else none
  | _ => none

/-- The loop over `multiple` parts (source/include/firefly/MPIWorker.hpp 155-168, 328-341) with `multiple != 1`. -/
def recvParts : ℕ → List BMsg → Option (Str × List BMsg)
  | 0, ms => some ([], ms)
  | k + 1, .int a :: ms => (recvChars a ms).bind fun r => (recvParts k r.2).map fun t => (r.1 ++ t.1, t.2)
  | _ + 1, _ => none

/-- The text after the first `amount` (source/include/firefly/MPIWorker.hpp 147-168, 320-341). -/
def recvText (amount : ℤ) (ms : List BMsg) : Option (Str × List BMsg) :=
  if amount < -1 then recvParts (-amount).toNat ms else recvChars amount ms

/-- `while (true)` (source/include/firefly/MPIWorker.hpp 142-177, 315-349): the pairs given to `parsed_factors.emplace`, and the messages that are left. `fuel` bounds the number of iterations. -/
def recvFactors : ℕ → List BMsg → Option (List (ℕ × Str) × List BMsg)
  | 0, _ => none
  | fuel + 1, .int a :: ms =>
    if a = -1 then some ([], ms)
    else (recvText a ms).bind fun r =>
      match r.2 with
      | .u32 f :: ms' => (recvFactors fuel ms').map fun t => ((f, r.1) :: t.1, t.2)
      | _ => none
  | _ + 1, _ => none

/-- `run` (source/include/firefly/MPIWorker.hpp 126-183): the number of the prime and the factors. -/
def workerSetup (fuel : ℕ) : List BMsg → Option (ℕ × List (ℕ × Str) × List BMsg)
  | .u32 p :: ms => (recvFactors fuel ms).map fun t => (p, t.1, t.2)
  | _ => none

/-- The factors after parsing: `parsed_factors.emplace(function_number, parser)` keeps the first entry of a function. `none` if a text is not accepted. -/
def workerParse (l : List (ℕ × Str)) : Option (List (ℕ × List Str)) :=
  l.mapM fun q => (parse q.2).map fun T => (q.1, T)

end FireFly
