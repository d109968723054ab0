import Verif.Model.ProbeFile
import Verif.Model.Factors
/-!
# Probes computed by another program

source/include/firefly/Reconstructor.hpp: `load_precomputed_probes_from_file`, `write_requested_probes_to_file`, and the operations on the queues of probes in this mode
(`queue_probes`, `get_probe`, the first part of `feed_job`). Every critical section is one step. The content of a file is the text before compression; messages are not
modelled. A missing file ends the program (3813-3817) and is not modelled.
-/
namespace FireFly

/-- `line.find(" | ")`: the part before the delimiter and the part behind it. -/
def cutBar : Str → Option (Str × Str)
  | [] => none
  | c :: cs => if [' ', '|', ' '] <+: c :: cs then some ([], cs.drop 2) else (cutBar cs).map (fun t => (c :: t.1, t.2))

/-- The loop over the probes of a line (source/include/firefly/Reconstructor.hpp 3801-3804) with the blank appended in 3797-3799; `p` is the current prime. The
access `probe_string.back()` of an empty string is undefined. -/
def parsePreProbes (p : ℕ) (s : Str) : Except LoadErr (List ℕ) :=
  match s.getLast? with
  | none => .error .ub
  | some c => (orThrow (parseVecFF p (if c = ' ' then s else s ++ [' ']) 0)).map (·.1)

/-- A line of the file in `load_precomputed_probes_from_file` (source/include/firefly/Reconstructor.hpp 3762-3804): the orders, the value of `t` and the probes (words). -/
def parsePreLine (p n : ℕ) (line : Str) : Except LoadErr (List ℕ × ℕ × List ℕ) := do
  let (ziStr, rest) ← orThrow (cutBar line)
  let (tStr, probeStr) ← orThrow (cutBar rest)
  let t ← orThrow (stoul tStr)
  let zi ← orThrow (parseVec32 (ziStr ++ [' ']) (n - 1))
  if zi.1.length ≠ n - 1 then .error .throw
  else do
    let ps ← parsePreProbes p probeStr
    .ok (zi.1, t % p, ps)

/-- The members of the reconstruction that take part (source/include/firefly/Reconstructor.hpp 181, 222-246), with the probes threads have taken (`flight`) and those
handed to the interpolations (`fed`): the orders, `t` and the values. A bunch holds one index in this mode (3808). `probes_queued` is not reduced modulo `2^32`. -/
structure PreSt where
  ind : ℕ := 0
  queued : ℕ := 0
  map : List (ℕ × ℕ × List ℕ) := []
  req : List (ℕ × List ℕ) := []
  comp : List (ℕ × List ℕ) := []
  flight : List (ℕ × List ℕ) := []
  fed : List (List ℕ × ℕ × List ℕ) := []
deriving DecidableEq, Repr

/-- `index_map.emplace(...)`: nothing happens if the key is there. -/
def preEmplace (m : List (ℕ × ℕ × List ℕ)) (i : ℕ) (v : ℕ × List ℕ) : List (ℕ × ℕ × List ℕ) := if i ∈ m.map (·.1) then m else m ++ [(i, v)]

/-- One probe of `queue_probes` (source/include/firefly/Reconstructor.hpp 2962-2973); `front`: the variable `ones`. -/
def PreSt.queue (s : PreSt) (front : Bool) (zi : List ℕ) (t : ℕ) (values : List ℕ) : PreSt :=
  { s with
    req := if front then (s.ind, values) :: s.req else s.req ++ [(s.ind, values)]
    map := preEmplace s.map s.ind (t, zi)
    ind := s.ind + 1
    queued := s.queued + 1 }

/-- A line of the file (source/include/firefly/Reconstructor.hpp 3808-3811). -/
def PreSt.loadLine (p n : ℕ) (s : PreSt) (line : Str) : Except LoadErr PreSt := do
  let (zi, t, ps) ← parsePreLine p n line
  .ok { s with comp := s.comp ++ [(s.ind, ps)], map := preEmplace s.map s.ind (t, zi), ind := s.ind + 1, queued := s.queued + 1 }

/-- `load_precomputed_probes_from_file` (source/include/firefly/Reconstructor.hpp 3750-3818). -/
def PreSt.load (p n : ℕ) (s : PreSt) (content : Str) : Except LoadErr PreSt := (linesOf content).foldlM (PreSt.loadLine p n) s

/-- `get_probe` (source/include/firefly/Reconstructor.hpp 2996-3012): waits for a probe. -/
def PreSt.take (s : PreSt) : Option PreSt :=
  match s.comp with
  | [] => none
  | c :: cs => some { s with comp := cs, flight := s.flight ++ [c], queued := s.queued - 1 }

/-- The first part of `feed_job` (source/include/firefly/Reconstructor.hpp 3032-3049) for the `k`-th running job: `index_map[index]` creates an entry if there is none, the
program ends if the number of the orders is wrong. `scan`: the scan for factors. -/
def PreSt.feed (n : ℕ) (scan : Bool) (s : PreSt) (k : ℕ) : Except LoadErr PreSt :=
  match s.flight[k]? with
  | none => .ok s
  | some (i, ps) =>
    let v := (s.map.lookup i).getD (0, [])
    if (scan && v.2.length ≠ 0) || (!scan && v.2.length ≠ n - 1) then .error .exit
    else .ok { s with flight := s.flight.eraseIdx k, map := s.map.filter (·.1 ≠ i), fed := s.fed ++ [(v.2, v.1, ps)] }

/-- A line of `write_requested_probes_to_file` (source/include/firefly/Reconstructor.hpp 3832-3842). -/
def reqLine (zi : List ℕ) (t : ℕ) (values : List ℕ) : Str :=
  vecStr zi ++ "| ".toList ++ natStr t ++ " |".toList ++ (values.map (fun v => ' ' :: natStr v)).flatten

/-- `write_requested_probes_to_file` (source/include/firefly/Reconstructor.hpp 3820-3846): the lines; `index_map.at` throws. -/
def PreSt.write (s : PreSt) : Except LoadErr (List Str) :=
  s.req.mapM fun q => do
    let v ← orThrow (s.map.lookup q.1)
    .ok (reqLine v.2 v.1 q.2)

end FireFly
