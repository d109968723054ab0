import Verif.Spec.Handshake
set_option linter.all false
/-! # The invariant of the hand-over

Control is finite: the invariant `good` gives, for each pair of program counters, the values of the flags, the owner of the mutex and the modes. That it is
preserved is checked by the kernel for all control states; the number of rounds and steps is unbounded (induction over the run). -/
namespace FireFly.Handshake

/-- how often an instruction was executed in the current block -/
def Thread.did (x : Thread) (i : Ins) : ℕ := ((code x.block).take x.pc).count i

/-- the blocks in which both threads meet -/
def mate : Block → Block → Bool
  | .start, .init | .resume, .init | .newPrime, .change | .scanRun, .change | .finish, .stop => true
  | _, _ => false

def signals : Block → Bool
  | .newPrime | .scanRun | .finish => true
  | _ => false

def changes : Block → Bool
  | .newPrime | .scanRun => true
  | _ => false

def Ctl.engaged (c : Ctl) : Bool :=
  mate c.main.block c.mpi.block && (!c.serving || c.main.block == .start || c.main.block == .resume || c.main.did (.set .proceed false) != 0)

def Ctl.idle (c : Ctl) : Bool :=
  c.serving && (c.main.block == .feed || (signals c.main.block && c.main.did (.set .proceed false) == 0))

def Thread.holds (x : Thread) : Bool :=
  (x.did .lock == x.did .unlock + 1) && (x.mode == .run || x.mode == .armed)

/-- the last value given to a flag in a list of instructions -/
def lastSet (f : Flag) (v : Bool) : List Ins → Bool
  | [] => v
  | .set g w :: is => lastSet f (if g = f then w else v) is
  | _ :: is => lastSet f v is

def Thread.last (x : Thread) (f : Flag) (v : Bool) : Bool := lastSet f v ((code x.block).take x.pc)

/-- the instructions since the mutex was taken -/
def Thread.section (x : Thread) : List Ins :=
  ((code x.block).take x.pc).foldl (fun l i => match i with | .lock | .wait _ => [] | _ => i :: l) []

/-- the program counters are possible together -/
def pcsOk (m n : Thread) : Bool :=
  m.pc ≤ (code m.block).length && n.pc ≤ (code n.block).length &&
  (let c : Ctl := ⟨m, n, none, {}⟩
   (c.engaged && (n.did (.set .proceed true) == m.did (.set .proceed false) || n.did (.set .proceed true) == m.did (.set .proceed false) + 1)
      && (m.did (.set .goOn true) == n.did (.set .goOn false) || m.did (.set .goOn true) == n.did (.set .goOn false) + 1)
      && (n.did (.set .proceed true) != 3 || m.did (.set .newJobs true) == 1)) || c.idle)

/-- flags that are determined by the program counters -/
def flagsOk (c : Ctl) : Bool :=
  let m := c.main; let n := c.mpi; let f := c.flags
  (f.proceed == (c.engaged && n.did (.set .proceed true) == m.did (.set .proceed false) + 1)) &&
  (f.goOn == (c.engaged && m.did (.set .goOn true) == n.did (.set .goOn false) + 1)) &&
  (f.newPrime == m.last .newPrime false) && (f.done == m.last .done false) &&
  (f.pool == m.last .pool (m.block != .start && m.block != .resume)) &&
  (m.block != .scanRun || m.did (.drop .scan) == 1 || f.scan) && (m.block != .finish || !f.scan) &&
  (!n.holds || n.waitsFor.isSome || !n.section.contains (.set .proceed true) || f.proceed) &&
  (m.ins != some (.set .proceed false) || f.proceed) && (n.ins != some (.set .goOn false) || f.goOn) &&
  (!changes m.block || m.did (.set .newJobs false) < 2 || m.did (.set .newJobs true) == 1 || !f.newJobs) &&
  (!changes m.block || m.did (.set .newJobs true) == 0 || n.block != .change || n.did (.set .proceed true) == 3 || f.newJobs) &&
  (n.block != .change || n.did (.set .proceed true) != 2 || n.ins != some (.set .proceed true) || m.did (.set .newJobs true) == 1)

def modesOk (c : Ctl) : Bool :=
  let m := c.main; let n := c.mpi; let f := c.flags
  (c.owner == if m.holds then some .main else if n.holds then some .mpi else none) && !(m.holds && n.holds) &&
  (m.mode == .run || m.waitsFor.isSome) && (n.mode == .run || n.waitsFor.isSome) &&
  (m.mode != .armed || !f.proceed) && (n.mode != .armed || n.waitsFor != some .goOn || !f.goOn) &&
  (m.mode != .asleep || !f.proceed || n.ins == some .notify) &&
  (n.mode != .asleep || n.waitsFor != some .goOn || !f.goOn || m.ins == some .notify) &&
  (n.waitsFor != some .newJobs ||
    match n.mode with
    | .run => m.did (.set .proceed false) == 1 || 2 ≤ m.did .notify
    | .armed => m.did (.set .proceed false) == 1
    | .asleep => m.did .notify == 1
    | .woken => 2 ≤ m.did .notify)

def blocksOk (m n : Block) : Bool :=
  (m == .start || m == .resume || m == .feed || m == .newPrime || m == .scanRun || m == .finish) && (n == .init || n == .change || n == .stop)

def good (c : Ctl) : Bool := blocksOk c.main.block c.mpi.block && pcsOk c.main c.mpi && flagsOk c && modesOk c

/-- rounds passed by a mark, relative to the number of rounds completed by the main thread -/
def rel (c : Ctl) (x : Mark) : ℕ :=
  match x with
  | .kill | .switch | .resume => c.main.did (.mark x)
  | .stop | .drain | .send => if c.engaged then c.mpi.did (.mark x) else 0

def modeRank : Mode → ℕ
  | .run => 2 | .armed => 1 | .asleep => 0 | .woken => 3

def Thread.rank (x : Thread) : ℕ := 4 * ((code x.block).length - x.pc) + modeRank x.mode

/-- decreases with every step of the two threads -/
def rank (c : Ctl) : ℕ :=
  c.main.rank + c.mpi.rank + (if c.idle && signals c.main.block then 80 else 0)

def mainBlocks : List Block := [.start, .resume, .feed, .newPrime, .scanRun, .finish]
def mpiBlocks : List Block := [.init, .change, .stop]
def modes : List Mode := [.run, .armed, .asleep, .woken]
def bools : List Bool := [false, true]

def threads (bs : List Block) : List Thread := bs.flatMap fun k => (List.range ((code k).length + 1)).flatMap fun j => 
  modes.filterMap fun mo => let x : Thread := ⟨k, j, mo⟩; if mo == .run || x.waitsFor.isSome then some x else none

/-- the good control state with given free components -/
def build (m n : Thread) (j sc : Bool) : Ctl :=
  let c : Ctl := ⟨m, n, none, {}⟩
  ⟨m, n, if m.holds then some .main else if n.holds then some .mpi else none,
   ⟨c.engaged && n.did (.set .proceed true) == m.did (.set .proceed false) + 1, c.engaged && m.did (.set .goOn true) == n.did (.set .goOn false) + 1, j,
    m.last .newPrime false, m.last .done false, sc, m.last .pool (m.block != .start && m.block != .resume)⟩⟩

/-- all good control states with the main thread in block `b` -/
def goodStates (b : Block) : List Ctl :=
  (threads [b]).flatMap fun m => (threads mpiBlocks).flatMap fun n =>
    if pcsOk m n then bools.flatMap fun j => bools.filterMap fun sc =>
      let c := build m n j sc
      if flagsOk c && modesOk c then some c else none
    else []

/-- the settings with the most steps -/
def big : Cfg := { spurious := fun f => f != .newJobs }

def events : List Event := [.main false, .main true, .mpi false, .mpi true, .poll, .noise false, .noise true, .spurious .main, .spurious .mpi] ++ mainBlocks.map .begin


def marks : List Mark := [.stop, .drain, .kill, .switch, .send, .resume]

def checkOne (c : Ctl) : Bool :=
  events.all fun e => match cstep big c e with
    | none => true
    | some c' => good c' &&
        (marks.all fun x => rel c x + (if passes c e = some x then 1 else 0) == rel c' x + (match e with | .begin _ => if changes c.main.block then 1 else 0 | _ => 0)) &&
        (match e with | .begin _ => decide (rank c' ≤ rank c + 250) | .noise _ => decide (rank c' ≤ rank c) | .spurious _ => decide (rank c' ≤ rank c + 3) | _ => decide (rank c' < rank c))

def liveOne (c : Ctl) : Bool :=
  (c.returned && c.ended) || c.working || (events.any fun e => sure c e && (cstep {} c e).isSome)

def orderOne (c : Ctl) : Bool :=
  rel c .resume ≤ rel c .send && rel c .send ≤ rel c .switch && rel c .switch ≤ rel c .kill && rel c .switch ≤ rel c .drain && rel c .kill ≤ rel c .stop && rel c .drain ≤ rel c .stop && rel c .stop ≤ 1

def checkAll (b : Block) : Bool := (goodStates b).all fun c => checkOne c && liveOne c && orderOne c

theorem checked_start : checkAll .start = true := by decide +kernel

theorem checked_resume : checkAll .resume = true := by decide +kernel

theorem checked_feed : checkAll .feed = true := by decide +kernel

theorem checked_newPrime : checkAll .newPrime = true := by decide +kernel

theorem checked_scanRun : checkAll .scanRun = true := by decide +kernel

theorem checked_finish : checkAll .finish = true := by decide +kernel

end FireFly.Handshake
