import Verif.Model.SaveState
/-!
# The streams of compressed files (source/gzstream.cpp, source/include/firefly/gzstream.hpp)

A `gzstreambuf` hands the characters to zlib in blocks. Modelled are its buffer and what the standard streams do with it. `B` is `bufferSize` (source/gzstream.cpp 45: 2^30 + 47).

Simplifications: zlib is not modelled: a file is the sequence of characters given to `gzwrite`, `gzread` returns the next characters, fewer than requested only at the end of the file; the error of `gzread` is left out. A stream is either written or read
(source/gzstream.cpp 53).
-/
namespace FireFly

/-! ### writing -/

/-- `open_mode` as far as it matters for writing: `out` or `app` (source/gzstream.cpp 71-76). -/
inductive GzMode
  | out
  | app
  deriving DecidableEq

/-- A stream that is written: the characters between `pbase` and `pptr`, `opened`, and the content of the file; `k` counts the calls of `gzwrite`. -/
structure GzOut where
  mode : GzMode := .out
  opened : Bool := true
  pend : Str := []
  file : Str := []
  k : ℕ := 0

/-- `flush_buffer` (source/gzstream.cpp 131-141); `ok k`: the call number `k` of `gzwrite` succeeds. The second component is false for `EOF`. -/
def GzOut.flush (ok : ℕ → Bool) (s : GzOut) : GzOut × Bool :=
  if ok s.k then ({ s with file := s.file ++ s.pend, pend := [], k := s.k + 1 }, true) else ({ s with k := s.k + 1 }, false)

/-- `overflow(c)` (source/gzstream.cpp 143-156) with a character. -/
def GzOut.overflow (ok : ℕ → Bool) (s : GzOut) (c : Char) : GzOut × Bool :=
  if s.mode ≠ .out ∨ s.opened = false then (s, false) else { s with pend := s.pend ++ [c] }.flush ok

/-- `sputc(c)` of the standard library: the character is stored between `pptr` and `epptr` (source/gzstream.cpp 49: `bufferSize - 1` characters), otherwise `overflow` is called. -/
def GzOut.put (B : ℕ) (ok : ℕ → Bool) (s : GzOut) (c : Char) : GzOut × Bool :=
  if s.pend.length < B - 1 then ({ s with pend := s.pend ++ [c] }, true) else s.overflow ok c

/-- `xsputn` of the standard library: as many characters as there is room for are copied, the next one is given to `overflow`; it ends at the first failure. -/
def GzOut.putn (B : ℕ) (ok : ℕ → Bool) (s : GzOut) (cs : Str) : GzOut × Bool :=
  match _h : cs.drop (B - 1 - s.pend.length) with
  | [] => ({ s with pend := s.pend ++ cs }, true)
  | c :: rest =>
    match ({ s with pend := s.pend ++ cs.take (B - 1 - s.pend.length) } : GzOut).overflow ok c with
    | (s', true) => s'.putn B ok rest
    | (s', false) => (s', false)
termination_by cs.length
decreasing_by
  have h1 := congrArg List.length _h
  simp at h1
  omega

/-- `sync` (source/gzstream.cpp 158-168). -/
def GzOut.sync (ok : ℕ → Bool) (s : GzOut) : GzOut × Bool :=
  if s.pend ≠ [] then s.flush ok else (s, true)

/-- `close` (source/gzstream.cpp 89-100): the result of `sync` is not used; `closed` is the result of `gzclose`. -/
def GzOut.close (ok : ℕ → Bool) (closed : Bool) (s : GzOut) : GzOut × Bool :=
  if s.opened then ({ (s.sync ok).1 with opened := false }, closed) else (s, false)

/-- What is done with an output stream: single characters, strings, `std::flush`. -/
inductive GzOp
  | put (c : Char)
  | str (s : Str)
  | flush

/-- One operation: after a failure `badbit` is set and nothing is done any more (formatted output and `flush` of the standard library). -/
def gzStep (B : ℕ) (ok : ℕ → Bool) (s : GzOut × Bool) (o : GzOp) : GzOut × Bool :=
  if s.2 then
    match o with
    | .put c => s.1.put B ok c
    | .str cs => s.1.putn B ok cs
    | .flush => s.1.sync ok
  else s

/-- `ogzstream file; file.open(name, mode)`, the operations, `file.close()`: the stream and whether no failure was reported (source/gzstream.cpp 174-194). `old` is the content the file had before: `out` truncates it, `app` appends to it. -/
def gzWrite (B : ℕ) (ok : ℕ → Bool) (closed : Bool) (mode : GzMode) (old : Str) (ops : List GzOp) : Str × Bool :=
  let s := ops.foldl (gzStep B ok) ({ mode := mode, file := if mode = .out then [] else old }, true)
  let r := s.1.close ok closed
  (r.1.file, s.2 && r.2)

/-! ### reading -/

/-- A stream that is read: the buffer, `eback`, `gptr`, `egptr` as positions in it, and what `gzread` has not returned yet. -/
structure GzIn where
  buf : ℕ → Char := fun _ => '\x00'
  eback : ℕ := 4
  gptr : ℕ := 4
  egptr : ℕ := 4
  rest : Str

/-- `memcpy(buffer + dst, buffer + src, n)` in one buffer; undefined (`none`) if the regions overlap. -/
def memcpy (buf : ℕ → Char) (dst src n : ℕ) : Option (ℕ → Char) :=
  if n = 0 ∨ dst + n ≤ src ∨ src + n ≤ dst then some fun i => if dst ≤ i ∧ i < dst + n then buf (src + (i - dst)) else buf i else none

/-- `gzread(file, buffer + 4, len)`. -/
def gzRead (buf : ℕ → Char) (rest : Str) (len : ℕ) : (ℕ → Char) × Str × ℕ :=
  (fun i => if 4 ≤ i ∧ i < 4 + min len rest.length then rest.getD (i - 4) '\x00' else buf i, rest.drop len, min len rest.length)

/-- `underflow` (source/gzstream.cpp 102-129): the next character, which is not consumed, or `EOF`. The outer `none` is undefined behaviour. -/
def GzIn.underflow (B : ℕ) (s : GzIn) : Option (GzIn × Option Char) :=
  if s.gptr < s.egptr then some (s, some (s.buf s.gptr))
  else
    let n := min 4 (s.gptr - s.eback)
    (memcpy s.buf (4 - n) (s.gptr - n) n).map fun buf =>
      let r := gzRead buf s.rest (B - 4)
      if r.2.2 = 0 then ({ s with buf := buf }, none)
      else ({ buf := r.1, eback := 4 - n, gptr := 4, egptr := 4 + r.2.2, rest := r.2.1 }, some (r.1 4))

/-- `sgetc()` of the standard library. -/
def GzIn.sgetc (B : ℕ) (s : GzIn) : Option (GzIn × Option Char) :=
  if s.gptr < s.egptr then some (s, some (s.buf s.gptr)) else s.underflow B

/-- `sbumpc()` of the standard library: as `sgetc()`, the character is consumed. -/
def GzIn.sbumpc (B : ℕ) (s : GzIn) : Option (GzIn × Option Char) :=
  (s.sgetc B).map fun r => (if r.2.isSome then { r.1 with gptr := r.1.gptr + 1 } else r.1, r.2)

/-- `std::getline(file, line)` after the check of the state: the line, whether the end of the file was met, whether something was extracted. `fuel` bounds the number of characters. -/
def gzGetline (B : ℕ) : ℕ → GzIn → Option (GzIn × Str × Bool × Bool)
  | 0, _ => none
  | fuel + 1, s =>
    (s.sbumpc B).bind fun r =>
      match r.2 with
      | none => some (r.1, [], true, false)
      | some c =>
        if c = '\n' then some (r.1, [], false, true)
        else (gzGetline B fuel r.1).map fun t => (t.1, c :: t.2.1, t.2.2.1, true)

/-- `while (std::getline(file, line))`: the lines. After the end of the file nothing is read any more. -/
def gzLines (B : ℕ) : ℕ → GzIn → Option (List Str)
  | 0, _ => none
  | fuel + 1, s =>
    (gzGetline B (fuel + 1) s).bind fun t =>
      if t.2.2.2 then
        if t.2.2.1 then some [t.2.1] else (gzLines B fuel t.1).map fun ls => t.2.1 :: ls
      else some []

end FireFly
