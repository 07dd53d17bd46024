import Verif.Bounds.Model

/-!
# Copying C strings across the sandbox boundary (model)
-/

namespace Verif.Strings

open Verif.Bounds

/-- A host heap block obtained from `malloc`; its length is the block's size
(used in `include/process_sandbox/sandbox.h:763-766`). -/
abbrev Buf := List Byte

/-- Store one byte in a host block; outside the block it is undefined behaviour
(the stores of `include/process_sandbox/sandbox.h:764-765`). -/
def Buf.store (b : Buf) (i : Nat) (v : Byte) : Outcome Buf :=
  if i < b.length then .ok (b.set i v) else .ub

/-- `strnlen(str, maxlen)` (libc, called in `include/process_sandbox/sandbox.h:758`):
scan upwards from offset `i` for at most `fuel` bytes.  `rd` is what the scan reads at
each address (the sandbox may write concurrently).  Returns the length found and the
addresses read. -/
def strnlenFrom (rd : Mem) (str : Word) (i : Nat) : Nat → Nat × List Word
  | 0 => (i, [])
  | fuel + 1 =>
    let a := str + BitVec.ofNat 64 i
    if rd a = 0 then (i, [a])
    else
      let (n, tr) := strnlenFrom rd str (i + 1) fuel
      (n, a :: tr)

/-- `memcpy(ptr, str, len)` from sandbox memory into a host block, byte by byte from
offset `i` (`include/process_sandbox/sandbox.h:764`).  Returns the block and the
addresses read. -/
def copyOut (rd : Mem) (str : Word) (i : Nat) : Nat → Buf → Outcome Buf × List Word
  | 0, b => (.ok b, [])
  | n + 1, b =>
    let a := str + BitVec.ofNat 64 i
    match Buf.store b i (rd a) with
    | .ok b' =>
      let (r, tr) := copyOut rd str (i + 1) n b'
      (r, a :: tr)
    | e => (e, [a])

/-- Result of `strdup_out`: an outcome carrying null (`none`) or a host block, and the
list of sandbox addresses read (`include/process_sandbox/sandbox.h:751-768`). -/
structure StrdupOut where
  result : Outcome (Option Buf)
  reads : List Word
  deriving Repr, DecidableEq

/-- `Library::strdup_out`, `include/process_sandbox/sandbox.h:751-768`.
* `rd1` is what the length scan reads and `rd2` what the copy reads: the sandbox may
  rewrite any byte in between or during either pass.
* `malloc n` is the host allocator: `none` is null, otherwise a block with arbitrary
  initial contents.  The code does not test for null; that case is undefined behaviour.
* `maxlen` is a 64-bit difference (`top - str`).  The code stores it as a signed
  `ptrdiff_t` and converts it to `size_t` again, which gives the same number. -/
def strdupOut (hdr : Word) (r : Region) (malloc : Nat → Option Buf) (rd1 rd2 : Mem)
    (str : Word) : StrdupOut :=
  if contains hdr r str 1 then
    let maxlen := (r.top - str).toNat
    let (len, tr1) := strnlenFrom rd1 str 0 maxlen
    if len = maxlen then ⟨.ok none, tr1⟩
    else
      match malloc (len + 1) with
      | none => ⟨.ub, tr1⟩
      | some b =>
        let (b1, tr2) := copyOut rd2 str 0 len b
        match b1 with
        | .ok b1 =>
          match Buf.store b1 len 0 with
          | .ok b2 => ⟨.ok (some b2), tr1 ++ tr2⟩
          | _ => ⟨.ub, tr1 ++ tr2⟩
        | _ => ⟨.ub, tr1 ++ tr2⟩
  else ⟨.ok none, []⟩

/-- Store one byte in memory (the machine; used by `strdup`, `include/process_sandbox/sandbox.h:735-744`). -/
def memSet (m : Mem) (a : Word) (v : Byte) : Mem := fun x => if x = a then v else m x

/-- Write consecutive bytes (`memcpy` in `include/process_sandbox/sandbox.h:742`, and the
default construction loop of `alloc`, `:651-654`). -/
def writeBytes (m : Mem) (a : Word) : List Byte → Mem
  | [] => m
  | b :: bs => writeBytes (memSet m a b) (a + 1) bs

/-- The text of a host C string: the bytes before the first zero (`strlen(str)` and the
bytes it counts, `include/process_sandbox/sandbox.h:736`). -/
def cText : List Byte → List Byte
  | [] => []
  | b :: bs => if b = 0 then [] else b :: cText bs

/-- `Library::strdup`, `include/process_sandbox/sandbox.h:734-744`.  `s` is the host string
(its bytes up to a terminating zero).  `alloc` is the sandbox allocator
(`alloc_in_sandbox(1, len)`, see `Verif.Bounds.allocInSandbox`).  `alloc<char>(len)` picks the
array overload (`sandbox.h:641-657`), which zero-fills the `len` elements; then `len`
bytes are copied.  No terminating zero is written and none is asked for. -/
def strdup (alloc : Word → Option Word) (m : Mem) (s : List Byte) : Option Word × Mem :=
  let t := cText s
  let len := t.length
  match (allocInSandbox alloc 1 (BitVec.ofNat 64 len)).1 with
  | none => (none, m)
  | some p =>
    let m1 := writeBytes m p (List.replicate len 0)
    (some p, writeBytes m1 p t)

end Verif.Strings
