import Verif.Basic

/-!
# Passing arguments out of the sandbox (model)

The child's memory is one map of bytes; a part of it is shared with the host.
-/

namespace Verif.ChildArgs

/-- `shared_memory_start` and `shared_memory_end`, `src/library_runner.cc:112-118`. -/
structure Bounds where
  start : Word
  «end» : Word
  deriving Repr, DecidableEq

/-- `is_inside_shared_memory`, `src/library_runner.cc:120-124`.  The sum is 64-bit addition; the end is compared
strictly. -/
def inside (b : Bounds) (ptr size : Word) : Bool :=
  decide (b.start ≤ ptr) && decide (ptr + size < b.end)

/-- Copy `n` bytes: `memcpy`, and the copy of a structure (`src/library_runner.cc:544`, `:558`, `:747`,
`:994`). -/
def blit (m : Mem) (dst src : Word) (n : Nat) : Mem :=
  fun x => if (x - dst).toNat < n then m (src + (x - dst)) else m x

/-- The child: its memory, the blocks that the argument wrappers have allocated and not freed, and the next
answers of `malloc` (`src/library_runner.cc:544`, `:602`, `:746`, `:993`).  Memory that runs out makes the child
abort, so every answer is a block. -/
structure Child where
  mem : Mem
  live : List Word
  mallocs : List Word

/-- Allocate a block and copy `n` bytes from `src` into it (`src/library_runner.cc:544`, `:602`, `:746-747`,
`:993-994`).  Reading through a null pointer is undefined; no other invalid pointers occur in well-behaved
callers. -/
def dupBytes (c : Child) (src : Word) (n : Nat) : Outcome (Word × Child) :=
  if src = 0 then .ub
  else
    match c.mallocs with
    | [] => .abort
    | p :: rest => .ok (p, { mem := blit c.mem p src n, live := p :: c.live, mallocs := rest })

/-- An argument wrapper: the caller's pointer and the copy, if one was made
(`src/library_runner.cc:514-526`, `:583-593`). -/
structure Wrapped where
  original : Word
  copy : Option Word
  deriving Repr, DecidableEq

/-- `arg()`, `src/library_runner.cc:562-574`, `:610-613`. -/
def Wrapped.arg (w : Wrapped) : Word := w.copy.getD w.original

/-- The constructor of `CallbackPtrArg<T>`, `src/library_runner.cc:534-540`; `n` is `sizeof(T)`.  Only the first
byte of the object is looked at. -/
def wrapPtr (b : Bounds) (c : Child) (orig : Word) (n : Nat) : Outcome (Wrapped × Child) :=
  if inside b orig 1 then .ok (⟨orig, none⟩, c)
  else
    match dupBytes c orig n with
    | .ok (p, c') => .ok (⟨orig, some p⟩, c')
    | .abort => .abort
    | .throws => .throws
    | .ub => .ub

/-- The constructor of `CallbackCStrArg`, `src/library_runner.cc:597-604`, for a string of `len` characters before
its terminator. -/
def wrapCStr (b : Bounds) (c : Child) (orig : Word) (len : Nat) : Outcome (Wrapped × Child) :=
  wrapPtr b c orig (len + 1)

/-- The destructor of `CallbackPtrArg`, `src/library_runner.cc:546-556`: copy back if the direction is `Out` or
`InOut`, then free the copy (`unique_ptr`). -/
def unwrap (out : Bool) (c : Child) (w : Wrapped) (n : Nat) : Child :=
  match w.copy with
  | none => c
  | some p =>
    { c with mem := if out then blit c.mem w.original p n else c.mem, live := c.live.erase p }

/-- The address in `callback_bind_or_connect`, `src/library_runner.cc:743-749`.  The condition has no `!`. -/
def wrapSockAddr (b : Bounds) (c : Child) (addr : Word) (len : Nat) : Outcome (Wrapped × Child) :=
  if inside b addr (BitVec.ofNat 64 len) then
    match dupBytes c addr len with
    | .ok (p, c') => .ok (⟨addr, some p⟩, c')
    | .abort => .abort
    | .throws => .throws
    | .ub => .ub
  else .ok (⟨addr, none⟩, c)

/-- The data of `invoke_user_callback`, `src/library_runner.cc:988-996`. -/
def wrapUser (b : Bounds) (c : Child) (data : Word) (size : Nat) : Outcome (Wrapped × Child) :=
  if inside b data (BitVec.ofNat 64 size) then .ok (⟨data, none⟩, c)
  else
    match dupBytes c data size with
    | .ok (p, c') => .ok (⟨data, some p⟩, c')
    | .abort => .abort
    | .throws => .throws
    | .ub => .ub

/-- Convert one more argument: the constructors run one after another inside `callback_helper`
(`src/library_runner.cc:649-654`), and whatever stops one of them stops the call. -/
def andThen (x : Outcome (List Wrapped × Child)) (f : Child → Outcome (Wrapped × Child)) :
    Outcome (List Wrapped × Child) :=
  match x with
  | .ok (ws, c) =>
    match f c with
    | .ok (w, c') => .ok (ws ++ [w], c')
    | .abort => .abort
    | .throws => .throws
    | .ub => .ub
  | .abort => .abort
  | .throws => .throws
  | .ub => .ub

/-- The arguments of `getaddrinfo`, `src/library_runner.cc:961-977`, with `hintSize = sizeof(addrinfo)`; `res` is
the address of `localRes`.  The order of conversion does not matter for what is shown here. -/
def wrapGetAddrInfo (b : Bounds) (c : Child) (host serv hints res : Word) (hostLen servLen hintSize : Nat) :
    Outcome (List Wrapped × Child) :=
  andThen (andThen (andThen (andThen (.ok ([], c))
    (wrapCStr b · host hostLen)) (wrapCStr b · serv servLen)) (wrapPtr b · hints hintSize)) (wrapPtr b · res 8)

end Verif.ChildArgs
