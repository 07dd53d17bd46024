import Verif.Basic

/-!
# Anonymous shared memory made from named shared memory (model)

`SharedMemoryObjectPOSIX` makes an object under a random name and then removes the name.  Here any number of
processes do this at once, in any interleaving; a process may end at any point; and other programs make and remove
objects of their own.
-/

namespace Verif.Names

/-- A name, `include/process_sandbox/platform/shm_posix.h:82-89`; the number is the result of `random`, which may be
anything (two processes that do not seed it even get the same numbers). -/
abbrev Name := Nat

/-- Where a process is in the constructor, `include/process_sandbox/platform/shm_posix.h:71-103`.  Objects are numbered
in the order in which they were made. -/
inductive Pc where
  /-- about to choose a name, lines 75-90, or to choose another one, line 96 -/
  | choose
  /-- about to call `shm_open` with the name, lines 94-95 -/
  | «open» (n : Name)
  /-- about to call `shm_unlink`, line 101; the object is open -/
  | unlink (n : Name) (o : Nat)
  /-- the constructor has returned, with the object if it has one -/
  | done (o : Option Nat)
  /-- the process has ended -/
  | dead (held : Option (Name × Nat))
  deriving Repr, DecidableEq

/-- The names of the system and the processes (`include/process_sandbox/platform/shm_posix.h:38-49`): `names n` is the
object of a name and `next` the number of the next object; `others o` says that the object was made by another program. -/
structure St where
  names : Name → Option Nat
  next : Nat
  others : Nat → Bool
  procs : List Pc

/-- What happens next (`include/process_sandbox/platform/shm_posix.h:71-103`). -/
inductive Act where
  /-- process `i` chooses the name `n` -/
  | choose (i : Nat) (n : Name)
  /-- `shm_open` of process `i` -/
  | «open» (i : Nat)
  /-- `shm_open` of process `i` fails for a reason other than that the name is in use -/
  | fail (i : Nat)
  /-- `shm_unlink` of process `i` -/
  | unlink (i : Nat)
  /-- process `i` ends -/
  | crash (i : Nat)
  /-- another program makes an object under the name `n`, if it is free -/
  | otherMake (n : Name)
  /-- another program removes a name of an object that such a program has made -/
  | otherRemove (n : Name)
  deriving Repr, DecidableEq

/-- Set or remove a name (`include/process_sandbox/platform/shm_posix.h:94-101`). -/
def St.bind (s : St) (n : Name) (o : Option Nat) : St :=
  { s with names := fun x => if x = n then o else s.names x }

/-- Set the program counter of process `i` (`include/process_sandbox/platform/shm_posix.h:71-103`). -/
def St.at (s : St) (i : Nat) (p : Pc) : St := { s with procs := s.procs.set i p }

/-- Make a new object under the name `n`, `shm_open` with `O_CREAT | O_EXCL` when the name is free,
`include/process_sandbox/platform/shm_posix.h:94-95`. -/
def St.make (s : St) (n : Name) (other : Bool) : St :=
  { names := fun x => if x = n then some s.next else s.names x
    next := s.next + 1
    others := fun o => if o = s.next then other else s.others o
    procs := s.procs }

/-- One step, `include/process_sandbox/platform/shm_posix.h:71-103`; `none`: not enabled. -/
def step (s : St) : Act → Option St
  | .choose i n => if s.procs[i]? = some .choose then some (s.at i (.«open» n)) else none
  | .«open» i =>
    match s.procs[i]? with
    | some (.«open» n) =>
      match s.names n with
      | some _ => some (s.at i .choose)
      | none => some ((s.make n false).at i (.unlink n s.next))
    | _ => none
  | .fail i =>
    match s.procs[i]? with
    | some (.«open» _) => some (s.at i (.done none))
    | _ => none
  | .unlink i =>
    match s.procs[i]? with
    | some (.unlink n o) => some ((s.bind n none).at i (.done (some o)))
    | _ => none
  | .crash i =>
    match s.procs[i]? with
    | some (.unlink n o) => some (s.at i (.dead (some (n, o))))
    | some (.dead _) => none
    | some _ => some (s.at i (.dead none))
    | none => none
  | .otherMake n =>
    match s.names n with
    | some _ => none
    | none => some (s.make n true)
  | .otherRemove n =>
    match s.names n with
    | some o => if s.others o then some (s.bind n none) else none
    | none => none

/-- A run (`include/process_sandbox/platform/shm_posix.h:71-103`): all actions must be enabled. -/
def run (s : St) : List Act → Option St
  | [] => some s
  | a :: as =>
    match step s a with
    | none => none
    | some s' => run s' as

/-- The loop of one process alone, `include/process_sandbox/platform/shm_posix.h:75-96`: `rnd` gives the random numbers,
`fuel` bounds the number of turns; the result is the name and the number of the turn, or nothing yet. -/
def search (names : Name → Option Nat) (rnd : Nat → Name) : Nat → Nat → Option (Nat × Name)
  | 0, _ => none
  | fuel + 1, k =>
    match names (rnd k) with
    | none => some (k, rnd k)
    | some _ => search names rnd fuel (k + 1)

/-- `SharedMemoryObjectMemFD` and the constructor of `SharedMemoryMapPOSIXBase`,
`include/process_sandbox/platform/shm_posix.h:123-132` and `:203-210`: the object of `memfd_create` or, without one, of
`SharedMemoryObjectPOSIX`; setting the size of no object, or of one that does not accept it, fails and ends the host. -/
def base (memfd posix : Option Nat) (truncates : Bool) : Outcome Nat :=
  match (match memfd with
    | some o => some o
    | none => posix) with
  | some o => if truncates then .ok o else .abort
  | none => .abort

end Verif.Names
