import Verif.Net.Spec
import Verif.EndToEnd.Spec

/-!
# What a network call of the sandboxed program means (specification)

In terms of the host's configuration calls and the functions that it can choose.  Memory, frames, sockets, tables and
registers do not occur.
-/

namespace Verif.NetEnd

open Verif.Net (Op Config Callee SockArgs)
open Verif.Net.Spec (IsLast Untouched)
open Verif.Syscall (Answer)

/-- The function that the host has chosen for an operation: none unless its last configuration call about it says
otherwise. -/
inductive Chosen (conf : List Config) (op : Op) : Option Callee → Prop where
  | untouched : Untouched conf op → Chosen conf op none
  | denied : IsLast conf op (.deny op) → Chosen conf op none
  | allowed : IsLast conf op (.allow op) → Chosen conf op (some (.system op))
  | handled (f : Nat) : IsLast conf op (.register op (some f)) → Chosen conf op (some (.callback f))

/-- What the program should find: without a function, that the system has no such call (`ENOSYS`); otherwise what the
function returns. -/
def answer (call : Callee → SockArgs → Int × Int) (a : SockArgs) : Option Callee → Answer
  | none => .error 38
  | some f => EndToEnd.intAnswer (call f a)

/-- Which functions should be called: the chosen one, once. -/
def called (a : SockArgs) : Option Callee → List (Callee × SockArgs)
  | none => []
  | some f => [(f, a)]

/-- The arguments of the function: the socket, a buffer of 4096 bytes that begins with the address, the length. -/
def given (h : Int) (address : List Byte) : SockArgs :=
  ⟨h, address ++ List.replicate (4096 - address.length) 0xa5, address.length⟩

/-- The system calls, `syscall(2)`. -/
def opAsked (nr : Int) : Option Op :=
  if nr = 49 then some .bind else if nr = 42 then some .connect else none

end Verif.NetEnd
