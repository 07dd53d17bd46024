import Verif.Run.Model
import Verif.UserEnd.Props
import Verif.RelEnd.Props
import Verif.NameEnd.ExactProps

/-!
# What a whole run of a sandboxed program should be (specification)

A machine without copies, frames, messages or tables: a call of the program does at once what `EndToEnd.Meant`,
`NetEnd.Chosen`, `UserEnd.Registered` and `NameEnd.looked` say, and the program's memory changes only where the call is to write.
-/

namespace Verif.Run

open Verif.Strings (asNat)
open Verif.Strings.Spec (CStringAt)
open Verif.FileTree (Export)
open Verif.Net (Config Callee)
open Verif.ChildArgs (bytesAt InHeap Object Private Agree Apart)
open Verif.Syscall (CInt Regs Info Answer abi)
open Verif.EndToEnd (Want Meant asks objects)
open Verif.NetEnd (Chosen opAsked given called)
open Verif.NameEnd (put asked looked)
open Verif.UserEnd (Registered Unused Arrives told)

/-- What the host has done, for everything that can have happened: its exports, the functions that it has registered, and
its configuration of the network. -/
structure Host where
  exports : List Event → List Export
  users : List Event → List Nat
  conf : List Event → List Config

/-- The program's memory and registers, and what has happened in the host. -/
structure Ideal where
  mem : Mem
  regs : Regs
  past : List Event

/-- The number that stands for an answer: errors are negative. -/
def number : Answer → Int
  | .value v => v
  | .descriptor f => f
  | .error e => -(e : Int)

/-- The registers after a system call: the result, and the program goes on after the call. -/
def after (i : Info) (r : Regs) (a : Answer) : Regs := { r with rax := BitVec.ofInt 64 (number a), rip := i.callAddr }

/-- The memory after a call on a path: `stat` fills its buffer if it succeeds. -/
def stored (m : Mem) (sb : Word) (bs : List Byte) : Want → Answer → Mem
  | .stat, .value _ => put m sb bs
  | _, _ => m

/-- An object of the program's of at most `n` bytes: wholly in the shared heap or wholly outside, and no byte of it is one
of those that the child keeps for itself (`S`). -/
def Own (w : World) (S : Word → Prop) (n : Nat) (o : Word × Nat) : Prop :=
  Object w.hdr w.region w.bounds o.1 o.2 ∧ o.2 ≤ n ∧ ∀ i, i < o.2 → ¬ S (o.1 + BitVec.ofNat 64 i)

/-- What should happen from one call of a program to the next.  There is a step only if the program makes the call
properly: with strings, buffers and sockets that there are.  Calls on sockets that cannot be passed on and callbacks that
do not exist are refused (`badSock`, `badBack`); other system calls than the six do nothing (`other`).  For `openat` with a
relative path (`rel`) the answer is the one that C92 describes, the number that the file has in the host.
For `getaddrinfo` (`look`) the names and the hints are there, and the place for the result overlaps neither `localRes` nor
a block that the host is given for the list; memory, answer and calls are those of `NameEnd.looked`. -/
inductive Step (W : Worlds) (H : Host) (S : Word → Prop) (n : Nat) (P : Program) : Ideal → Ideal → Prop where
  | path (s : Ideal) (m i r want path sb text ans log) : P s.mem s.regs = (m, .sys i r) → i.code = 1 →
      asks i.syscall (abi r) = some (want, path, sb) → CStringAt (asNat m) path.toNat text →
      (∀ o ∈ objects want path sb text, Own (W s.past) S n o) →
      Meant (H.exports s.past) (W s.past).kernel (W s.past).recv text want ans log → plain log = log →
      Step W H S n P s
        ⟨stored m sb ((W s.past).statBytes log) want ans, after i r ans, s.past ++ [.host log]⟩
  | openat (s : Ideal) (m i r text ans log) : P s.mem s.regs = (m, .sys i r) → i.code = 1 → i.syscall = 257 →
      CStringAt (asNat m) r.rsi.toNat text → text.head? = some 47 → ¬ Syscall.fdDir (W s.past).pid <+: text →
      Own (W s.past) S n (r.rsi, text.length + 1) →
      Meant (H.exports s.past) (W s.past).kernel (W s.past).recv text
        (.open_ (r.rdx.setWidth 32) (r.r10.setWidth 32)) ans log → plain log = log →
      Step W H S n P s ⟨m, after i r ans, s.past ++ [.host log]⟩
  | rel (s : Ideal) (m i r text fd) : P s.mem s.regs = (m, .sys i r) → i.code = 1 → i.syscall = 257 →
      CStringAt (asNat m) r.rsi.toNat text → text.head? ≠ some 47 → Own (W s.past) S n (r.rsi, text.length + 1) →
      RelEnd.Directory (W s.past).toNet (r.rdi.setWidth 32) fd →
      Step W H S n P s
        ⟨m, after i r (RelEnd.given ((W s.past).kernel [] (RelEnd.openOp fd text (r.rdx.setWidth 32) (r.r10.setWidth 32)))),
          s.past ++ [.host (RelEnd.calls (W s.past).kernel fd text (r.rdx.setWidth 32) (r.r10.setWidth 32))]⟩
  | sock (s : Ideal) (m i r op f len h) : P s.mem s.regs = (m, .sys i r) → i.code = 1 →
      opAsked i.syscall = some op → Chosen (H.conf s.past) op f → (r.rdx.setWidth 32 : CInt).toNat = len →
      len ≤ 4096 → Own (W s.past) S n (r.rsi, len) → InHeap (W s.past).hdr (W s.past).region r.rsi len →
      0 ≤ (r.rdi.setWidth 32 : CInt).toInt → (W s.past).passed (r.rdi.setWidth 32) = some h → 0 ≤ h →
      Step W H S n P s
        ⟨m, after i r (NetEnd.answer (W s.past).call (given h (bytesAt m r.rsi len)) f),
          s.past ++ [.net (called (given h (bytesAt m r.rsi len)) f)]⟩
  | back (s : Ideal) (m idx data size fd r u h d) : P s.mem s.regs = (m, .back idx data size fd r) →
      Registered (H.users s.past) u idx → size = ((W s.past).fns u).size → Own (W s.past) S n (data, size) →
      Arrives (W s.past).toUser fd h → d = (if ((W s.past).fns u).takes then h else -1) →
      Step W H S n P s
        ⟨((W s.past).fns u).effect (bytesAt m data size) d m,
          { r with rax := (told (W s.past).toUser (((W s.past).fns u).result (bytesAt m data size) d)).setWidth 64 },
          s.past ++ [.user [(u, bytesAt m data size, d)]]⟩
  | look (s : Ideal) (m host serv hints res r hs ss f) : P s.mem s.regs = (m, .look host serv hints res r) →
      CStringAt (asNat m) host.toNat hs → CStringAt (asNat m) serv.toNat ss →
      (∀ o ∈ [(host, hs.length + 1), (serv, ss.length + 1), (hints, 48), (res, 8)], Own (W s.past) S n o) →
      Apart (W s.past).localRes 8 res 8 →
      (∀ k p, (W s.past).alloc k = some p → Apart p k.toNat res 8) → Chosen (H.conf s.past) .getAddrInfo f →
      Step W H S n P s
        ⟨(looked (W s.past).names f (asked m hints hs ss) res m).1,
          { r with rax := (looked (W s.past).names f (asked m hints hs ss) res m).2.1.setWidth 64 },
          s.past ++ [.look (looked (W s.past).names f (asked m hints hs ss) res m).2.2]⟩
  | badSock (s : Ideal) (m i r op len) : P s.mem s.regs = (m, .sys i r) → i.code = 1 → opAsked i.syscall = some op →
      (r.rdx.setWidth 32 : CInt).toNat = len → Own (W s.past) S n (r.rsi, len) →
      ((r.rdi.setWidth 32 : CInt).toInt < 0 ∨ ((W s.past).passed (r.rdi.setWidth 32)).isSome) →
      ((r.rdi.setWidth 32 : CInt).toInt < 0 ∨ 4096 < len ∨ Private (W s.past).bounds r.rsi len ∧ 0 < len) →
      Step W H S n P s ⟨m, after i r (.error 22), s.past ++ [.net []]⟩
  | badBack (s : Ideal) (m idx data size fd r h) : P s.mem s.regs = (m, .back idx data size fd r) →
      (Unused (H.users s.past) idx ∨ ∃ u, Registered (H.users s.past) u idx ∧ size ≠ ((W s.past).fns u).size) →
      0 < size → Own (W s.past) S n (data, size) → Arrives (W s.past).toUser fd h →
      Step W H S n P s ⟨m, { r with rax := (-38 : CInt).setWidth 64 }, s.past ++ [.user []]⟩
  | other (s : Ideal) (m i r) : P s.mem s.regs = (m, .sys i r) →
      ¬ (i.syscall = 2 ∨ i.syscall = 4 ∨ i.syscall = 21 ∨ i.syscall = 257 ∨ i.syscall = 49 ∨ i.syscall = 42) →
      Step W H S n P s ⟨m, r, s.past ++ [.host []]⟩

/-- So many calls. -/
inductive Steps (W : Worlds) (H : Host) (S : Word → Prop) (n : Nat) (P : Program) : Nat → Ideal → Ideal → Prop where
  | none (s) : Steps W H S n P 0 s s
  | more (k s s' s'') : Step W H S n P s s' → Steps W H S n P k s' s'' → Steps W H S n P (k + 1) s s''

/-- The same memory, apart from what the child keeps for itself. -/
def Same (S : Word → Prop) (m m' : Mem) : Prop := ∀ x, ¬ S x → m x = m' x

/-- A program that does not look at what the child keeps for itself: unused memory and the stack of the signal handler. -/
def Blind (S : Word → Prop) (P : Program) : Prop :=
  ∀ m m' r, Same S m m' → Same S (P m r).1 (P m' r).1 ∧ (P m r).2 = (P m' r).2

/-- What is fixed: at every time the two processes are as in `Verif.UserEnd` and `Verif.NameEnd`; the kernel's answers do not
depend on the address of a buffer, and a call of the host's that fails gives `-1`; the host's functions do not look at what
the child keeps for itself, which includes the frame on its stack; their arguments are smaller than the address space; the
child knows where the shared heap is; `localRes` is an object that the child does not keep (it is left with a value that
the program may see), and the blocks that the host is given for lists neither overlap it nor are kept by the child. -/
structure Fixed (W : Worlds) (H : Host) (S : Word → Prop) : Prop where
  setup : ∀ p, UserEnd.Setup (W p).toUser (H.exports p) (H.users p) (H.conf p)
  names : ∀ p, NameEnd.Setup (W p).names (H.exports p) (H.users p) (H.conf p)
  kernel : ∀ p l op, (W p).kernel (plain l) (plainOp op) = (W p).kernel l op
  fails : ∀ p l op, ((W p).kernel l op).1 < 0 → ((W p).kernel l op).1 = -1
  stat : ∀ p l, (W p).statBytes (plain l) = (W p).statBytes l
  fns : ∀ p u bs h m m', Same S m m' → Same S (((W p).fns u).effect bs h m) (((W p).fns u).effect bs h m')
  stack : ∀ p, Object (W p).hdr (W p).region (W p).bounds (W p).sp 32 ∧
    ∀ i, i < 32 → S ((W p).sp + BitVec.ofNat 64 i)
  small : ∀ p u, ((W p).fns u).size < 2 ^ 64
  agree : ∀ p, Agree (W p).hdr (W p).region (W p).bounds
  localRes : ∀ p, Object (W p).hdr (W p).region (W p).bounds (W p).localRes 8 ∧
    ∀ i, i < 8 → ¬ S ((W p).localRes + BitVec.ofNat 64 i)
  lists : ∀ p k b, (W p).alloc k = some b → Apart b k.toNat (W p).localRes 8 ∧
    ∀ i, i < k.toNat → ¬ S (b + BitVec.ofNat 64 i)

/-- What the child's `malloc` gives during a call: at least five blocks of `n` bytes in the heap, which are not in use,
overlap neither each other nor the frame, and are not the program's. -/
structure Blocks (W : Worlds) (S : Word → Prop) (n : Nat) (live bs : List Word) : Prop where
  enough : 5 ≤ bs.length
  heap : ∀ w, ∀ p ∈ bs.take 5, InHeap (W w).hdr (W w).region p n
  own : ∀ p ∈ bs.take 5, ∀ i, i < n → S (p + BitVec.ofNat 64 i)
  frame : ∀ w, ∀ p ∈ bs.take 5, Apart p n (W w).sp 32
  pairwise : (bs.take 5).Pairwise (fun p q => Apart q n p n)
  new : ∀ p ∈ bs.take 5, p ∉ live

/-- The two machines are at the same point: the program sees the same, and the same has happened. -/
structure Alike (S : Word → Prop) (live : List Word) (s : State) (t : Ideal) : Prop where
  mem : Same S s.child.mem t.mem
  live : s.child.live = live
  regs : s.regs = t.regs
  past : s.past.map Event.plain = t.past

end Verif.Run
