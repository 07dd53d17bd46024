import Verif.Basic

/-!
# Address lists in memory (specification)

An independent reader of a null-terminated list of `struct addrinfo` in a byte memory.
-/

namespace Verif.AddrInfo.Spec

/-- The number stored in a list of little-endian bytes. -/
def leNat : List Byte → Nat
  | [] => 0
  | b :: bs => b.toNat + 256 * leNat bs

/-- The `n` bytes at `a`. -/
def bytesAt (m : Nat → Byte) (a n : Nat) : List Byte := (List.range n).map (fun i => m (a + i))

/-- The integer at `a` of `n` bytes. -/
def numAt (m : Nat → Byte) (a n : Nat) : Nat := leNat (bytesAt m a n)

/-- What a reader of an address list learns about one element: the four integers, the bytes of the
socket address and the canonical-name pointer. -/
structure Seen where
  flags : Nat
  family : Nat
  socktype : Nat
  protocol : Nat
  addr : List Byte
  canon : Nat
  deriving Repr, DecidableEq

/-- Starting at pointer `p`, memory `m` holds the null-terminated list `es`, all of whose
structures and socket addresses lie within `[lo, hi)`. -/
inductive Chain (m : Nat → Byte) (lo hi : Nat) : Nat → List Seen → Prop where
  | nil : Chain m lo hi 0 []
  | cons (p : Nat) (e : Seen) (es : List Seen) :
      p ≠ 0 → lo ≤ p → p + 48 ≤ hi →
      numAt m p 4 = e.flags → numAt m (p + 4) 4 = e.family →
      numAt m (p + 8) 4 = e.socktype → numAt m (p + 12) 4 = e.protocol →
      numAt m (p + 16) 4 = e.addr.length →
      lo ≤ numAt m (p + 24) 8 → numAt m (p + 24) 8 + e.addr.length ≤ hi →
      bytesAt m (numAt m (p + 24) 8) e.addr.length = e.addr →
      numAt m (p + 32) 8 = e.canon →
      Chain m lo hi (numAt m (p + 40) 8) es → Chain m lo hi p (e :: es)

end Verif.AddrInfo.Spec
