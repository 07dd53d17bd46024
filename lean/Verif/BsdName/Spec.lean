import Verif.AddrInfo.Spec

/-!
# Address lists in memory on FreeBSD (specification)

An independent reader of a null-terminated list of FreeBSD's `struct addrinfo` in a byte memory.
-/

namespace Verif.BsdName.Spec

open Verif.AddrInfo.Spec (numAt bytesAt Seen)

/-- Starting at pointer `p`, memory `m` holds the null-terminated list `es`, all of whose structures and socket addresses lie
within `[lo, hi)`.  The pointer to the canonical name is at 24, the one to the address at 32. -/
inductive Chain (m : Nat → Byte) (lo hi : Nat) : Nat → List Seen → Prop where
  | nil : Chain m lo hi 0 []
  | cons (p : Nat) (e : Seen) (es : List Seen) :
      p ≠ 0 → lo ≤ p → p + 48 ≤ hi →
      numAt m p 4 = e.flags → numAt m (p + 4) 4 = e.family →
      numAt m (p + 8) 4 = e.socktype → numAt m (p + 12) 4 = e.protocol →
      numAt m (p + 16) 4 = e.addr.length →
      lo ≤ numAt m (p + 32) 8 → numAt m (p + 32) 8 + e.addr.length ≤ hi →
      bytesAt m (numAt m (p + 32) 8) e.addr.length = e.addr →
      numAt m (p + 24) 8 = e.canon →
      Chain m lo hi (numAt m (p + 40) 8) es → Chain m lo hi p (e :: es)

end Verif.BsdName.Spec
