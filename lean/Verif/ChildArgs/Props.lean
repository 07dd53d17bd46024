import Verif.ChildArgs.Model
import Verif.Net.Props

/-!
# Passing arguments out of the sandbox: theorems

Specification: the host accepts a pointer if `contains` says so (C01 shows that this means the object lies in the
sandbox's heap), and it reads the caller's data if the bytes there are those of the caller's object.
-/

namespace Verif.ChildArgs

open Verif.Bounds (Region contains)

/-! ### Specification -/

/-- The `n` bytes at an address. -/
def bytesAt (m : Mem) (a : Word) (n : Nat) : List Byte := (List.range n).map (fun i => m (a + BitVec.ofNat 64 i))

/-- No byte of `[a, a + n)` is a byte of `[b, b + k)`. -/
def Apart (a : Word) (n : Nat) (b : Word) (k : Nat) : Prop :=
  ∀ i j : Nat, i < n → j < k → a + BitVec.ofNat 64 i ≠ b + BitVec.ofNat 64 j

/-- The child's bounds are those of the mapping: everything the host accepts lies between them. -/
def Agree (hdr : Word) (r : Region) (b : Bounds) : Prop :=
  r.WF hdr ∧ b.start.toNat ≤ r.base.toNat + hdr.toNat ∧ b.end = r.top

/-- An object of the heap, which the host accepts. -/
def InHeap (hdr : Word) (r : Region) (p : Word) (n : Nat) : Prop :=
  contains hdr r p (BitVec.ofNat 64 n) = true

/-- An object altogether outside the shared memory, such as a global variable. -/
def Private (b : Bounds) (p : Word) (n : Nat) : Prop :=
  p.toNat + n < 2 ^ 64 ∧ (p.toNat + n ≤ b.start.toNat ∨ b.end.toNat ≤ p.toNat)

/-- The objects of well-behaved callers. -/
def Object (hdr : Word) (r : Region) (b : Bounds) (p : Word) (n : Nat) : Prop :=
  p ≠ 0 ∧ (InHeap hdr r p n ∨ Private b p n)

/-- What the next `malloc` gives: a block of the heap, apart from the caller's object. -/
def Fresh (hdr : Word) (r : Region) (c : Child) (orig : Word) (n : Nat) : Prop :=
  ∃ p rest, c.mallocs = p :: rest ∧ InHeap hdr r p n ∧ Apart p n orig n ∧ p ∉ c.live

/-! ### Lemmas -/

theorem off_toNat {n : Nat} (i : Nat) (hi : i < n) (hn : n < 2 ^ 64) : (BitVec.ofNat 64 i).toNat = i := by
  simp; omega

theorem blit_dst (m : Mem) (dst src : Word) (n : Nat) (hn : n < 2 ^ 64) (i : Nat) (hi : i < n) :
    blit m dst src n (dst + BitVec.ofNat 64 i) = m (src + BitVec.ofNat 64 i) := by
  have e : dst + BitVec.ofNat 64 i - dst = BitVec.ofNat 64 i := by bv_omega
  rw [blit, e, off_toNat i hi hn, if_pos hi]

theorem blit_bytes (m : Mem) (dst src : Word) (n : Nat) (hn : n < 2 ^ 64) :
    bytesAt (blit m dst src n) dst n = bytesAt m src n := by
  apply List.map_congr_left
  intro i hi
  exact blit_dst m dst src n hn i (List.mem_range.1 hi)

theorem blit_else (m : Mem) (dst src : Word) (n : Nat) (x : Word)
    (h : ∀ i, i < n → x ≠ dst + BitVec.ofNat 64 i) : blit m dst src n x = m x := by
  rw [blit, if_neg]
  intro hlt
  apply h _ hlt
  bv_omega

theorem blit_apart (m : Mem) (dst src a : Word) (n k : Nat) (h : Apart dst n a k) :
    bytesAt (blit m dst src n) a k = bytesAt m a k := by
  apply List.map_congr_left
  intro j hj
  apply blit_else
  intro i hi e
  exact h i j hi (List.mem_range.1 hj) e.symm

theorem private_not_inside {b : Bounds} {p : Word} {n k : Nat} (h : Private b p n) (hk : 0 < k)
    (hkn : k ≤ n) : inside b p (BitVec.ofNat 64 k) = false := by
  obtain ⟨h1, h2⟩ := h
  simp only [inside, Bool.and_eq_false_iff, decide_eq_false_iff_not, BitVec.not_le, BitVec.not_lt]
  have hk' : (BitVec.ofNat 64 k).toNat = k := by simp; omega
  rcases h2 with h2 | h2
  · left; bv_omega
  · right; rw [BitVec.le_def, BitVec.toNat_add, hk']; omega

theorem inside_in_heap {hdr : Word} {r : Region} {b : Bounds} {p : Word} {n k : Nat}
    (ho : Object hdr r b p n) (hk : 0 < k) (hkn : k ≤ n) (h : inside b p (BitVec.ofNat 64 k) = true) :
    InHeap hdr r p n := by
  rcases ho.2 with h1 | h1
  · exact h1
  · rw [private_not_inside h1 hk hkn] at h; exact absurd h (by simp)

theorem dupBytes_ok {hdr : Word} {r : Region} {c : Child} {orig : Word} {n : Nat} (hz : orig ≠ 0)
    (hf : Fresh hdr r c orig n) :
    ∃ p c', dupBytes c orig n = .ok (p, c') ∧ InHeap hdr r p n ∧ Apart p n orig n ∧ p ∉ c.live ∧
      c'.mem = blit c.mem p orig n ∧ c'.live = p :: c.live := by
  obtain ⟨p, rest, h1, h2, h3, h4⟩ := hf
  exact ⟨p, _, by rw [dupBytes, if_neg hz, h1], h2, h3, h4, rfl, rfl⟩

/-! ## C43 -/

/-- What is wanted of a wrapper: the host is given an object that it accepts, with the caller's bytes; and the
caller's object is as before. -/
def Passed (hdr : Word) (r : Region) (c : Child) (orig : Word) (n : Nat) (w : Wrapped) (c' : Child) : Prop :=
  InHeap hdr r w.arg n ∧ bytesAt c'.mem w.arg n = bytesAt c.mem orig n ∧
    bytesAt c'.mem orig n = bytesAt c.mem orig n

theorem copied_passed {hdr : Word} {r : Region} {c c' : Child} {orig p : Word} {n : Nat} (hn : n < 2 ^ 64)
    (hh : InHeap hdr r p n) (ha : Apart p n orig n) (hm : c'.mem = blit c.mem p orig n) :
    Passed hdr r c orig n ⟨orig, some p⟩ c' := by
  refine ⟨hh, ?_, ?_⟩
  · rw [hm]; exact blit_bytes _ _ _ _ hn
  · rw [hm]; exact blit_apart _ _ _ _ _ _ ha

/-- **C43, objects (`CallbackPtrArg`; also the message itself).**  Wherever the caller's object is, the host is
given an object that it accepts, with the caller's bytes in it. -/
theorem ptr_passed {hdr : Word} {r : Region} {b : Bounds} {c : Child} {orig : Word} {n : Nat}
    (hn : 0 < n) (hn' : n < 2 ^ 64) (ho : Object hdr r b orig n) (hf : Fresh hdr r c orig n) :
    ∃ w c', wrapPtr b c orig n = .ok (w, c') ∧ Passed hdr r c orig n w c' := by
  by_cases hi : inside b orig 1
  · exact ⟨⟨orig, none⟩, c, by rw [wrapPtr, if_pos hi],
      inside_in_heap ho (k := 1) (by omega) (by omega) hi, rfl, rfl⟩
  · obtain ⟨p, c', h1, h2, h3, _, h5, _⟩ := dupBytes_ok ho.1 hf
    exact ⟨⟨orig, some p⟩, c', by rw [wrapPtr, if_neg hi, h1], copied_passed hn' h2 h3 h5⟩

/-- **C43, strings (`CallbackCStrArg`).**  The host finds the caller's string with its terminator. -/
theorem cstr_passed {hdr : Word} {r : Region} {b : Bounds} {c : Child} {orig : Word} {len : Nat}
    (hn : len + 1 < 2 ^ 64) (ho : Object hdr r b orig (len + 1)) (hf : Fresh hdr r c orig (len + 1)) :
    ∃ w c', wrapCStr b c orig len = .ok (w, c') ∧ Passed hdr r c orig (len + 1) w c' :=
  ptr_passed (by omega) hn ho hf

/-- **C43, user callbacks (`invoke_user_callback`).** -/
theorem user_passed {hdr : Word} {r : Region} {b : Bounds} {c : Child} {data : Word} {size : Nat}
    (hn : 0 < size) (hn' : size < 2 ^ 64) (ho : Object hdr r b data size) (hf : Fresh hdr r c data size) :
    ∃ w c', wrapUser b c data size = .ok (w, c') ∧ Passed hdr r c data size w c' := by
  by_cases hi : inside b data (BitVec.ofNat 64 size)
  · exact ⟨⟨data, none⟩, c, by rw [wrapUser, if_pos hi], inside_in_heap ho hn (by omega) hi, rfl, rfl⟩
  · obtain ⟨p, c', h1, h2, h3, _, h5, _⟩ := dupBytes_ok ho.1 hf
    exact ⟨⟨data, some p⟩, c', by rw [wrapUser, if_neg hi, h1], copied_passed hn' h2 h3 h5⟩

/-- A concrete child: a heap, a global variable outside it, and an object inside. -/
example :
    let r : Region := ⟨0x10400, 0x20000⟩
    let b : Bounds := ⟨0x10000, 0x20000⟩
    let c : Child := ⟨fun x => x.setWidth 8 |> fun y => UInt8.ofBitVec y, [], [0x18000]⟩
    Object 0x400 r b 0x5000 16 ∧ Object 0x400 r b 0x19000 16 ∧ InHeap 0x400 r 0x18000 16 ∧
      Fresh 0x400 r c 0x5000 16 := by
  have ha : Apart 0x18000 16 0x5000 16 := by
    intro i j hi hj
    bv_omega
  exact ⟨⟨by decide, .inr ⟨by decide, by decide⟩⟩, ⟨by decide, .inl (by simp only [InHeap]; decide)⟩,
    by simp only [InHeap]; decide,
    ⟨0x18000, [], rfl, by simp only [InHeap]; decide, ha, by simp⟩⟩

/-- **C43, results.**  When the host has written its result through the address it was given, and the
wrapper is gone, the caller's object holds the result; the copy has been freed. -/
theorem out_copied_back {hdr : Word} {r : Region} {b : Bounds} {c : Child} {orig : Word} {n : Nat}
    (hn' : n < 2 ^ 64) (ho : Object hdr r b orig n) (hf : Fresh hdr r c orig n) :
    ∃ w c', wrapPtr b c orig n = .ok (w, c') ∧ ∀ m : Mem,
      bytesAt (unwrap true { c' with mem := m } w n).mem orig n = bytesAt m w.arg n ∧
        (unwrap true { c' with mem := m } w n).live = c.live := by
  by_cases hi : inside b orig 1
  · exact ⟨⟨orig, none⟩, c, by rw [wrapPtr, if_pos hi], fun m => ⟨rfl, rfl⟩⟩
  · obtain ⟨p, c', h1, h2, h3, h4, h5, h6⟩ := dupBytes_ok ho.1 hf
    refine ⟨⟨orig, some p⟩, c', by rw [wrapPtr, if_neg hi, h1], fun m => ⟨?_, ?_⟩⟩
    · exact blit_bytes _ _ _ _ hn'
    · simp [unwrap, h6]

/-- **C43, arguments that are only read** leave memory as the host left it, and no copy behind. -/
theorem in_not_copied_back {hdr : Word} {r : Region} {b : Bounds} {c : Child} {orig : Word} {n : Nat}
    (ho : Object hdr r b orig n) (hf : Fresh hdr r c orig n) :
    ∃ w c', wrapPtr b c orig n = .ok (w, c') ∧ ∀ m : Mem,
      (unwrap false { c' with mem := m } w n).mem = m ∧
        (unwrap false { c' with mem := m } w n).live = c.live := by
  by_cases hi : inside b orig 1
  · exact ⟨⟨orig, none⟩, c, by rw [wrapPtr, if_pos hi], fun m => ⟨rfl, rfl⟩⟩
  · obtain ⟨p, c', h1, h2, h3, h4, h5, h6⟩ := dupBytes_ok ho.1 hf
    refine ⟨⟨orig, some p⟩, c', by rw [wrapPtr, if_neg hi, h1], fun m => ⟨?_, ?_⟩⟩
    · rfl
    · simp [unwrap, h6]

/-- Nothing else changes when a copy is made: bytes outside the new block are as before. -/
theorem ptr_frame {hdr : Word} {r : Region} {b : Bounds} {c : Child} {orig : Word} {n : Nat}
    (ho : Object hdr r b orig n) (hf : Fresh hdr r c orig n) :
    ∃ w c', wrapPtr b c orig n = .ok (w, c') ∧
      ∀ x, (∀ i, i < n → x ≠ w.arg + BitVec.ofNat 64 i) → c'.mem x = c.mem x := by
  by_cases hi : inside b orig 1
  · exact ⟨⟨orig, none⟩, c, by rw [wrapPtr, if_pos hi], fun x _ => rfl⟩
  · obtain ⟨p, c', h1, h2, h3, h4, h5, h6⟩ := dupBytes_ok ho.1 hf
    refine ⟨⟨orig, some p⟩, c', by rw [wrapPtr, if_neg hi, h1], fun x hx => ?_⟩
    rw [h5]
    exact blit_else _ _ _ _ _ hx

/-! ### Where it fails -/

/-- **C43, socket addresses (partial).**  An address in the heap is passed: a copy of it, needlessly. -/
theorem sockaddr_heap_partial {hdr : Word} {r : Region} {b : Bounds} {c : Child} {addr : Word} {len : Nat}
    (hn' : len < 2 ^ 64) (hz : addr ≠ 0) (hh : InHeap hdr r addr len)
    (hf : Fresh hdr r c addr len) :
    ∃ w c', wrapSockAddr b c addr len = .ok (w, c') ∧ Passed hdr r c addr len w c' := by
  by_cases hi : inside b addr (BitVec.ofNat 64 len)
  · obtain ⟨p, c', h1, h2, h3, _, h5, _⟩ := dupBytes_ok hz hf
    exact ⟨⟨addr, some p⟩, c', by rw [wrapSockAddr, if_pos hi, h1], copied_passed hn' h2 h3 h5⟩
  · exact ⟨⟨addr, none⟩, c, by rw [wrapSockAddr, if_neg hi], hh, rfl, rfl⟩

/-- **C43 fails** for socket addresses outside the heap: they are passed as they are (the test is the wrong way
round), and the host refuses every such `bind` or `connect` with `EINVAL`, whatever its policy. -/
theorem sockaddr_private_refused {hdr : Word} {r : Region} {b : Bounds} (hag : Agree hdr r b) {c : Child}
    {addr : Word} {len : BitVec 32} (hlen : 0 < len.toNat) (hp : Private b addr len.toNat)
    (ps : Net.Policies) (op : Net.Op) (call : Net.Callee → Net.SockArgs → Int × Int) (rd : Mem) (h : Int) :
    ∃ w, wrapSockAddr b c addr len.toNat = .ok (w, c) ∧ w.arg = addr ∧
      Net.handleBindOrConnect hdr r ps op call rd h w.arg len = ⟨.ok ⟨-22, -1⟩, [], []⟩ := by
  refine ⟨⟨addr, none⟩, ?_, rfl, ?_⟩
  · rw [wrapSockAddr, private_not_inside hp hlen (by omega)]
    rfl
  · apply Net.sock_refused hdr r hag.1
    obtain ⟨h1, h2⟩ := hp
    obtain ⟨hwf, hs, he⟩ := hag
    have : r.top.toNat = b.end.toNat := by rw [he]
    simp only [Region.WF] at hwf
    right; right
    rcases h2 with h2 | h2
    · left; show addr.toNat < _; omega
    · right; left; show r.top.toNat ≤ addr.toNat; omega

/-- A `sockaddr_in` in a global variable. -/
example : Agree 0x400 ⟨0x10400, 0x20000⟩ ⟨0x10000, 0x20000⟩ ∧
    Private ⟨0x10000, 0x20000⟩ 0x5000 (16#32).toNat :=
  ⟨⟨by decide, by decide, rfl⟩, by decide, by decide⟩

/-- **C43.** How the conversion of an argument can end, for every argument and every state of the child: it is
undefined exactly if a null pointer is to be copied, it ends the child exactly if something else is to be copied and there
is no memory, it never throws, and otherwise the argument is converted.  An object or string is copied if its first
byte is not inside the heap, the data of a user's callback if it is not inside altogether, and a socket address if it
is inside. -/
theorem wrap_ends_iff (b : Bounds) (c : Child) (p : Word) (n : Nat) :
    ∀ x, x = (inside b p 1, wrapPtr b c p n) ∨ x = (inside b p (.ofNat 64 n), wrapUser b c p n) ∨
      x = (!inside b p (.ofNat 64 n), wrapSockAddr b c p n) →
    (x.2 = .ub ↔ x.1 = false ∧ p = 0) ∧ (x.2 = .abort ↔ x.1 = false ∧ p ≠ 0 ∧ c.mallocs = []) ∧ x.2 ≠ .throws ∧
      ((x.1 = true ∨ p ≠ 0 ∧ c.mallocs ≠ []) → ∃ w c', x.2 = .ok (w, c') ∧ w.original = p) := by
  have key : ∀ i : Bool, ∀ y : Outcome (Wrapped × Child), y = (if i then .ok (⟨p, none⟩, c)
      else match dupBytes c p n with
        | .ok (q, c') => .ok (⟨p, some q⟩, c')
        | .abort => .abort
        | .throws => .throws
        | .ub => .ub) →
      (y = .ub ↔ i = false ∧ p = 0) ∧ (y = .abort ↔ i = false ∧ p ≠ 0 ∧ c.mallocs = []) ∧ y ≠ .throws ∧
        ((i = true ∨ p ≠ 0 ∧ c.mallocs ≠ []) → ∃ w c', y = .ok (w, c') ∧ w.original = p) := by
    rintro i y rfl
    cases i with
    | true => simp
    | false =>
      unfold dupBytes
      by_cases hp : p = 0
      · simp [hp]
      · have hp' : ¬ p = 0#64 := hp
        cases hm : c.mallocs <;> simp [hp']
  rintro x (rfl | rfl | rfl)
  · exact key _ _ rfl
  · exact key _ _ rfl
  · refine key _ _ ?_
    simp only [wrapSockAddr]
    cases inside b p (.ofNat 64 n) <;> rfl

/-- The three kinds of outcome occur. -/
example : wrapPtr ⟨0x10000, 0x20000⟩ ⟨fun _ => 0, [], []⟩ 0 8 = .ub ∧
    wrapPtr ⟨0x10000, 0x20000⟩ ⟨fun _ => 0, [], []⟩ 0x5000 8 = .abort ∧
    wrapPtr ⟨0x10000, 0x20000⟩ ⟨fun _ => 0, [], []⟩ 0x11000 8 = .ok (⟨0x11000, none⟩, ⟨fun _ => 0, [], []⟩) :=
  ⟨rfl, rfl, rfl⟩

/-- **C43**, when the child has no memory for the copy: the call stops there and the child ends, so that nothing is
passed to the host.  This is so for each kind of argument that would be copied, and for `getaddrinfo`, whichever of
its arguments is the first outside the heap. -/
theorem no_memory_ends_child {b : Bounds} {c : Child} (hm : c.mallocs = []) {p : Word} (hz : p ≠ 0) :
    (∀ n, inside b p 1 = false → wrapPtr b c p n = .abort ∧ wrapCStr b c p n = .abort) ∧
    (∀ n, inside b p (BitVec.ofNat 64 n) = false → wrapUser b c p n = .abort) ∧
    (∀ n, inside b p (BitVec.ofNat 64 n) = true → wrapSockAddr b c p n = .abort) ∧
    (∀ host serv hints res l1 l2 n, host ≠ 0 → serv ≠ 0 → hints ≠ 0 → res ≠ 0 →
      (inside b host 1 && inside b serv 1 && inside b hints 1 && inside b res 1) = false →
      wrapGetAddrInfo b c host serv hints res l1 l2 n = .abort) := by
  have key : ∀ q n, q ≠ 0 → inside b q 1 = false → wrapPtr b c q n = .abort := by
    intro q n hq hi
    rw [wrapPtr, hi, dupBytes, if_neg hq, hm]
    rfl
  have key' : ∀ q n, inside b q 1 = true → wrapPtr b c q n = .ok (⟨q, none⟩, c) := by
    intro q n hi
    rw [wrapPtr, if_pos hi]
  refine ⟨fun n hi => ⟨key _ _ hz hi, key _ _ hz hi⟩, ?_, ?_, ?_⟩
  · intro n hi
    rw [wrapUser, hi, dupBytes, if_neg hz, hm]
    rfl
  · intro n hi
    rw [wrapSockAddr, if_pos hi, dupBytes, if_neg hz, hm]
  · intro host serv hints res l1 l2 n h1 h2 h3 h4 hb
    simp only [wrapGetAddrInfo, wrapCStr]
    cases e1 : inside b host 1
    · simp only [andThen, key _ _ h1 e1]
    cases e2 : inside b serv 1
    · simp only [andThen, key _ _ h2 e2, key' _ _ e1]
    cases e3 : inside b hints 1
    · simp only [andThen, key _ _ h3 e3, key' _ _ e1, key' _ _ e2]
    cases e4 : inside b res 1
    · simp only [andThen, key _ _ h4 e4, key' _ _ e1, key' _ _ e2, key' _ _ e3]
    rw [e1, e2, e3, e4] at hb
    exact absurd hb (by decide)

/-- The hints in a global variable, the rest in the heap. -/
example : (inside ⟨0x10000, 0x20000⟩ 0x10800 1 && inside ⟨0x10000, 0x20000⟩ 0x10900 1 &&
    inside ⟨0x10000, 0x20000⟩ 0x5000 1 && inside ⟨0x10000, 0x20000⟩ 0x10a00 1) = false ∧
    inside ⟨0x10000, 0x20000⟩ 0x10800 (BitVec.ofNat 64 16) = true ∧
    inside ⟨0x10000, 0x20000⟩ 0x5000 (BitVec.ofNat 64 16) = false := by decide

/-- **C43 fails** for absent arguments: a null pointer, which `getaddrinfo` allows for the host name, the
service and the hints, is dereferenced. -/
theorem null_argument_ub {b : Bounds} (hb : 0 < b.start.toNat) (c : Child) (n : Nat) :
    wrapPtr b c 0 n = .ub := by
  have : inside b 0 1 = false := by
    simp only [inside, Bool.and_eq_false_iff, decide_eq_false_iff_not, BitVec.not_le]
    left; bv_omega
  rw [wrapPtr, this]
  rfl

/-- Inside arguments are used as they are. -/
theorem inside_as_is {b : Bounds} {c : Child} {p : Word} {n : Nat} (h : inside b p 1 = true) :
    wrapPtr b c p n = .ok (⟨p, none⟩, c) := by
  rw [wrapPtr, if_pos h]

/-- **C43, in the heap nothing is copied.**  An object or the data of a user callback that lies in the shared memory, from
its first byte on, and ends before the last one is passed as it is: nothing is allocated and nothing written. -/
theorem heap_as_is {b : Bounds} {c : Child} {p : Word} {n : Nat} (hn : 0 < n) (h1 : b.start.toNat ≤ p.toNat)
    (h2 : p.toNat + n < b.end.toNat) :
    wrapPtr b c p n = .ok (⟨p, none⟩, c) ∧ wrapUser b c p n = .ok (⟨p, none⟩, c) := by
  have hb := b.end.isLt
  constructor
  · apply inside_as_is
    simp only [inside, Bool.and_eq_true, decide_eq_true_eq]
    constructor <;> bv_omega
  · rw [wrapUser, if_pos]
    have hk : (BitVec.ofNat 64 n).toNat = n := by simp; omega
    simp only [inside, Bool.and_eq_true, decide_eq_true_eq]
    constructor <;> bv_omega

/-- The very first bytes. -/
example (c : Child) : wrapPtr ⟨0x10000, 0x20000⟩ c 0x10000 8 = .ok (⟨0x10000, none⟩, c) :=
  (heap_as_is (by omega) (by decide) (by decide)).1

/-- **C43 fails** for `getaddrinfo` without hints, even if its other arguments are in the heap. -/
theorem getaddrinfo_null_hints {b : Bounds} (hb : 0 < b.start.toNat) (c : Child) (host serv res : Word)
    (hl sl n : Nat) (hh : inside b host 1 = true) (hs : inside b serv 1 = true) :
    wrapGetAddrInfo b c host serv 0 res hl sl n = .ub := by
  simp only [wrapGetAddrInfo, wrapCStr, andThen, inside_as_is hh, inside_as_is hs, null_argument_ub hb]

/-- **C43 fails** for `getaddrinfo` without a host name (which is how a program asks for a passive address), or
without a service, whatever the other arguments are. -/
theorem getaddrinfo_null_host {b : Bounds} (hb : 0 < b.start.toNat) (c : Child) (serv hints res : Word)
    (hl sl n : Nat) : wrapGetAddrInfo b c 0 serv hints res hl sl n = .ub := by
  simp only [wrapGetAddrInfo, wrapCStr, andThen, null_argument_ub hb]

example : inside ⟨0x10000, 0x20000⟩ 0x18000 1 = true ∧ 0 < (⟨0x10000, 0x20000⟩ : Bounds).start.toNat := by decide

/-- **C43 fails** for the results of user callbacks: what the host writes into the data of a callback reaches the
caller if the data is in the heap, and is lost if it is elsewhere (the copy is freed without being looked at). -/
theorem user_result_lost {hdr : Word} {r : Region} {b : Bounds} {c : Child} {data : Word} {size : Nat}
    (hn : 0 < size) (hz : data ≠ 0) (hp : Private b data size) (hf : Fresh hdr r c data size) :
    ∃ w c', wrapUser b c data size = .ok (w, c') ∧ w.arg ≠ data ∧
      ∀ m : Mem, (unwrap false { c' with mem := m } w size).mem = m := by
  obtain ⟨p, c', h1, h2, h3, _, _, _⟩ := dupBytes_ok hz hf
  refine ⟨⟨data, some p⟩, c', by rw [wrapUser, private_not_inside hp hn (by omega)]; simp [h1], ?_,
    fun m => rfl⟩
  intro e
  exact h3 0 0 hn hn (by simpa [Wrapped.arg] using e)

end Verif.ChildArgs
