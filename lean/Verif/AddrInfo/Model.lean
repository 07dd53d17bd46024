import Verif.Net.Model

/-!
# `getaddrinfo` requests (model of `src/libsandbox.cc:479-571`)
-/

namespace Verif.AddrInfo

open Verif.Bounds Verif.Strings Verif.Callback Verif.Net

/-- The `n` little-endian bytes of a number (x86-64 representation of the fields of
`struct addrinfo`, stored at `src/libsandbox.cc:554-563`). -/
def leBytes : Nat → Nat → List Byte
  | 0, _ => []
  | n + 1, v => UInt8.ofNat (v % 256) :: leBytes n (v / 256)

/-- One `struct addrinfo` of the list returned by the policy, in host memory
(Linux x86-64 `<netdb.h>`; read at `src/libsandbox.cc:529-557`).  `addr` are the `ai_addrlen`
bytes at `ai_addr`; `pad` the 4 bytes of padding after `ai_addrlen`; `hostAddr`, `canon` and
`hostNext` are the pointer fields, i.e. addresses in the host. -/
structure Info where
  flags : BitVec 32
  family : BitVec 32
  socktype : BitVec 32
  protocol : BitVec 32
  addr : List Byte
  pad : BitVec 32
  hostAddr : Word
  canon : Word
  hostNext : Word
  deriving Repr, DecidableEq

/-- `sizeof(addrinfo)` (`src/libsandbox.cc:541`). -/
def infoSize : Nat := 48

/-- The 48 bytes of `*cur` (`ais[i] = *cur`, `src/libsandbox.cc:554`): flags at 0, family 4,
socktype 8, protocol 12, addrlen 16, padding 20, addr 24, canonname 32, next 40. -/
def Info.bytes (e : Info) : List Byte :=
  leBytes 4 e.flags.toNat ++ leBytes 4 e.family.toNat ++ leBytes 4 e.socktype.toNat ++
  leBytes 4 e.protocol.toNat ++ leBytes 4 e.addr.length ++ leBytes 4 e.pad.toNat ++
  leBytes 8 e.hostAddr.toNat ++ leBytes 8 e.canon.toNat ++ leBytes 8 e.hostNext.toNat

/-- A store of consecutive bytes into sandbox memory (`src/libsandbox.cc:541-564`). -/
structure Store where
  addr : Word
  bytes : List Byte
  deriving Repr, DecidableEq

/-- Apply stores in order (the effect of `src/libsandbox.cc:541-564` on memory). -/
def applyStores (m : Mem) : List Store → Mem
  | [] => m
  | s :: ss => applyStores (writeBytes m s.addr s.bytes) ss

/-- The copy loop, `src/libsandbox.cc:552-560`: `ais` is the array, `sa` the place for the next
socket address, `i` the index. -/
def copyLoop (ais sa : Word) (i : Nat) : List Info → List Store
  | [] => []
  | e :: es =>
    let p := ais + BitVec.ofNat 64 (infoSize * i)
    [⟨p, e.bytes⟩,
     ⟨sa, e.addr⟩,
     ⟨p + 24, leBytes 8 sa.toNat⟩,
     ⟨p + 40, leBytes 8 (ais + BitVec.ofNat 64 (infoSize * (i + 1))).toNat⟩] ++
    copyLoop ais (sa + BitVec.ofNat 64 e.addr.length) (i + 1) es

/-- The sum of the address lengths, `src/libsandbox.cc:527-533`. -/
def extraOf (es : List Info) : Nat := (es.map (fun e => e.addr.length)).sum

/-- The size asked for, `src/libsandbox.cc:540` (a `size_t`). -/
def blockSize (es : List Info) : Nat := infoSize * es.length + extraOf es

/-- The stores made once the block `b` is allocated, `src/libsandbox.cc:540-563`.  `alloc<char>`
first zero-fills the block (`include/process_sandbox/sandbox.h:651-654`). -/
def fillBlock (b slot : Word) (es : List Info) : List Store :=
  [⟨b, List.replicate (blockSize es) 0⟩] ++
  copyLoop b (b + BitVec.ofNat 64 (infoSize * es.length)) 0 es ++
  [⟨b + BitVec.ofNat 64 (infoSize * (es.length - 1)) + 40, leBytes 8 0⟩,
   ⟨slot, leBytes 8 b.toNat⟩]

/-- `EAI_BADFLAGS`, which `EAI_BADHINTS` stands for on Linux; the code only uses it as a negative
constant (`src/libsandbox.cc:40-41` and `:505`; value from glibc `<netdb.h>`). -/
def EAI_BADHINTS : Int := -1
/-- `EAI_MEMORY` of glibc `<netdb.h>` (`src/libsandbox.cc:492`, `:546`). -/
def EAI_MEMORY : Int := -10

/-- What the policy is invoked with: host and service names (none for a null pointer), and the
four integer fields of the hints, all other fields being zero (`src/libsandbox.cc:494-525`). -/
structure Query where
  host : Option (List Byte)
  service : Option (List Byte)
  hints : Option (BitVec 32 × BitVec 32 × BitVec 32 × BitVec 32)
  deriving Repr, DecidableEq

/-- Read a 32-bit field at `a` (`src/libsandbox.cc:516-519`). -/
def read32 (m : Mem) (a : Word) : BitVec 32 :=
  BitVec.ofNat 32 ((m a).toNat + 256 * ((m (a + 1)).toNat + 256 * ((m (a + 2)).toNat +
    256 * (m (a + 3)).toNat)))

/-- The result of a `getaddrinfo` request (trace of `src/libsandbox.cc:484-571`): the reply, the
queries that reached the policy's callee, the stores into sandbox memory in order, and whether the
result list was freed. -/
structure Out where
  result : Outcome Result
  calls : List (Callee × Query)
  stores : List Store
  freed : Bool
  deriving Repr, DecidableEq

/-- What a `getaddrinfo` request depends on (`src/libsandbox.cc:484-571`).  `call` is the policy's
callee: result, `errno`, and the list left in `res`.  `alloc` is the sandbox's allocator.  `rdHost`,
`rdService` are what the two passes over each string read, `rdHints` what the copy of the hints
reads. -/
structure Env where
  hdr : Word
  region : Region
  malloc : Nat → Option Buf
  policies : Policies
  call : Callee → Query → (Int × Int) × List Info
  alloc : Word → Option Word
  rdHost : Mem × Mem
  rdService : Mem × Mem
  rdHints : Mem

/-- The part of `handle_getaddrinfo` after the policy was invoked, `src/libsandbox.cc:526-570`:
`r` is the result and `errno`, `res` the list. -/
def finish (v : Env) (slot : Word) (r : Int × Int) (res : List Info)
    (calls : List (Callee × Query)) : Out :=
  if r.1 = 0 then
    if res ≠ [] then
      match (allocInSandbox v.alloc 1 (BitVec.ofNat 64 (blockSize res))).1 with
      | none =>
        ⟨.ok { integer := if EAI_MEMORY ≥ 0 then EAI_MEMORY else -r.2 }, calls, [], false⟩
      | some b => ⟨.ok { integer := 0 }, calls, fillBlock b slot res, true⟩
    else ⟨.ok { integer := 0 }, calls, [], false⟩
  else ⟨.ok { integer := if r.1 ≥ 0 then r.1 else -r.2 }, calls, [], false⟩

/-- The copy of the hints, `src/libsandbox.cc:494-520`. -/
def copyHints (v : Env) (hints : Word) : Option (BitVec 32 × BitVec 32 × BitVec 32 × BitVec 32) :=
  if hints = 0 then none else
    some (read32 v.rdHints hints, read32 v.rdHints (hints + 4), read32 v.rdHints (hints + 8),
      read32 v.rdHints (hints + 12))

/-- The invocation of the policy and what follows, `src/libsandbox.cc:523-570`. -/
def ask (v : Env) (slot : Word) (q : Query) : Out :=
  match invoke v.policies .getAddrInfo (fun c q => (v.call c q).1) q with
  | .ok (r, calls) =>
    finish v slot r (match calls with | [] => [] | (c, q) :: _ => (v.call c q).2) calls
  | .abort => ⟨.abort, [], [], false⟩
  | .throws => ⟨.throws, [], [], false⟩
  | .ub => ⟨.ub, [], [], false⟩

/-- `handle_getaddrinfo`, `src/libsandbox.cc:484-571`. -/
def handleGetaddrinfo (v : Env) (host service hints slot : Word) : Out :=
  if contains v.hdr v.region slot 8 = false then ⟨.ok { integer := EAI_MEMORY }, [], [], false⟩
  else if hints ≠ 0 ∧ contains v.hdr v.region hints (BitVec.ofNat 64 infoSize) = false then
    ⟨.ok { integer := EAI_BADHINTS }, [], [], false⟩
  else
    match (strdupOut v.hdr v.region v.malloc v.rdHost.1 v.rdHost.2 host).result,
        (strdupOut v.hdr v.region v.malloc v.rdService.1 v.rdService.2 service).result with
    | .ok hostCopy, .ok serviceCopy =>
      ask v slot ⟨hostCopy.map cText, serviceCopy.map cText, copyHints v hints⟩
    | _, _ => ⟨.ub, [], [], false⟩

end Verif.AddrInfo
