import Verif.EndToEnd.Lemmas
import Verif.Authority.Isolation

/-!
# The arguments of the built-in callbacks, from the child's stubs to the host's handlers

The stubs of `src/library_runner.cc` put their arguments into a tuple; the host's handlers take them out of a copy of
its bytes.  The layout of both is fixed by `include/process_sandbox/callbacks.h:238-375` and the C++ library.
-/

namespace Verif.Authority

open Verif.Bounds (Region)
open Verif.Callback (Packet Event tableOf)
open Verif.EndToEnd (le ofLe le_length ofLe_le64 ofLe_le32)

/-- A call of one of the stubs: `callback_open`, `callback_stat`, `callback_access`, `callback_openat` (relative path),
`callback_bind_or_connect`, `getaddrinfo` (`src/library_runner.cc:698-756`, `:777-806`, `:961-977`).  Pointers are
those passed on, after the wrappers have copied what they point to. -/
inductive Args where
  | open_ (path : Word) (flags mode : BitVec 32)
  | stat (path buf : Word)
  | access (path : Word) (mode : BitVec 32)
  | openat (dir : BitVec 32) (path : Word) (flags mode : BitVec 32)
  | bind (s : BitVec 32) (addr : Word) (len : BitVec 32)
  | connect (s : BitVec 32) (addr : Word) (len : BitVec 32)
  | getaddrinfo (node service hints res : Word)
  deriving Repr, DecidableEq

/-- `ArgsStruct::kind` (`src/library_runner.cc:654`, `:671`; `include/process_sandbox/callback_numbers.h:26-57`). -/
def Args.kind : Args → Nat
  | .open_ .. => 0
  | .stat .. => 1
  | .access .. => 2
  | .openat .. => 3
  | .bind .. => 4
  | .connect .. => 5
  | .getaddrinfo .. => 6

/-- `stack_args{args...}` in memory (`src/library_runner.cc:652`, `:669`), laid out by libstdc++ on x86-64 with the last
member first; `p` and `q` are the four unused bytes before a pointer and at the end of a tuple, where there are any. -/
def layout (p q : List Byte) : Args → List Byte
  | .open_ path flags mode => le 4 mode.toNat ++ le 4 flags.toNat ++ le 8 path.toNat
  | .stat path buf => le 8 buf.toNat ++ le 8 path.toNat
  | .access path mode => le 4 mode.toNat ++ p ++ le 8 path.toNat
  | .openat dir path flags mode => le 4 mode.toNat ++ le 4 flags.toNat ++ le 8 path.toNat ++ le 4 dir.toNat ++ q
  | .bind s addr len => le 4 len.toNat ++ p ++ le 8 addr.toNat ++ le 4 s.toNat ++ q
  | .connect s addr len => le 4 len.toNat ++ p ++ le 8 addr.toNat ++ le 4 s.toNat ++ q
  | .getaddrinfo node service hints res => le 8 res.toNat ++ le 8 hints.toNat ++ le 8 service.toNat ++ le 8 node.toNat

/-- The handler of a call, with the very arguments that the stub was given (`src/libsandbox.cc:411-607`).  The number of
a descriptor in the child means nothing to the host; `fd` is the descriptor received with the message. -/
def direct (hdr : Word) (r : Region) (l : Lib) (o : Outside) (fd : Int) : Args → Outcome Callback.Result × Effects
  | .open_ path flags mode => logged (PathSyscall.handleOpen (pathEnv hdr r l o) path flags mode)
  | .stat path buf => logged (PathSyscall.handleStat (pathEnv hdr r l o) path buf)
  | .access path mode => logged (PathSyscall.handleAccess (pathEnv hdr r l o) path mode)
  | .openat _ path flags mode => logged (PathSyscall.handleOpenat (pathEnv hdr r l o) fd path flags mode)
  | .bind _ addr len =>
    let out := Net.handleBindOrConnect hdr r l.policies .bind o.socket o.address fd addr len
    (out.result, { sockets := out.calls.map (fun x => (.bind, x.1, x.2)) })
  | .connect _ addr len =>
    let out := Net.handleBindOrConnect hdr r l.policies .connect o.socket o.address fd addr len
    (out.result, { sockets := out.calls.map (fun x => (.connect, x.1, x.2)) })
  | .getaddrinfo node service hints res =>
    let out := AddrInfo.handleGetaddrinfo (lookupEnv hdr r l o) node service hints res
    (out.result, { lookups := out.calls, stores := out.stores })

theorem layout_length {p q : List Byte} (hp : p.length = 4) (hq : q.length = 4) (a : Args) :
    (layout p q a).length = frameSize a.kind := by
  cases a <;> simp [layout, le_length, hp, hq, frameSize, Args.kind]

theorem cut_at {α} (a b c : List α) (n m : Nat) (hn : a.length = n) (hm : b.length = m) :
    ((a ++ (b ++ c)).drop n).take m = b := by
  subst hn hm
  rw [List.drop_left, List.take_left]

theorem cut_end {α} (a b : List α) (n m : Nat) (hn : a.length = n) (hm : b.length = m) :
    ((a ++ b).drop n).take m = b := by
  subst hn hm
  rw [List.drop_left, List.take_length]

theorem layout_direct {p q : List Byte} (hp : p.length = 4) (hdr : Word) (r : Region) (l : Lib) (o : Outside)
    (fd : Int) (a : Args) : builtin hdr r l o a.kind (layout p q a) fd = direct hdr r l o fd a := by
  have h4 : ∀ v, (le 4 v).length = 4 := le_length 4
  have h8 : ∀ v, (le 8 v).length = 8 := le_length 8
  cases a with
  | open_ path flags mode =>
    have e1 : word (layout p q (.open_ path flags mode)) 1 = path := by
      rw [word, layout, cut_end _ _ _ 8 (by simp [h4]) (h8 _), ofLe_le64]
    have e2 : half (layout p q (.open_ path flags mode)) 1 = flags := by
      rw [half, layout, List.append_assoc, cut_at _ _ _ _ 4 (h4 _) (h4 _), ofLe_le32]
    have e3 : half (layout p q (.open_ path flags mode)) 0 = mode := by
      rw [half, layout, List.append_assoc, List.drop_zero, List.take_left' (h4 _), ofLe_le32]
    simp only [Args.kind, builtin, e1, e2, e3]
    rfl
  | stat path buf =>
    have e1 : word (layout p q (.stat path buf)) 1 = path := by
      rw [word, layout, cut_end _ _ _ 8 (by simp [h8]) (h8 _), ofLe_le64]
    have e2 : word (layout p q (.stat path buf)) 0 = buf := by
      rw [word, layout, List.drop_zero, List.take_left' (h8 _), ofLe_le64]
    simp only [Args.kind, builtin, e1, e2]
    rfl
  | access path mode =>
    have e1 : word (layout p q (.access path mode)) 1 = path := by
      rw [word, layout, cut_end _ _ _ 8 (by simp [h4, hp]) (h8 _), ofLe_le64]
    have e3 : half (layout p q (.access path mode)) 0 = mode := by
      rw [half, layout, List.append_assoc, List.drop_zero, List.take_left' (h4 _), ofLe_le32]
    simp only [Args.kind, builtin, e1, e3]
    rfl
  | openat dir path flags mode =>
    have e1 : word (layout p q (.openat dir path flags mode)) 1 = path := by
      rw [word, layout, List.append_assoc, List.append_assoc, cut_at _ _ _ _ 8 (by simp [h4]) (h8 _), ofLe_le64]
    have e2 : half (layout p q (.openat dir path flags mode)) 1 = flags := by
      rw [half, layout, List.append_assoc, List.append_assoc, List.append_assoc, cut_at _ _ _ _ 4 (h4 _) (h4 _),
        ofLe_le32]
    have e3 : half (layout p q (.openat dir path flags mode)) 0 = mode := by
      rw [half, layout, List.append_assoc, List.append_assoc, List.append_assoc, List.drop_zero,
        List.take_left' (h4 _), ofLe_le32]
    simp only [Args.kind, builtin, e1, e2, e3]
    rfl
  | bind s addr len =>
    have e1 : NetEnd.addrArg (layout p q (.bind s addr len)) = addr := by
      rw [NetEnd.addrArg, layout, List.append_assoc, List.append_assoc, cut_at _ _ _ _ 8 (by simp [h4, hp]) (h8 _),
        ofLe_le64]
    have e3 : NetEnd.lenArg (layout p q (.bind s addr len)) = len := by
      rw [NetEnd.lenArg, layout, List.append_assoc, List.append_assoc, List.append_assoc, List.take_left' (h4 _),
        ofLe_le32]
    simp only [Args.kind, builtin, sockets, e1, e3]
    rfl
  | connect s addr len =>
    have e1 : NetEnd.addrArg (layout p q (.connect s addr len)) = addr := by
      rw [NetEnd.addrArg, layout, List.append_assoc, List.append_assoc, cut_at _ _ _ _ 8 (by simp [h4, hp]) (h8 _),
        ofLe_le64]
    have e3 : NetEnd.lenArg (layout p q (.connect s addr len)) = len := by
      rw [NetEnd.lenArg, layout, List.append_assoc, List.append_assoc, List.append_assoc, List.take_left' (h4 _),
        ofLe_le32]
    simp only [Args.kind, builtin, sockets, e1, e3]
    rfl
  | getaddrinfo node service hints res =>
    have e0 : word (layout p q (.getaddrinfo node service hints res)) 0 = res := by
      rw [word, layout, List.append_assoc, List.append_assoc, List.drop_zero, List.take_left' (h8 _), ofLe_le64]
    have e1 : word (layout p q (.getaddrinfo node service hints res)) 1 = hints := by
      rw [word, layout, List.append_assoc, List.append_assoc, cut_at _ _ _ _ 8 (h8 _) (h8 _), ofLe_le64]
    have e2 : word (layout p q (.getaddrinfo node service hints res)) 2 = service := by
      rw [word, layout, List.append_assoc, cut_at _ _ _ _ 8 (by simp [h8]) (h8 _), ofLe_le64]
    have e3 : word (layout p q (.getaddrinfo node service hints res)) 3 = node := by
      rw [word, layout, cut_end _ _ _ 8 (by simp [h8]) (h8 _), ofLe_le64]
    simp only [Args.kind, builtin, e0, e1, e2, e3]
    rfl

/-- A heap in which the tuple of a call lies at 0x10800 (an example of what `src/library_runner.cc:652` leaves there). -/
def exHeap (a : Args) : Outside :=
  { exOut 0x10000 with frame := fun x => ((layout [1, 2, 3, 4] [5, 6, 7, 8] a)[x.toNat - 0x10800]?).getD 0 }

/-- A call of `openat` relative to a directory, as the host takes it. -/
example : (effects 0x400 ⟨0x10400, 0x20000⟩ (fresh) (exHeap (.openat 11 0x12000 0 7))
    ⟨24, ⟨3, 24, 0x10800⟩, 6⟩).log.length = 2 := by decide +kernel

/-- **C85.** A call of any of the seven stubs reaches the handler of that call in the host, with exactly the arguments
that the stub was given and the descriptor that was sent, provided that the tuple lies in the heap when the host copies
it; the answer is that of the handler, and the host does what the handler does and nothing else. -/
theorem stub_reaches_handler {hdr : Word} {r : Region} (hwf : r.WF hdr) {l : Lib} {users : List Nat}
    (hl : l.table = tableOf users) (o : Outside) (a : Args) {p q : List Byte} (hp : p.length = 4) (hq : q.length = 4)
    (data : Word) (fd : Int) (hlo : r.base.toNat + hdr.toNat ≤ data.toNat)
    (hhi : data.toNat + frameSize a.kind ≤ r.top.toNat)
    (hbytes : ∀ k (hk : k < (layout p q a).length), o.frame (.ofNat 64 (data.toNat + k)) = (layout p q a)[k])
    (n : Nat) (hn : 24 ≤ n) :
    let pkt : Packet := ⟨n, ⟨.ofNat 64 a.kind, .ofNat 64 (frameSize a.kind), data⟩, fd⟩
    effects hdr r l o pkt = (direct hdr r l o fd a).2 ∧
    Callback.handle l.table.handlers (run hdr r l o) (some pkt) o.sendOk =
      (match (direct hdr r l o fd a).1 with
        | .ok res => .ok [.received pkt.req fd,
            if o.sendOk then .replied res.integer res.handle else .killed]
        | .abort => .abort
        | .throws => .throws
        | .ub => .ub) := by
  intro pkt
  have hk7 : a.kind < 7 := by cases a <;> simp [Args.kind]
  have hsize : 0 < frameSize a.kind ∧ frameSize a.kind < 2 ^ 64 := by cases a <;> simp [Args.kind, frameSize]
  have hkind : pkt.req.kind.toNat = a.kind := by
    show (BitVec.ofNat 64 a.kind).toNat = _
    rw [BitVec.toNat_ofNat]; omega
  have hsz : (BitVec.ofNat 64 (frameSize a.kind)).toNat = frameSize a.kind := by
    rw [BitVec.toNat_ofNat]; omega
  have hd : Callback.dispatch l.table.handlers pkt.req.kind = some (.builtin a.kind) := by
    rw [hl, Callback.dispatch_tableOf, Callback.Spec.handlerFor, hkind, if_pos hk7]
  have hlen : ¬ pkt.len < Callback.requestSize := by simp only [Callback.requestSize, pkt]; omega
  have hcopy : (Callback.copyAddrs data (frameSize a.kind)).map o.frame = layout p q a := by
    have hll := layout_length hp hq a
    apply List.ext_getElem (by rw [List.length_map, Callback.copyAddrs_length, hll])
    intro i h1 h2
    rw [← hbytes i h2, List.getElem_map, Callback.copyAddrs_get]
    congr 1
    apply BitVec.eq_of_toNat_eq
    simp
  have hin : Bounds.contains hdr r data (.ofNat 64 (frameSize a.kind)) = true := by
    rw [Bounds.contains_iff hdr r hwf]
    rw [hsz]
    exact ⟨hlo, by omega, hhi⟩
  have hinv : ∀ fn : List Byte → Int → Outcome Callback.Result,
      Callback.invoke hdr r (frameSize a.kind) fn o.frame pkt.req fd =
        (fn (layout p q a) fd, Callback.copyAddrs data (frameSize a.kind)) := by
    intro fn
    have h1 : ¬ pkt.req.size ≠ BitVec.ofNat 64 (frameSize a.kind) := fun h => h rfl
    have h2 : ¬ Bounds.contains hdr r pkt.req.data pkt.req.size = false := by
      show ¬ Bounds.contains hdr r data (.ofNat 64 (frameSize a.kind)) = false
      rw [hin]; simp
    rw [Callback.invoke, if_neg h1, if_neg h2]
    show (fn ((Callback.copyAddrs data (frameSize a.kind)).map o.frame) fd, _) = _
    rw [hcopy]
  have hne : Callback.copyAddrs data (frameSize a.kind) ≠ [] := by
    intro e
    have := congrArg List.length e
    rw [Callback.copyAddrs_length, List.length_nil] at this
    omega
  constructor
  · have hb : ∀ fn, (Callback.invoke hdr r (behind hdr r l o (.builtin a.kind)).1 fn o.frame pkt.req pkt.fd).2 =
        Callback.copyAddrs data (frameSize a.kind) := fun fn => congrArg Prod.snd (hinv fn)
    simp only [effects, if_neg hlen, hd, hb, if_neg hne, hcopy]
    exact congrArg Prod.snd (layout_direct hp hdr r l o fd a)
  · have hr : run hdr r l o (.builtin a.kind) pkt.req fd = (direct hdr r l o fd a).1 := by
      simp only [run, behind]
      rw [hinv]
      simp only [layout_direct hp]
    simp only [Callback.handle, if_neg hlen, hd]
    rw [hr]
    cases (direct hdr r l o fd a).1 <;> simp only []
    split <;> rfl

/-- The hypotheses can be met, by every call. -/
example (a : Args) : effects 0x400 ⟨0x10400, 0x20000⟩ fresh (exHeap a)
    ⟨24, ⟨.ofNat 64 a.kind, .ofNat 64 (frameSize a.kind), 0x10800⟩, 6⟩ =
      (direct 0x400 ⟨0x10400, 0x20000⟩ fresh (exHeap a) 6 a).2 := by
  have h32 : frameSize a.kind ≤ 32 := by cases a <;> simp [Args.kind, frameSize]
  refine (stub_reaches_handler (by decide) (users := []) rfl (exHeap a) a (p := [1, 2, 3, 4]) (q := [5, 6, 7, 8]) rfl rfl
    0x10800 6 (by decide) ?_ ?_ 24 (by decide)).1
  · show 0x10800 + _ ≤ 0x20000
    omega
  · intro k hk
    have hl := layout_length (p := [1, 2, 3, 4]) (q := [5, 6, 7, 8]) rfl rfl a
    have e : (BitVec.ofNat 64 ((0x10800 : Word).toNat + k)).toNat - 0x10800 = k := by
      show (0x10800 + k) % 2 ^ 64 - 0x10800 = k
      omega
    show (_[_]?).getD 0 = _
    rw [e, List.getElem?_eq_getElem hk]
    rfl

/-- **C85, handlers of the user.** A message under the number of a handler of the user reaches that handler, with exactly
the bytes of the argument and the descriptor that was sent, exactly if the argument has the size of the handler's type and lies
in the heap; otherwise the host does nothing. -/
theorem user_reached_iff {hdr : Word} {r : Region} (hwf : r.WF hdr) {l : Lib} {users : List Nat}
    (hl : l.table = tableOf users) (o : Outside) (pkt : Packet) (hn : 24 ≤ pkt.len) {j h : Nat}
    (hj : pkt.req.kind.toNat = 7 + j) (hu : users[j]? = some h) (h0 : 0 < (o.user h).1) (h64 : (o.user h).1 < 2 ^ 64) :
    effects hdr r l o pkt =
      if pkt.req.size.toNat = (o.user h).1 ∧ r.base.toNat + hdr.toNat ≤ pkt.req.data.toNat ∧
          pkt.req.data.toNat + (o.user h).1 ≤ r.top.toNat then
        { users := [(h, (List.range (o.user h).1).map (fun k => o.frame (.ofNat 64 (pkt.req.data.toNat + k))), pkt.fd)] }
      else {} := by
  have hd : Callback.dispatch l.table.handlers pkt.req.kind = some (.user h) := by
    rw [hl, Callback.dispatch_tableOf, Callback.Spec.handlerFor, hj, if_neg (by omega),
      show 7 + j - 7 = j by omega, hu]
    rfl
  have hlen : ¬ pkt.len < Callback.requestSize := by simp only [Callback.requestSize]; omega
  have hmax : max 1 (o.user h).1 = (o.user h).1 := by omega
  have hs : pkt.req.size = BitVec.ofNat 64 (o.user h).1 ↔ pkt.req.size.toNat = (o.user h).1 := by
    constructor
    · intro e
      rw [e, BitVec.toNat_ofNat]
      omega
    · intro e
      apply BitVec.eq_of_toNat_eq
      rw [BitVec.toNat_ofNat]
      omega
  simp only [effects, if_neg hlen, hd, behind, hmax]
  by_cases hc : pkt.req.size.toNat = (o.user h).1 ∧ r.base.toNat + hdr.toNat ≤ pkt.req.data.toNat ∧
      pkt.req.data.toNat + (o.user h).1 ≤ r.top.toNat
  · rw [if_pos hc]
    have hin : Bounds.contains hdr r pkt.req.data pkt.req.size = true := by
      rw [Bounds.contains_iff hdr r hwf]
      omega
    have h1 : ¬ pkt.req.size ≠ BitVec.ofNat 64 (o.user h).1 := fun e => e (hs.2 hc.1)
    have h2 : ¬ Bounds.contains hdr r pkt.req.data pkt.req.size = false := by rw [hin]; simp
    have hinv : ∀ fn : List Byte → Int → Outcome Callback.Result,
        (Callback.invoke hdr r (o.user h).1 fn o.frame pkt.req pkt.fd).2 = Callback.copyAddrs pkt.req.data (o.user h).1 := by
      intro fn
      rw [Callback.invoke, if_neg h1, if_neg h2]
    have hne : Callback.copyAddrs pkt.req.data (o.user h).1 ≠ [] := by
      intro e
      have := congrArg List.length e
      rw [Callback.copyAddrs_length, List.length_nil] at this
      omega
    simp only [hinv, if_neg hne]
    congr 1
    congr 2
    congr 1
    apply List.ext_getElem (by simp [Callback.copyAddrs_length])
    intro k h1 h2
    rw [List.getElem_map, List.getElem_map, Callback.copyAddrs_get, List.getElem_range]
    congr 1
    apply BitVec.eq_of_toNat_eq
    simp
  · rw [if_neg hc]
    have hinv : ∀ fn : List Byte → Int → Outcome Callback.Result,
        (Callback.invoke hdr r (o.user h).1 fn o.frame pkt.req pkt.fd).2 = [] := by
      intro fn
      by_cases h1 : pkt.req.size = BitVec.ofNat 64 (o.user h).1
      · have hin : Bounds.contains hdr r pkt.req.data pkt.req.size = false := by
          cases hin : Bounds.contains hdr r pkt.req.data pkt.req.size with
          | false => rfl
          | true =>
            rw [Bounds.contains_iff hdr r hwf] at hin
            exact absurd ⟨hs.1 h1, hin.1, by have := hs.1 h1; omega⟩ hc
        rw [Callback.invoke, if_neg (by simpa using h1), if_pos hin]
      · rw [Callback.invoke, if_pos h1]
    simp only [hinv, if_true]

/-- A handler for an argument of one byte, the last one of the heap. -/
example (o : Outside) (ho : ∀ h, (o.user h).1 = 1) : effects 0x400 ⟨0x10400, 0x20000⟩ { fresh with table := tableOf [33] } o
    ⟨24, ⟨7, 1, 0x1ffff⟩, 6⟩ = { users := [(33, [o.frame 0x1ffff], 6)] } := by
  rw [user_reached_iff (by decide) (users := [33]) rfl _ _ (by decide) (j := 0) (h := 33) (by decide) rfl
    (by rw [ho]; decide) (by rw [ho]; decide), ho, if_pos (by decide)]
  simp

end Verif.Authority
