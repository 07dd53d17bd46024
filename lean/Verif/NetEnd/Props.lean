import Verif.NetEnd.Lemmas

/-!
# Network calls of the sandboxed program, end to end: theorems
-/

namespace Verif.NetEnd

open Verif.Bounds (Region contains contains_iff)
open Verif.Strings
open Verif.FileTree (Export)
open Verif.Callback (Handler Packet Event Result)
open Verif.Net (Op Policies Config Callee SockArgs SockOut handleBindOrConnect configure BadSock sock_refused sock_calls)
open Verif.Net.Spec (IsLast Untouched target)
open Verif.ChildArgs (Bounds Child Wrapped wrapPtr wrapSockAddr unwrap bytesAt Apart InHeap Object Private Agree blit
  blit_bytes blit_else private_not_inside dupBytes)
open Verif.Syscall (CInt Regs Info Arg Reply Answer Arrives abi wanted libc found emulate_faithful)
open Verif.EndToEnd (Pool Outside outside_mono outside_of_apart apart_symm apart_mono pool_last inHeap_mono
  bytesAt_congr wrap_spec)

/-! ### Specification -/

/-- The program makes the call properly, and the child has the memory for it: the address of the socket address is that
of an object of `len` bytes, wholly in the shared heap or wholly outside; the frame on the stack does not overlap it;
and `malloc` has two more blocks that overlap nothing (`n` bytes is enough for each). -/
structure Ready (w : World) (c : Child) (n : Nat) (addr : Word) (len : Nat) : Prop where
  room : len ≤ n ∧ 24 ≤ n ∧ n < 2 ^ 64
  object : Object w.hdr w.region w.bounds addr len
  apart : Apart addr len w.sp 24
  stack : Object w.hdr w.region w.bounds w.sp 24
  pool : Pool w.toWorld n c [(w.sp, 24), (addr, len)] 2

/-- The places that the child uses for itself while it makes a call: the frame on its stack and the blocks. -/
def scratch (w : World) (c : Child) (n : Nat) : List (Word × Nat) :=
  (w.sp, 24) :: (c.mallocs.take 2).map (·, n)

/-! ### Lemmas -/

/-- The copy of the address. -/
theorem wrap_addr {w : World} {hist : List Export} {users : List Nat} {conf : List Config}
    (hw : Setup w hist users conf) {c : Child} {n : Nat} {addr : Word} {len : Nat} (hr : Ready w c n addr len) :
    ∃ a c1, wrapSockAddr w.bounds c addr len = .ok (a, c1) ∧
      (InHeap w.hdr w.region addr len → InHeap w.hdr w.region a.arg len) ∧
      bytesAt c1.mem a.arg len = bytesAt c.mem addr len ∧
      (Private w.bounds addr len → 0 < len → a.arg = addr) ∧
      Pool w.toWorld n c1 [(w.sp, 24), (a.arg, len)] 1 ∧ Apart a.arg len w.sp 24 ∧
      c1.live = a.copy.toList ++ c.live ∧
      (∀ q ∈ c1.mallocs.take 1, q ∈ c.mallocs.take 2) ∧
      (∀ q, a.copy = some q → q ∈ c.mallocs.take 2) ∧
      (∀ x, (∀ q, a.copy = some q → Outside [(q, len)] x) → c1.mem x = c.mem x) := by
  obtain ⟨⟨hn1, hn2, hn3⟩, hobj, hap, _, hpool⟩ := hr
  obtain ⟨p, ps, h1, h2, h3, h4⟩ := hpool.next
  by_cases hi : ChildArgs.inside w.bounds addr (BitVec.ofNat 64 len)
  · refine ⟨⟨addr, some p⟩, ⟨blit c.mem p addr len, p :: c.live, ps⟩, ?_, ?_, ?_, ?_, ?_, ?_, rfl, ?_, ?_, ?_⟩
    · rw [wrapSockAddr, if_pos hi, dupBytes, if_neg hobj.1, h1]
    · intro _
      exact inHeap_mono hw.base h2 hn3 hn1
    · exact blit_bytes _ _ _ _ (by omega)
    · intro hp hl
      rw [private_not_inside hp hl (by omega)] at hi
      exact absurd hi (by simp)
    · have := h4 (blit c.mem p addr len) (p :: c.live)
      refine ⟨this.enough, this.heap, ?_, this.pairwise⟩
      intro q hq o ho
      simp only [List.mem_cons, List.not_mem_nil, or_false] at ho
      rcases ho with rfl | rfl
      · exact this.apart q hq (w.sp, 24) (by simp)
      · exact apart_mono (this.apart q hq (p, n) (by simp)) (by omega) hn1
    · exact apart_mono (h3 (w.sp, 24) (by simp)) hn1 (by omega)
    · intro q hq
      rw [h1, List.take_succ_cons]
      exact List.mem_cons_of_mem _ hq
    · intro q hq
      cases hq
      rw [h1, List.take_succ_cons]
      exact List.mem_cons_self
    · intro x hx
      exact blit_else _ _ _ _ _ fun i hi => hx p rfl (p, len) (by simp) i hi
  · refine ⟨⟨addr, none⟩, c, by rw [wrapSockAddr, if_neg hi], id, rfl, fun _ _ => rfl,
      hpool.mono (fun _ h => h) c.mem c.live, hap, rfl, ?_, nofun, fun _ _ => rfl⟩
    intro q hq
    exact List.take_subset_take_left _ (by omega) hq

/-- What a request to the host gives, in terms of the host's handler. -/
theorem request_spec {w : World} {hist : List Export} {users : List Nat} {conf : List Config}
    (hw : Setup w hist users conf) {c : Child} {n : Nat} {s : CInt} {addr : Word} {len : CInt}
    (hr : Ready w c n addr len.toNat) {op : Op} (hop : op ≠ .getAddrInfo) {fd : Int} (hfd : pass w s = .ok fd) :
    ∃ a m1, (InHeap w.hdr w.region addr len.toNat → InHeap w.hdr w.region a len.toNat) ∧
      bytesAt m1 a len.toNat = bytesAt c.mem addr len.toNat ∧
      (Private w.bounds addr len.toNat → 0 < len.toNat → a = addr) ∧
      (∀ res calls reads,
        handleBindOrConnect w.hdr w.region w.policies op w.call m1 fd a len = ⟨.ok res, calls, reads⟩ →
        ∃ c', request w c ⟨kindOf op, [.int s, .raw addr, .int len], s⟩ =
            .ok (EndToEnd.reply w.toWorld res.integer res.handle, calls, c') ∧ c'.live = c.live ∧
          ∀ x, Outside (scratch w c n) x → c'.mem x = c.mem x) ∧
      ((handleBindOrConnect w.hdr w.region w.policies op w.call m1 fd a len).result = .throws →
        request w c ⟨kindOf op, [.int s, .raw addr, .int len], s⟩ = .throws) := by
  obtain ⟨a, c1, h1, h2, h3, h4, h5, h6, h7, h8, h9, h10⟩ := wrap_addr hw hr
  obtain ⟨⟨hn1, hn2, hn3⟩, _, _, hstack, _⟩ := hr
  obtain ⟨p, ps, hm, hp, hpa, hpin⟩ := pool_last h5
  obtain ⟨m1, hm1, hsend, hthrow⟩ := send_spec hw c1 hop s a.arg len hstack p ps hm (inHeap_mono hw.base hp hn3 hn2) hfd
  refine ⟨a.arg, m1, h2, ?_, h4, ?_, fun h => by simp only [request, h1, hthrow h]⟩
  · rw [← h3]
    refine bytesAt_congr fun i hi => hm1 _ (outside_of_apart ?_ hi)
    intro o ho
    simp only [List.mem_cons, List.not_mem_nil, or_false] at ho
    rcases ho with rfl | rfl
    · exact apart_symm h6
    · exact apart_mono (hpa (a.arg, len.toNat) (by simp)) hn2 (by simp)
  · intro res calls reads hs
    obtain ⟨c2, e1, e2, e3⟩ := hsend res calls reads hs
    refine ⟨unwrap false c2 a len.toNat, ?_, ?_, ?_⟩
    · simp only [request, h1, e1]
    · cases hc : a.copy with
      | none => simp [unwrap, hc, e2, h7]
      | some q => simp [unwrap, hc, e2, h7]
    · intro x hx
      have hu : (unwrap false c2 a len.toNat).mem x = c2.mem x := by
        cases hc : a.copy <;> simp [unwrap, hc]
      rw [hu, e3, hm1, h10]
      · intro q hq
        apply outside_mono hx
        intro o ho
        simp only [List.mem_singleton] at ho
        subst ho
        exact ⟨(q, n), List.mem_cons_of_mem _ (List.mem_map.2 ⟨q, h9 q hq, rfl⟩), rfl, hn1⟩
      · apply outside_mono hx
        intro o ho
        simp only [List.mem_cons, List.not_mem_nil, or_false] at ho
        rcases ho with rfl | rfl
        · exact ⟨(w.sp, 24), by simp [scratch], rfl, by simp⟩
        · exact ⟨(p, n), List.mem_cons_of_mem _ (List.mem_map.2 ⟨p, h8 p hpin, rfl⟩), rfl, hn2⟩

theorem wanted_op {nr : Int} {r : Regs} {op : Op} (h : opAsked nr = some op) :
    wanted nr (abi r) = some ⟨kindOf op, [.int (r.rdi.setWidth 32), .raw r.rsi, .int (r.rdx.setWidth 32)],
      r.rdi.setWidth 32⟩ ∧ nr ≠ 257 ∧ op ≠ .getAddrInfo := by
  unfold opAsked at h
  split at h
  · rename_i h1
    cases h
    subst h1
    exact ⟨rfl, by decide, by decide⟩
  · split at h
    · rename_i h1
      cases h
      subst h1
      exact ⟨rfl, by decide, by decide⟩
    · cases h

/-- The handler's answer reaches the registers. -/
theorem trap_spec {w : World} {hist : List Export} {users : List Nat} {conf : List Config}
    (hw : Setup w hist users conf) {c : Child} {n : Nat} {i : Info} {r : Regs} {op : Op} (hcode : i.code = 1)
    (hop : opAsked i.syscall = some op) (hr : Ready w c n r.rsi (r.rdx.setWidth 32 : CInt).toNat) {fd : Int}
    (hfd : pass w (r.rdi.setWidth 32) = .ok fd) :
    ∃ a m1, (InHeap w.hdr w.region r.rsi (r.rdx.setWidth 32 : CInt).toNat →
        InHeap w.hdr w.region a (r.rdx.setWidth 32 : CInt).toNat) ∧
      bytesAt m1 a (r.rdx.setWidth 32 : CInt).toNat = bytesAt c.mem r.rsi (r.rdx.setWidth 32 : CInt).toNat ∧
      (Private w.bounds r.rsi (r.rdx.setWidth 32 : CInt).toNat → 0 < (r.rdx.setWidth 32 : CInt).toNat → a = r.rsi) ∧
      ∀ ans calls reads, ans.Proper → Arrives ans (EndToEnd.reply w.toWorld (code ans) (-1)) →
        handleBindOrConnect w.hdr w.region w.policies op w.call m1 fd a (r.rdx.setWidth 32) =
          ⟨.ok ⟨code ans, -1⟩, calls, reads⟩ →
        ∃ r' c', trap w c i r = .ok (r', calls, c') ∧ libc r'.rax = found ans ∧ r'.rip = i.callAddr ∧
          abi r' = abi r ∧ c'.live = c.live ∧ ∀ x, Outside (scratch w c n) x → c'.mem x = c.mem x := by
  obtain ⟨hwant, hne, hng⟩ := wanted_op (r := r) hop
  obtain ⟨a, m1, h1, h2, h3, h4, _⟩ := request_spec hw hr hng hfd
  refine ⟨a, m1, h1, h2, h3, ?_⟩
  intro ans calls reads hp ha hs
  obtain ⟨c', e1, e2, e3⟩ := h4 _ _ _ hs
  have hhost : hostOf w c ⟨kindOf op, [.int (r.rdi.setWidth 32), .raw r.rsi, .int (r.rdx.setWidth 32)],
      r.rdi.setWidth 32⟩ = EndToEnd.reply w.toWorld (code ans) (-1) := by rw [hostOf, e1]
  obtain ⟨r', f1, f2, f3, f4⟩ := emulate_faithful
    (v := ⟨hostOf w c, w.pid, w.str, fun f => f⟩) hcode hwant (fun h => absurd h hne) hp
    (by simp only [hhost]; exact ha)
  exact ⟨r', c', by rw [trap, f1]; simp only [e1], f2, f3, f4, e2, e3⟩

theorem last_or_untouched (conf : List Config) (op : Op) :
    Untouched conf op ∨ ∃ c, IsLast conf op c := by
  induction conf with
  | nil => exact .inl nofun
  | cons x conf ih =>
    rcases ih with h | ⟨c, b, a, rfl, h1, h2⟩
    · by_cases hx : target x = op
      · exact .inr ⟨x, [], conf, rfl, hx, h⟩
      · refine .inl ?_
        intro y hy
        rcases List.mem_cons.1 hy with rfl | hy
        · exact hx
        · exact h y hy
    · exact .inr ⟨c, x :: b, a, rfl, h1, h2⟩

/-- The calls of a policy are calls of the chosen function. -/
theorem invoke_calls {α : Type} {conf : List Config} {op : Op} {call : Callee → α → Int × Int} {a : α}
    {r : Int × Int} {calls : List (Callee × α)} (h : Net.invoke (configure conf) op call a = .ok (r, calls)) :
    ∀ x ∈ calls, Chosen conf op (some x.1) := by
  rcases last_or_untouched conf op with hu | ⟨c, hl⟩
  · rw [Net.invoke_default_deny conf op hu] at h
    cases h
    nofun
  · have hl' := hl
    obtain ⟨b, d, _, ht, _⟩ := hl'
    have hi := Net.invoke_last α conf op c hl call a
    cases c with
    | deny o =>
      cases ht
      rw [hi.1 rfl] at h
      cases h
      nofun
    | allow o =>
      cases ht
      rw [hi.2.1 rfl] at h
      cases h
      intro x hx
      rw [List.mem_singleton] at hx
      subst hx
      exact .allowed hl
    | register o f =>
      cases ht
      cases f with
      | none =>
        rw [hi.2.2.2 rfl] at h
        cases h
      | some f =>
        rw [hi.2.2.1 f rfl] at h
        cases h
        intro x hx
        rw [List.mem_singleton] at hx
        subst hx
        exact .handled f hl

theorem handler_calls {hdr : Word} {reg : Region} {conf : List Config} {op : Op}
    {call : Callee → SockArgs → Int × Int} {m : Mem} {h : Int} {addr : Word} {len : CInt} :
    ∀ x ∈ (handleBindOrConnect hdr reg (configure conf) op call m h addr len).calls, Chosen conf op (some x.1) := by
  intro x hx
  unfold handleBindOrConnect at hx
  split at hx
  · cases hx
  · rcases hc : Net.maxSaneSockAddrSize with _ | k
    · exact absurd hc (by decide)
    · simp only at hx
      split at hx
      · split at hx
        · rename_i hv
          exact invoke_calls hv x hx
        all_goals cases hx
      · cases hx

/-! ## C80 -/

/-- **C80.**  A sandboxed program makes the system call `bind` or `connect` on one of its sockets, with an address in
the shared heap of at most 4096 bytes.  Whatever the host has configured, its memory and the results of the functions:
the function that the host has chosen for this operation is called once, with the program's socket and the bytes of the
address, and nothing else is called; what the program finds in its result register, as the C library reads it, is what
that function returned, or `ENOSYS` if there is none; the program goes on after the call with its other registers as
they were; and its memory is as before, apart from the child's own frame and blocks, which are free again. -/
theorem network_call_end_to_end {w : World} {hist : List Export} {users : List Nat} {conf : List Config}
    (hw : Setup w hist users conf) {c : Child} {n : Nat} {i : Info} {r : Regs} {op : Op} {f : Option Callee}
    {len : Nat} {h : Int} (hcode : i.code = 1) (hop : opAsked i.syscall = some op) (hf : Chosen conf op f)
    (hlen : (r.rdx.setWidth 32 : CInt).toNat = len) (hmax : len ≤ 4096) (hr : Ready w c n r.rsi len)
    (hheap : InHeap w.hdr w.region r.rsi len) (hs : 0 ≤ (r.rdi.setWidth 32 : CInt).toInt)
    (hpass : w.passed (r.rdi.setWidth 32) = some h) (hh : 0 ≤ h) :
    ∃ r' c', trap w c i r = .ok (r', called (given h (bytesAt c.mem r.rsi len)) f, c') ∧
      libc r'.rax = found (answer w.call (given h (bytesAt c.mem r.rsi len)) f) ∧ r'.rip = i.callAddr ∧
      abi r' = abi r ∧ c'.live = c.live ∧ ∀ x, Outside (scratch w c n) x → c'.mem x = c.mem x := by
  subst hlen
  have hfd : pass w (r.rdi.setWidth 32) = .ok h := by
    rw [pass, if_neg (by omega), hpass]
  obtain ⟨a, m1, h1, h2, _, h4⟩ := trap_spec hw hcode hop hr hfd
  obtain ⟨reads, hs⟩ := handler_spec hw hf m1 hh hmax (h1 hheap)
  rw [h2] at hs
  obtain ⟨p1, p2⟩ := answer_proper hw (given h (bytesAt c.mem r.rsi (r.rdx.setWidth 32 : CInt).toNat)) f
  exact h4 _ _ reads p1 p2 hs

/-- **C80, calls that cannot be passed on.**  If the number of the socket is negative, or the address has more than 4096
bytes or lies outside the shared memory, then nothing is called, and the program gets `EINVAL`.  (That an address
outside is refused is an error of the child, which copies the wrong addresses; see C43.) -/
theorem bad_network_call_refused {w : World} {hist : List Export} {users : List Nat} {conf : List Config}
    (hw : Setup w hist users conf) {c : Child} {n : Nat} {i : Info} {r : Regs} {op : Op}
    {len : Nat} (hcode : i.code = 1) (hop : opAsked i.syscall = some op)
    (hlen : (r.rdx.setWidth 32 : CInt).toNat = len) (hr : Ready w c n r.rsi len)
    (hagree : Agree w.hdr w.region w.bounds)
    (hsock : (r.rdi.setWidth 32 : CInt).toInt < 0 ∨ (w.passed (r.rdi.setWidth 32)).isSome)
    (hbad : (r.rdi.setWidth 32 : CInt).toInt < 0 ∨ 4096 < len ∨ Private w.bounds r.rsi len ∧ 0 < len) :
    ∃ r' c', trap w c i r = .ok (r', [], c') ∧ libc r'.rax = (-1, some 22) ∧ r'.rip = i.callAddr ∧
      abi r' = abi r ∧ c'.live = c.live ∧ ∀ x, Outside (scratch w c n) x → c'.mem x = c.mem x := by
  subst hlen
  have hfd : ∃ fd, pass w (r.rdi.setWidth 32) = .ok fd ∧ ((r.rdi.setWidth 32 : CInt).toInt < 0 → fd < 0) := by
    unfold pass
    split
    · exact ⟨-1, rfl, fun _ => by decide⟩
    · rename_i hs
      rcases hsock with h | h
      · exact absurd h hs
      · obtain ⟨f, hf⟩ := Option.isSome_iff_exists.1 h
        exact ⟨f, by rw [hf], fun h => absurd h hs⟩
  obtain ⟨fd, hfd, hneg⟩ := hfd
  obtain ⟨a, m1, _, _, h3, h4⟩ := trap_spec hw hcode hop hr hfd
  have hb : BadSock w.hdr w.region fd a (r.rdx.setWidth 32) := by
    rcases hbad with h | h | ⟨hp, hz⟩
    · exact .inl (hneg h)
    · exact .inr (.inl h)
    · rw [h3 hp hz]
      obtain ⟨_, g1, g2⟩ := hagree
      obtain ⟨k1, k2⟩ := hp
      rw [g2] at k2
      unfold BadSock
      omega
  obtain ⟨r', c', e1, e2, e3⟩ := h4 (.error 22) [] [] ⟨by decide, by decide⟩ ⟨rfl, rfl⟩
    (sock_refused w.hdr w.region hw.base.wf w.policies op w.call m1 fd a _ hb)
  exact ⟨r', c', e1, e2, e3⟩

/-- **C80, a closed socket.**  If the program has no descriptor of the number that it passes, the call is not made; the
sandbox ends, where the system would have answered `EBADF`. -/
theorem closed_socket_ends_sandbox {w : World} {hist : List Export} {users : List Nat} {conf : List Config}
    (hw : Setup w hist users conf) {c : Child} {n : Nat} {i : Info} {r : Regs} {op : Op}
    (hcode : i.code = 1) (hop : opAsked i.syscall = some op)
    (hr : Ready w c n r.rsi (r.rdx.setWidth 32 : CInt).toNat) (hs : 0 ≤ (r.rdi.setWidth 32 : CInt).toInt)
    (hclosed : w.passed (r.rdi.setWidth 32) = none) : trap w c i r = .abort := by
  obtain ⟨hwant, hne, hng⟩ := wanted_op (r := r) hop
  have hfd : pass w (r.rdi.setWidth 32) = .abort := by rw [pass, if_neg (by omega), hclosed]
  obtain ⟨a, c1, h1, _, _, _, h5, _⟩ := wrap_addr hw hr
  obtain ⟨p, ps, hm, hp, _, _⟩ := pool_last h5
  obtain ⟨f, c2, h6, _⟩ := wrap_spec
    (c := { c1 with mem := writeBytes c1.mem w.sp (encode w (r.rdi.setWidth 32) a.arg (r.rdx.setWidth 32)) })
    (n := 24) (by omega) (by omega) hr.stack hm (inHeap_mono hw.base hp hr.room.2.2 hr.room.2.1)
  have hfs : frameSize = 24 := rfl
  have hreq : request w c ⟨kindOf op, [.int (r.rdi.setWidth 32), .raw r.rsi, .int (r.rdx.setWidth 32)],
      r.rdi.setWidth 32⟩ = .abort := by
    simp only [request, h1, send, hfs, h6, callback, hfd]
  have hhost : hostOf w c ⟨kindOf op, [.int (r.rdi.setWidth 32), .raw r.rsi, .int (r.rdx.setWidth 32)],
      r.rdi.setWidth 32⟩ = ⟨0, none⟩ := by rw [hostOf, hreq]
  obtain ⟨r', f1, _⟩ := emulate_faithful (a := .value 0)
    (v := ⟨hostOf w c, w.pid, w.str, fun f => f⟩) hcode hwant (fun h => absurd h hne) (by show 0 < 2 ^ 31; decide)
    (by simp only [hhost]; exact ⟨rfl, rfl⟩)
  rw [trap, f1]
  simp only [hreq]

/-- **C80, empty functions.**  If the host has registered an empty function for the operation, then a call that would
reach it throws an exception through the host's dispatcher (`std::bad_function_call`); the program gets no answer. -/
theorem empty_function_throws {w : World} {hist : List Export} {users : List Nat} {conf : List Config}
    (hw : Setup w hist users conf) {c : Child} {n : Nat} {i : Info} {r : Regs} {op : Op}
    {len : Nat} {h : Int} (hcode : i.code = 1) (hop : opAsked i.syscall = some op)
    (hf : IsLast conf op (.register op none))
    (hlen : (r.rdx.setWidth 32 : CInt).toNat = len) (hmax : len ≤ 4096) (hr : Ready w c n r.rsi len)
    (hheap : InHeap w.hdr w.region r.rsi len) (hs : 0 ≤ (r.rdi.setWidth 32 : CInt).toInt)
    (hpass : w.passed (r.rdi.setWidth 32) = some h) (hh : 0 ≤ h) : trap w c i r = .throws := by
  subst hlen
  obtain ⟨hwant, hne, hng⟩ := wanted_op (r := r) hop
  have hfd : pass w (r.rdi.setWidth 32) = .ok h := by
    rw [pass, if_neg (by omega), hpass]
  obtain ⟨a, m1, h1, _, _, _, h5⟩ := request_spec hw hr hng hfd
  have hthrow : (handleBindOrConnect w.hdr w.region w.policies op w.call m1 h a (r.rdx.setWidth 32)).result =
      .throws := by
    have hc := (contains_iff w.hdr w.region hw.base.wf a _).1 (h1 hheap)
    have e1 : (BitVec.ofNat 64 (r.rdx.setWidth 32 : CInt).toNat).toNat = (r.rdx.setWidth 32 : CInt).toNat := by
      rw [BitVec.toNat_ofNat]; omega
    have hgood : ¬ BadSock w.hdr w.region h a (r.rdx.setWidth 32) := by
      unfold BadSock
      omega
    obtain ⟨buf, reads, _, _, _, _, b5⟩ :=
      Net.sock_mediated w.hdr w.region hw.base.wf w.policies op w.call m1 h a (r.rdx.setWidth 32) hgood
    rw [b5, hw.policies, (Net.invoke_last SockArgs conf op _ hf w.call _).2.2.2 rfl]
  have hreq := h5 hthrow
  have hhost : hostOf w c ⟨kindOf op, [.int (r.rdi.setWidth 32), .raw r.rsi, .int (r.rdx.setWidth 32)],
      r.rdi.setWidth 32⟩ = ⟨0, none⟩ := by rw [hostOf, hreq]
  obtain ⟨r', f1, _⟩ := emulate_faithful (a := .value 0)
    (v := ⟨hostOf w c, w.pid, w.str, fun f => f⟩) hcode hwant (fun h => absurd h hne) (by show 0 < 2 ^ 31; decide)
    (by simp only [hhost]; exact ⟨rfl, rfl⟩)
  rw [trap, f1]
  simp only [hreq]

/-- The last configuration of an operation is an empty function exactly if the policy holds one. -/
theorem empty_last (cs : List Config) (op : Op) :
    (configure cs).get op = .handler none ↔ IsLast cs op (.register op none) := by
  have key : ∀ x : Net.Policy, (configure cs).get op = x →
      (x = .handler none ↔ Net.invoke (configure cs) op (fun _ (_ : Unit) => (0, 0)) () = .throws) := by
    intro x hx
    unfold Net.invoke
    rw [hx]
    split <;> simp
  rw [key _ rfl]
  constructor
  · intro h
    rcases last_or_untouched cs op with hu | ⟨c, hl⟩
    · rw [Net.invoke_default_deny cs op hu] at h; cases h
    · have hlast := Net.invoke_last Unit cs op c hl (fun _ _ => (0, 0)) ()
      have hl' := hl
      obtain ⟨b, d, -, ht, -⟩ := hl'
      cases c with
      | deny op' => cases ht; rw [hlast.1 rfl] at h; cases h
      | allow op' => cases ht; rw [hlast.2.1 rfl] at h; cases h
      | register op' f =>
        cases ht
        cases f with
        | none => exact hl
        | some f => rw [hlast.2.2.1 f rfl] at h; cases h
  · intro hl
    exact (Net.invoke_last Unit cs op _ hl (fun _ _ => (0, 0)) ()).2.2.2 rfl

/-- **C80.** Whatever message a sandbox sends and whatever its memory holds, serving a request for the network is never
undefined and never aborts; it throws only for a `bind` or `connect` for which the host has registered an empty
function. -/
theorem hostile_network_outcome {w : World} {hist : List Export} {users : List Nat} {conf : List Config}
    (hw : Setup w hist users conf) (m : Mem) (p : Packet) :
    (turn w m p).1 ≠ .ub ∧ (turn w m p).1 ≠ .abort ∧
      ((turn w m p).1 = .throws → ∃ op, p.req.kind.toNat = kindOf op ∧ IsLast conf op (.register op none)) := by
  have hserved : ∀ k bs fd, (served w m k bs fd).result ≠ .ub ∧ (served w m k bs fd).result ≠ .abort ∧
      ((served w m k bs fd).result = .throws → ∃ op, k = kindOf op ∧ IsLast conf op (.register op none)) := by
    intro k bs fd
    unfold served
    split
    · rename_i op hop
      have hk : k = kindOf op := by
        unfold opOf at hop
        split at hop <;> first | (cases hop; rfl) | cases hop
      by_cases hb : BadSock w.hdr w.region fd (addrArg bs) (lenArg bs)
      · rw [Net.sock_refused w.hdr w.region hw.base.wf w.policies op w.call m fd _ _ hb]
        exact ⟨nofun, nofun, nofun⟩
      · obtain ⟨buf, reads, -, -, -, -, he⟩ := Net.sock_mediated w.hdr w.region hw.base.wf w.policies op w.call m fd _ _ hb
        rw [he]
        by_cases hg : w.policies.get op = .handler none
        · have hx : Net.invoke w.policies op w.call ⟨fd, buf, (lenArg bs).toNat⟩ = .throws := by
            unfold Net.invoke; rw [hg]
          rw [hx]
          refine ⟨nofun, nofun, fun _ => ⟨op, hk, ?_⟩⟩
          rw [hw.policies] at hg
          exact (empty_last conf op).1 hg
        · obtain ⟨x, hx⟩ : ∃ x, Net.invoke w.policies op w.call ⟨fd, buf, (lenArg bs).toNat⟩ = .ok x := by
            unfold Net.invoke
            split
            · exact ⟨_, rfl⟩
            · exact ⟨_, rfl⟩
            · exact ⟨_, rfl⟩
            · rename_i h; exact absurd h hg
          rw [hx]
          exact ⟨nofun, nofun, nofun⟩
    · exact ⟨nofun, nofun, nofun⟩
  have hrun : ∀ h, Callback.dispatch w.table p.req.kind = some h →
      (run w m h p.req p.fd).1 ≠ .ub ∧ (run w m h p.req p.fd).1 ≠ .abort ∧
      ((run w m h p.req p.fd).1 = .throws → ∃ op, p.req.kind.toNat = kindOf op ∧ IsLast conf op (.register op none)) := by
    intro h hd
    cases h with
    | base => exact ⟨nofun, nofun, nofun⟩
    | user u => exact ⟨nofun, nofun, nofun⟩
    | builtin k =>
      have hk : p.req.kind.toNat = k := by
        rw [hw.base.table, Callback.dispatch_tableOf] at hd
        unfold Callback.Spec.handlerFor at hd
        split at hd
        · cases hd; rfl
        · rcases hu : users[p.req.kind.toNat - 7]? with _ | u <;> rw [hu] at hd <;> cases hd
      rw [hk]
      simp only [run, Callback.invoke]
      split
      · exact ⟨nofun, nofun, nofun⟩
      · split
        · exact ⟨nofun, nofun, nofun⟩
        · exact hserved k _ _
  simp only [turn, Callback.handle]
  split
  · exact ⟨nofun, nofun, nofun⟩
  · rcases hd : Callback.dispatch w.table p.req.kind with _ | h
    · exact ⟨nofun, nofun, nofun⟩
    · have hr := hrun h hd
      cases h with
      | base => exact ⟨nofun, nofun, nofun⟩
      | user u =>
        simp only
        rcases hx : (run w m (.user u) p.req p.fd).1 with _ | _ | _ | _ <;> rw [hx] at hr <;> simp_all
      | builtin k =>
        simp only
        rcases hx : (run w m (.builtin k) p.req p.fd).1 with _ | _ | _ | _ <;> rw [hx] at hr <;> simp_all

/-- **C80, hostile sandboxes.**  Whatever message a sandbox sends and whatever its memory holds, at most one function is
called; it is the one that the host has chosen for `bind` if the message is of that kind, and for `connect` if it is of
that kind; the message names 24 bytes inside the sandbox; and the function gets the descriptor that came with the message
and a private buffer of 4096 bytes. -/
theorem hostile_network_calls {w : World} {hist : List Export} {users : List Nat} {conf : List Config}
    (hw : Setup w hist users conf) (m : Mem) (p : Packet) :
    (turn w m p).2.length ≤ 1 ∧
    ∀ x ∈ (turn w m p).2, (p.req.kind = 4 ∧ Chosen conf .bind (some x.1) ∨
        p.req.kind = 5 ∧ Chosen conf .connect (some x.1)) ∧
      p.req.size = 24 ∧ InHeap w.hdr w.region p.req.data 24 ∧ x.2.fd = p.fd ∧
      0 ≤ p.fd ∧ x.2.buffer.length = 4096 ∧ x.2.len ≤ 4096 := by
  have hz : ∀ (P : (Callee × SockArgs) → Prop), ([] : Calls).length ≤ 1 ∧ ∀ x ∈ ([] : Calls), P x :=
    fun P => ⟨by decide, nofun⟩
  show (effects w m p).length ≤ 1 ∧ ∀ x ∈ effects w m p, _
  unfold effects
  split
  · rename_i k hd
    have hk : p.req.kind.toNat = k := by
      rw [hw.base.table, Callback.dispatch_tableOf, Callback.Spec.handlerFor] at hd
      split at hd
      · simpa using hd
      · cases hu : users[p.req.kind.toNat - 7]? <;> simp [hu] at hd
    simp only
    split
    · exact hz _
    · rename_i hne
      have hframe : p.req.size = 24 ∧ InHeap w.hdr w.region p.req.data 24 := by
        simp only [run, Callback.invoke] at hne
        by_cases h1 : p.req.size ≠ BitVec.ofNat 64 frameSize
        · rw [if_pos h1] at hne
          exact absurd rfl hne
        · rw [if_neg h1] at hne
          have h1 := Classical.not_not.1 h1
          by_cases h2 : contains w.hdr w.region p.req.data p.req.size = false
          · rw [if_pos h2] at hne
            exact absurd rfl hne
          · rw [h1] at h2
            exact ⟨h1, (Bool.not_eq_false _).mp h2⟩
      unfold served
      split
      · rename_i op hop
        have hs := sock_calls w.hdr w.region hw.base.wf w.policies op w.call m p.fd
          (addrArg (((run w m (.builtin k) p.req p.fd).2).map m)) (lenArg (((run w m (.builtin k) p.req p.fd).2).map m))
        refine ⟨hs.2.1, fun x hx => ?_⟩
        obtain ⟨k1, k2, k3, k4, k5⟩ := hs.1 x hx
        refine ⟨?_, hframe.1, hframe.2, k1, k2, k3, by omega⟩
        rw [hw.policies] at hx
        have := handler_calls x hx
        unfold opOf at hop
        split at hop <;> cases hop
        · exact .inl ⟨BitVec.eq_of_toNat_eq hk, this⟩
        · exact .inr ⟨BitVec.eq_of_toNat_eq hk, this⟩
      · exact hz _
  · exact hz _

/-- A host that says nothing about the network gives its sandbox none: no message makes it call anything. -/
theorem no_network_by_default {w : World} {hist : List Export} {users : List Nat} {conf : List Config}
    (hw : Setup w hist users conf) (hb : Untouched conf .bind) (hc : Untouched conf .connect) (m : Mem) (p : Packet) :
    (turn w m p).2 = [] := by
  have no : ∀ op f, Untouched conf op → ¬ Chosen conf op (some f) := by
    intro op f hu hch
    have : ∀ c, ¬ IsLast conf op c := by
      rintro c ⟨b, d, rfl, h1, _⟩
      exact hu c (by simp) h1
    cases hch <;> exact this _ ‹_›
  refine List.eq_nil_iff_forall_not_mem.2 fun x hx => ?_
  rcases ((hostile_network_calls hw m p).2 x hx).1 with h | h
  · exact no _ _ hb h.2
  · exact no _ _ hc h.2

/-- A trapped call that the child answers by itself, `openat` of one of its own descriptors, reaches neither the network nor
the host: the program gets its descriptor (which `dup` is taken to number like the old one here) and no memory changes. -/
theorem own_descriptor_without_host (w : World) (c : Child) {i : Info} {r : Regs} {s : List Byte} {n : Nat}
    (hcode : i.code = 1) (hn : i.syscall = 257) (hs : w.str r.rsi = some s) (hown : Syscall.NamesOwn w.pid n s) (hb : n < 2 ^ 31) :
    ∃ r', trap w c i r = .ok (r', [], c) ∧ libc r'.rax = ((n : Int), none) ∧ r'.rip = i.callAddr ∧ abi r' = abi r := by
  obtain ⟨r', h1, h2⟩ := Syscall.openat_own (v := ⟨hostOf w c, w.pid, w.str, fun f => f⟩) hcode hn hs hown hb rfl
  exact ⟨r', by rw [trap, h1], h2⟩

/-! ### A case that meets the conditions -/

/-- The world of `Verif.EndToEnd`; `connect` is allowed, `bind` is given to function 3; descriptor 7 of the child becomes
12 in the host. -/
def exWorld : World where
  toWorld := { EndToEnd.exWorld with sp := 0x19800 }
  policies := configure [.allow .connect, .register .bind (some 3)]
  call := fun f _ => if f = .callback 3 then (5, 0) else (-1, 111)
  pad1 := [1, 2, 3, 4]
  pad2 := [5, 6, 7, 8]
  passed := fun s => if s = 7 then some 12 else none

def exConf : List Config := [.allow .connect, .register .bind (some 3)]

theorem exSetup : Setup exWorld FileTree.exHist [3] exConf where
  base := EndToEnd.exSetup
  policies := rfl
  pad1 := rfl
  pad2 := rfl
  call := by
    intro f a
    simp only [exWorld]
    split
    · exact ⟨fun _ => by decide, fun h => absurd h (by decide)⟩
    · exact ⟨fun h => absurd h (by decide), fun _ => by decide⟩

/-- The address is at `0x19000`, in the heap. -/
def exChild : Child where
  mem := fun a => if a = 0x19000 then 2 else if a = 0x19002 then 80 else 0
  live := [0x17000]
  mallocs := [0x18000, 0x18200, 0x18400]

theorem exReady (addr : Word) (h : addr = 0x19000 ∨ addr = 0x5000) : Ready exWorld exChild 32 addr 16 where
  room := by decide
  object := by
    rcases h with rfl | rfl
    · exact ⟨by decide, .inl (by simp only [InHeap]; decide)⟩
    · exact ⟨by decide, .inr ⟨by decide, by decide⟩⟩
  apart := by
    rcases h with rfl | rfl <;> exact EndToEnd.apart_of_lt (by decide) (by decide)
  stack := ⟨by decide, .inl (by simp only [InHeap]; decide)⟩
  pool := by
    have hm : exChild.mallocs.take 2 = [0x18000, 0x18200] := rfl
    refine ⟨by decide, ?_, ?_, ?_⟩
    · rw [hm]
      intro p hp
      simp only [List.mem_cons, List.not_mem_nil, or_false] at hp
      rcases hp with rfl | rfl <;> (simp only [InHeap]; decide)
    · rw [hm]
      intro p hp o ho
      simp only [List.mem_cons, List.not_mem_nil, or_false] at hp ho
      rcases h with rfl | rfl <;> rcases hp with rfl | rfl <;> rcases ho with rfl | rfl <;>
        first
        | exact EndToEnd.apart_of_lt (by decide) (by decide)
        | exact EndToEnd.apart_of_gt (by decide) (by decide)
    · rw [hm]
      simp only [List.pairwise_cons, List.mem_cons, List.not_mem_nil, or_false, forall_eq,
        List.Pairwise.nil, and_true, false_implies, implies_true]
      exact EndToEnd.apart_of_gt (by decide) (by decide)

/-- `bind(7, 0x19000, 16)` calls function 3 with the address; the program gets 5. -/
example : ∃ r' c', trap exWorld exChild ⟨1, 49, 0x700⟩ ⟨49, 7, 0x19000, 16, 0, 0, 0, 0x6fe⟩ =
      .ok (r', [(.callback 3, given 12 (bytesAt exChild.mem 0x19000 16))], c') ∧ libc r'.rax = (5, none) := by
  obtain ⟨r', c', h1, h2, _⟩ := network_call_end_to_end (f := some (.callback 3)) exSetup (n := 32)
    (i := ⟨1, 49, 0x700⟩) (r := ⟨49, 7, 0x19000, 16, 0, 0, 0, 0x6fe⟩) (op := .bind) (h := 12) rfl rfl
    (.handled 3 ⟨[.allow .connect], [], rfl, rfl, nofun⟩) rfl (by decide) (exReady 0x19000 (.inl rfl))
    (by simp only [InHeap]; decide) (by decide) rfl (by decide)
  exact ⟨r', c', h1, h2⟩

/-- `connect(7, 0x5000, 16)` with an address outside the shared memory. -/
example : ∃ r' c', trap exWorld exChild ⟨1, 42, 0x700⟩ ⟨42, 7, 0x5000, 16, 0, 0, 0, 0x6fe⟩ = .ok (r', [], c') ∧
    libc r'.rax = (-1, some 22) := by
  obtain ⟨r', c', h1, h2, _⟩ := bad_network_call_refused exSetup (n := 32)
    (i := ⟨1, 42, 0x700⟩) (r := ⟨42, 7, 0x5000, 16, 0, 0, 0, 0x6fe⟩) (op := .connect) rfl rfl rfl
    (exReady 0x5000 (.inr rfl)) ⟨by decide, by decide, by decide⟩ (.inr rfl)
    (.inr (.inr ⟨⟨by decide, by decide⟩, by decide⟩))
  exact ⟨r', c', h1, h2⟩

/-- `openat` of descriptor 6 by its path. -/
example : ∃ r', trap { exWorld with pid := 7, str := fun _ => some (Syscall.bytes "/proc/7/fd/6") } exChild ⟨1, 257, 0x700⟩
      ⟨257, 0, 0x19000, 0, 0, 0, 0, 0x6fe⟩ = .ok (r', [], exChild) ∧ libc r'.rax = (6, none) := by
  obtain ⟨r', h1, h2, _⟩ := own_descriptor_without_host
    { exWorld with pid := 7, str := fun _ => some (Syscall.bytes "/proc/7/fd/6") } exChild (i := ⟨1, 257, 0x700⟩)
    (r := ⟨257, 0, 0x19000, 0, 0, 0, 0, 0x6fe⟩) (n := 6) rfl rfl rfl
    ⟨Syscall.bytes "6", [], by decide +kernel, by decide +kernel, by decide +kernel, by simp, by decide +kernel⟩ (by decide)
  exact ⟨r', h1, h2⟩

/-- `connect(8, 0x19000, 16)`: there is no descriptor 8. -/
example : trap exWorld exChild ⟨1, 42, 0x700⟩ ⟨42, 8, 0x19000, 16, 0, 0, 0, 0x6fe⟩ = .abort :=
  closed_socket_ends_sandbox exSetup (n := 32) (op := .connect) rfl rfl (exReady 0x19000 (.inl rfl)) (by decide) rfl

/-- `connect(7, 0x19000, 16)` where the host has registered an empty function. -/
example : trap { exWorld with policies := configure [.allow .bind, .register .connect none] } exChild ⟨1, 42, 0x700⟩
    ⟨42, 7, 0x19000, 16, 0, 0, 0, 0x6fe⟩ = .throws :=
  empty_function_throws (w := { exWorld with policies := configure [.allow .bind, .register .connect none] })
    (conf := [.allow .bind, .register .connect none]) (hist := FileTree.exHist) (users := [3])
    { exSetup with policies := rfl } (n := 32) (op := .connect) (len := 16) (h := 12) rfl rfl
    ⟨[.allow .bind], [], rfl, rfl, nofun⟩ rfl (by decide) { exReady 0x19000 (.inl rfl) with } (by simp only [InHeap]; decide)
    (by decide) rfl (by decide)

/-- A message that does make the host call something, so that `hostile_network_calls` says something. -/
example : ((turn exWorld (fun a => if a = 0x18000 then 16 else if a = 0x18009 then 0x90 else if a = 0x1800a then 1 else 0)
    ⟨24, ⟨5, 24, 0x18000⟩, 12⟩).2.map (fun x => (x.1, x.2.fd, x.2.len))) = [(.system .connect, 12, 16)] := by
  decide +kernel

/-- `Untouched` holds of a configuration about something else. -/
example : Untouched [.allow .getAddrInfo] .bind ∧ Untouched [.allow .getAddrInfo] .connect := by
  constructor <;> (intro x hx; rw [List.mem_singleton] at hx; subst hx; decide)

end Verif.NetEnd
