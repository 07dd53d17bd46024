import Verif.BsdNet.Lemmas

/-!
# Network calls of the sandboxed program on FreeBSD, end to end: theorems
-/

namespace Verif.BsdNet

open Verif.Bounds (contains contains_iff)
open Verif.Strings
open Verif.FileTree (Export)
open Verif.Callback (Packet)
open Verif.Net (Op Config Callee SockArgs configure BadSock sock_refused sock_calls)
open Verif.Net.Spec (IsLast Untouched)
open Verif.ChildArgs (Child bytesAt InHeap Private Agree)
open Verif.Syscall (CInt Request Answer Arrives found)
open Verif.EndToEnd (Outside pool_last wrap_spec inHeap_mono)
open Verif.NetEnd (World Calls frameSize opOf pass Setup Chosen called given code kindOf Ready scratch wrap_addr exWorld exConf
  exSetup exChild exReady)
open Verif.FreeBsd (Regs Info Call libc OnlyResult trapCap asks wanted)

theorem wanted_net {c : Call} (hl : 4 ≤ c.args.length) {op : Op} {s len : CInt} {addr : Word}
    (h : asksNet c = some (op, s, addr, len)) :
    wanted c = some ⟨kindOf op, [.int s, .raw addr, .int len], s⟩ ∧ c.nr ≠ 499 ∧ op ≠ .getAddrInfo := by
  obtain ⟨nr, args⟩ := c
  rcases args with _ | ⟨a0, _ | ⟨a1, _ | ⟨a2, _ | ⟨a3, rest⟩⟩⟩⟩
  · simp at hl
  · simp at hl
  · simp at hl
  · simp at hl
  simp only [asksNet] at h
  simp only [wanted]
  by_cases h104 : nr = 104
  · subst h104
    simp at h
    obtain ⟨rfl, rfl, rfl, rfl⟩ := h
    simp [kindOf]
  by_cases h98 : nr = 98
  · subst h98
    simp at h
    obtain ⟨rfl, rfl, rfl, rfl⟩ := h
    simp [kindOf]
  · rw [if_neg h104, if_neg h98] at h
    cases h

/-- The handler makes the one request, and puts its answer into the frame. -/
theorem emulated {v : Syscall.Env} {i : Info} {r : Regs} {cl : Call} {op : Op} {s len : CInt} {addr : Word} {a : Answer}
    (hcode : i.code = trapCap) (hm : Makes i r cl) (hcall : asksNet cl = some (op, s, addr, len)) (hp : a.Proper)
    (ha : Arrives a (v.host ⟨kindOf op, [.int s, .raw addr, .int len], s⟩)) :
    ∃ r', FreeBsd.emulate v i r = .ok (r', [⟨kindOf op, [.int s, .raw addr, .int len], s⟩]) ∧ libc r' = found a ∧
      OnlyResult r r' := by
  rcases hm with ⟨n, hi, rfl⟩ | ⟨hi, rfl⟩
  · obtain ⟨h1, h2, _⟩ := wanted_net (by have := FreeBsd.asks_length n r; omega) hcall
    exact FreeBsd.trapped_faithful hcode hi h1 (fun h => absurd h h2) hp ha
  · obtain ⟨h1, h2, _⟩ := wanted_net (by simp) hcall
    exact FreeBsd.trapped_faithful_old hcode hi h1 (fun h => absurd h h2) hp ha

theorem asked_op {i : Info} {r : Regs} {cl : Call} {op : Op} {s len : CInt} {addr : Word} (hm : Makes i r cl)
    (hcall : asksNet cl = some (op, s, addr, len)) : op ≠ .getAddrInfo := by
  rcases hm with ⟨n, hi, rfl⟩ | ⟨hi, rfl⟩
  · exact (wanted_net (by have := FreeBsd.asks_length n r; omega) hcall).2.2
  · exact (wanted_net (by simp) hcall).2.2

/-- The program goes on with the answer `a` in the result register and the carry flag, and everything else in its registers as
it was; the functions `calls` have been called; the child's blocks are free again, and its memory is as before apart from
them and the frame. -/
def Goes (w : World) (c : Child) (n : Nat) (i : Info) (r : Regs) (calls : Calls) (a : Int × Option Nat) : Prop :=
  ∃ r' c', trap w c i r = .ok (r', calls, c') ∧ libc r' = a ∧ OnlyResult r r' ∧ c'.live = c.live ∧
    ∀ x, Outside (scratch w c n) x → c'.mem x = c.mem x

/-- The handler's answer reaches the registers. -/
theorem trap_spec {w : World} {hist : List Export} {users : List Nat} {conf : List Config}
    (hw : Setup w hist users conf) {c : Child} {n : Nat} {i : Info} {r : Regs} {cl : Call} {op : Op} {s len : CInt}
    {addr : Word} (hcode : i.code = trapCap) (hm : Makes i r cl) (hcall : asksNet cl = some (op, s, addr, len))
    (hr : Ready w c n addr len.toNat) {fd : Int} (hfd : pass w s = .ok fd) :
    ∃ a m1, (InHeap w.hdr w.region addr len.toNat → InHeap w.hdr w.region a len.toNat) ∧
      bytesAt m1 a len.toNat = bytesAt c.mem addr len.toNat ∧
      (Private w.bounds addr len.toNat → 0 < len.toNat → a = addr) ∧
      ∀ ans calls reads, ans.Proper → Arrives ans (EndToEnd.reply w.toWorld (code ans) (-1)) →
        handled w op m1 fd a len = ⟨.ok ⟨code ans, -1⟩, calls, reads⟩ → Goes w c n i r calls (found ans) := by
  have hng := asked_op hm hcall
  obtain ⟨a, m1, h1, h2, h3, h4, _⟩ := request_spec hw hr hng hfd
  refine ⟨a, m1, h1, h2, h3, ?_⟩
  intro ans calls reads hp ha hs
  obtain ⟨c', e1, e2, e3⟩ := h4 _ _ _ hs
  have hhost : hostOf w c ⟨kindOf op, [.int s, .raw addr, .int len], s⟩ = EndToEnd.reply w.toWorld (code ans) (-1) := by
    rw [hostOf, e1]
  obtain ⟨r', f1, f2, f3⟩ := emulated (v := ⟨hostOf w c, w.pid, w.str, fun f => f⟩) hcode hm hcall hp
    (by simp only [hhost]; exact ha)
  exact ⟨r', c', by rw [trap, f1]; simp only [e1], f2, f3, e2, e3⟩

/-! ## C123 -/

/-- **C123.**  A program in a sandbox on FreeBSD makes the system call `bind` or `connect` on one of its sockets, with an
address in the shared heap of at most 4096 bytes, and Capsicum refuses it.  Whatever the host has configured, its memory and the
results of the functions: the function that the host has chosen for this operation is called once, with the program's socket and
the bytes of the address, and nothing else is called; the program finds what that function returned, or `ENOSYS` if there is
none; nothing else in its registers changes, and its memory is as before (`Goes`). -/
theorem bsd_network_call_end_to_end {w : World} {hist : List Export} {users : List Nat} {conf : List Config}
    (hw : Setup w hist users conf) {c : Child} {n : Nat} {i : Info} {r : Regs} {cl : Call} {op : Op} {f : Option Callee}
    {s len : CInt} {addr : Word} {h : Int} (hcode : i.code = trapCap) (hm : Makes i r cl)
    (hcall : asksNet cl = some (op, s, addr, len)) (hf : Chosen conf op f) (hmax : len.toNat ≤ 4096)
    (hr : Ready w c n addr len.toNat) (hheap : InHeap w.hdr w.region addr len.toNat) (hs : 0 ≤ s.toInt)
    (hpass : w.passed s = some h) (hh : 0 ≤ h) :
    Goes w c n i r (called (given h (bytesAt c.mem addr len.toNat)) f)
      (found (answer w.call (given h (bytesAt c.mem addr len.toNat)) f)) := by
  have hfd : pass w s = .ok h := by
    rw [pass, if_neg (by omega), hpass]
  obtain ⟨a, m1, h1, h2, _, h4⟩ := trap_spec hw hcode hm hcall hr hfd
  obtain ⟨reads, hs⟩ := handled_spec hw hf m1 hh hmax (h1 hheap)
  rw [h2] at hs
  obtain ⟨p1, p2⟩ := answer_proper hw (given h (bytesAt c.mem addr len.toNat)) f
  exact h4 _ _ reads p1 p2 hs

/-- **C123, calls that cannot be passed on.**  If the number of the socket is negative, or the address has more than 4096
bytes or lies outside the shared memory, then nothing is called, and the program gets `EINVAL`. -/
theorem bsd_bad_network_call_refused {w : World} {hist : List Export} {users : List Nat} {conf : List Config}
    (hw : Setup w hist users conf) {c : Child} {n : Nat} {i : Info} {r : Regs} {cl : Call} {op : Op} {s len : CInt}
    {addr : Word} (hcode : i.code = trapCap) (hm : Makes i r cl) (hcall : asksNet cl = some (op, s, addr, len))
    (hr : Ready w c n addr len.toNat) (hagree : Agree w.hdr w.region w.bounds)
    (hsock : s.toInt < 0 ∨ (w.passed s).isSome)
    (hbad : s.toInt < 0 ∨ 4096 < len.toNat ∨ Private w.bounds addr len.toNat ∧ 0 < len.toNat) :
    Goes w c n i r [] (-1, some 22) := by
  have hfd : ∃ fd, pass w s = .ok fd ∧ (s.toInt < 0 → fd < 0) := by
    unfold pass
    split
    · exact ⟨-1, rfl, fun _ => by decide⟩
    · rename_i hs
      rcases hsock with h | h
      · exact absurd h hs
      · obtain ⟨f, hf⟩ := Option.isSome_iff_exists.1 h
        exact ⟨f, by rw [hf], fun h => absurd h hs⟩
  obtain ⟨fd, hfd, hneg⟩ := hfd
  obtain ⟨a, m1, _, _, h3, h4⟩ := trap_spec hw hcode hm hcall hr hfd
  have hb : BadSock w.hdr w.region fd a len := by
    rcases hbad with h | h | ⟨hp, hz⟩
    · exact .inl (hneg h)
    · exact .inr (.inl h)
    · rw [h3 hp hz]
      obtain ⟨_, g1, g2⟩ := hagree
      obtain ⟨k1, k2⟩ := hp
      rw [g2] at k2
      unfold BadSock
      omega
  refine h4 (.error 22) [] [] ⟨by decide, by decide⟩ ⟨rfl, rfl⟩ ?_
  rw [handled, sock_refused w.hdr w.region hw.base.wf w.policies op w.call m1 fd a _ hb]
  rfl

/-- **C123, a closed socket.**  If the program has no descriptor of the number that it passes, the call is not made; the
sandbox ends, where the system would have answered `EBADF`. -/
theorem bsd_closed_socket_ends_sandbox {w : World} {hist : List Export} {users : List Nat} {conf : List Config}
    (hw : Setup w hist users conf) {c : Child} {n : Nat} {i : Info} {r : Regs} {cl : Call} {op : Op} {s len : CInt}
    {addr : Word} (hcode : i.code = trapCap) (hm : Makes i r cl) (hcall : asksNet cl = some (op, s, addr, len))
    (hr : Ready w c n addr len.toNat) (hs : 0 ≤ s.toInt) (hclosed : w.passed s = none) : trap w c i r = .abort := by
  have hfd : pass w s = .abort := by rw [pass, if_neg (by omega), hclosed]
  obtain ⟨a, c1, h1, _, _, _, h5, _⟩ := wrap_addr hw hr
  obtain ⟨p, ps, hmal, hp, _, _⟩ := pool_last h5
  obtain ⟨f, c2, h6, _⟩ := wrap_spec
    (c := { c1 with mem := writeBytes c1.mem w.sp (encode w s a.arg len) })
    (n := 24) (by omega) (by omega) hr.stack hmal (inHeap_mono hw.base hp hr.room.2.2 hr.room.2.1)
  have hfs : frameSize = 24 := rfl
  have hreq : request w c ⟨kindOf op, [.int s, .raw addr, .int len], s⟩ = .abort := by
    simp only [request, h1, send, hfs, h6, callback, hfd]
  have hhost : hostOf w c ⟨kindOf op, [.int s, .raw addr, .int len], s⟩ = ⟨0, none⟩ := by rw [hostOf, hreq]
  obtain ⟨r', f1, _⟩ := emulated (a := .value 0)
    (v := ⟨hostOf w c, w.pid, w.str, fun f => f⟩) hcode hm hcall (by show 0 < 2 ^ 31; decide)
    (by simp only [hhost]; exact ⟨rfl, rfl⟩)
  rw [trap, f1]
  simp only [hreq]

/-- **C123, empty functions.**  If the host has registered an empty function for the operation, then a call that would
reach it throws an exception through the host's dispatcher; the program gets no answer. -/
theorem bsd_empty_function_throws {w : World} {hist : List Export} {users : List Nat} {conf : List Config}
    (hw : Setup w hist users conf) {c : Child} {n : Nat} {i : Info} {r : Regs} {cl : Call} {op : Op} {s len : CInt}
    {addr : Word} {h : Int} (hcode : i.code = trapCap) (hm : Makes i r cl)
    (hcall : asksNet cl = some (op, s, addr, len)) (hf : IsLast conf op (.register op none)) (hmax : len.toNat ≤ 4096)
    (hr : Ready w c n addr len.toNat) (hheap : InHeap w.hdr w.region addr len.toNat) (hs : 0 ≤ s.toInt)
    (hpass : w.passed s = some h) (hh : 0 ≤ h) : trap w c i r = .throws := by
  have hng := asked_op hm hcall
  have hfd : pass w s = .ok h := by
    rw [pass, if_neg (by omega), hpass]
  obtain ⟨a, m1, h1, _, _, _, h5⟩ := request_spec hw hr hng hfd
  have hthrow : (handled w op m1 h a len).result = .throws := by
    rw [handled_throws]
    have hc := (contains_iff w.hdr w.region hw.base.wf a _).1 (h1 hheap)
    have e1 : (BitVec.ofNat 64 len.toNat).toNat = len.toNat := by
      rw [BitVec.toNat_ofNat]; omega
    have hgood : ¬ BadSock w.hdr w.region h a len := by
      unfold BadSock
      omega
    obtain ⟨buf, reads, _, _, _, _, b5⟩ :=
      Net.sock_mediated w.hdr w.region hw.base.wf w.policies op w.call m1 h a len hgood
    rw [b5, hw.policies, (Net.invoke_last SockArgs conf op _ hf w.call _).2.2.2 rfl]
  have hreq := h5 hthrow
  have hhost : hostOf w c ⟨kindOf op, [.int s, .raw addr, .int len], s⟩ = ⟨0, none⟩ := by rw [hostOf, hreq]
  obtain ⟨r', f1, _⟩ := emulated (a := .value 0)
    (v := ⟨hostOf w c, w.pid, w.str, fun f => f⟩) hcode hm hcall (by show 0 < 2 ^ 31; decide)
    (by simp only [hhost]; exact ⟨rfl, rfl⟩)
  rw [trap, f1]
  simp only [hreq]

/-- **C123.** Whatever message a sandbox sends and whatever its memory holds, serving a request for the network is never
undefined and never aborts; it throws only for a `bind` or `connect` for which the host has registered an empty
function. -/
theorem bsd_hostile_network_outcome {w : World} {hist : List Export} {users : List Nat} {conf : List Config}
    (hw : Setup w hist users conf) (m : Mem) (p : Packet) :
    (turn w m p).1 ≠ .ub ∧ (turn w m p).1 ≠ .abort ∧
      ((turn w m p).1 = .throws → ∃ op, p.req.kind.toNat = kindOf op ∧ IsLast conf op (.register op none)) := by
  have hserved : ∀ k bs fd, (served w m k bs fd).result ≠ .ub ∧ (served w m k bs fd).result ≠ .abort ∧
      ((served w m k bs fd).result = .throws → ∃ op, k = kindOf op ∧ IsLast conf op (.register op none)) := by
    intro k bs fd
    unfold served
    split
    · rename_i op hop
      have hk : k = kindOf op := by
        unfold opOf at hop
        split at hop <;> first | (cases hop; rfl) | cases hop
      rw [ne_eq, ne_eq, handled_throws, handled_ub, handled_abort]
      by_cases hb : BadSock w.hdr w.region fd (addrArg bs) (lenArg bs)
      · rw [Net.sock_refused w.hdr w.region hw.base.wf w.policies op w.call m fd _ _ hb]
        exact ⟨nofun, nofun, nofun⟩
      · obtain ⟨buf, reads, -, -, -, -, he⟩ := Net.sock_mediated w.hdr w.region hw.base.wf w.policies op w.call m fd _ _ hb
        rw [he]
        by_cases hg : w.policies.get op = .handler none
        · have hx : Net.invoke w.policies op w.call ⟨fd, buf, (lenArg bs).toNat⟩ = .throws := by
            unfold Net.invoke; rw [hg]
          rw [hx]
          refine ⟨nofun, nofun, fun _ => ⟨op, hk, ?_⟩⟩
          rw [hw.policies] at hg
          exact (NetEnd.empty_last conf op).1 hg
        · obtain ⟨x, hx⟩ : ∃ x, Net.invoke w.policies op w.call ⟨fd, buf, (lenArg bs).toNat⟩ = .ok x := by
            unfold Net.invoke
            split
            · exact ⟨_, rfl⟩
            · exact ⟨_, rfl⟩
            · exact ⟨_, rfl⟩
            · rename_i h; exact absurd h hg
          rw [hx]
          exact ⟨nofun, nofun, nofun⟩
    · exact ⟨nofun, nofun, nofun⟩
  have hrun : ∀ h, Callback.dispatch w.table p.req.kind = some h →
      (run w m h p.req p.fd).1 ≠ .ub ∧ (run w m h p.req p.fd).1 ≠ .abort ∧
      ((run w m h p.req p.fd).1 = .throws → ∃ op, p.req.kind.toNat = kindOf op ∧ IsLast conf op (.register op none)) := by
    intro h hd
    cases h with
    | base => exact ⟨nofun, nofun, nofun⟩
    | user u => exact ⟨nofun, nofun, nofun⟩
    | builtin k =>
      have hk : p.req.kind.toNat = k := by
        rw [hw.base.table, Callback.dispatch_tableOf] at hd
        unfold Callback.Spec.handlerFor at hd
        split at hd
        · cases hd; rfl
        · rcases hu : users[p.req.kind.toNat - 7]? with _ | u <;> rw [hu] at hd <;> cases hd
      rw [hk]
      have hg : ∀ (o : Outcome Callback.Result) (a : List Word), (o ≠ .ub ∧ o ≠ .abort ∧
          (o = .throws → ∃ op, k = kindOf op ∧ IsLast conf op (.register op none))) →
          ((if a = [] then noSys o else o) ≠ .ub ∧ (if a = [] then noSys o else o) ≠ .abort ∧
          ((if a = [] then noSys o else o) = .throws → ∃ op, k = kindOf op ∧ IsLast conf op (.register op none))) := by
        intro o a ho
        split
        · cases o <;> simp_all [noSys]
        · exact ho
      simp only [run, Callback.invoke]
      split
      · exact hg _ _ ⟨nofun, nofun, nofun⟩
      · split
        · exact hg _ _ ⟨nofun, nofun, nofun⟩
        · exact hg _ _ (hserved k _ _)
  simp only [turn, Callback.handle]
  split
  · exact ⟨nofun, nofun, nofun⟩
  · rcases hd : Callback.dispatch w.table p.req.kind with _ | h
    · exact ⟨nofun, nofun, nofun⟩
    · have hr := hrun h hd
      cases h with
      | base => exact ⟨nofun, nofun, nofun⟩
      | user u =>
        simp only
        rcases hx : (run w m (.user u) p.req p.fd).1 with _ | _ | _ | _ <;> rw [hx] at hr <;> simp_all
      | builtin k =>
        simp only
        rcases hx : (run w m (.builtin k) p.req p.fd).1 with _ | _ | _ | _ <;> rw [hx] at hr <;> simp_all

/-- **C123, hostile sandboxes.**  Whatever message a sandbox sends and whatever its memory holds, at most one function is
called; it is the one that the host has chosen for `bind` if the message is of that kind, and for `connect` if it is of
that kind; the message names 24 bytes inside the sandbox; and the function gets the descriptor that came with the message
and a private buffer of 4096 bytes. -/
theorem bsd_hostile_network_calls {w : World} {hist : List Export} {users : List Nat} {conf : List Config}
    (hw : Setup w hist users conf) (m : Mem) (p : Packet) :
    (turn w m p).2.length ≤ 1 ∧
    ∀ x ∈ (turn w m p).2, (p.req.kind = 4 ∧ Chosen conf .bind (some x.1) ∨
        p.req.kind = 5 ∧ Chosen conf .connect (some x.1)) ∧
      p.req.size = 24 ∧ InHeap w.hdr w.region p.req.data 24 ∧ x.2.fd = p.fd ∧
      0 ≤ p.fd ∧ x.2.buffer.length = 4096 ∧ x.2.len ≤ 4096 := by
  have hz : ∀ (P : (Callee × SockArgs) → Prop), ([] : Calls).length ≤ 1 ∧ ∀ x ∈ ([] : Calls), P x :=
    fun P => ⟨by decide, nofun⟩
  show (effects w m p).length ≤ 1 ∧ ∀ x ∈ effects w m p, _
  unfold effects
  split
  · rename_i k hd
    have hk : p.req.kind.toNat = k := by
      rw [hw.base.table, Callback.dispatch_tableOf, Callback.Spec.handlerFor] at hd
      split at hd
      · simpa using hd
      · cases hu : users[p.req.kind.toNat - 7]? <;> simp [hu] at hd
    simp only
    split
    · exact hz _
    · rename_i hne
      have hframe : p.req.size = 24 ∧ InHeap w.hdr w.region p.req.data 24 := by
        simp only [run, Callback.invoke] at hne
        by_cases h1 : p.req.size ≠ BitVec.ofNat 64 frameSize
        · rw [if_pos h1] at hne
          exact absurd rfl hne
        · rw [if_neg h1] at hne
          have h1 := Classical.not_not.1 h1
          by_cases h2 : contains w.hdr w.region p.req.data p.req.size = false
          · rw [if_pos h2] at hne
            exact absurd rfl hne
          · rw [h1] at h2
            exact ⟨h1, (Bool.not_eq_false _).mp h2⟩
      unfold served
      split
      · rename_i op hop
        rw [handled_calls]
        have hs := sock_calls w.hdr w.region hw.base.wf w.policies op w.call m p.fd
          (addrArg (((run w m (.builtin k) p.req p.fd).2).map m)) (lenArg (((run w m (.builtin k) p.req p.fd).2).map m))
        refine ⟨hs.2.1, fun x hx => ?_⟩
        obtain ⟨k1, k2, k3, k4, k5⟩ := hs.1 x hx
        refine ⟨?_, hframe.1, hframe.2, k1, k2, k3, by omega⟩
        rw [hw.policies] at hx
        have := NetEnd.handler_calls x hx
        unfold opOf at hop
        split at hop <;> cases hop
        · exact .inl ⟨BitVec.eq_of_toNat_eq hk, this⟩
        · exact .inr ⟨BitVec.eq_of_toNat_eq hk, this⟩
      · exact hz _
  · exact hz _

/-- A host that says nothing about the network gives its sandbox none: no message makes it call anything. -/
theorem bsd_no_network_by_default {w : World} {hist : List Export} {users : List Nat} {conf : List Config}
    (hw : Setup w hist users conf) (hb : Untouched conf .bind) (hc : Untouched conf .connect) (m : Mem) (p : Packet) :
    (turn w m p).2 = [] := by
  have no : ∀ op f, Untouched conf op → ¬ Chosen conf op (some f) := by
    intro op f hu hch
    have : ∀ c, ¬ IsLast conf op c := by
      rintro c ⟨b, d, rfl, h1, _⟩
      exact hu c (by simp) h1
    cases hch <;> exact this _ ‹_›
  refine List.eq_nil_iff_forall_not_mem.2 fun x hx => ?_
  rcases ((bsd_hostile_network_calls hw m p).2 x hx).1 with h | h
  · exact no _ _ hb h.2
  · exact no _ _ hc h.2

/-! ### Cases that meet the conditions -/

/-- `bind(7, 0x19000, 16)`, directly and through `syscall`, calls function 3 with the address; the program gets 5. -/
example : Goes exWorld exChild 32 ⟨5, some 104⟩ ⟨104, 7, 0x19000, 16, 0, 0, 0, 0x700, 1⟩
      [(.callback 3, given 12 (bytesAt exChild.mem 0x19000 16))] (5, none) ∧
    Goes exWorld exChild 32 ⟨5, some 0⟩ ⟨0, 104, 7, 0x19000, 16, 0, 0, 0x700, 1⟩
      [(.callback 3, given 12 (bytesAt exChild.mem 0x19000 16))] (5, none) :=
  ⟨bsd_network_call_end_to_end (f := some (.callback 3)) exSetup (n := 32) (op := .bind) (s := 7) (len := 16) (h := 12) rfl
      (.inl ⟨104, rfl, rfl⟩) rfl (.handled 3 ⟨[.allow .connect], [], rfl, rfl, nofun⟩) (by decide)
      (exReady 0x19000 (.inl rfl)) (by simp only [InHeap]; decide) (by decide) rfl (by decide),
   bsd_network_call_end_to_end (f := some (.callback 3)) exSetup (n := 32) (op := .bind) (s := 7) (len := 16) (h := 12) rfl
      (.inl ⟨0, rfl, rfl⟩) rfl (.handled 3 ⟨[.allow .connect], [], rfl, rfl, nofun⟩) (by decide)
      (exReady 0x19000 (.inl rfl)) (by simp only [InHeap]; decide) (by decide) rfl (by decide)⟩

/-- `connect(7, 0x5000, 16)` on an older system, with an address outside the shared memory. -/
example : Goes exWorld exChild 32 ⟨5, none⟩ ⟨98, 7, 0x5000, 16, 0, 0, 0, 0x700, 1⟩ [] (-1, some 22) :=
  bsd_bad_network_call_refused exSetup (n := 32) (op := .connect) (s := 7) (len := 16) rfl (.inr ⟨rfl, rfl⟩) rfl
    (exReady 0x5000 (.inr rfl)) ⟨by decide, by decide, by decide⟩ (.inr rfl)
    (.inr (.inr ⟨⟨by decide, by decide⟩, by decide⟩))

/-- A host that has not said anything: `connect` gives 78. -/
example : Goes { exWorld with policies := configure [] } exChild 32 ⟨5, some 98⟩ ⟨98, 7, 0x19000, 16, 0, 0, 0, 0x700, 1⟩ []
    (-1, some 78) :=
  bsd_network_call_end_to_end (w := { exWorld with policies := configure [] }) (conf := []) (f := none)
    (hist := FileTree.exHist) (users := [3]) { exSetup with policies := rfl } (n := 32) (op := .connect) (s := 7) (len := 16)
    (h := 12) rfl (.inl ⟨98, rfl, rfl⟩) rfl (.untouched nofun) (by decide) { exReady 0x19000 (.inl rfl) with }
    (by simp only [InHeap]; decide) (by decide) rfl (by decide)

/-- `connect(8, 0x19000, 16)`: there is no descriptor 8. -/
example : trap exWorld exChild ⟨5, some 98⟩ ⟨98, 8, 0x19000, 16, 0, 0, 0, 0x700, 1⟩ = .abort :=
  bsd_closed_socket_ends_sandbox exSetup (n := 32) (op := .connect) (s := 8) (len := 16) rfl (.inl ⟨98, rfl, rfl⟩) rfl
    (exReady 0x19000 (.inl rfl)) (by decide) rfl

/-- `connect(7, 0x19000, 16)` where the host has registered an empty function. -/
example : trap { exWorld with policies := configure [.allow .bind, .register .connect none] } exChild ⟨5, some 98⟩
    ⟨98, 7, 0x19000, 16, 0, 0, 0, 0x700, 1⟩ = .throws :=
  bsd_empty_function_throws (w := { exWorld with policies := configure [.allow .bind, .register .connect none] })
    (conf := [.allow .bind, .register .connect none]) (hist := FileTree.exHist) (users := [3])
    { exSetup with policies := rfl } (n := 32) (op := .connect) (s := 7) (len := 16) (h := 12) rfl (.inl ⟨98, rfl, rfl⟩) rfl
    ⟨[.allow .bind], [], rfl, rfl, nofun⟩ (by decide) { exReady 0x19000 (.inl rfl) with } (by simp only [InHeap]; decide)
    (by decide) rfl (by decide)

/-- A message that does make the host call something, so that `bsd_hostile_network_calls` says something. -/
example : ((turn exWorld (fun a => if a = 0x18010 then 16 else if a = 0x18009 then 0x90 else if a = 0x1800a then 1 else 0)
    ⟨24, ⟨5, 24, 0x18000⟩, 12⟩).2.map (fun x => (x.1, x.2.fd, x.2.len))) = [(.system .connect, 12, 16)] := by
  decide +kernel

end Verif.BsdNet
