import Verif.BsdNet.Props
import Verif.NetEnd.Ends

/-!
# How every `bind` and `connect` ends on FreeBSD, whatever the program passes (property C123)
-/

namespace Verif.BsdNet

open Verif.Strings
open Verif.FileTree (Export)
open Verif.Net (Op Config BadSock)
open Verif.Net.Spec (IsLast)
open Verif.ChildArgs (Child wrapPtr wrapSockAddr)
open Verif.Syscall (CInt found)
open Verif.EndToEnd (End converts copied Ended Answered Mild around wrapped_ends wrap_ends ended_mem reply_proper)
open Verif.NetEnd (World Calls frameSize opOf pass Setup kindOf Closed copiedAddr exWorld exConf exSetup exChild)
open Verif.FreeBsd (Regs Info Call libc OnlyResult trapCap)

theorem mild_noSys {res : Callback.Result} (h : Mild res.integer) :
    ∃ res', noSys (.ok res) = .ok res' ∧ Mild res'.integer := by
  refine ⟨_, rfl, ?_⟩
  split
  · exact (by decide : -4096 < (-78 : Int) ∧ (-78 : Int) < 2 ^ 31)
  · exact h

theorem served_ends {w : World} {hist : List Export} {users : List Nat} {conf : List Config}
    (hw : Setup w hist users conf) (m : Mem) (op : Op) (bs : List Byte) (fd : Int) (hop : op ≠ .getAddrInfo) :
    ((served w m (kindOf op) bs fd).result = .throws ∧ IsLast conf op (.register op none)) ∨
    ∃ res, (served w m (kindOf op) bs fd).result = .ok res ∧ Mild res.integer := by
  have ho : opOf (kindOf op) = some op := by cases op <;> first | rfl | exact absurd rfl hop
  unfold served
  rw [ho]
  simp only
  suffices h : ((Net.handleBindOrConnect w.hdr w.region w.policies op w.call m fd (addrArg bs) (lenArg bs)).result = .throws ∧
      IsLast conf op (.register op none)) ∨
      ∃ res, (Net.handleBindOrConnect w.hdr w.region w.policies op w.call m fd (addrArg bs) (lenArg bs)).result = .ok res ∧
        Mild res.integer by
    rcases h with ⟨h1, h2⟩ | ⟨res, h1, h2⟩
    · exact .inl ⟨(handled_throws _ _ _ _ _ _).2 h1, h2⟩
    · right
      simp only [handled]
      split
      · simp only [h1]
        exact mild_noSys h2
      · exact ⟨res, h1, h2⟩
  by_cases hb : BadSock w.hdr w.region fd (addrArg bs) (lenArg bs)
  · rw [Net.sock_refused w.hdr w.region hw.base.wf w.policies op w.call m fd _ _ hb]
    exact .inr ⟨_, rfl, (by decide : -4096 < (-22 : Int) ∧ (-22 : Int) < 2 ^ 31)⟩
  · obtain ⟨buf, reads, -, -, -, -, he⟩ := Net.sock_mediated w.hdr w.region hw.base.wf w.policies op w.call m fd _ _ hb
    rw [he]
    by_cases hg : w.policies.get op = .handler none
    · have hx : Net.invoke w.policies op w.call ⟨fd, buf, (lenArg bs).toNat⟩ = .throws := by
        unfold Net.invoke; rw [hg]
      rw [hx]
      rw [hw.policies] at hg
      exact .inl ⟨rfl, (NetEnd.empty_last conf op).1 hg⟩
    · obtain ⟨r, calls, hx, hm⟩ : ∃ r calls, Net.invoke w.policies op w.call ⟨fd, buf, (lenArg bs).toNat⟩ = .ok (r, calls) ∧
          ((0 ≤ r.1 → r.1 < 2 ^ 31) ∧ (r.1 < 0 → 0 < r.2 ∧ r.2 < 4096)) := by
        unfold Net.invoke
        split
        · exact ⟨_, _, rfl, by decide⟩
        · exact ⟨_, _, rfl, hw.call _ _⟩
        · exact ⟨_, _, rfl, hw.call _ _⟩
        · rename_i h; exact absurd h hg
      rw [hx]
      refine .inr ⟨_, rfl, ?_⟩
      show Mild (if 0 ≤ r.1 then r.1 else -r.2)
      unfold Mild
      split
      · have := hm.1 (by assumption); omega
      · have := hm.2 (by omega); omega

/-- A message is answered, unless the socket cannot be sent or the policy throws. -/
theorem callback_ends {w : World} {hist : List Export} {users : List Nat} {conf : List Config}
    (hw : Setup w hist users conf) (c : Child) (op : Op) (hop : op ≠ .getAddrInfo) (data : Word) (s : CInt) :
    Ended (fun rep => ¬ Closed w s ∧ Answered rep) (Closed w s) (¬ Closed w s ∧ IsLast conf op (.register op none)) c
      (callback w c (kindOf op) data s) .answered := by
  have hd : Callback.dispatch w.table (BitVec.ofNat 64 (kindOf op)) = some (.builtin (kindOf op)) := by
    rw [hw.base.table, Callback.dispatch_tableOf]
    cases op <;> rfl
  have hlen : ¬ (Callback.requestSize < Callback.requestSize) := by omega
  have go : ∀ fd, pass w s = .ok fd → ¬ Closed w s →
      Ended (fun rep => ¬ Closed w s ∧ Answered rep) (Closed w s) (¬ Closed w s ∧ IsLast conf op (.register op none)) c
        (callback w c (kindOf op) data s) .answered := by
    intro fd hfd hc
    have hrun : ((run w c.mem (.builtin (kindOf op)) ⟨.ofNat 64 (kindOf op), .ofNat 64 frameSize, data⟩ fd).1 = .throws ∧
          IsLast conf op (.register op none)) ∨
        ∃ res, (run w c.mem (.builtin (kindOf op)) ⟨.ofNat 64 (kindOf op), .ofNat 64 frameSize, data⟩ fd).1 = .ok res ∧
          Mild res.integer := by
      have hz : ¬ (BitVec.ofNat 64 frameSize ≠ BitVec.ofNat 64 frameSize) := fun h => h rfl
      have hg : ∀ (o : Outcome Callback.Result) (a : List Word),
          (o = .throws ∧ IsLast conf op (.register op none)) ∨ (∃ res, o = .ok res ∧ Mild res.integer) →
          ((if a = [] then noSys o else o) = .throws ∧ IsLast conf op (.register op none)) ∨
            ∃ res, (if a = [] then noSys o else o) = .ok res ∧ Mild res.integer := by
        intro o a ho
        split
        · rcases ho with ⟨rfl, h⟩ | ⟨res, rfl, h⟩
          · exact .inl ⟨rfl, h⟩
          · exact .inr (mild_noSys h)
        · exact ho
      simp only [run, Callback.invoke, if_neg hz]
      split
      · exact hg _ _ (.inr ⟨_, rfl, (by decide : -4096 < -ENOSYS ∧ -ENOSYS < 2 ^ 31)⟩)
      · exact hg _ _ (served_ends hw c.mem op _ fd hop)
    rcases hrun with ⟨h1, h2⟩ | ⟨res, h1, h2⟩
    · simp only [callback, hfd, turn, Callback.handle, if_neg hlen, hd, h1, Ended]
      exact ⟨hc, h2⟩
    · simp only [callback, hfd, turn, Callback.handle, if_neg hlen, hd, h1, if_true, EndToEnd.answerOf, Ended]
      exact ⟨trivial, hc, reply_proper hw.base h2⟩
  by_cases h0 : s.toInt < 0
  · exact go (-1) (by rw [pass, if_pos h0]) (fun h => by have := h.1; omega)
  · cases hp : w.passed s with
    | some fd => exact go fd (by rw [pass, if_neg h0, hp]) (fun h => by have := h.2; rw [hp] at this; cases this)
    | none =>
      have : pass w s = .abort := by rw [pass, if_neg h0, hp]
      simp only [callback, this, Ended]
      exact ⟨by omega, hp⟩

theorem send_ends {w : World} {hist : List Export} {users : List Nat} {conf : List Config}
    (hw : Setup w hist users conf) (c : Child) (op : Op) (hop : op ≠ .getAddrInfo) (s : CInt) (addr : Word) (len : CInt) :
    Ended (fun rep => ¬ Closed w s ∧ Answered rep) (Closed w s) (¬ Closed w s ∧ IsLast conf op (.register op none)) c
      (send w c (kindOf op) s addr len) (converts [copied w.bounds w.sp] c.mallocs.length) := by
  have e : send w c (kindOf op) s addr len =
      around (wrapPtr w.bounds { c with mem := writeBytes c.mem w.sp (encode w s addr len) } w.sp frameSize)
        (fun f c => callback w c (kindOf op) f.arg s) false frameSize := by
    simp only [send, around]
    rcases wrapPtr w.bounds { c with mem := writeBytes c.mem w.sp (encode w s addr len) } w.sp frameSize with
      ⟨a, c1⟩ | _ | _ | _ <;> try rfl
    simp only
    rcases callback w c1 (kindOf op) a.arg s with ⟨x, y, z⟩ | _ | _ | _ <;> rfl
  rw [e]
  refine ended_mem (c' := { c with mem := writeBytes c.mem w.sp (encode w s addr len) }) rfl ?_
  exact wrap_ends w.bounds { c with mem := writeBytes c.mem w.sp (encode w s addr len) } w.sp frameSize false [] _
    fun a c' => callback_ends hw c' op hop a.arg s

theorem request_ends {w : World} {hist : List Export} {users : List Nat} {conf : List Config}
    (hw : Setup w hist users conf) (c : Child) (op : Op) (hop : op ≠ .getAddrInfo) (s : CInt) (addr : Word) (len fd : CInt) :
    Ended (fun rep => ¬ Closed w s ∧ Answered rep) (Closed w s) (¬ Closed w s ∧ IsLast conf op (.register op none)) c
      (request w c ⟨kindOf op, [.int s, .raw addr, .int len], fd⟩)
      (converts [copiedAddr w.bounds addr len.toNat, copied w.bounds w.sp] c.mallocs.length) := by
  have e : request w c ⟨kindOf op, [.int s, .raw addr, .int len], fd⟩ =
      around (wrapSockAddr w.bounds c addr len.toNat) (fun a c => send w c (kindOf op) s a.arg len) false len.toNat := by
    simp only [request, around]
    rcases wrapSockAddr w.bounds c addr len.toNat with ⟨a, c1⟩ | _ | _ | _ <;> try rfl
    simp only
    rcases send w c1 (kindOf op) s a.arg len with ⟨x, y, z⟩ | _ | _ | _ <;> rfl
  rw [e]
  refine wrapped_ends c addr len.toNat false _ [copied w.bounds w.sp] _ ?_ _ fun a c' => send_ends hw c' op hop _ _ _
  rfl

/-! ## C123 -/

/-- **C123, how every call ends.**  A program in a sandbox on FreeBSD makes `bind` or `connect` with any number for the socket, any
address and any length; its child has any number of blocks left.  The call ends as the conversion of the address and of
the frame does: it is undefined if a null pointer comes to be followed, and the child dies if a block is needed and there
is none.  Otherwise the child dies exactly if the number may be a descriptor and the program has no such one; if it does
not die the program goes on after the call with a result that the C library can read, its argument registers are as they
were, and the child's blocks are free again; or an exception goes through the host, which happens only if the host has
registered an empty function for the operation. -/
theorem bsd_network_ends {w : World} {hist : List Export} {users : List Nat} {conf : List Config}
    (hw : Setup w hist users conf) {c : Child} {i : Info} {r : Regs} {cl : Call} {op : Op} {s len : CInt} {addr : Word}
    (hcode : i.code = trapCap) (hm : Makes i r cl) (hcall : asksNet cl = some (op, s, addr, len)) :
    match converts [copiedAddr w.bounds addr len.toNat, copied w.bounds w.sp] c.mallocs.length with
    | .answered =>
      (Closed w s ∧ trap w c i r = .abort) ∨
      (¬ Closed w s ∧
        ((∃ r' calls c' ans, trap w c i r = .ok (r', calls, c') ∧ ans.Proper ∧ libc r' = found ans ∧
          OnlyResult r r' ∧ c'.live = c.live) ∨
         trap w c i r = .throws ∧ IsLast conf op (.register op none)))
    | .dies => trap w c i r = .abort
    | .undefined => trap w c i r = .ub := by
  have hng := asked_op hm hcall
  obtain ⟨q, hq⟩ : ∃ q : Syscall.Request, q = ⟨kindOf op, [.int s, .raw addr, .int len], s⟩ := ⟨_, rfl⟩
  have he := request_ends hw c op hng s addr len s
  rw [← hq] at he
  have hbad : (∀ x, request w c q ≠ .ok x) →
      ∃ r', FreeBsd.emulate ⟨hostOf w c, w.pid, w.str, fun f => f⟩ i r = .ok (r', [q]) := by
    intro hno
    obtain ⟨r', e1, _⟩ := emulated
      (v := ⟨hostOf w c, w.pid, w.str, fun f => f⟩) (a := .value 0) hcode hm hcall
      (by simp [Syscall.Answer.Proper]) (by
        rw [← hq]
        simp only [hostOf]
        split
        · rename_i x hx; exact absurd hx (hno _)
        · simp [Syscall.Arrives])
    rw [← hq] at e1
    exact ⟨r', e1⟩
  split
  all_goals
    rename_i hconv
    rw [hconv] at he
  · cases hr : request w c q with
    | ok x =>
      obtain ⟨rep, log, c'⟩ := x
      rw [hr] at he
      obtain ⟨hl, hcl, ans, h3, h4⟩ := he
      have hhost : hostOf w c q = rep := by rw [hostOf, hr]
      obtain ⟨r', e1, e2, e3⟩ := emulated
        (v := ⟨hostOf w c, w.pid, w.str, fun f => f⟩) hcode hm hcall h3
        (by rw [← hq]; simp only [hhost]; exact h4)
      rw [← hq] at e1
      exact .inr ⟨hcl, .inl ⟨r', log, c', ans, by rw [trap, e1]; simp only [hr], h3, e2, e3, hl⟩⟩
    | abort =>
      rw [hr] at he
      obtain ⟨r', e1⟩ := hbad (by rw [hr]; exact fun _ h => nomatch h)
      exact .inl ⟨he, by rw [trap, e1]; simp only [hr]⟩
    | throws =>
      rw [hr] at he
      obtain ⟨r', e1⟩ := hbad (by rw [hr]; exact fun _ h => nomatch h)
      exact .inr ⟨he.1, .inr ⟨by rw [trap, e1]; simp only [hr], he.2⟩⟩
    | ub => rw [hr] at he; exact he.elim
  · cases hr : request w c q with
    | ok x => rw [hr] at he; exact he.elim
    | abort =>
      obtain ⟨r', e1⟩ := hbad (by rw [hr]; exact fun _ h => nomatch h)
      rw [trap, e1]
      simp only [hr]
    | throws => rw [hr] at he; exact he.elim
    | ub => rw [hr] at he; exact he.elim
  · cases hr : request w c q with
    | ok x => rw [hr] at he; exact he.elim
    | ub =>
      obtain ⟨r', e1⟩ := hbad (by rw [hr]; exact fun _ h => nomatch h)
      rw [trap, e1]
      simp only [hr]
    | throws => rw [hr] at he; exact he.elim
    | abort => rw [hr] at he; exact he.elim

/-- An address inside the shared memory needs a block, one outside does not; and a null address passes. -/
example : trap exWorld { exChild with mallocs := [] } ⟨5, some 104⟩ ⟨104, 7, 0x19000, 16, 0, 0, 0, 0x700, 1⟩ = .abort ∧
    converts [copiedAddr exWorld.bounds 0x5000 16, copied exWorld.bounds exWorld.sp] 0 = .answered ∧
    converts [copiedAddr exWorld.bounds 0 16, copied exWorld.bounds exWorld.sp] 0 = .answered := by
  refine ⟨?_, by decide, by decide⟩
  exact bsd_network_ends exSetup (c := { exChild with mallocs := [] }) (i := ⟨5, some 104⟩)
    (r := ⟨104, 7, 0x19000, 16, 0, 0, 0, 0x700, 1⟩) (op := .bind) (s := 7) (len := 16) (addr := 0x19000) rfl
    (.inl ⟨104, rfl, rfl⟩) rfl

end Verif.BsdNet
