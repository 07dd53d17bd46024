import Verif.BsdAuthority.Answers
import Verif.Authority.SocketsExact

/-!
# Exactly what a sandbox on FreeBSD is told about its network calls: specification and theorems (property C129)

As `Verif.Authority.SocketsExact`; the frame is laid out in another order, and `ENOSYS` is 78.
-/

namespace Verif.BsdAuthority

open Verif.Bounds (Region)
open Verif.Callback (Packet Event Result)
open Verif.Net (Op Config Callee SockArgs configure)
open Verif.NetEnd (Chosen)
open Verif.Authority (Lib frameSize ofLe_eq invoke_chosen invoke_frame inside_iff frame_eq)
open Verif.Authority.Spec (kindOf Accepted Inside frameOf arg64 arg32 Passable)
open Verif.BsdAuthority.Spec

namespace Spec

/-- What is said about a network request whose frame is `bs`, and the functions that are called for it
(`include/process_sandbox/callbacks.h:149-163`, `src/libsandbox.cc:452-477`). -/
inductive Told (conf : List Config) (hdr : Word) (r : Region) (o : Outside) (op : Op) (p : Packet) (bs : List Byte) :
    Int → List (Op × Callee × SockArgs) → Prop where
  | frame : ¬ Accepted hdr r p 24 → Told conf hdr r o op p bs (-78) []
  | bad : Accepted hdr r p 24 → ¬ Passable hdr r p.fd (arg64 bs 8) (arg32 (bs.drop 16)).toNat →
      Told conf hdr r o op p bs (-22) []
  | denied : Accepted hdr r p 24 → Passable hdr r p.fd (arg64 bs 8) (arg32 (bs.drop 16)).toNat → Chosen conf op none →
      Told conf hdr r o op p bs (-78) []
  | called (f : Callee) (a : SockArgs) : Accepted hdr r p 24 →
      Passable hdr r p.fd (arg64 bs 8) (arg32 (bs.drop 16)).toNat →
      Chosen conf op (some f) → a.fd = p.fd → a.len = (arg32 (bs.drop 16)).toNat →
      (∀ j, j < a.len → a.buffer[j]? = some (o.address (.ofNat 64 ((arg64 bs 8).toNat + j)))) →
      (∀ j, a.len ≤ j → j < 4096 → a.buffer[j]? = some 0xa5) → a.buffer.length = 4096 →
      Told conf hdr r o op p bs (if 0 ≤ (o.socket f a).1 then (o.socket f a).1 else -(o.socket f a).2) [(op, f, a)]

end Spec

variable {hdr : Word} {r : Region} {l : Lib} {o : Outside}

/-- What is said, and what is called, is settled by the message, the memory and the configuration. -/
theorem told_unique {conf : List Config} {op : Op} {p : Packet} {bs : List Byte} {x y : Int}
    {ss ts : List (Op × Callee × SockArgs)} (hx : Told conf hdr r o op p bs x ss) (hy : Told conf hdr r o op p bs y ts) :
    x = y ∧ ss = ts := by
  cases hx with
  | frame h => cases hy <;> first | exact ⟨rfl, rfl⟩ | (exact absurd ‹Accepted hdr r p 24› h)
  | bad h1 h2 => cases hy <;> first | exact ⟨rfl, rfl⟩ | contradiction
  | denied h1 h2 h3 =>
    cases hy with
    | frame => contradiction
    | bad => contradiction
    | denied => exact ⟨rfl, rfl⟩
    | called f a _ _ h4 => cases Run.chosen_unique h3 h4
  | called f a h1 h2 h3 h4 h5 h6 h7 h8 =>
    cases hy with
    | frame => contradiction
    | bad => contradiction
    | denied _ _ g => cases Run.chosen_unique h3 g
    | called f' a' g1 g2 g3 g4 g5 g6 g7 g8 =>
      cases Run.chosen_unique h3 g3
      have ha : a = a' := by
        have hb : a.buffer = a'.buffer := by
          apply List.ext_getElem?
          intro j
          by_cases hj : j < (arg32 (bs.drop 16)).toNat
          · rw [h6 j (by omega), g6 j (by omega)]
          · by_cases hk : j < 4096
            · rw [h7 j (by omega) hk, g7 j (by omega) hk]
            · rw [List.getElem?_eq_none (by omega), List.getElem?_eq_none (by omega)]
        obtain ⟨a1, a2, a3⟩ := a
        obtain ⟨b1, b2, b3⟩ := a'
        simp only at hb h4 g4 h5 g5
        subst hb h4 g4 h5 g5
        rfl
      subst ha
      exact ⟨rfl, rfl⟩

theorem sockets_told (hwf : r.WF hdr) {conf : List Config} (hl : l.policies = configure conf) (op : Op) (p : Packet)
    (bs : List Byte) (hacc : Accepted hdr r p 24) {res : Result} (h : (sockets hdr r l o op bs p.fd).1 = .ok res) :
    res.handle = -1 ∧ Told conf hdr r o op p bs res.integer (sockets hdr r l o op bs p.fd).2.sockets := by
  have ha : BsdNet.addrArg bs = arg64 bs 8 := by unfold BsdNet.addrArg arg64; rw [ofLe_eq]
  have hlen : BsdNet.lenArg bs = arg32 (bs.drop 16) := by unfold BsdNet.lenArg arg32; rw [ofLe_eq]
  unfold sockets at h ⊢
  simp only [ha, hlen] at h ⊢
  by_cases hb : Net.BadSock hdr r p.fd (arg64 bs 8) (arg32 (bs.drop 16))
  · rw [Net.sock_refused hdr r hwf l.policies op o.socket o.address p.fd _ _ hb] at h ⊢
    cases h
    refine ⟨rfl, .bad hacc ?_⟩
    unfold Passable Inside
    unfold Net.BadSock at hb
    omega
  · have hg : Passable hdr r p.fd (arg64 bs 8) (arg32 (bs.drop 16)).toNat := by
      unfold Passable Inside
      unfold Net.BadSock at hb
      omega
    obtain ⟨buf, reads, hbl, hbuf, htail, -, he⟩ := Net.sock_mediated hdr r hwf l.policies op o.socket o.address p.fd _ _ hb
    rw [he] at h ⊢
    rw [hl] at h ⊢
    rcases invoke_chosen conf op o.socket (⟨p.fd, buf, (arg32 (bs.drop 16)).toNat⟩ : SockArgs) with
      ⟨hc, hi⟩ | ⟨f, hc, hi⟩ | hi
    · rw [hi] at h ⊢
      cases h
      exact ⟨rfl, .denied hacc hg hc⟩
    · rw [hi] at h ⊢
      cases h
      exact ⟨rfl, .called f _ hacc hg hc rfl rfl hbuf htail hbl⟩
    · rw [hi] at h
      cases h

/-- **C129.** Exactly what a sandbox is told about `bind` and `connect`: `ENOSYS` if the frame is not accepted, then `EINVAL`
if it came without a descriptor or the address is too long or not in the heap, then `ENOSYS` if the host has not allowed
the operation to this sandbox; otherwise the function that the host chose last for this sandbox is called, once, with the
descriptor that came and a buffer of 4096 bytes that holds the bytes that were at the address and is filled up with a
constant, and its result is passed on.  There is never a descriptor in
the answer. -/
theorem bsd_socket_told (hdr : Word) (regs : Nat → Region) (hregs : ∀ i, (regs i).WF hdr)
    (as : List Action) (hfew : ∀ i, (handlersFor i as).length + 7 ≤ 2 ^ 31 - 1) (k i : Nat) (o : Outside) (p : Packet)
    (hk : as[k]? = some (.message i o p)) (op : Op) (hop : op ≠ .getAddrInfo) (hkind : p.req.kind.toNat = kindOf op)
    (es : List Event) (e : Effects) (hs : (runAll hdr regs start as).1[k]? = some (.handled (.ok es) e))
    (x h : Int) (hx : Event.replied x h ∈ es) :
    h = -1 ∧ Told (configsFor i (as.take k)) hdr (regs i) o op p (frameOf o.toLinux p 24) x e.sockets := by
  obtain ⟨l, hl, he⟩ := at_message hdr regs as hfew k i o p hk
  have hwf := hregs i
  rw [he] at hs
  simp only [Option.some.injEq, Seen.handled.injEq] at hs
  obtain ⟨h1, h2⟩ := hs
  subst h2
  have h7 : p.req.kind.toNat < 7 := by
    rw [hkind]; cases op <;> decide
  have hd : Callback.dispatch l.table.handlers p.req.kind = some (.builtin (kindOf op)) := by
    rw [hl.table, Callback.dispatch_tableOf, Callback.Spec.handlerFor, if_pos h7, hkind]
  unfold handle at h1 ⊢
  by_cases hlen : p.len < Callback.requestSize
  · rw [if_pos hlen] at h1; cases h1; cases hx
  rw [if_neg hlen] at h1 ⊢
  simp only [hd] at h1 ⊢
  have key : ∀ res, (run hdr (regs i) l o (.builtin (kindOf op)) p.req p.fd).1 = .ok res →
      res.handle = -1 ∧ Told (configsFor i (as.take k)) hdr (regs i) o op p (frameOf o.toLinux p 24) res.integer
        (run hdr (regs i) l o (.builtin (kindOf op)) p.req p.fd).2.sockets := by
    intro res hres
    have h24 : (behind hdr (regs i) l o (.builtin (kindOf op))).1 = 24 := by
      cases op with
      | bind => rfl
      | connect => rfl
      | getAddrInfo => exact absurd rfl hop
    have hb : ∀ bs, (behind hdr (regs i) l o (.builtin (kindOf op))).2 bs p.fd = sockets hdr (regs i) l o op bs p.fd := by
      intro bs
      cases op with
      | bind => rfl
      | connect => rfl
      | getAddrInfo => exact absurd rfl hop
    unfold run at hres ⊢
    simp only [h24] at hres ⊢
    have hf := invoke_frame (o := o.toLinux) hwf p 24 (by omega) (by omega)
      (fun bs f => ((behind hdr (regs i) l o (.builtin (kindOf op))).2 bs f).1)
    by_cases hacc : Accepted hdr (regs i) p 24
    · have ha : (Callback.invoke hdr (regs i) 24
          (fun bs f => ((behind hdr (regs i) l o (.builtin (kindOf op))).2 bs f).1) o.frame p.req p.fd).2 =
          Callback.copyAddrs p.req.data 24 := by
        obtain ⟨a1, a2⟩ := hacc
        have hsz : p.req.size = BitVec.ofNat 64 24 := by
          apply BitVec.eq_of_toNat_eq; rw [a1]; rfl
        unfold Callback.invoke
        rw [if_neg (by simpa using hsz), if_neg (by rw [hsz, (inside_iff hwf p.req.data 24 (by omega) (by omega)).2 a2]; decide)]
      have hne : Callback.copyAddrs p.req.data 24 ≠ [] := by
        intro h
        have := Callback.copyAddrs_length p.req.data 24
        rw [h] at this
        cases this
      rw [ha, if_neg hne] at hres ⊢
      simp only [hf.1 hacc, hb] at hres
      rw [frame_eq, hb]
      exact sockets_told hwf hl.policies op p _ hacc hres
    · rw [Callback.invoke_refuses hdr (regs i) hwf 24 (by omega) _ o.frame p.req p.fd hacc] at hres ⊢
      cases hres
      exact ⟨rfl, .frame hacc⟩
  revert key h1
  generalize run hdr (regs i) l o (.builtin (kindOf op)) p.req p.fd = y
  obtain ⟨y, e⟩ := y
  intro h1 key
  cases y with
  | ok res =>
    cases h1
    simp only [List.mem_cons, List.not_mem_nil, or_false, reduceCtorEq, false_or] at hx
    split at hx
    · cases hx; exact key res rfl
    · cases hx
  | abort => cases h1
  | throws => cases h1
  | ub => cases h1

/-! ### Examples -/

/-- The `connect` of sandbox 0 is passed to the function that the host chose; the hypotheses hold. -/
example : ∃ es e x h f a, (runAll Rpc.exCfg.hdr exRegs start exActs).1[5]? = some (.handled (.ok es) e) ∧
    Event.replied x h ∈ es ∧ e.sockets = [(.connect, f, a)] ∧ a.fd = 6 ∧
    Chosen (configsFor 0 (exActs.take 5)) .connect (some f) := by
  obtain ⟨h1, h2, h3, h4, h5⟩ := exActs_ok
  obtain ⟨es, e, ha, -, hb⟩ := bsd_every_message_answered _ _ exRegs_wf exActs h2 h3 5 0 _ _ rfl (h5 _)
  obtain ⟨x, h, rfl⟩ := hb (Nat.le_refl 24)
  have hx : Event.replied x h ∈ [Event.received ⟨5, 24, (Rpc.exMap 0).base + 0x1000⟩ 6, .replied x h] := by simp
  obtain ⟨-, g⟩ := bsd_socket_told _ _ exRegs_wf exActs h2 5 0 _ _ rfl .connect (by decide) rfl _ e ha x h hx
  have hl : ((runAll Rpc.exCfg.hdr exRegs start exActs).1[5]?).bind glance = some ([], 1, 0, 0) := by decide +kernel
  rw [ha] at hl
  simp only [Option.bind_some, glance, Option.some.injEq, Prod.mk.injEq] at hl
  have hl := hl.2.1
  have hc : ∃ f a, e.sockets = [(.connect, f, a)] ∧ a.fd = 6 ∧ Chosen (configsFor 0 (exActs.take 5)) .connect (some f) := by
    revert g hl
    generalize e.sockets = ss
    intro g hl
    cases g with
    | frame => cases hl
    | bad => cases hl
    | denied => cases hl
    | called f a _ _ hc hfd => exact ⟨f, a, rfl, hfd, hc⟩
  obtain ⟨f, a, hc⟩ := hc
  exact ⟨_, e, x, h, f, a, ha, hx, hc⟩

/-- A frame of 23 bytes is not accepted. -/
example : ∃ es e x h, (runAll Rpc.exCfg.hdr exRegs start exActs).1[10]? = some (.handled (.ok es) e) ∧
    Event.replied x h ∈ es ∧ e.sockets = [] ∧ x = -78 := by
  obtain ⟨h1, h2, h3, h4, h5⟩ := exActs_ok
  obtain ⟨es, e, ha, -, hb⟩ := bsd_every_message_answered _ _ exRegs_wf exActs h2 h3 10 0 _ _ rfl (h5 _)
  obtain ⟨x, h, rfl⟩ := hb (Nat.le_refl 24)
  have hx : Event.replied x h ∈ [Event.received ⟨5, 23, (Rpc.exMap 0).base + 0x1000⟩ 6, .replied x h] := by simp
  obtain ⟨-, g⟩ := bsd_socket_told _ _ exRegs_wf exActs h2 10 0 _ _ rfl .connect (by decide) rfl _ e ha x h hx
  have hc : e.sockets = [] ∧ x = -78 := by
    have hn : ¬ Accepted Rpc.exCfg.hdr (exRegs 0) ⟨24, ⟨5, 23, (Rpc.exMap 0).base + 0x1000⟩, 6⟩ 24 := fun h => by
      exact absurd h.1 (by decide)
    revert g
    generalize e.sockets = ss
    intro g
    cases g with
    | frame => exact ⟨rfl, rfl⟩
    | bad h => exact absurd h hn
    | denied h => exact absurd h hn
    | called f a h => exact absurd h hn
  exact ⟨_, e, x, h, ha, hx, hc⟩

end Verif.BsdAuthority
