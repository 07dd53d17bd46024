import Verif.BsdAuthority.Props

/-!
# What a sandbox on FreeBSD is told about its network calls: theorems (property C129)
-/

namespace Verif.BsdAuthority

open Verif.Bounds (Region)
open Verif.Callback (Packet Event)
open Verif.FileTree (ShortPaths)
open Verif.Net (Op)
open Verif.NetEnd (Chosen)
open Verif.Authority (Lib Sane frameSize)
open Verif.Authority.Spec (kindOf)
open Verif.BsdAuthority.Spec

theorem sockets_answer (hdr : Word) (r : Region) (hwf : r.WF hdr) (l : Lib) (o : Outside) (op : Op) (bs : List Byte) (fd : Int)
    {res : Callback.Result} (h : (sockets hdr r l o op bs fd).1 = .ok res) :
    res.handle = -1 ∧ (((sockets hdr r l o op bs fd).2.sockets = [] ∧ (res.integer = -22 ∨ res.integer = -78)) ∨
      ∃ f a, (sockets hdr r l o op bs fd).2.sockets = [(op, f, a)] ∧
        res.integer = if 0 ≤ (o.socket f a).1 then (o.socket f a).1 else -(o.socket f a).2) := by
  simp only [sockets] at h ⊢
  by_cases hb : Net.BadSock hdr r fd (BsdNet.addrArg bs) (BsdNet.lenArg bs)
  · rw [Net.sock_refused hdr r hwf _ _ _ _ _ _ _ hb] at h ⊢
    cases h
    exact ⟨rfl, .inl ⟨rfl, .inl rfl⟩⟩
  · obtain ⟨buf, reads, -, -, -, -, he⟩ :=
      Net.sock_mediated hdr r hwf l.policies op o.socket o.address fd (BsdNet.addrArg bs) (BsdNet.lenArg bs) hb
    rw [he] at h ⊢
    unfold Net.invoke at h ⊢
    cases hg : l.policies.get op with
    | deny => rw [hg] at h; cases h; exact ⟨rfl, .inl ⟨rfl, .inr rfl⟩⟩
    | allow => rw [hg] at h; cases h; exact ⟨rfl, .inr ⟨_, _, rfl, rfl⟩⟩
    | handler f =>
      cases f with
      | none => rw [hg] at h; cases h
      | some f => rw [hg] at h; cases h; exact ⟨rfl, .inr ⟨_, _, rfl, rfl⟩⟩

/-- **C129.** What a sandbox is told about `bind` and `connect`: that the arguments are bad (`EINVAL`) or that there is no
such call (`ENOSYS`, 78 on FreeBSD) if no function was called; otherwise what the one function that was called has
returned, or the negated `errno`.  It never gets a descriptor. -/
theorem bsd_socket_answer (hdr : Word) (regs : Nat → Region) (hregs : ∀ i, (regs i).WF hdr)
    (as : List Action) (hfew : ∀ i, (handlersFor i as).length + 7 ≤ 2 ^ 31 - 1) (k i : Nat) (o : Outside) (p : Packet)
    (hk : as[k]? = some (.message i o p)) (op : Op) (hop : op ≠ .getAddrInfo) (hkind : p.req.kind.toNat = kindOf op)
    (es : List Event) (e : Effects) (hs : (runAll hdr regs start as).1[k]? = some (.handled (.ok es) e))
    (x h : Int) (hx : Event.replied x h ∈ es) :
    h = -1 ∧ ((e.sockets = [] ∧ (x = -22 ∨ x = -78)) ∨
      ∃ f a, e.sockets = [(op, f, a)] ∧ x = if 0 ≤ (o.socket f a).1 then (o.socket f a).1 else -(o.socket f a).2) := by
  obtain ⟨l, hl, he⟩ := at_message hdr regs as hfew k i o p hk
  rw [he] at hs
  simp only [Option.some.injEq, Seen.handled.injEq] at hs
  obtain ⟨h1, h2⟩ := hs
  subst h2
  have h7 : p.req.kind.toNat < 7 := by
    rw [hkind]; cases op <;> decide
  have hd : Callback.dispatch l.table.handlers p.req.kind = some (.builtin (kindOf op)) := by
    rw [hl.table, Callback.dispatch_tableOf, Callback.Spec.handlerFor, if_pos h7, hkind]
  unfold handle at h1 ⊢
  by_cases hlen : p.len < Callback.requestSize
  · rw [if_pos hlen] at h1; cases h1; cases hx
  rw [if_neg hlen] at h1 ⊢
  simp only [hd] at h1 ⊢
  have key : ∀ res, (run hdr (regs i) l o (.builtin (kindOf op)) p.req p.fd).1 = .ok res →
      res.handle = -1 ∧ (((run hdr (regs i) l o (.builtin (kindOf op)) p.req p.fd).2.sockets = [] ∧
        (res.integer = -22 ∨ res.integer = -78)) ∨
      ∃ f a, (run hdr (regs i) l o (.builtin (kindOf op)) p.req p.fd).2.sockets = [(op, f, a)] ∧
        res.integer = if 0 ≤ (o.socket f a).1 then (o.socket f a).1 else -(o.socket f a).2) := by
    intro res
    unfold run Callback.invoke
    split
    · intro h; cases h; exact ⟨rfl, .inl ⟨rfl, .inr rfl⟩⟩
    · split
      · intro h; cases h; exact ⟨rfl, .inl ⟨rfl, .inr rfl⟩⟩
      · have hne : Callback.copyAddrs p.req.data (behind hdr (regs i) l o (.builtin (kindOf op))).1 ≠ [] := by
          intro h
          have := Callback.copyAddrs_length p.req.data (behind hdr (regs i) l o (.builtin (kindOf op))).1
          have hpos := frameSize_pos (kindOf op)
          have e : (behind hdr (regs i) l o (.builtin (kindOf op))).1 = frameSize (kindOf op) := rfl
          rw [h, List.length_nil] at this
          omega
        simp only [if_neg hne]
        have hb : ∀ bs, (behind hdr (regs i) l o (.builtin (kindOf op))).2 bs p.fd = sockets hdr (regs i) l o op bs p.fd := by
          intro bs
          cases op with
          | bind => rfl
          | connect => rfl
          | getAddrInfo => exact absurd rfl hop
        rw [hb]
        exact sockets_answer hdr (regs i) (hregs i) l o op _ p.fd
  revert key h1
  generalize run hdr (regs i) l o (.builtin (kindOf op)) p.req p.fd = y
  obtain ⟨y, e⟩ := y
  intro h1 key
  cases y with
  | ok res =>
    cases h1
    simp only [List.mem_cons, List.not_mem_nil, or_false, reduceCtorEq, false_or] at hx
    split at hx
    · cases hx; exact key res rfl
    · cases hx
  | abort => cases h1
  | throws => cases h1
  | ub => cases h1

/-- **C129.** A sandbox for which the host has not allowed an operation, or has forbidden it again, reaches no function
with it, and is told so. -/
theorem bsd_socket_denied (hdr : Word) (regs : Nat → Region) (hregs : ∀ i, (regs i).WF hdr)
    (as : List Action) (hshort : ∀ i, ShortPaths (exportsTo i as))
    (hfew : ∀ i, (handlersFor i as).length + 7 ≤ 2 ^ 31 - 1) (k i : Nat) (o : Outside) (p : Packet)
    (hk : as[k]? = some (.message i o p)) (ho : Sane (regs i) o.toLinux) (op : Op) (hop : op ≠ .getAddrInfo)
    (hkind : p.req.kind.toNat = kindOf op) (hno : ∀ f, ¬ Chosen (configsFor i (as.take k)) op (some f))
    (es : List Event) (e : Effects) (hs : (runAll hdr regs start as).1[k]? = some (.handled (.ok es) e))
    (x h : Int) (hx : Event.replied x h ∈ es) : e.sockets = [] ∧ h = -1 ∧ (x = -22 ∨ x = -78) := by
  obtain ⟨h1, h2⟩ := bsd_socket_answer hdr regs hregs as hfew k i o p hk op hop hkind es e hs x h hx
  rcases h2 with ⟨h2, h3⟩ | ⟨f, a, h2, -⟩
  · exact ⟨h2, h1, h3⟩
  · exfalso
    obtain ⟨ev, e', hb, hj, -⟩ := bsd_authority hdr regs hregs as hshort hfew k i o p hk ho
    rw [hs] at hb
    cases hb
    cases hj with
    | socket op' f' a' h3 h4 h5 =>
      simp only [List.cons.injEq, Prod.mk.injEq, and_true] at h2
      obtain ⟨rfl, rfl, rfl⟩ := h2
      exact hno _ h5
    | nothing => cases h2
    | files => cases h2
    | relative => cases h2
    | lookup => cases h2
    | user => cases h2

/-! ### Examples -/

/-- The `connect` of sandbox 0, which is allowed, and that of sandbox 1, which is not. -/
example : ∃ es e, (runAll Rpc.exCfg.hdr exRegs start exActs).1[5]? = some (.handled (.ok es) e) ∧
    Event.replied 0 (-1) ∈ es ∧ e.sockets.length = 1 := by
  obtain ⟨h1, h2, h3, h4, h5⟩ := exActs_ok
  obtain ⟨es, e, ha, -, hb⟩ := bsd_every_message_answered _ _ exRegs_wf exActs h2 h3 5 0 _ _ rfl (h5 _)
  obtain ⟨x, h, rfl⟩ := hb (Nat.le_refl 24)
  have hx : Event.replied x h ∈ [Event.received ⟨5, 24, (Rpc.exMap 0).base + 0x1000⟩ 6, .replied x h] := by simp
  refine ⟨_, e, ha, ?_, ?_⟩
  · have : ((runAll Rpc.exCfg.hdr exRegs start exActs).1[5]?).bind replyOf = some (0, -1) := by decide +kernel
    rw [ha] at this
    cases this
    exact hx
  · have : ((runAll Rpc.exCfg.hdr exRegs start exActs).1[5]?).bind glance = some ([], 1, 0, 0) := by decide +kernel
    rw [ha] at this
    simp only [Option.bind_some, glance, Option.some.injEq, Prod.mk.injEq] at this
    exact this.2.1

example : ∃ es e x h, (runAll Rpc.exCfg.hdr exRegs start exActs).1[6]? = some (.handled (.ok es) e) ∧
    Event.replied x h ∈ es ∧ e.sockets = [] ∧ (x = -22 ∨ x = -78) := by
  obtain ⟨h1, h2, h3, h4, h5⟩ := exActs_ok
  obtain ⟨es, e, ha, -, hb⟩ := bsd_every_message_answered _ _ exRegs_wf exActs h2 h3 6 1 _ _ rfl (h5 _)
  obtain ⟨x, h, rfl⟩ := hb (Nat.le_refl 24)
  have hx : Event.replied x h ∈ [Event.received ⟨5, 24, (Rpc.exMap 1).base + 0x1000⟩ 6, .replied x h] := by simp
  obtain ⟨g1, -, g2⟩ := bsd_socket_denied _ _ exRegs_wf exActs h1 h2 6 1 _ _ rfl (h4 1) .connect (by decide) rfl
    (by
      intro f hf
      have e : configsFor 1 (exActs.take 6) = [] := by
        simp [configsFor, exActs, exMsg]
      rw [e] at hf
      cases hf with
      | allowed h => obtain ⟨_, _, h, _⟩ := h; simp at h
      | handled f h => obtain ⟨_, _, h, _⟩ := h; simp at h) _ e ha x h hx
  exact ⟨_, e, x, h, ha, hx, g1, g2⟩

end Verif.BsdAuthority
