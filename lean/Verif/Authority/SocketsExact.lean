import Verif.Authority.Sockets
import Verif.Authority.Ends
import Verif.Run.TotalProps

/-!
# Exactly what a sandbox is told about its network calls: specification and theorems (property C83)

`socket_answer` leaves open which of the refusals a sandbox gets, and with what the function is called.  Here each answer
is given its reason, in terms of the message, the memory and what the host has configured.
-/

namespace Verif.Authority

open Verif.Bounds (Region)
open Verif.Callback (Packet Event Result)
open Verif.Net (Op Config Callee SockArgs configure)
open Verif.NetEnd (Chosen)
open Verif.Rpc (Cfg Range Mapping Sys exCfg exMap exSys buddyRange)
open Verif.Rpc.Spec (MapOk)
open Spec

namespace Spec

/-- A request can be passed on: it came with a descriptor, and the address, of at most 4096 bytes, lies in the heap and does
not begin at its end (`src/libsandbox.cc:461-466`). -/
def Passable (hdr : Word) (r : Region) (fd : Int) (addr : Word) (len : Nat) : Prop :=
  0 ≤ fd ∧ len ≤ 4096 ∧ Inside hdr r addr len ∧ addr.toNat < r.top.toNat

/-- What is said about a network request whose frame is `bs`, and the functions that are called for it
(`include/process_sandbox/callbacks.h:149-163`, `src/libsandbox.cc:452-477`). -/
inductive Told (conf : List Config) (hdr : Word) (r : Region) (o : Outside) (op : Op) (p : Packet) (bs : List Byte) :
    Int → List (Op × Callee × SockArgs) → Prop where
  | frame : ¬ Accepted hdr r p 24 → Told conf hdr r o op p bs (-38) []
  | bad : Accepted hdr r p 24 → ¬ Passable hdr r p.fd (arg64 bs 8) (arg32 bs).toNat → Told conf hdr r o op p bs (-22) []
  | denied : Accepted hdr r p 24 → Passable hdr r p.fd (arg64 bs 8) (arg32 bs).toNat → Chosen conf op none →
      Told conf hdr r o op p bs (-38) []
  | called (f : Callee) (a : SockArgs) : Accepted hdr r p 24 → Passable hdr r p.fd (arg64 bs 8) (arg32 bs).toNat →
      Chosen conf op (some f) → a.fd = p.fd → a.len = (arg32 bs).toNat →
      (∀ j, j < a.len → a.buffer[j]? = some (o.address (.ofNat 64 ((arg64 bs 8).toNat + j)))) →
      (∀ j, a.len ≤ j → j < 4096 → a.buffer[j]? = some 0xa5) → a.buffer.length = 4096 →
      Told conf hdr r o op p bs (if 0 ≤ (o.socket f a).1 then (o.socket f a).1 else -(o.socket f a).2) [(op, f, a)]

end Spec

variable {hdr : Word} {r : Region} {l : Lib} {o : Outside}

/-- The configuration calls settle what the policy does. -/
theorem invoke_chosen {α : Type} (conf : List Config) (op : Op) (call : Callee → α → Int × Int) (a : α) :
    (Chosen conf op none ∧ Net.invoke (configure conf) op call a = .ok ((-1, 38), [])) ∨
    (∃ f, Chosen conf op (some f) ∧ Net.invoke (configure conf) op call a = .ok (call f a, [(f, a)])) ∨
    Net.invoke (configure conf) op call a = .throws := by
  rcases NetEnd.last_or_untouched conf op with hu | ⟨c, hl⟩
  · exact .inl ⟨.untouched hu, Net.invoke_default_deny conf op hu call a⟩
  · have hl' := hl
    obtain ⟨b, d, _, ht, _⟩ := hl'
    have hi := Net.invoke_last α conf op c hl call a
    cases c with
    | deny _ => cases ht; exact .inl ⟨.denied hl, hi.1 rfl⟩
    | allow _ => cases ht; exact .inr (.inl ⟨_, .allowed hl, hi.2.1 rfl⟩)
    | register _ f =>
      cases ht
      cases f with
      | none => exact .inr (.inr (hi.2.2.2 rfl))
      | some f => exact .inr (.inl ⟨_, .handled f hl, hi.2.2.1 f rfl⟩)

/-- What is said, and what is called, is settled by the message, the memory and the configuration. -/
theorem told_unique {conf : List Config} {op : Op} {p : Packet} {bs : List Byte} {x y : Int}
    {ss ts : List (Op × Callee × SockArgs)} (hx : Told conf hdr r o op p bs x ss) (hy : Told conf hdr r o op p bs y ts) :
    x = y ∧ ss = ts := by
  cases hx with
  | frame h => cases hy <;> first | exact ⟨rfl, rfl⟩ | (exact absurd ‹Accepted hdr r p 24› h)
  | bad h1 h2 => cases hy <;> first | exact ⟨rfl, rfl⟩ | contradiction
  | denied h1 h2 h3 =>
    cases hy with
    | frame => contradiction
    | bad => contradiction
    | denied => exact ⟨rfl, rfl⟩
    | called f a _ _ h4 => cases Run.chosen_unique h3 h4
  | called f a h1 h2 h3 h4 h5 h6 h7 h8 =>
    cases hy with
    | frame => contradiction
    | bad => contradiction
    | denied _ _ g => cases Run.chosen_unique h3 g
    | called f' a' g1 g2 g3 g4 g5 g6 g7 g8 =>
      cases Run.chosen_unique h3 g3
      have ha : a = a' := by
        have hb : a.buffer = a'.buffer := by
          apply List.ext_getElem?
          intro j
          by_cases hj : j < (arg32 bs).toNat
          · rw [h6 j (by omega), g6 j (by omega)]
          · by_cases hk : j < 4096
            · rw [h7 j (by omega) hk, g7 j (by omega) hk]
            · rw [List.getElem?_eq_none (by omega), List.getElem?_eq_none (by omega)]
        obtain ⟨a1, a2, a3⟩ := a
        obtain ⟨b1, b2, b3⟩ := a'
        simp only at hb h4 g4 h5 g5
        subst hb h4 g4 h5 g5
        rfl
      subst ha
      exact ⟨rfl, rfl⟩

theorem sockets_told (hwf : r.WF hdr) {conf : List Config} (hl : l.policies = configure conf) (op : Op) (p : Packet)
    (bs : List Byte) (hacc : Accepted hdr r p 24) {res : Result} (h : (sockets hdr r l o op bs p.fd).1 = .ok res) :
    res.handle = -1 ∧ Told conf hdr r o op p bs res.integer (sockets hdr r l o op bs p.fd).2.sockets := by
  have ha : NetEnd.addrArg bs = arg64 bs 8 := by unfold NetEnd.addrArg arg64; rw [ofLe_eq]
  have hlen : NetEnd.lenArg bs = arg32 bs := by unfold NetEnd.lenArg arg32; rw [ofLe_eq]
  unfold sockets at h ⊢
  simp only [ha, hlen] at h ⊢
  by_cases hb : Net.BadSock hdr r p.fd (arg64 bs 8) (arg32 bs)
  · rw [Net.sock_refused hdr r hwf l.policies op o.socket o.address p.fd _ _ hb] at h ⊢
    cases h
    refine ⟨rfl, .bad hacc ?_⟩
    unfold Passable Inside
    unfold Net.BadSock at hb
    omega
  · have hg : Passable hdr r p.fd (arg64 bs 8) (arg32 bs).toNat := by
      unfold Passable Inside
      unfold Net.BadSock at hb
      omega
    obtain ⟨buf, reads, hbl, hbuf, htail, -, he⟩ := Net.sock_mediated hdr r hwf l.policies op o.socket o.address p.fd _ _ hb
    rw [he] at h ⊢
    rw [hl] at h ⊢
    rcases invoke_chosen conf op o.socket (⟨p.fd, buf, (arg32 bs).toNat⟩ : SockArgs) with ⟨hc, hi⟩ | ⟨f, hc, hi⟩ | hi
    · rw [hi] at h ⊢
      cases h
      exact ⟨rfl, .denied hacc hg hc⟩
    · rw [hi] at h ⊢
      cases h
      exact ⟨rfl, .called f _ hacc hg hc rfl rfl hbuf htail hbl⟩
    · rw [hi] at h
      cases h

/-- **C83.** Exactly what a sandbox is told about `bind` and `connect`: `ENOSYS` if the frame is not accepted, then `EINVAL`
if it came without a descriptor or the address is too long or not in the heap, then `ENOSYS` if the host has not allowed
the operation to this sandbox; otherwise the function that the host chose last for this sandbox is called, once, with the
descriptor that came and a buffer of 4096 bytes that holds the bytes that were at the address and is filled up with a
constant, and its result is passed on.  There is never a descriptor in
the answer. -/
theorem socket_told {σ} (c : Cfg) (R : Range σ) (maps : Nat → Mapping) (hmaps : ∀ i, MapOk c (maps i)) (sys : Sys σ)
    (as : List Action) (hfew : ∀ i, (handlersFor i as).length + 7 ≤ 2 ^ 31 - 1) (k i : Nat) (o : Outside) (p : Packet)
    (hk : as[k]? = some (.message i o p)) (op : Op) (hop : op ≠ .getAddrInfo) (hkind : p.req.kind.toNat = kindOf op)
    (es : List Event) (e : Effects) (hs : (runAll c R maps (start sys) as).1[k]? = some (.handled (.ok es) e))
    (x h : Int) (hx : Event.replied x h ∈ es) :
    h = -1 ∧ Told (configsFor i (as.take k)) c.hdr ((maps i).region c) o op p (frameOf o p 24) x e.sockets := by
  obtain ⟨l, hl, he⟩ := at_message c R maps sys as hfew k i o p hk
  have hwf : ((maps i).region c).WF c.hdr := Bounds.ofMapping_wf _ _ _ (hmaps i).room (hmaps i).no_wrap
  rw [he] at hs
  simp only [Option.some.injEq, Seen.handled.injEq] at hs
  obtain ⟨h1, h2⟩ := hs
  subst h2
  have h7 : p.req.kind.toNat < 7 := by
    rw [hkind]; cases op <;> decide
  have hd : Callback.dispatch l.table.handlers p.req.kind = some (.builtin (kindOf op)) := by
    rw [hl.table, Callback.dispatch_tableOf, Callback.Spec.handlerFor, if_pos h7, hkind]
  by_cases hlen : p.len < Callback.requestSize
  · unfold Callback.handle at h1
    simp only at h1
    rw [if_pos hlen] at h1; cases h1; cases hx
  have key : ∀ res, run c.hdr ((maps i).region c) l o (.builtin (kindOf op)) p.req p.fd = .ok res →
      res.handle = -1 ∧ Told (configsFor i (as.take k)) c.hdr ((maps i).region c) o op p (frameOf o p 24) res.integer
        (effects c.hdr ((maps i).region c) l o p).sockets := by
    intro res hres
    have h24 : (behind c.hdr ((maps i).region c) l o (.builtin (kindOf op))).1 = 24 := by
      cases op with
      | bind => rfl
      | connect => rfl
      | getAddrInfo => exact absurd rfl hop
    have hb : ∀ bs, (behind c.hdr ((maps i).region c) l o (.builtin (kindOf op))).2 bs p.fd =
        sockets c.hdr ((maps i).region c) l o op bs p.fd := by
      intro bs
      cases op with
      | bind => rfl
      | connect => rfl
      | getAddrInfo => exact absurd rfl hop
    unfold run at hres
    rw [h24] at hres
    unfold effects
    rw [if_neg hlen]
    simp only [hd, h24]
    have hf := invoke_frame (o := o) hwf p 24 (by omega) (by omega)
      (fun bs f => ((behind c.hdr ((maps i).region c) l o (.builtin (kindOf op))).2 bs f).1)
    by_cases hacc : Accepted c.hdr ((maps i).region c) p 24
    · rw [hf.1 hacc] at hres
      simp only [hb] at hres
      obtain ⟨g1, g2⟩ := sockets_told hwf hl.policies op p _ hacc hres
      refine ⟨g1, ?_⟩
      have ha : (Callback.invoke c.hdr ((maps i).region c) 24
          (fun bs f => ((behind c.hdr ((maps i).region c) l o (.builtin (kindOf op))).2 bs f).1) o.frame p.req p.fd).2 =
          Callback.copyAddrs p.req.data 24 := by
        obtain ⟨a1, a2⟩ := hacc
        have hsz : p.req.size = BitVec.ofNat 64 24 := by
          apply BitVec.eq_of_toNat_eq; rw [a1]; rfl
        unfold Callback.invoke
        rw [if_neg (by simpa using hsz), if_neg (by rw [hsz, (inside_iff hwf p.req.data 24 (by omega) (by omega)).2 a2]; decide)]
      rw [ha]
      have hne : Callback.copyAddrs p.req.data 24 ≠ [] := by
        intro h
        have := Callback.copyAddrs_length p.req.data 24
        rw [h] at this
        cases this
      rw [if_neg hne, frame_eq, hb]
      exact g2
    · rw [hf.2 hacc] at hres
      cases hres
      refine ⟨rfl, ?_⟩
      rw [Callback.invoke_refuses c.hdr ((maps i).region c) hwf 24 (by omega) _ o.frame p.req p.fd hacc]
      exact .frame hacc
  unfold Callback.handle at h1
  simp only at h1
  rw [if_neg hlen] at h1
  simp only [hd] at h1
  rcases hr : run c.hdr ((maps i).region c) l o (.builtin (kindOf op)) p.req p.fd with res | _ | _ | _ <;> rw [hr] at h1
  · simp only at h1
    split at h1
    · cases h1
      simp only [List.mem_cons, List.not_mem_nil, or_false, reduceCtorEq, false_or] at hx
      cases hx
      exact key res hr
    · cases h1
      simp at hx
  · cases h1
  · cases h1
  · cases h1

/-! ### Examples -/

/-- The `connect` of sandbox 0 is passed to the system, which the host allowed; the hypotheses hold. -/
example : ∃ es e x h f a, (runAll exCfg (buddyRange exCfg) exMap (start exSys) exActs).1[7]? = some (.handled (.ok es) e) ∧
    Event.replied x h ∈ es ∧ e.sockets = [(.connect, f, a)] ∧ a.fd = 6 ∧ Chosen (configsFor 0 (exActs.take 7)) .connect (some f) := by
  obtain ⟨h1, h2, h3, -⟩ := exActs_ok
  obtain ⟨es, e, ha, -, hb⟩ := every_message_answered exCfg (buddyRange exCfg) exMap Rpc.exMap_ok exSys exActs h2 exNoEmpty
    7 0 _ _ rfl (exCalm _)
  obtain ⟨x, h, rfl⟩ := hb (Nat.le_refl 24)
  have hx : Event.replied x h ∈ [Event.received ⟨5, 24, (exMap 0).base + 0x1000⟩ 6, .replied x h] := by simp
  obtain ⟨-, g⟩ := socket_told exCfg (buddyRange exCfg) exMap Rpc.exMap_ok exSys exActs h2 7 0 _ _ rfl .connect (by decide)
    rfl _ e ha x h hx
  have hl : ((runAll exCfg (buddyRange exCfg) exMap (start exSys) exActs).1[7]?).bind (fun s => match s with
      | .handled _ e => some e.sockets.length | _ => none) = some 1 := by decide +kernel
  rw [ha] at hl
  simp only [Option.bind_some, Option.some.injEq] at hl
  have hc : ∃ f a, e.sockets = [(.connect, f, a)] ∧ a.fd = 6 ∧ Chosen (configsFor 0 (exActs.take 7)) .connect (some f) := by
    revert g hl
    generalize e.sockets = ss
    intro g hl
    cases g with
    | frame => cases hl
    | bad => cases hl
    | denied => cases hl
    | called f a _ _ hc hfd => exact ⟨f, a, rfl, hfd, hc⟩
  obtain ⟨f, a, hc⟩ := hc
  exact ⟨_, e, x, h, f, a, ha, hx, hc⟩

/-- That of sandbox 1 is well-formed and is refused because the host has not allowed it to this sandbox. -/
example : ∃ es e x h, (runAll exCfg (buddyRange exCfg) exMap (start exSys) exActs).1[8]? = some (.handled (.ok es) e) ∧
    Event.replied x h ∈ es ∧ e.sockets = [] ∧ x = -38 := by
  obtain ⟨h1, h2, h3, -⟩ := exActs_ok
  obtain ⟨es, e, ha, -, hb⟩ := every_message_answered exCfg (buddyRange exCfg) exMap Rpc.exMap_ok exSys exActs h2 exNoEmpty
    8 1 _ _ rfl (exCalm _)
  obtain ⟨x, h, rfl⟩ := hb (Nat.le_refl 24)
  have hx : Event.replied x h ∈ [Event.received ⟨5, 24, (exMap 1).base + 0x1000⟩ 6, .replied x h] := by simp
  have hl : ((runAll exCfg (buddyRange exCfg) exMap (start exSys) exActs).1[8]?).bind (fun s => match s with
      | .handled (.ok [_, .replied x _]) e => some (e.sockets.length, x) | _ => none) = some (0, -38) := by decide +kernel
  rw [ha] at hl
  have hl : some (e.sockets.length, x) = some (0, (-38 : Int)) := hl
  simp only [Option.some.injEq, Prod.mk.injEq] at hl
  exact ⟨_, e, x, h, ha, hx, List.length_eq_zero_iff.1 hl.1, hl.2⟩

end Verif.Authority
