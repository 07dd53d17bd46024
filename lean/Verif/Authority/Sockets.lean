import Verif.Authority.Answer

/-!
# What a sandbox is told about its network calls: theorems (property C83)
-/

namespace Verif.Authority

open Verif.Bounds (Region)
open Verif.Callback (Packet Event)
open Verif.FileTree (ShortPaths)
open Verif.Net (Op)
open Verif.NetEnd (Chosen)
open Verif.Rpc (Cfg Range Mapping Sys)
open Verif.Rpc.Spec (MapOk)
open Verif.Authority.Spec

theorem sockets_answer (hdr : Word) (r : Region) (hwf : r.WF hdr) (l : Lib) (o : Outside) (op : Op) (bs : List Byte) (fd : Int)
    {res : Callback.Result} (h : (sockets hdr r l o op bs fd).1 = .ok res) :
    res.handle = -1 ∧ (((sockets hdr r l o op bs fd).2.sockets = [] ∧ (res.integer = -22 ∨ res.integer = -38)) ∨
      ∃ f a, (sockets hdr r l o op bs fd).2.sockets = [(op, f, a)] ∧
        res.integer = if 0 ≤ (o.socket f a).1 then (o.socket f a).1 else -(o.socket f a).2) := by
  simp only [sockets] at h ⊢
  by_cases hb : Net.BadSock hdr r fd (NetEnd.addrArg bs) (NetEnd.lenArg bs)
  · rw [Net.sock_refused hdr r hwf _ _ _ _ _ _ _ hb] at h ⊢
    cases h
    exact ⟨rfl, .inl ⟨rfl, .inl rfl⟩⟩
  · obtain ⟨buf, reads, -, -, -, -, he⟩ :=
      Net.sock_mediated hdr r hwf l.policies op o.socket o.address fd (NetEnd.addrArg bs) (NetEnd.lenArg bs) hb
    rw [he] at h ⊢
    unfold Net.invoke at h ⊢
    cases hg : l.policies.get op with
    | deny => rw [hg] at h; cases h; exact ⟨rfl, .inl ⟨rfl, .inr rfl⟩⟩
    | allow => rw [hg] at h; cases h; exact ⟨rfl, .inr ⟨_, _, rfl, rfl⟩⟩
    | handler f =>
      cases f with
      | none => rw [hg] at h; cases h
      | some f => rw [hg] at h; cases h; exact ⟨rfl, .inr ⟨_, _, rfl, rfl⟩⟩

theorem frameSize_pos (k : Nat) : 0 < frameSize k := by unfold frameSize; split <;> decide

theorem at_message {σ} (c : Cfg) (R : Range σ) (maps : Nat → Mapping) (sys : Sys σ)
    (as : List Action) (hfew : ∀ i, (handlersFor i as).length + 7 ≤ 2 ^ 31 - 1) (k i : Nat) (o : Outside) (p : Packet)
    (hk : as[k]? = some (.message i o p)) :
    ∃ l, Holds l i (as.take k) ∧ (runAll c R maps (start sys) as).1[k]? = some (.handled
      (Callback.handle l.table.handlers (run c.hdr ((maps i).region c) l o) (some p) o.sendOk)
      (effects c.hdr ((maps i).region c) l o p)) := by
  obtain ⟨hlt, hget⟩ := List.getElem?_eq_some_iff.1 hk
  have hsplit : as = as.take k ++ .message i o p :: as.drop (k + 1) := by
    rw [← hget, List.getElem_cons_drop, List.take_append_drop]
  have hlen : (as.take k).length = k := by rw [List.length_take]; omega
  have hf : (handlersFor i (as.take k)).length + 7 ≤ 2 ^ 31 - 1 := by
    have h : handlersFor i (as.take k ++ as.drop k) = handlersFor i (as.take k) ++ handlersFor i (as.drop k) :=
      List.filterMap_append
    have := hfew i
    rw [List.take_append_drop] at h
    rw [h, List.length_append] at this
    omega
  refine ⟨_, runAll_holds c R maps sys i k (as.take k) hlen hf, ?_⟩
  have hrun := runAll_append c R maps (.message i o p :: as.drop (k + 1)) (as.take k) (start sys)
  rw [← hsplit] at hrun
  rw [hrun]
  simp only
  rw [List.getElem?_append_right (by rw [runAll_length, hlen]; omega), runAll_length, hlen, Nat.sub_self]
  rfl

/-- **C83.** What a sandbox is told about `bind` and `connect`: that the arguments are bad (`EINVAL`) or that there is no
such call (`ENOSYS`) if no function was called; otherwise what the one function that was called has returned, or the negated
`errno`.  It never gets a descriptor. -/
theorem socket_answer {σ} (c : Cfg) (R : Range σ) (maps : Nat → Mapping) (hmaps : ∀ i, MapOk c (maps i)) (sys : Sys σ)
    (as : List Action) (hfew : ∀ i, (handlersFor i as).length + 7 ≤ 2 ^ 31 - 1) (k i : Nat) (o : Outside) (p : Packet)
    (hk : as[k]? = some (.message i o p)) (op : Op) (hop : op ≠ .getAddrInfo) (hkind : p.req.kind.toNat = kindOf op)
    (es : List Event) (e : Effects) (hs : (runAll c R maps (start sys) as).1[k]? = some (.handled (.ok es) e))
    (x h : Int) (hx : Event.replied x h ∈ es) :
    h = -1 ∧ ((e.sockets = [] ∧ (x = -22 ∨ x = -38)) ∨
      ∃ f a, e.sockets = [(op, f, a)] ∧ x = if 0 ≤ (o.socket f a).1 then (o.socket f a).1 else -(o.socket f a).2) := by
  obtain ⟨l, hl, he⟩ := at_message c R maps sys as hfew k i o p hk
  have hwf : ((maps i).region c).WF c.hdr := Bounds.ofMapping_wf _ _ _ (hmaps i).room (hmaps i).no_wrap
  rw [he] at hs
  simp only [Option.some.injEq, Seen.handled.injEq] at hs
  obtain ⟨h1, h2⟩ := hs
  subst h2
  have h7 : p.req.kind.toNat < 7 := by
    rw [hkind]; cases op <;> decide
  have hd : Callback.dispatch l.table.handlers p.req.kind = some (.builtin (kindOf op)) := by
    rw [hl.table, Callback.dispatch_tableOf, Callback.Spec.handlerFor, if_pos h7, hkind]
  unfold Callback.handle at h1
  unfold effects
  simp only at h1
  by_cases hlen : p.len < Callback.requestSize
  · rw [if_pos hlen] at h1; cases h1; cases hx
  rw [if_neg hlen] at h1 ⊢
  simp only [hd] at h1 ⊢
  have key : ∀ res, run c.hdr ((maps i).region c) l o (.builtin (kindOf op)) p.req p.fd = .ok res →
      res.handle = -1 ∧ (((effects c.hdr ((maps i).region c) l o p).sockets = [] ∧
        (res.integer = -22 ∨ res.integer = -38)) ∨
      ∃ f a, (effects c.hdr ((maps i).region c) l o p).sockets = [(op, f, a)] ∧
        res.integer = if 0 ≤ (o.socket f a).1 then (o.socket f a).1 else -(o.socket f a).2) := by
    intro res
    unfold effects
    rw [if_neg hlen]
    simp only [hd]
    unfold run Callback.invoke
    split
    · intro h; cases h; exact ⟨rfl, .inl ⟨rfl, .inr rfl⟩⟩
    · split
      · intro h; cases h; exact ⟨rfl, .inl ⟨rfl, .inr rfl⟩⟩
      · have hne : Callback.copyAddrs p.req.data (behind c.hdr ((maps i).region c) l o (.builtin (kindOf op))).1 ≠ [] := by
          intro h
          have := Callback.copyAddrs_length p.req.data (behind c.hdr ((maps i).region c) l o (.builtin (kindOf op))).1
          have hpos := frameSize_pos (kindOf op)
          have e : (behind c.hdr ((maps i).region c) l o (.builtin (kindOf op))).1 = frameSize (kindOf op) := rfl
          rw [h, List.length_nil] at this
          omega
        simp only [if_neg hne]
        have hb : ∀ bs, (behind c.hdr ((maps i).region c) l o (.builtin (kindOf op))).2 bs p.fd =
            sockets c.hdr ((maps i).region c) l o op bs p.fd := by
          intro bs
          cases op with
          | bind => rfl
          | connect => rfl
          | getAddrInfo => exact absurd rfl hop
        rw [hb]
        exact sockets_answer c.hdr _ hwf l o op _ p.fd
  unfold effects at key
  rw [if_neg hlen] at key
  simp only [hd] at key
  rcases hr : run c.hdr ((maps i).region c) l o (.builtin (kindOf op)) p.req p.fd with res | _ | _ | _ <;> rw [hr] at h1
  · simp only at h1
    split at h1
    · cases h1
      simp only [List.mem_cons, List.not_mem_nil, or_false, reduceCtorEq, false_or] at hx
      cases hx
      exact key res hr
    · cases h1
      simp at hx
  · cases h1
  · cases h1
  · cases h1

/-- **C83.** A sandbox for which the host has not allowed an operation, or has forbidden it again, reaches no function
with it, and is told so. -/
theorem socket_denied {σ} (c : Cfg) (R : Range σ) (maps : Nat → Mapping) (hmaps : ∀ i, MapOk c (maps i)) (sys : Sys σ)
    (as : List Action) (hshort : ∀ i, ShortPaths (exportsTo i as))
    (hfew : ∀ i, (handlersFor i as).length + 7 ≤ 2 ^ 31 - 1) (k i : Nat) (o : Outside) (p : Packet)
    (hk : as[k]? = some (.message i o p)) (ho : Sane ((maps i).region c) o) (op : Op) (hop : op ≠ .getAddrInfo)
    (hkind : p.req.kind.toNat = kindOf op) (hno : ∀ f, ¬ Chosen (configsFor i (as.take k)) op (some f))
    (es : List Event) (e : Effects) (hs : (runAll c R maps (start sys) as).1[k]? = some (.handled (.ok es) e))
    (x h : Int) (hx : Event.replied x h ∈ es) : e.sockets = [] ∧ h = -1 ∧ (x = -22 ∨ x = -38) := by
  obtain ⟨h1, h2⟩ := socket_answer c R maps hmaps sys as hfew k i o p hk op hop hkind es e hs x h hx
  rcases h2 with ⟨h2, h3⟩ | ⟨f, a, h2, -⟩
  · exact ⟨h2, h1, h3⟩
  · exfalso
    obtain ⟨ev, e', hb, hj, -⟩ := authority c R maps hmaps sys as hshort hfew k i o p hk ho
    rw [hs] at hb
    cases hb
    cases hj with
    | socket op' f' a' h3 h4 h5 =>
      simp only [List.cons.injEq, Prod.mk.injEq, and_true] at h2
      obtain ⟨rfl, rfl, rfl⟩ := h2
      exact hno _ h5
    | nothing => cases h2
    | files => cases h2
    | relative => cases h2
    | lookup => cases h2
    | user => cases h2

/-! ### Examples -/

open Verif.Rpc (exCfg exMap exSys buddyRange)

/-- No function is empty in the example run. -/
theorem exNoEmpty (i : Nat) : NoEmpty (configsFor i exActs) := by
  intro op h
  simp only [configsFor, List.mem_filterMap] at h
  obtain ⟨a, ha, hs⟩ := h
  simp only [exActs, exMsg, List.mem_cons, List.not_mem_nil, or_false] at ha
  rcases ha with rfl | rfl | rfl | rfl | rfl | rfl | rfl | rfl | rfl | rfl | rfl | rfl <;> simp at hs

theorem exCalm (b : Word) : Calm (exOut b) := by
  refine ⟨fun n x h => ?_, fun n h => (by cases h), fun h bs fd => ⟨_, rfl⟩⟩
  cases h
  exact List.length_replicate

/-- The `connect` of sandbox 0, which is allowed, reaches one function and gets its answer. -/
example : ∃ es e x h f a, (runAll exCfg (buddyRange exCfg) exMap (start exSys) exActs).1[7]? = some (.handled (.ok es) e) ∧
    Event.replied x h ∈ es ∧ e.sockets = [(.connect, f, a)] ∧
    x = if 0 ≤ ((exOut (exMap 0).base).socket f a).1 then ((exOut (exMap 0).base).socket f a).1
      else -((exOut (exMap 0).base).socket f a).2 := by
  obtain ⟨h1, h2, h3, -⟩ := exActs_ok
  obtain ⟨es, e, ha, -, hb⟩ := every_message_answered exCfg (buddyRange exCfg) exMap Rpc.exMap_ok exSys exActs h2 exNoEmpty
    7 0 _ _ rfl (exCalm _)
  obtain ⟨x, h, rfl⟩ := hb (Nat.le_refl 24)
  have hx : Event.replied x h ∈ [Event.received ⟨5, 24, (exMap 0).base + 0x1000⟩ 6, .replied x h] := by simp
  obtain ⟨-, g⟩ := socket_answer exCfg (buddyRange exCfg) exMap Rpc.exMap_ok exSys exActs h2 7 0 _ _ rfl .connect (by decide)
    rfl _ e ha x h hx
  have hl : ((runAll exCfg (buddyRange exCfg) exMap (start exSys) exActs).1[7]?).bind (fun s => match s with
      | .handled _ e => some e.sockets.length | _ => none) = some 1 := by decide +kernel
  rw [ha] at hl
  simp only [Option.bind_some, Option.some.injEq] at hl
  rcases g with ⟨g, -⟩ | ⟨f, a, g1, g2⟩
  · rw [g] at hl; cases hl
  · exact ⟨_, e, x, h, f, a, ha, hx, g1, g2⟩

/-- That of sandbox 1, which is not, reaches none. -/
example : ∃ es e x h, (runAll exCfg (buddyRange exCfg) exMap (start exSys) exActs).1[8]? = some (.handled (.ok es) e) ∧
    Event.replied x h ∈ es ∧ e.sockets = [] ∧ (x = -22 ∨ x = -38) := by
  obtain ⟨h1, h2, h3, -⟩ := exActs_ok
  obtain ⟨es, e, ha, -, hb⟩ := every_message_answered exCfg (buddyRange exCfg) exMap Rpc.exMap_ok exSys exActs h2 exNoEmpty
    8 1 _ _ rfl (exCalm _)
  obtain ⟨x, h, rfl⟩ := hb (Nat.le_refl 24)
  have hx : Event.replied x h ∈ [Event.received ⟨5, 24, (exMap 1).base + 0x1000⟩ 6, .replied x h] := by simp
  obtain ⟨g1, -, g2⟩ := socket_denied exCfg (buddyRange exCfg) exMap Rpc.exMap_ok exSys exActs h1 h2 8 1 _ _ rfl (h3 1)
    .connect (by decide) rfl
    (by
      intro f hf
      have e : configsFor 1 (exActs.take 8) = [] := by
        simp [configsFor, exActs, exMsg]
      rw [e] at hf
      cases hf with
      | allowed h => obtain ⟨_, _, h, _⟩ := h; simp at h
      | handled f h => obtain ⟨_, _, h, _⟩ := h; simp at h) _ e ha x h hx
  exact ⟨_, e, x, h, ha, hx, g1, g2⟩

end Verif.Authority
