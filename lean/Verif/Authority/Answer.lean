import Verif.Authority.Isolation

/-!
# Every request is answered: theorems (C87)
-/

namespace Verif.Authority

open Verif.Bounds (Region)
open Verif.Strings (MallocOk MallocTotal)
open Verif.Callback (Packet Event Result tableOf)
open Verif.Net (Op Config configure)
open Verif.Rpc (Cfg Range Mapping Sys exCfg exMap exSys buddyRange)
open Verif.Rpc.Spec (MapOk)
open Spec

theorem configure_full (cs : List Config) (h : NoEmpty cs) (op : Op) : (configure cs).get op ≠ .handler none := by
  have key : ∀ (cs : List Config) (ps : Net.Policies), NoEmpty cs → ps.get op ≠ .handler none →
      (cs.foldl Config.run ps).get op ≠ .handler none := by
    intro cs
    induction cs with
    | nil => exact fun ps _ h => h
    | cons x xs ih =>
      intro ps hn hp
      refine ih _ (fun op' hm => hn op' (by simp [hm])) ?_
      have hx : x ≠ .register op none := fun e => hn op (by simp [e])
      cases x with
      | deny op' => cases op <;> cases op' <;> first | exact hp | exact nofun
      | allow op' => cases op <;> cases op' <;> first | exact hp | exact nofun
      | register op' f =>
        cases f with
        | none => cases op <;> cases op' <;> first | exact hp | exact absurd rfl hx
        | some f => cases op <;> cases op' <;> first | exact hp | exact nofun
  exact key cs {} h (by cases op <;> exact nofun)

section
variable {hdr : Word} {r : Region} {l : Lib} {o : Outside} {i : Nat} {as : List Action}

theorem invoke_full {α : Type} {ps : Net.Policies} {op : Op} (h : ps.get op ≠ .handler none)
    (call : Net.Callee → α → Int × Int) (arg : α) : ∃ x, Net.invoke ps op call arg = .ok x := by
  unfold Net.invoke
  split
  · exact ⟨_, rfl⟩
  · exact ⟨_, rfl⟩
  · exact ⟨_, rfl⟩
  · rename_i h'; exact absurd h' h

theorem getPath_ok (ho : Calm o) (a : Word) : ∃ b, PathSyscall.getPath (pathEnv hdr r l o) a = .ok b := by
  unfold PathSyscall.getPath
  rcases Strings.strdupOut_safe hdr r o.malloc ho.malloc ho.total o.path.1 o.path.2 a with h | ⟨b, h, -⟩
  · exact ⟨_, h⟩
  · exact ⟨_, h⟩

theorem finish_ok (v : AddrInfo.Env) (slot : Word) (x : Int × Int) (infos : List AddrInfo.Info)
    (calls : List (Net.Callee × AddrInfo.Query)) : ∃ res, (AddrInfo.finish v slot x infos calls).result = .ok res := by
  unfold AddrInfo.finish
  split
  · split
    · split <;> exact ⟨_, rfl⟩
    · exact ⟨_, rfl⟩
  · exact ⟨_, rfl⟩

theorem builtin_ok (hwf : r.WF hdr) (hl : Holds l i as) (hn : NoEmpty (configsFor i as)) (ho : Calm o) (k : Nat) (bs : List Byte)
    (fd : Int) : ∃ res, (builtin hdr r l o k bs fd).1 = .ok res := by
  have hfull : ∀ op, l.policies.get op ≠ .handler none := by rw [hl.policies]; exact configure_full _ hn
  have hserve : ∀ c, ∃ res, (logged (PathSyscall.serve (pathEnv hdr r l o) c)).1 = .ok res := by
    intro c
    obtain ⟨x, hx⟩ := PathSyscall.serve_total (pathEnv hdr r l o) ho.malloc ho.total c
    rw [hx]; exact ⟨_, rfl⟩
  have hsock : ∀ op, ∃ res, (sockets hdr r l o op bs fd).1 = .ok res := by
    intro op
    by_cases hb : Net.BadSock hdr r fd (NetEnd.addrArg bs) (NetEnd.lenArg bs)
    · have := Net.sock_refused hdr r hwf l.policies op o.socket o.address fd (NetEnd.addrArg bs) (NetEnd.lenArg bs) hb
      exact ⟨_, congrArg Net.SockOut.result this⟩
    · obtain ⟨buf, reads, -, -, -, -, he⟩ := Net.sock_mediated hdr r hwf l.policies op o.socket o.address fd
        (NetEnd.addrArg bs) (NetEnd.lenArg bs) hb
      obtain ⟨x, hx⟩ := invoke_full (hfull op) o.socket ⟨fd, buf, (NetEnd.lenArg bs).toNat⟩
      rw [hx] at he
      exact ⟨_, congrArg Net.SockOut.result he⟩
  unfold builtin
  split
  · exact hserve _
  · exact hserve _
  · exact hserve _
  · obtain ⟨b, hb⟩ := getPath_ok (hdr := hdr) (r := r) (l := l) ho (word bs 1)
    unfold PathSyscall.handleOpenat
    rw [hb]; exact ⟨_, rfl⟩
  · exact hsock _
  · exact hsock _
  · simp only [AddrInfo.handleGetaddrinfo]
    split
    · exact ⟨_, rfl⟩
    · split
      · exact ⟨_, rfl⟩
      · have hs : ∀ m1 m2 a, ∃ b, (Strings.strdupOut hdr r o.malloc m1 m2 a).result = .ok b := by
          intro m1 m2 a
          rcases Strings.strdupOut_safe hdr r o.malloc ho.malloc ho.total m1 m2 a with h | ⟨b, h, -⟩
          · exact ⟨_, h⟩
          · exact ⟨_, h⟩
        obtain ⟨b1, h1⟩ := hs o.node.1 o.node.2 (word bs 3)
        obtain ⟨b2, h2⟩ := hs o.service.1 o.service.2 (word bs 2)
        simp only [lookupEnv, h1, h2]
        unfold AddrInfo.ask
        obtain ⟨x, hx⟩ := invoke_full (hfull .getAddrInfo) (fun c q => (o.lookup c q).1)
          ⟨b1.map Strings.cText, b2.map Strings.cText, AddrInfo.copyHints (lookupEnv hdr r l o) (word bs 1)⟩
        simp only [lookupEnv] at hx ⊢
        rw [hx]
        exact finish_ok _ _ _ _ _
  · exact ⟨_, rfl⟩

theorem handle_ok (hwf : r.WF hdr) (hl : Holds l i as) (hn : NoEmpty (configsFor i as)) (ho : Calm o) (p : Packet)
    (hlen : 24 ≤ p.len) : ∃ x h, Callback.handle l.table.handlers (run hdr r l o) (some p) o.sendOk =
      .ok [.received p.req p.fd, if o.sendOk then .replied x h else .killed] := by
  have hret : ∀ ret : Outcome Result, (∃ res, ret = .ok res) → ∃ x h,
      (match ret with
      | .ok res =>
        if o.sendOk then .ok [.received p.req p.fd, .replied res.integer res.handle]
        else .ok [.received p.req p.fd, .killed]
      | .abort => .abort
      | .throws => .throws
      | .ub => .ub : Outcome (List Event)) = .ok [.received p.req p.fd, if o.sendOk then .replied x h else .killed] := by
    rintro ret ⟨res, rfl⟩
    refine ⟨res.integer, res.handle, ?_⟩
    cases o.sendOk <;> rfl
  have hinv : ∀ n fn, (∀ bs fd, ∃ res, fn bs fd = .ok res) →
      ∃ res, (Callback.invoke hdr r n fn o.frame p.req p.fd).1 = .ok res := by
    intro n fn hf
    unfold Callback.invoke
    split
    · exact ⟨_, rfl⟩
    · split
      · exact ⟨_, rfl⟩
      · exact hf _ _
  unfold Callback.handle
  simp only
  rw [if_neg (by have h24 : Callback.requestSize = 24 := rfl
                 omega)]
  refine hret _ ?_
  rw [hl.table, Callback.dispatch_tableOf]
  unfold Callback.Spec.handlerFor
  split
  · exact ⟨_, rfl⟩
  · exact ⟨_, rfl⟩
  · rename_i h hb hh
    split at hh
    · cases hh
      exact hinv _ _ (fun bs fd => builtin_ok hwf hl hn ho _ bs fd)
    · rcases hu : (handlersFor i as)[p.req.kind.toNat - 7]? with _ | u
      · rw [hu] at hh; cases hh
      · rw [hu] at hh
        cases hh
        exact hinv _ _ (fun bs fd => ho.user u bs fd)

end

/-- **C87.** In every run, every message of a sandbox that has the size of a request is answered exactly once, whatever
it contains: the host receives it and sends one reply, or ends the sandbox if the reply cannot be sent; shorter messages
have no effect.  In particular no message ends the host, and no message keeps a later one from being answered. -/
theorem every_message_answered {σ} (c : Cfg) (R : Range σ) (maps : Nat → Mapping) (hmaps : ∀ i, MapOk c (maps i))
    (sys : Sys σ) (as : List Action) (hfew : ∀ i, (handlersFor i as).length + 7 ≤ 2 ^ 31 - 1)
    (hfull : ∀ i, NoEmpty (configsFor i as)) (k i : Nat) (o : Outside) (p : Packet)
    (hk : as[k]? = some (.message i o p)) (ho : Calm o) :
    ∃ es e, (runAll c R maps (start sys) as).1[k]? = some (.handled (.ok es) e) ∧
      (p.len < 24 → es = []) ∧
      (24 ≤ p.len → ∃ x h, es = [.received p.req p.fd, if o.sendOk then .replied x h else .killed]) := by
  obtain ⟨hlt, hget⟩ := List.getElem?_eq_some_iff.1 hk
  have hsplit : as = as.take k ++ .message i o p :: as.drop (k + 1) := by
    rw [← hget, List.getElem_cons_drop, List.take_append_drop]
  have hlen : (as.take k).length = k := by rw [List.length_take]; omega
  have hf : (handlersFor i (as.take k)).length + 7 ≤ 2 ^ 31 - 1 := by
    have h : handlersFor i (as.take k ++ as.drop k) = handlersFor i (as.take k) ++ handlersFor i (as.drop k) :=
      List.filterMap_append
    have := hfew i
    rw [List.take_append_drop] at h
    rw [h, List.length_append] at this
    omega
  have hn : NoEmpty (configsFor i (as.take k)) := by
    have h : configsFor i (as.take k ++ as.drop k) = configsFor i (as.take k) ++ configsFor i (as.drop k) :=
      List.filterMap_append
    rw [List.take_append_drop] at h
    intro op he
    refine hfull i op ?_
    rw [h]
    exact List.mem_append_left _ he
  have hl := runAll_holds c R maps sys i k (as.take k) hlen hf
  have hwf : ((maps i).region c).WF c.hdr := Bounds.ofMapping_wf _ _ _ (hmaps i).room (hmaps i).no_wrap
  have hrun := runAll_append c R maps (.message i o p :: as.drop (k + 1)) (as.take k) (start sys)
  rw [← hsplit] at hrun
  have hat : (runAll c R maps (start sys) as).1[k]? = some (.handled
      (Callback.handle ((runAll c R maps (start sys) (as.take k)).2.libs i).table.handlers
        (run c.hdr ((maps i).region c) ((runAll c R maps (start sys) (as.take k)).2.libs i) o) (some p) o.sendOk)
      (effects c.hdr ((maps i).region c) ((runAll c R maps (start sys) (as.take k)).2.libs i) o p)) := by
    rw [hrun]
    simp only
    rw [List.getElem?_append_right (by rw [runAll_length, hlen]; omega), runAll_length, hlen, Nat.sub_self]
    rfl
  rw [hat]
  by_cases h24 : p.len < 24
  · refine ⟨[], effects c.hdr ((maps i).region c) ((runAll c R maps (start sys) (as.take k)).2.libs i) o p, ?_, fun _ => rfl,
      fun h => by omega⟩
    have : ∀ t f, Callback.handle t f (some p) o.sendOk = .ok [] := by
      intro t f
      unfold Callback.handle
      exact if_pos h24
    rw [this]
  · obtain ⟨x, h, he⟩ := handle_ok hwf hl hn ho p (by omega)
    rw [he]
    exact ⟨_, _, rfl, fun h => absurd h h24, fun _ => ⟨x, h, rfl⟩⟩

/-- The hypotheses can be met, with messages of all kinds. -/
example : (∀ i, MapOk exCfg (exMap i)) ∧ (∀ i, (handlersFor i exActs).length + 7 ≤ 2 ^ 31 - 1) ∧
    (∀ i, NoEmpty (configsFor i exActs)) ∧ (∀ b, Calm (exOut b)) ∧
    exActs[3]? = some (.message 0 (exOut (exMap 0).base) ⟨24, ⟨0, 16, (exMap 0).base + 0x1000⟩, -1⟩) := by
  refine ⟨?_, exActs_ok.2.1, ?_, ?_, rfl⟩
  · exact Rpc.exMap_ok
  · intro i op h
    simp only [configsFor, List.mem_filterMap] at h
    obtain ⟨a, ha, hs⟩ := h
    simp only [exActs, exMsg, List.mem_cons, List.not_mem_nil, or_false] at ha
    rcases ha with rfl | rfl | rfl | rfl | rfl | rfl | rfl | rfl | rfl | rfl | rfl | rfl <;> simp at hs
  · intro b
    refine ⟨fun n x h => ?_, fun n h => (by cases h), fun h bs fd => ⟨_, rfl⟩⟩
    cases h
    exact List.length_replicate

/-- An empty function registered for `connect` makes a well-formed request throw out of the dispatcher. -/
example : (match (runAll exCfg (buddyRange exCfg) exMap (start exSys)
    [.config 0 (.register .connect none), exMsg 0 5 24 6]).1[1]? with
    | some (.handled .throws _) => true | _ => false) = true := by decide +kernel

end Verif.Authority
