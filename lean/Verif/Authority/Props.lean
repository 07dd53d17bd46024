import Verif.PathSyscall.Props
import Verif.NetEnd.Props
import Verif.AddrInfo.Props
import Verif.Callback.Props
import Verif.Rpc.Props
import Verif.Authority.Spec

/-!
# What the host does on behalf of its sandboxes: theorems
-/

namespace Verif.Authority

open Verif.Bounds (Region)
open Verif.FileTree (Export runHistory ShortPaths)
open Verif.Callback (Packet Event Handler tableOf)
open Verif.Callback.Spec (handlerFor)
open Verif.PathSyscall (Log)
open Verif.PathSyscall.Spec (Permitted Confined)
open Verif.Net (Op Config configure)
open Verif.NetEnd (Chosen)
open Verif.AddrInfo (AllocOk ListsFit)
open Verif.Rpc (Cfg Range Mapping Sys)
open Verif.Rpc.Spec (MapOk)
open Verif.Authority.Spec

theorem Confined.mono {hist : List Export} {text : List Byte} {lo lo' hi : Nat} {log : Log} (h : lo' ≤ lo)
    (hc : Confined hist text lo hi log) : Confined hist text lo' hi log := by
  intro k hk
  have := hc k hk
  revert this
  generalize log[k].op = op
  cases op with
  | openat2 => exact id
  | dup => exact id
  | fstat => rintro ⟨h1, h2, h3⟩; exact ⟨h1, by omega, h3⟩
  | faccessat2 => exact id
  | fstatat => rintro ⟨h1, h2, h3, h4⟩; exact ⟨h1, h2, by omega, h4⟩
  | close => exact id

/-- The library of a sandbox holds what the host has granted to it. -/
structure Holds (l : Lib) (i : Nat) (as : List Action) : Prop where
  tree : l.tree = runHistory (exportsTo i as)
  policies : l.policies = configure (configsFor i as)
  table : l.table = tableOf (handlersFor i as)

theorem fresh_holds (i : Nat) : Holds fresh i [] := by
  have h : fresh = { table := tableOf [] } := by
    unfold fresh
    rw [Callback.construct_table]
    rfl
  rw [h]
  exact ⟨rfl, rfl, rfl⟩

theorem act_holds {σ} (c : Cfg) (R : Range σ) (maps : Nat → Mapping) (st : Host σ) (as : List Action) (a : Action)
    (i : Nat) (hfew : (handlersFor i (as ++ [a])).length + 7 ≤ 2 ^ 31 - 1) (h : Holds (st.libs i) i as) :
    Holds ((act c R maps st a).2.libs i) i (as ++ [a]) := by
  obtain ⟨h1, h2, h3⟩ := h
  have e1 : exportsTo i (as ++ [a]) = exportsTo i as ++ exportsTo i [a] := List.filterMap_append
  have e2 : configsFor i (as ++ [a]) = configsFor i as ++ configsFor i [a] := List.filterMap_append
  have e3 : handlersFor i (as ++ [a]) = handlersFor i as ++ handlersFor i [a] := List.filterMap_append
  have same : ∀ l : Lib, l = st.libs i → exportsTo i [a] = [] → configsFor i [a] = [] → handlersFor i [a] = [] →
      Holds l i (as ++ [a]) := by
    intro l hl x1 x2 x3
    subst hl
    exact ⟨by rw [e1, x1, List.append_nil, h1], by rw [e2, x2, List.append_nil, h2],
      by rw [e3, x3, List.append_nil, h3]⟩
  cases a with
  | exports j e =>
    by_cases hj : i = j
    · subst hj
      have x1 : exportsTo i [Action.exports i e] = [e] := by simp [exportsTo]
      refine ⟨?_, ?_, ?_⟩
      · rw [e1, x1]
        simp only [act, Host.put, if_true, h1, runHistory, List.foldl_append, List.foldl_cons, List.foldl_nil]
      · rw [e2]
        simp only [act, Host.put, if_true, h2, configsFor, List.filterMap_cons, List.filterMap_nil, List.append_nil]
      · rw [e3]
        simp only [act, Host.put, if_true, h3, handlersFor, List.filterMap_cons, List.filterMap_nil, List.append_nil]
    · refine same _ ?_ ?_ rfl rfl
      · simp only [act, Host.put, if_neg hj]
      · simp [exportsTo, Ne.symm hj]
  | config j x =>
    by_cases hj : i = j
    · subst hj
      have x1 : configsFor i [Action.config i x] = [x] := by simp [configsFor]
      refine ⟨?_, ?_, ?_⟩
      · rw [e1]
        simp only [act, Host.put, if_true, h1, exportsTo, List.filterMap_cons, List.filterMap_nil, List.append_nil]
      · rw [e2, x1]
        simp only [act, Host.put, if_true, h2, configure, List.foldl_append, List.foldl_cons, List.foldl_nil]
      · rw [e3]
        simp only [act, Host.put, if_true, h3, handlersFor, List.filterMap_cons, List.filterMap_nil, List.append_nil]
    · refine same _ ?_ rfl ?_ rfl
      · simp only [act, Host.put, if_neg hj]
      · simp [configsFor, Ne.symm hj]
  | register j x =>
    by_cases hj : i = j
    · subst hj
      have x1 : handlersFor i [Action.register i x] = [x] := by simp [handlersFor]
      rw [e3, x1, List.length_append] at hfew
      have hr := Callback.registerCallback_tableOf (handlersFor i as) x
      rw [if_pos (by simp only [List.length_cons, List.length_nil] at hfew; omega)] at hr
      rw [← h3] at hr
      refine ⟨?_, ?_, ?_⟩
      · rw [e1]
        simp only [act, hr, Host.put, if_true, h1, exportsTo, List.filterMap_cons, List.filterMap_nil, List.append_nil]
      · rw [e2]
        simp only [act, hr, Host.put, if_true, h2, configsFor, List.filterMap_cons, List.filterMap_nil, List.append_nil]
      · rw [e3, x1]
        simp only [act, hr, Host.put, if_true]
    · refine same _ ?_ rfl rfl ?_
      · simp only [act]
        split <;> simp only [Host.put, if_neg hj]
      · simp [handlersFor, Ne.symm hj]
  | message => exact same _ rfl rfl rfl rfl
  | memory => exact same _ rfl rfl rfl rfl

theorem runAll_append {σ} (c : Cfg) (R : Range σ) (maps : Nat → Mapping) (bs : List Action) :
    ∀ (as : List Action) (st : Host σ),
    runAll c R maps st (as ++ bs) =
      ((runAll c R maps st as).1 ++ (runAll c R maps (runAll c R maps st as).2 bs).1,
        (runAll c R maps (runAll c R maps st as).2 bs).2) := by
  intro as
  induction as with
  | nil => intro st; rfl
  | cons a as ih =>
    intro st
    simp only [List.cons_append, runAll, ih]

theorem runAll_length {σ} (c : Cfg) (R : Range σ) (maps : Nat → Mapping) (as : List Action) :
    ∀ st : Host σ, (runAll c R maps st as).1.length = as.length := by
  induction as with
  | nil => intro st; rfl
  | cons a as ih => intro st; simp only [runAll, List.length_cons, ih]

theorem runAll_holds {σ} (c : Cfg) (R : Range σ) (maps : Nat → Mapping) (sys : Sys σ) (i : Nat) (n : Nat) :
    ∀ as : List Action, as.length = n → (handlersFor i as).length + 7 ≤ 2 ^ 31 - 1 →
    Holds ((runAll c R maps (start sys) as).2.libs i) i as := by
  induction n with
  | zero =>
    intro as hn _
    have : as = [] := List.eq_nil_of_length_eq_zero hn
    subst this
    exact fresh_holds i
  | succ n ih =>
    intro as hn hfew
    have hne : as ≠ [] := by intro h; subst h; cases hn
    obtain ⟨as, a, rfl⟩ : ∃ bs b, as = bs ++ [b] := ⟨as.dropLast, as.getLast hne, (List.dropLast_concat_getLast hne).symm⟩
    have hl : as.length = n := by simpa using hn
    have := ih as hl (by
      have e3 : handlersFor i (as ++ [a]) = handlersFor i as ++ handlersFor i [a] := List.filterMap_append
      rw [e3, List.length_append] at hfew
      omega)
    rw [runAll_append]
    exact act_holds c R maps _ as a i hfew this

/-- What is needed of the outside for one message: the sandbox's allocator gives blocks of its heap, and the lists of
addresses fit into memory. -/
structure Sane (r : Region) (o : Outside) : Prop where
  alloc : AllocOk r o.alloc
  lists : ListsFit o.lookup

section builtin

variable {hdr : Word} {r : Region} {l : Lib} {o : Outside} {i : Nat} {as : List Action} {p : Packet} {lo : Nat}

/-- What has to be shown about a handler. -/
def Fine (as : List Action) (i lo hi : Nat) (p : Packet) (x : Outcome Callback.Result × Effects) : Prop :=
  Justified as i lo hi p x.2 ∧ ∀ res, x.1 = .ok res → Sourced p x.2 res.handle

theorem path_fine (hwf : r.WF hdr) (hl : Holds l i as) (hs : ShortPaths (exportsTo i as))
    (hlo : lo ≤ r.base.toNat + hdr.toNat) (hk : p.req.kind.toNat < 3) (call : PathSyscall.Call) :
    Fine as i lo r.top.toNat p (logged (PathSyscall.serve (pathEnv hdr r l o) call)) := by
  have nothing : ∀ x : Outcome (Callback.Result × Log), (∀ res log, x = .ok (res, log) → log = [] ∧ res.handle = -1) →
      Fine as i lo r.top.toNat p (logged x) := by
    intro x hx
    cases x with
    | ok y =>
      obtain ⟨res, log⟩ := y
      obtain ⟨rfl, h⟩ := hx res log rfl
      exact ⟨.nothing, fun res' h' => by cases h'; exact .inl h⟩
    | abort => exact ⟨.nothing, nofun⟩
    | throws => exact ⟨.nothing, nofun⟩
    | ub => exact ⟨.nothing, nofun⟩
  by_cases hb : ∃ b, PathSyscall.getPath (pathEnv hdr r l o) call.path = .ok (some b)
  · obtain ⟨b, hb⟩ := hb
    obtain ⟨res, log, h1, h2, h3⟩ :=
      PathSyscall.serve_confined (pathEnv hdr r l o) hwf (exportsTo i as) hs hl.tree call b hb
    rw [h1]
    refine ⟨.files _ log hk (Confined.mono hlo h2), ?_⟩
    intro res' h'
    cases h'
    rcases h3 with h3 | ⟨e, he, h4, h5⟩
    · exact .inl h3
    · exact .inr (.inl ⟨hk, e, he, h4, h5⟩)
  · apply nothing
    intro res log hx
    have key : ∀ handler, PathSyscall.handlePath (pathEnv hdr r l o) call.path handler = .ok (res, log) →
        log = [] ∧ res.handle = -1 := by
      intro handler hh
      unfold PathSyscall.handlePath at hh
      split at hh
      · cases hh; exact ⟨rfl, rfl⟩
      · rename_i b hb'; exact absurd ⟨b, hb'⟩ hb
      · cases hh
      · cases hh
      · cases hh
    cases call with
    | open_ a fl m => exact key _ hx
    | access a m => exact key _ hx
    | stat a sb => exact key _ hx

theorem openat_fine {a : Word} {fl m : BitVec 32} {hi : Nat} (hk : p.req.kind.toNat = 3) :
    Fine as i lo hi p (logged (PathSyscall.handleOpenat (pathEnv hdr r l o) p.fd a fl m)) := by
  cases hx : PathSyscall.handleOpenat (pathEnv hdr r l o) p.fd a fl m with
  | abort => exact ⟨.nothing, nofun⟩
  | throws => exact ⟨.nothing, nofun⟩
  | ub => exact ⟨.nothing, nofun⟩
  | ok y =>
    obtain ⟨res, log⟩ := y
    obtain ⟨⟨q, x, e, h1⟩, h2, -⟩ := PathSyscall.openat_own_descriptor _ _ _ _ _ _ _ hx
    refine ⟨.relative log hk ?_, ?_⟩
    · cases log with
      | nil => cases h1
      | cons z zs =>
        simp only [List.take_succ_cons, List.take_zero, List.cons.injEq, and_true] at h1
        exact ⟨z, zs, rfl, ⟨q, _, _, by rw [h1]⟩, h2⟩
    · intro res' h'
      cases h'
      refine .inl ?_
      unfold PathSyscall.handleOpenat at hx
      split at hx
      · cases hx; rfl
      · cases hx
      · cases hx
      · cases hx

theorem sock_handle (ps : Net.Policies) (op : Op) (call : Net.Callee → Net.SockArgs → Int × Int)
    (m : Mem) (h : Int) (addr : Word) (len : BitVec 32) (res : Callback.Result)
    (hr : (Net.handleBindOrConnect hdr r ps op call m h addr len).result = .ok res) : res.handle = -1 := by
  unfold Net.handleBindOrConnect at hr
  split at hr
  · cases hr; rfl
  · simp only at hr
    split at hr
    · split at hr
      · cases hr; rfl
      · cases hr
      · cases hr
      · cases hr
    · cases hr

theorem callee_chosen {conf : List Config} {f : Net.Callee} (h : AddrInfo.calleeOf (configure conf) = some f) :
    Chosen conf .getAddrInfo (some f) := by
  have hi : Net.invoke (configure conf) .getAddrInfo (fun _ _ => (0, 0)) (⟨0, [], 0⟩ : Net.SockArgs) =
      .ok ((0, 0), [(f, ⟨0, [], 0⟩)]) := by
    unfold AddrInfo.calleeOf at h
    unfold Net.invoke
    split at h
    · cases h
    · rename_i hp; cases h; rw [hp]
    · rename_i g hp
      rw [hp]
      cases g with
      | none => cases h
      | some g => cases h; rfl
  exact NetEnd.invoke_calls hi (f, ⟨0, [], 0⟩) (by simp)

theorem socket_fine (hwf : r.WF hdr) (hl : Holds l i as) {op : Op} (hop : op ≠ .getAddrInfo) {bs : List Byte} {hi : Nat}
    (hk : p.req.kind.toNat = kindOf op) : Fine as i lo hi p (sockets hdr r l o op bs p.fd) := by
  have h1 := Net.sock_calls hdr r hwf l.policies op o.socket o.address p.fd (NetEnd.addrArg bs) (NetEnd.lenArg bs)
  have h2 := NetEnd.handler_calls (hdr := hdr) (reg := r) (conf := configsFor i as) (op := op) (call := o.socket)
    (m := o.address) (h := p.fd) (addr := NetEnd.addrArg bs) (len := NetEnd.lenArg bs)
  rw [← hl.policies] at h2
  have h3 := sock_handle (hdr := hdr) (r := r) l.policies op o.socket o.address p.fd (NetEnd.addrArg bs) (NetEnd.lenArg bs)
  simp only [Fine, sockets]
  generalize Net.handleBindOrConnect hdr r l.policies op o.socket o.address p.fd (NetEnd.addrArg bs)
    (NetEnd.lenArg bs) = out at h1 h2 h3
  obtain ⟨res, calls, reads⟩ := out
  refine ⟨?_, fun res' h' => .inl (h3 res' h')⟩
  obtain ⟨g1, g2, -⟩ := h1
  match calls, g1, g2, h2 with
  | [], _, _, _ => exact .nothing
  | [x], g1, _, h2 =>
    have := g1 x (by simp)
    exact .socket op x.1 x.2 hk hop (h2 x (by simp)) this.1 this.2.1

theorem finish_handle (v : AddrInfo.Env) (slot : Word) (x : Int × Int) (infos : List AddrInfo.Info)
    (calls : List (Net.Callee × AddrInfo.Query)) (res : Callback.Result)
    (hr : (AddrInfo.finish v slot x infos calls).result = .ok res) : res.handle = -1 := by
  unfold AddrInfo.finish at hr
  split at hr
  · split at hr
    · split at hr <;> (cases hr; rfl)
    · cases hr; rfl
  · cases hr; rfl

theorem lookup_handle (v : AddrInfo.Env) (node service hints slot : Word) (res : Callback.Result)
    (hr : (AddrInfo.handleGetaddrinfo v node service hints slot).result = .ok res) : res.handle = -1 := by
  unfold AddrInfo.handleGetaddrinfo at hr
  split at hr
  · cases hr; rfl
  · split at hr
    · cases hr; rfl
    · split at hr
      · unfold AddrInfo.ask at hr
        split at hr
        · exact finish_handle _ _ _ _ _ _ hr
        · cases hr
        · cases hr
        · cases hr
      · cases hr

theorem lookup_fine (hwf : r.WF hdr) (hl : Holds l i as) (ho : Sane r o) {node service hints slot : Word}
    (hlo : lo ≤ r.base.toNat) (hk : p.req.kind.toNat = 6) :
    Fine as i lo r.top.toNat p
      ((AddrInfo.handleGetaddrinfo (lookupEnv hdr r l o) node service hints slot).result,
        { lookups := (AddrInfo.handleGetaddrinfo (lookupEnv hdr r l o) node service hints slot).calls,
          stores := (AddrInfo.handleGetaddrinfo (lookupEnv hdr r l o) node service hints slot).stores }) := by
  have hst := AddrInfo.gai_stores_inside (lookupEnv hdr r l o) hwf ho.lists ho.alloc node service hints slot
  refine ⟨?_, fun res h => .inl (lookup_handle _ _ _ _ _ res h)⟩
  rcases AddrInfo.gai_shape (lookupEnv hdr r l o) node service hints slot with ⟨res, h⟩ | ⟨q, hs, h⟩
  · rw [h]; exact .nothing
  · rcases hc : AddrInfo.calleeOf l.policies with _ | f
    · rcases AddrInfo.ask_none (lookupEnv hdr r l o) slot q hc with h' | h' <;> rw [h, h']
      · exact .nothing
      · exact .nothing
    · have hch : Chosen (configsFor i as) .getAddrInfo (some f) := by
        rw [hl.policies] at hc; exact callee_chosen hc
      rw [AddrInfo.ask_some (lookupEnv hdr r l o) slot q f hc] at h
      rw [h] at hst ⊢
      have hcalls : (AddrInfo.finish (lookupEnv hdr r l o) slot ((lookupEnv hdr r l o).call f q).1
          ((lookupEnv hdr r l o).call f q).2 [(f, q)]).calls = [(f, q)] := by
        unfold AddrInfo.finish
        split
        · split
          · split <;> rfl
          · rfl
        · rfl
      simp only [hcalls]
      refine .lookup f q _ hk hch ?_
      intro s hs'
      obtain ⟨-, -, b, n, -, -, -, -, h1, h2, h3, h4, h5⟩ := hst (List.ne_nil_of_mem hs')
      change r.base.toNat ≤ b.toNat at h1
      change b.toNat + n.toNat ≤ r.top.toNat at h2
      change r.base.toNat + hdr.toNat ≤ slot.toNat at h3
      change slot.toNat + 8 ≤ r.top.toNat at h4
      rcases h5 s hs' with h5 | ⟨rfl, h6⟩
      · omega
      · omega

theorem builtin_fine (hwf : r.WF hdr) (hl : Holds l i as) (hs : ShortPaths (exportsTo i as)) (ho : Sane r o)
    (hlo : lo ≤ r.base.toNat) {bs : List Byte} : Fine as i lo r.top.toNat p (builtin hdr r l o p.req.kind.toNat bs p.fd) := by
  generalize hk : p.req.kind.toNat = k
  unfold builtin
  split
  · exact path_fine hwf hl hs (by omega) (by omega) _
  · exact path_fine hwf hl hs (by omega) (by omega) _
  · exact path_fine hwf hl hs (by omega) (by omega) _
  · exact openat_fine hk
  · exact socket_fine hwf hl (by decide) hk
  · exact socket_fine hwf hl (by decide) hk
  · exact lookup_fine hwf hl ho hlo hk
  · exact ⟨.nothing, fun res h => by cases h; exact .inl rfl⟩

theorem message_fine (hwf : r.WF hdr) (hl : Holds l i as) (hs : ShortPaths (exportsTo i as)) (ho : Sane r o)
    (hlo : lo ≤ r.base.toNat) :
    Justified as i lo r.top.toNat p (effects hdr r l o p) ∧
    ∀ es, Callback.handle l.table.handlers (run hdr r l o) (some p) o.sendOk = .ok es →
      ∀ x h, Event.replied x h ∈ es → Sourced p (effects hdr r l o p) h := by
  unfold effects Callback.handle
  simp only
  by_cases hlen : p.len < Callback.requestSize
  · rw [if_pos hlen, if_pos hlen]
    exact ⟨.nothing, fun es h => by cases h; nofun⟩
  · rw [if_neg hlen, if_neg hlen]
    have hd := Callback.dispatch_tableOf (handlersFor i as) p.req.kind
    rw [← hl.table] at hd
    rw [hd]
    have fin : ∀ (ret : Outcome Callback.Result) (e : Effects), (∀ res, ret = .ok res → Sourced p e res.handle) →
        ∀ es, (match ret with
          | .ok res => if o.sendOk = true then .ok [.received p.req p.fd, .replied res.integer res.handle]
            else .ok [.received p.req p.fd, .killed]
          | .abort => .abort
          | .throws => .throws
          | .ub => .ub : Outcome (List Event)) = .ok es → ∀ x h, Event.replied x h ∈ es → Sourced p e h := by
      intro ret e hr es h x y hm
      cases ret with
      | ok res =>
        simp only at h
        split at h
        · cases h
          simp only [List.mem_cons, List.not_mem_nil, or_false, reduceCtorEq, false_or, Event.replied.injEq] at hm
          rw [hm.2]
          exact hr res rfl
        · cases h
          simp only [List.mem_cons, List.not_mem_nil, or_false, reduceCtorEq] at hm
      | abort => cases h
      | throws => cases h
      | ub => cases h
    -- an entry whose function is fine and whose argument has at least one byte
    have entry : ∀ (n : Nat) (fn : List Byte → Int → Outcome Callback.Result × Effects), 0 < n →
        (∀ bs, Fine as i lo r.top.toNat p (fn bs p.fd)) →
        Justified as i lo r.top.toNat p
          (if (Callback.invoke hdr r n (fun bs f => (fn bs f).1) o.frame p.req p.fd).2 = [] then {}
            else (fn ((Callback.invoke hdr r n (fun bs f => (fn bs f).1) o.frame p.req p.fd).2.map o.frame) p.fd).2) ∧
        ∀ res, (Callback.invoke hdr r n (fun bs f => (fn bs f).1) o.frame p.req p.fd).1 = .ok res → Sourced p
          (if (Callback.invoke hdr r n (fun bs f => (fn bs f).1) o.frame p.req p.fd).2 = [] then {}
            else (fn ((Callback.invoke hdr r n (fun bs f => (fn bs f).1) o.frame p.req p.fd).2.map o.frame) p.fd).2)
          res.handle := by
      intro n fn hn hf
      unfold Callback.invoke
      split
      · exact ⟨.nothing, fun res h => by cases h; exact .inl rfl⟩
      · split
        · exact ⟨.nothing, fun res h => by cases h; exact .inl rfl⟩
        · have hne : Callback.copyAddrs p.req.data n ≠ [] := by
            intro h
            have := Callback.copyAddrs_length p.req.data n
            rw [h, List.length_nil] at this
            omega
          simp only [if_neg hne]
          exact hf _
    unfold handlerFor
    by_cases h7 : p.req.kind.toNat < 7
    · rw [if_pos h7]
      have hb := entry (frameSize p.req.kind.toNat) (builtin hdr r l o p.req.kind.toNat)
        (by unfold frameSize; split <;> decide) (fun bs => builtin_fine hwf hl hs ho hlo)
      exact ⟨hb.1, fin _ _ hb.2⟩
    · rw [if_neg h7]
      rcases hu : (handlersFor i as)[p.req.kind.toNat - 7]? with _ | h
      · exact ⟨.nothing, fin (.ok {}) {} (fun res h => by cases h; exact .inl rfl)⟩
      · have hb := entry (behind hdr r l o (.user h)).1 (behind hdr r l o (.user h)).2
          (by simp only [behind]; omega) (fun bs => ⟨.user (p.req.kind.toNat - 7) h bs (by omega) hu,
            fun res _ => .inr (.inr (by simp [behind]))⟩)
        exact ⟨hb.1, fin _ _ hb.2⟩

end builtin

/-- **C83.** In every run of the host and its sandboxes, whatever the sandboxes send, the host does something on behalf of
a sandbox only by virtue of what it granted to that very sandbox before: it uses files exported to it, calls the
functions chosen for its network, calls the handlers registered for it, uses the descriptors that it sent, and writes
only to its heap; and a descriptor sent to it was obtained in that way. -/
theorem authority {σ} (c : Cfg) (R : Range σ) (maps : Nat → Mapping) (hmaps : ∀ i, MapOk c (maps i)) (sys : Sys σ)
    (as : List Action) (hshort : ∀ i, ShortPaths (exportsTo i as))
    (hfew : ∀ i, (handlersFor i as).length + 7 ≤ 2 ^ 31 - 1) (k i : Nat) (o : Outside) (p : Packet)
    (hk : as[k]? = some (.message i o p)) (ho : Sane ((maps i).region c) o) :
    ∃ ev e, (runAll c R maps (start sys) as).1[k]? = some (.handled ev e) ∧
      Justified (as.take k) i ((maps i).base.toNat + c.hdr.toNat) ((maps i).base.toNat + (maps i).size.toNat) p e ∧
      ∀ es, ev = .ok es → ∀ x h, Event.replied x h ∈ es → Sourced p e h := by
  obtain ⟨hlt, hget⟩ := List.getElem?_eq_some_iff.1 hk
  have hsplit : as = as.take k ++ .message i o p :: as.drop (k + 1) := by
    rw [← hget, List.getElem_cons_drop, List.take_append_drop]
  have hlen : (as.take k).length = k := by rw [List.length_take]; omega
  have hf : (handlersFor i (as.take k)).length + 7 ≤ 2 ^ 31 - 1 := by
    have h : handlersFor i (as.take k ++ as.drop k) = handlersFor i (as.take k) ++ handlersFor i (as.drop k) :=
      List.filterMap_append
    have := hfew i
    rw [List.take_append_drop] at h
    rw [h, List.length_append] at this
    omega
  have hs : ShortPaths (exportsTo i (as.take k)) := by
    have h : exportsTo i (as.take k ++ as.drop k) = exportsTo i (as.take k) ++ exportsTo i (as.drop k) :=
      List.filterMap_append
    rw [List.take_append_drop] at h
    intro e he
    refine hshort i e ?_
    rw [h]
    exact List.mem_append_left _ he
  have hl := runAll_holds c R maps sys i k (as.take k) hlen hf
  have hwf : ((maps i).region c).WF c.hdr := Bounds.ofMapping_wf _ _ _ (hmaps i).room (hmaps i).no_wrap
  obtain ⟨hb1, hb2⟩ := Rpc.region_base c (maps i) (hmaps i)
  have hm := message_fine (p := p) (lo := (maps i).base.toNat + c.hdr.toNat) hwf hl hs ho (by omega)
  rw [hb2] at hm
  refine ⟨_, _, ?_, hm.1, hm.2⟩
  have hrun := runAll_append c R maps (.message i o p :: as.drop (k + 1)) (as.take k) (start sys)
  rw [← hsplit] at hrun
  rw [hrun]
  simp only
  rw [List.getElem?_append_right (by rw [runAll_length, hlen]; omega), runAll_length, hlen, Nat.sub_self]
  rfl

end Verif.Authority
