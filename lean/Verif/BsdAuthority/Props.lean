import Verif.BsdPath.Props
import Verif.BsdName.Lists
import Verif.BsdName.Lemmas
import Verif.Authority.Answer
import Verif.Authority.Isolation
import Verif.BsdAuthority.Spec

/-!
# What the host on FreeBSD does on behalf of its sandboxes: theorems (property C129)
-/

namespace Verif.BsdAuthority

open Verif.Bounds (Region)
open Verif.FileTree (Export runHistory ShortPaths)
open Verif.Callback (Packet Event Handler tableOf)
open Verif.Callback.Spec (handlerFor)
open Verif.BsdPath (Log)
open Verif.Net (Op Config configure)
open Verif.NetEnd (Chosen)
open Verif.BsdNet (noSys)
open Verif.Authority (Lib Sane frameSize fresh)
open Verif.Authority.Spec (kindOf Calm NoEmpty)
open Verif.BsdAuthority.Spec

theorem noSys_ok {x : Outcome Callback.Result} {res : Callback.Result} (h : noSys x = .ok res) :
    ∃ res', x = .ok res' ∧ res.handle = res'.handle := by
  cases x with
  | ok y =>
    refine ⟨y, rfl, ?_⟩
    simp only [noSys] at h
    cases h
    split <;> rfl
  | abort => cases h
  | throws => cases h
  | ub => cases h

theorem permitted_mono {hist : List Export} {text : List Byte} {lo lo' hi : Nat} {op : BsdPath.HostOp} (h : lo' ≤ lo)
    (hp : BsdPath.Spec.Permitted hist text lo hi op) : BsdPath.Spec.Permitted hist text lo' hi op := by
  cases op with
  | openat => exact hp
  | faccessat => exact hp
  | fstatat => obtain ⟨h1, h2, h3, h4⟩ := hp; exact ⟨h1, h2, by omega, h4⟩
  | dup => exact hp
  | fstat => obtain ⟨h1, h2, h3⟩ := hp; exact ⟨h1, by omega, h3⟩
  | close => exact hp

/-- The library of a sandbox holds what the host has granted to it. -/
structure Holds (l : Lib) (i : Nat) (as : List Action) : Prop where
  tree : l.tree = runHistory (exportsTo i as)
  policies : l.policies = configure (configsFor i as)
  table : l.table = tableOf (handlersFor i as)

theorem fresh_holds (i : Nat) : Holds fresh i [] := by
  obtain ⟨h1, h2, h3⟩ := Authority.fresh_holds i
  exact ⟨h1, h2, h3⟩

theorem act_holds (hdr : Word) (regs : Nat → Region) (st : Nat → Lib) (as : List Action) (a : Action)
    (i : Nat) (hfew : (handlersFor i (as ++ [a])).length + 7 ≤ 2 ^ 31 - 1) (h : Holds (st i) i as) :
    Holds ((act hdr regs st a).2 i) i (as ++ [a]) := by
  obtain ⟨h1, h2, h3⟩ := h
  have e1 : exportsTo i (as ++ [a]) = exportsTo i as ++ exportsTo i [a] := List.filterMap_append
  have e2 : configsFor i (as ++ [a]) = configsFor i as ++ configsFor i [a] := List.filterMap_append
  have e3 : handlersFor i (as ++ [a]) = handlersFor i as ++ handlersFor i [a] := List.filterMap_append
  have same : ∀ l : Lib, l = st i → exportsTo i [a] = [] → configsFor i [a] = [] → handlersFor i [a] = [] →
      Holds l i (as ++ [a]) := by
    intro l hl x1 x2 x3
    subst hl
    exact ⟨by rw [e1, x1, List.append_nil, h1], by rw [e2, x2, List.append_nil, h2],
      by rw [e3, x3, List.append_nil, h3]⟩
  cases a with
  | exports j e =>
    by_cases hj : i = j
    · subst hj
      have x1 : exportsTo i [Action.exports i e] = [e] := by simp [exportsTo]
      refine ⟨?_, ?_, ?_⟩
      · rw [e1, x1]
        simp only [act, put, if_true, h1, runHistory, List.foldl_append, List.foldl_cons, List.foldl_nil]
      · rw [e2]
        simp only [act, put, if_true, h2, configsFor, List.filterMap_cons, List.filterMap_nil, List.append_nil]
      · rw [e3]
        simp only [act, put, if_true, h3, handlersFor, List.filterMap_cons, List.filterMap_nil, List.append_nil]
    · refine same _ ?_ ?_ rfl rfl
      · simp only [act, put, if_neg hj]
      · simp [exportsTo, Ne.symm hj]
  | config j x =>
    by_cases hj : i = j
    · subst hj
      have x1 : configsFor i [Action.config i x] = [x] := by simp [configsFor]
      refine ⟨?_, ?_, ?_⟩
      · rw [e1]
        simp only [act, put, if_true, h1, exportsTo, List.filterMap_cons, List.filterMap_nil, List.append_nil]
      · rw [e2, x1]
        simp only [act, put, if_true, h2, configure, List.foldl_append, List.foldl_cons, List.foldl_nil]
      · rw [e3]
        simp only [act, put, if_true, h3, handlersFor, List.filterMap_cons, List.filterMap_nil, List.append_nil]
    · refine same _ ?_ rfl ?_ rfl
      · simp only [act, put, if_neg hj]
      · simp [configsFor, Ne.symm hj]
  | register j x =>
    by_cases hj : i = j
    · subst hj
      have x1 : handlersFor i [Action.register i x] = [x] := by simp [handlersFor]
      rw [e3, x1, List.length_append] at hfew
      have hr := Callback.registerCallback_tableOf (handlersFor i as) x
      rw [if_pos (by simp only [List.length_cons, List.length_nil] at hfew; omega)] at hr
      rw [← h3] at hr
      refine ⟨?_, ?_, ?_⟩
      · rw [e1]
        simp only [act, hr, put, if_true, h1, exportsTo, List.filterMap_cons, List.filterMap_nil, List.append_nil]
      · rw [e2]
        simp only [act, hr, put, if_true, h2, configsFor, List.filterMap_cons, List.filterMap_nil, List.append_nil]
      · rw [e3, x1]
        simp only [act, hr, put, if_true]
    · refine same _ ?_ rfl rfl ?_
      · simp only [act]
        split <;> simp only [put, if_neg hj]
      · simp [handlersFor, Ne.symm hj]
  | message => exact same _ rfl rfl rfl rfl

theorem runAll_append (hdr : Word) (regs : Nat → Region) (bs : List Action) :
    ∀ (as : List Action) (st : Nat → Lib),
    runAll hdr regs st (as ++ bs) =
      ((runAll hdr regs st as).1 ++ (runAll hdr regs (runAll hdr regs st as).2 bs).1,
        (runAll hdr regs (runAll hdr regs st as).2 bs).2) := by
  intro as
  induction as with
  | nil => intro st; rfl
  | cons a as ih =>
    intro st
    simp only [List.cons_append, runAll, ih]

theorem runAll_length (hdr : Word) (regs : Nat → Region) (as : List Action) :
    ∀ st : Nat → Lib, (runAll hdr regs st as).1.length = as.length := by
  induction as with
  | nil => intro st; rfl
  | cons a as ih => intro st; simp only [runAll, List.length_cons, ih]

theorem runAll_holds (hdr : Word) (regs : Nat → Region) (i : Nat) (n : Nat) :
    ∀ as : List Action, as.length = n → (handlersFor i as).length + 7 ≤ 2 ^ 31 - 1 →
    Holds ((runAll hdr regs start as).2 i) i as := by
  induction n with
  | zero =>
    intro as hn _
    have : as = [] := List.eq_nil_of_length_eq_zero hn
    subst this
    exact fresh_holds i
  | succ n ih =>
    intro as hn hfew
    have hne : as ≠ [] := by intro h; subst h; cases hn
    obtain ⟨as, a, rfl⟩ : ∃ bs b, as = bs ++ [b] := ⟨as.dropLast, as.getLast hne, (List.dropLast_concat_getLast hne).symm⟩
    have hl : as.length = n := by simpa using hn
    have := ih as hl (by
      have e3 : handlersFor i (as ++ [a]) = handlersFor i as ++ handlersFor i [a] := List.filterMap_append
      rw [e3, List.length_append] at hfew
      omega)
    rw [runAll_append]
    exact act_holds hdr regs _ as a i hfew this

section builtin

variable {hdr : Word} {r : Region} {l : Lib} {o : Outside} {i : Nat} {as : List Action} {p : Packet} {lo : Nat}

/-- What has to be shown about a handler. -/
def Fine (as : List Action) (i lo hi : Nat) (p : Packet) (x : Outcome Callback.Result × Effects) : Prop :=
  Justified as i lo hi p x.2 ∧ ∀ res, x.1 = .ok res → Sourced p x.2 res.handle

theorem path_fine (hwf : r.WF hdr) (hl : Holds l i as) (hs : ShortPaths (exportsTo i as))
    (hlo : lo ≤ r.base.toNat + hdr.toNat) (hk : p.req.kind.toNat < 3) (call : PathSyscall.Call) :
    Fine as i lo r.top.toNat p (logged (BsdPath.serve (pathEnv hdr r l o) call)) := by
  have nothing : ∀ x : Outcome (Callback.Result × Log), (∀ res log, x = .ok (res, log) → log = [] ∧ res.handle = -1) →
      Fine as i lo r.top.toNat p (logged x) := by
    intro x hx
    cases x with
    | ok y =>
      obtain ⟨res, log⟩ := y
      obtain ⟨rfl, h⟩ := hx res log rfl
      exact ⟨.nothing, fun res' h' => by cases h'; exact .inl h⟩
    | abort => exact ⟨.nothing, nofun⟩
    | throws => exact ⟨.nothing, nofun⟩
    | ub => exact ⟨.nothing, nofun⟩
  by_cases hb : ∃ b, BsdPath.getPath (pathEnv hdr r l o) call.path = .ok (some b)
  · obtain ⟨b, hb⟩ := hb
    obtain ⟨res, log, h1, h2, h3, h4⟩ :=
      BsdPath.bsd_confined (pathEnv hdr r l o) hwf (exportsTo i as) hs hl.tree call b hb
    rw [h1]
    refine ⟨.files _ log hk h2 (fun e he => permitted_mono hlo (h3 e he)), ?_⟩
    intro res' h'
    cases h'
    rcases h4 with h4 | ⟨e, he, h5, h6⟩
    · exact .inl h4
    · exact .inr (.inl ⟨hk, e, he, h5, h6⟩)
  · apply nothing
    intro res log hx
    have key : ∀ handler, BsdPath.handlePath (pathEnv hdr r l o) call.path handler = .ok (res, log) →
        log = [] ∧ res.handle = -1 := by
      intro handler hh
      unfold BsdPath.handlePath at hh
      split at hh
      · cases hh; exact ⟨rfl, rfl⟩
      · rename_i b hb'; exact absurd ⟨b, hb'⟩ hb
      · cases hh
      · cases hh
      · cases hh
    cases call with
    | open_ a fl m => exact key _ hx
    | access a m => exact key _ hx
    | stat a sb => exact key _ hx

theorem openat_fine {a : Word} {fl m : BitVec 32} {hi : Nat} (hk : p.req.kind.toNat = 3) :
    Fine as i lo hi p (logged (BsdPath.handleOpenat (pathEnv hdr r l o) p.fd a fl m)) := by
  cases hx : BsdPath.handleOpenat (pathEnv hdr r l o) p.fd a fl m with
  | abort => exact ⟨.nothing, nofun⟩
  | throws => exact ⟨.nothing, nofun⟩
  | ub => exact ⟨.nothing, nofun⟩
  | ok y =>
    obtain ⟨res, log⟩ := y
    obtain ⟨⟨q, x, e, h1, hx', -⟩, h2, -, h3⟩ := BsdPath.bsd_openat_own _ _ _ _ _ _ _ hx
    refine ⟨.relative log hk ?_, ?_⟩
    · cases log with
      | nil => cases h1
      | cons z zs =>
        simp only [List.take_succ_cons, List.take_zero, List.cons.injEq, and_true] at h1
        exact ⟨z, zs, rfl, ⟨q, _, _, by rw [h1], hx'⟩, h2⟩
    · intro res' h'
      cases h'
      exact .inl h3

theorem socket_fine (hwf : r.WF hdr) (hl : Holds l i as) {op : Op} (hop : op ≠ .getAddrInfo) {bs : List Byte} {hi : Nat}
    (hk : p.req.kind.toNat = kindOf op) : Fine as i lo hi p (sockets hdr r l o op bs p.fd) := by
  have h1 := Net.sock_calls hdr r hwf l.policies op o.socket o.address p.fd (BsdNet.addrArg bs) (BsdNet.lenArg bs)
  have h2 := NetEnd.handler_calls (hdr := hdr) (reg := r) (conf := configsFor i as) (op := op) (call := o.socket)
    (m := o.address) (h := p.fd) (addr := BsdNet.addrArg bs) (len := BsdNet.lenArg bs)
  rw [← hl.policies] at h2
  have h3 := Authority.sock_handle (hdr := hdr) (r := r) l.policies op o.socket o.address p.fd (BsdNet.addrArg bs)
    (BsdNet.lenArg bs)
  simp only [Fine, sockets]
  generalize Net.handleBindOrConnect hdr r l.policies op o.socket o.address p.fd (BsdNet.addrArg bs)
    (BsdNet.lenArg bs) = out at h1 h2 h3
  obtain ⟨res, calls, reads⟩ := out
  refine ⟨?_, fun res' h' => ?_⟩
  · obtain ⟨g1, g2, -⟩ := h1
    match calls, g1, g2, h2 with
    | [], _, _, _ => exact .nothing
    | [x], g1, _, h2 =>
      have := g1 x (by simp)
      exact .socket op x.1 x.2 hk hop (h2 x (by simp)) this.1 this.2.1
  · split at h'
    · obtain ⟨y, hy, he⟩ := noSys_ok h'
      exact .inl (he.trans (h3 y hy))
    · exact .inl (h3 res' h')

theorem finish_handle (v : AddrInfo.Env) (slot : Word) (x : Int × Int) (infos : List AddrInfo.Info)
    (calls : List (Net.Callee × AddrInfo.Query)) (res : Callback.Result)
    (hr : (BsdName.finish v slot x infos calls).result = .ok res) : res.handle = -1 := by
  unfold BsdName.finish at hr
  split at hr
  · split at hr
    · split at hr <;> (cases hr; rfl)
    · cases hr; rfl
  · cases hr; rfl

theorem lookup_handle (v : AddrInfo.Env) (node service hints slot : Word) (res : Callback.Result)
    (hr : (BsdName.handleGetaddrinfo v node service hints slot).result = .ok res) : res.handle = -1 := by
  unfold BsdName.handleGetaddrinfo at hr
  split at hr
  · cases hr; rfl
  · split at hr
    · cases hr; rfl
    · split at hr
      · unfold BsdName.ask at hr
        split at hr
        · exact finish_handle _ _ _ _ _ _ hr
        · exact finish_handle _ _ _ _ _ _ hr
        · cases hr
        · cases hr
        · cases hr
      · cases hr

theorem lookup_fine (hwf : r.WF hdr) (hl : Holds l i as) (ho : Sane r o.toLinux) {node service hints slot : Word}
    (hlo : lo ≤ r.base.toNat) (hk : p.req.kind.toNat = 6) :
    Fine as i lo r.top.toNat p
      ((BsdName.handleGetaddrinfo (Authority.lookupEnv hdr r l o.toLinux) node service hints slot).result,
        { lookups := (BsdName.handleGetaddrinfo (Authority.lookupEnv hdr r l o.toLinux) node service hints slot).calls,
          stores := (BsdName.handleGetaddrinfo (Authority.lookupEnv hdr r l o.toLinux) node service hints slot).stores }) := by
  generalize hv : Authority.lookupEnv hdr r l o.toLinux = v
  have e1 : v.hdr = hdr := by rw [← hv]; rfl
  have e2 : v.region = r := by rw [← hv]; rfl
  have e3 : v.policies = l.policies := by rw [← hv]; rfl
  have hst := BsdName.gai_stores_inside v (by rw [e1, e2]; exact hwf) (by rw [← hv]; exact ho.lists)
    (by rw [← hv]; exact ho.alloc) node service hints slot
  refine ⟨?_, fun res h => .inl (lookup_handle _ _ _ _ _ res h)⟩
  rcases BsdName.gai_shape v node service hints slot with ⟨res, h⟩ | ⟨q, hs, h⟩
  · rw [h]; exact .nothing
  · rcases hc : AddrInfo.calleeOf v.policies with _ | f
    · rcases BsdName.ask_none v slot q hc with h' | h' <;> rw [h, h']
      · exact .nothing
      · exact .nothing
    · have hch : Chosen (configsFor i as) .getAddrInfo (some f) := by
        rw [e3, hl.policies] at hc; exact Authority.callee_chosen hc
      rw [BsdName.ask_some v slot q f hc] at h
      rw [h] at hst ⊢
      have hcalls := BsdName.finish_calls v slot (v.call f q).1 (v.call f q).2 [(f, q)]
      simp only [hcalls]
      refine .lookup f q _ hk hch ?_
      intro s hs'
      obtain ⟨-, -, b, n, -, -, -, -, h1, h2, h3, h4, h5⟩ := hst (List.ne_nil_of_mem hs')
      rw [e2] at h1 h2 h3 h4
      rw [e1] at h3
      rcases h5 s hs' with h5 | ⟨rfl, h6⟩
      · omega
      · omega

theorem builtin_fine (hwf : r.WF hdr) (hl : Holds l i as) (hs : ShortPaths (exportsTo i as)) (ho : Sane r o.toLinux)
    (hlo : lo ≤ r.base.toNat) {bs : List Byte} : Fine as i lo r.top.toNat p (builtin hdr r l o p.req.kind.toNat bs p.fd) := by
  generalize hk : p.req.kind.toNat = k
  unfold builtin
  cases hd : BsdEnd.decode k bs with
  | some call =>
    have : k < 3 := by
      unfold BsdEnd.decode at hd
      split at hd
      · omega
      · omega
      · omega
      · cases hd
    exact path_fine hwf hl hs (by omega) (by omega) _
  | none =>
    simp only
    split
    · exact openat_fine hk
    · exact socket_fine hwf hl (by decide) hk
    · exact socket_fine hwf hl (by decide) hk
    · exact lookup_fine hwf hl ho hlo hk
    · exact ⟨.nothing, fun res h => by cases h; exact .inl rfl⟩

theorem frameSize_pos (k : Nat) : 0 < frameSize k := by unfold frameSize; split <;> decide

/-- An entry whose function is fine and whose argument has at least one byte. -/
theorem run_fine {h : Handler} (hn : 0 < (behind hdr r l o h).1)
    (hf : ∀ bs, Fine as i lo r.top.toNat p ((behind hdr r l o h).2 bs p.fd)) :
    Fine as i lo r.top.toNat p (run hdr r l o h p.req p.fd) := by
  have idle : Fine as i lo r.top.toNat p (noSys (.ok {}), {}) :=
    ⟨.nothing, fun res h => by cases h; exact .inl rfl⟩
  unfold run Callback.invoke
  split
  · exact idle
  · split
    · exact idle
    · have hne : Callback.copyAddrs p.req.data (behind hdr r l o h).1 ≠ [] := by
        intro h0
        have := Callback.copyAddrs_length p.req.data (behind hdr r l o h).1
        rw [h0, List.length_nil] at this
        omega
      simp only [if_neg hne]
      exact hf _

theorem message_fine (hwf : r.WF hdr) (hl : Holds l i as) (hs : ShortPaths (exportsTo i as)) (ho : Sane r o.toLinux)
    (hlo : lo ≤ r.base.toNat) :
    Justified as i lo r.top.toNat p (handle hdr r l o p).2 ∧
    ∀ es, (handle hdr r l o p).1 = .ok es → ∀ x h, Event.replied x h ∈ es → Sourced p (handle hdr r l o p).2 h := by
  have fin : ∀ x : Outcome Callback.Result × Effects, Fine as i lo r.top.toNat p x →
      Justified as i lo r.top.toNat p (match x.1 with
        | .ok res =>
          ((.ok [.received p.req p.fd, if o.sendOk then .replied res.integer res.handle else .killed], x.2) :
            Outcome (List Event) × Effects)
        | .abort => (.abort, x.2)
        | .throws => (.throws, x.2)
        | .ub => (.ub, x.2)).2 ∧
      ∀ es, (match x.1 with
        | .ok res =>
          ((.ok [.received p.req p.fd, if o.sendOk then .replied res.integer res.handle else .killed], x.2) :
            Outcome (List Event) × Effects)
        | .abort => (.abort, x.2)
        | .throws => (.throws, x.2)
        | .ub => (.ub, x.2)).1 = .ok es → ∀ y h, Event.replied y h ∈ es → Sourced p (match x.1 with
        | .ok res =>
          ((.ok [.received p.req p.fd, if o.sendOk then .replied res.integer res.handle else .killed], x.2) :
            Outcome (List Event) × Effects)
        | .abort => (.abort, x.2)
        | .throws => (.throws, x.2)
        | .ub => (.ub, x.2)).2 h := by
    rintro ⟨ret, e⟩ ⟨h1, h2⟩
    cases ret with
    | ok res =>
      refine ⟨h1, ?_⟩
      intro es h y z hm
      cases h
      simp only [List.mem_cons, List.not_mem_nil, or_false, reduceCtorEq, false_or] at hm
      split at hm
      · simp only [Event.replied.injEq] at hm
        rw [hm.2]
        exact h2 res rfl
      · cases hm
    | abort => exact ⟨h1, nofun⟩
    | throws => exact ⟨h1, nofun⟩
    | ub => exact ⟨h1, nofun⟩
  unfold handle
  by_cases hlen : p.len < Callback.requestSize
  · rw [if_pos hlen]
    exact ⟨.nothing, fun es h => by cases h; nofun⟩
  · rw [if_neg hlen]
    have hd := Callback.dispatch_tableOf (handlersFor i as) p.req.kind
    rw [← hl.table] at hd
    rw [hd]
    unfold handlerFor
    by_cases h7 : p.req.kind.toNat < 7
    · rw [if_pos h7]
      exact fin _ (run_fine (h := .builtin p.req.kind.toNat) (frameSize_pos _) (fun bs => builtin_fine hwf hl hs ho hlo))
    · rw [if_neg h7]
      rcases hu : (handlersFor i as)[p.req.kind.toNat - 7]? with _ | h
      · exact fin (noSys (.ok {}), {}) ⟨.nothing, fun res h => by cases h; exact .inl rfl⟩
      · exact fin _ (run_fine (h := .user h) (by simp only [behind]; omega)
          (fun bs => ⟨.user (p.req.kind.toNat - 7) h bs (by omega) hu, fun res _ => .inr (.inr (by simp [behind]))⟩))

end builtin

/-- What the host has done before a message, and what it does about it. -/
theorem at_message (hdr : Word) (regs : Nat → Region) (as : List Action)
    (hfew : ∀ i, (handlersFor i as).length + 7 ≤ 2 ^ 31 - 1) (k i : Nat) (o : Outside) (p : Packet)
    (hk : as[k]? = some (.message i o p)) :
    ∃ l, Holds l i (as.take k) ∧ (runAll hdr regs start as).1[k]? =
      some (.handled (handle hdr (regs i) l o p).1 (handle hdr (regs i) l o p).2) := by
  obtain ⟨hlt, hget⟩ := List.getElem?_eq_some_iff.1 hk
  have hsplit : as = as.take k ++ .message i o p :: as.drop (k + 1) := by
    rw [← hget, List.getElem_cons_drop, List.take_append_drop]
  have hlen : (as.take k).length = k := by rw [List.length_take]; omega
  have hf : (handlersFor i (as.take k)).length + 7 ≤ 2 ^ 31 - 1 := by
    have h : handlersFor i (as.take k ++ as.drop k) = handlersFor i (as.take k) ++ handlersFor i (as.drop k) :=
      List.filterMap_append
    have := hfew i
    rw [List.take_append_drop] at h
    rw [h, List.length_append] at this
    omega
  refine ⟨_, runAll_holds hdr regs i k (as.take k) hlen hf, ?_⟩
  have hrun := runAll_append hdr regs (.message i o p :: as.drop (k + 1)) (as.take k) start
  rw [← hsplit] at hrun
  rw [hrun]
  simp only
  rw [List.getElem?_append_right (by rw [runAll_length, hlen]; omega), runAll_length, hlen, Nat.sub_self]
  rfl

/-- **C129.** In every run of the host on FreeBSD and its sandboxes, whatever the sandboxes send, the host does something on
behalf of a sandbox only by virtue of what it granted to that very sandbox before: it uses files exported to it, calls
the functions chosen for its network, calls the handlers registered for it, uses the descriptors that it sent, and writes
only to its heap; and a descriptor sent to it was obtained in that way. -/
theorem bsd_authority (hdr : Word) (regs : Nat → Region) (hregs : ∀ i, (regs i).WF hdr)
    (as : List Action) (hshort : ∀ i, ShortPaths (exportsTo i as))
    (hfew : ∀ i, (handlersFor i as).length + 7 ≤ 2 ^ 31 - 1) (k i : Nat) (o : Outside) (p : Packet)
    (hk : as[k]? = some (.message i o p)) (ho : Sane (regs i) o.toLinux) :
    ∃ ev e, (runAll hdr regs start as).1[k]? = some (.handled ev e) ∧
      Justified (as.take k) i (regs i).base.toNat (regs i).top.toNat p e ∧
      ∀ es, ev = .ok es → ∀ x h, Event.replied x h ∈ es → Sourced p e h := by
  obtain ⟨l, hl, he⟩ := at_message hdr regs as hfew k i o p hk
  have hs : ShortPaths (exportsTo i (as.take k)) := by
    have h : exportsTo i (as.take k ++ as.drop k) = exportsTo i (as.take k) ++ exportsTo i (as.drop k) :=
      List.filterMap_append
    rw [List.take_append_drop] at h
    intro e he
    refine hshort i e ?_
    rw [h]
    exact List.mem_append_left _ he
  have hm := message_fine (p := p) (lo := (regs i).base.toNat) (hregs i) hl hs ho (Nat.le_refl _)
  exact ⟨_, _, he, hm.1, hm.2⟩

/-! ### Sandboxes do not influence each other -/

theorem act_other (hdr : Word) (regs : Nat → Region) (st : Nat → Lib) (a : Action) (i : Nat) (h : about a ≠ i) :
    (act hdr regs st a).2 i = st i := by
  cases a with
  | exports j e => exact if_neg (Ne.symm h)
  | config j x => exact if_neg (Ne.symm h)
  | register j x =>
    simp only [act]
    split
    · exact if_neg (Ne.symm h)
    · rfl
    · rfl
    · rfl
  | message => rfl

theorem act_own (hdr : Word) (regs : Nat → Region) (st st' : Nat → Lib) (a : Action) (h : st (about a) = st' (about a)) :
    (act hdr regs st a).1 = (act hdr regs st' a).1 ∧
      (act hdr regs st a).2 (about a) = (act hdr regs st' a).2 (about a) := by
  cases a with
  | exports j e => simp only [about] at h; exact ⟨rfl, by simp only [act, put, about, if_true, h]⟩
  | config j x => simp only [about] at h; exact ⟨rfl, by simp only [act, put, about, if_true, h]⟩
  | register j x =>
    simp only [about] at h
    simp only [act, about, h]
    split
    · exact ⟨rfl, by simp only [put, if_true]⟩
    · exact ⟨rfl, h⟩
    · exact ⟨rfl, h⟩
    · exact ⟨rfl, h⟩
  | message j o p => simp only [about] at h; exact ⟨by simp only [act, h], h⟩

theorem seen_own (hdr : Word) (regs : Nat → Region) (i : Nat) (as : List Action) : ∀ st st' : Nat → Lib, st i = st' i →
    seenBy i as (runAll hdr regs st as).1 = (runAll hdr regs st' (as.filter (fun a => about a = i))).1 := by
  induction as with
  | nil => intros; rfl
  | cons a as ih =>
    intro st st' h
    by_cases ha : about a = i
    · subst ha
      obtain ⟨h1, h2⟩ := act_own hdr regs st st' a h
      have := ih _ _ h2
      simp only [seenBy] at this ⊢
      simp only [runAll, List.zip_cons_cons, List.filter_cons, decide_true, if_true, List.map_cons, this, h1]
    · have := ih (act hdr regs st a).2 st' (by rw [act_other hdr regs st a i ha, h])
      simp only [seenBy] at this ⊢
      simp only [runAll, List.zip_cons_cons, List.filter_cons, ha, decide_false, Bool.false_eq_true, if_false, this]

/-- **C129.** What happens to a sandbox through its library (the numbers of its callbacks, the answers to its messages and
everything that the host does because of them) is what would happen if the host had no other sandbox. -/
theorem bsd_isolation (hdr : Word) (regs : Nat → Region) (i : Nat) (as : List Action) :
    seenBy i as (runAll hdr regs start as).1 = (runAll hdr regs start (as.filter (fun a => about a = i))).1 :=
  seen_own hdr regs i as _ _ rfl

/-! ### Every message is answered -/

section answers

variable {hdr : Word} {r : Region} {l : Lib} {o : Outside} {i : Nat} {as : List Action}

theorem noSys_some {x : Outcome Callback.Result} (h : ∃ res, x = .ok res) : ∃ res, noSys x = .ok res := by
  obtain ⟨res, rfl⟩ := h
  exact ⟨_, rfl⟩

theorem finish_ok (v : AddrInfo.Env) (slot : Word) (x : Int × Int) (infos : List AddrInfo.Info)
    (calls : List (Net.Callee × AddrInfo.Query)) : ∃ res, (BsdName.finish v slot x infos calls).result = .ok res := by
  unfold BsdName.finish
  split
  · split
    · split <;> exact ⟨_, rfl⟩
    · exact ⟨_, rfl⟩
  · exact ⟨_, rfl⟩

theorem builtin_ok (hwf : r.WF hdr) (hl : Holds l i as) (hn : NoEmpty (configsFor i as)) (ho : Calm o.toLinux) (k : Nat)
    (bs : List Byte) (fd : Int) : ∃ res, (builtin hdr r l o k bs fd).1 = .ok res := by
  have hfull : ∀ op, l.policies.get op ≠ .handler none := by rw [hl.policies]; exact Authority.configure_full _ hn
  have hroom : ∀ m a, ¬ Strings.NoRoom hdr r o.malloc m a := by
    rintro m a ⟨-, s, -, -, h⟩
    exact ho.total _ h
  have hends := BsdPath.bsd_ends_iff (pathEnv hdr r l o) hwf ho.malloc
  have hlog : ∀ x, (∃ y, x = .ok y) → ∃ res, (logged x).1 = .ok res := by
    rintro x ⟨⟨res, log⟩, rfl⟩; exact ⟨res, rfl⟩
  have hsock : ∀ op, ∃ res, (sockets hdr r l o op bs fd).1 = .ok res := by
    intro op
    have key : ∃ res, (Net.handleBindOrConnect hdr r l.policies op o.socket o.address fd (BsdNet.addrArg bs)
        (BsdNet.lenArg bs)).result = .ok res := by
      by_cases hb : Net.BadSock hdr r fd (BsdNet.addrArg bs) (BsdNet.lenArg bs)
      · have := Net.sock_refused hdr r hwf l.policies op o.socket o.address fd (BsdNet.addrArg bs) (BsdNet.lenArg bs) hb
        exact ⟨_, congrArg Net.SockOut.result this⟩
      · obtain ⟨buf, reads, -, -, -, -, he⟩ := Net.sock_mediated hdr r hwf l.policies op o.socket o.address fd
          (BsdNet.addrArg bs) (BsdNet.lenArg bs) hb
        obtain ⟨x, hx⟩ := Authority.invoke_full (hfull op) o.socket ⟨fd, buf, (BsdNet.lenArg bs).toNat⟩
        rw [hx] at he
        exact ⟨_, congrArg Net.SockOut.result he⟩
    simp only [sockets]
    split
    · exact noSys_some key
    · exact key
  unfold builtin
  cases BsdEnd.decode k bs with
  | some call => exact hlog _ ((hends.1 call).2 (hroom _ _))
  | none =>
    simp only
    split
    · exact hlog _ ((hends.2 _ _ _ _).2 (hroom _ _))
    · exact hsock _
    · exact hsock _
    · simp only [BsdName.handleGetaddrinfo]
      split
      · exact ⟨_, rfl⟩
      · split
        · exact ⟨_, rfl⟩
        · have hs : ∀ m1 m2 a, ∃ b, (Strings.strdupOut hdr r o.malloc m1 m2 a).result = .ok b := by
            intro m1 m2 a
            rcases Strings.strdupOut_safe hdr r o.malloc ho.malloc ho.total m1 m2 a with h | ⟨b, h, -⟩
            · exact ⟨_, h⟩
            · exact ⟨_, h⟩
          obtain ⟨b1, h1⟩ := hs o.node.1 o.node.2 (BsdName.arg bs 0)
          obtain ⟨b2, h2⟩ := hs o.service.1 o.service.2 (BsdName.arg bs 1)
          simp only [Authority.lookupEnv, h1, h2]
          unfold BsdName.ask
          obtain ⟨⟨x, cs⟩, hx⟩ := Authority.invoke_full (hfull .getAddrInfo) (fun c q => (o.lookup c q).1)
            ⟨b1.map Strings.cText, b2.map Strings.cText,
              AddrInfo.copyHints (Authority.lookupEnv hdr r l o.toLinux) (BsdName.arg bs 2)⟩
          simp only [Authority.lookupEnv] at hx ⊢
          rw [hx]
          cases cs with
          | nil => exact finish_ok _ _ _ _ _
          | cons c cs => exact finish_ok _ _ _ _ _
    · exact ⟨_, rfl⟩

theorem run_ok {h : Handler} (hf : ∀ bs fd, ∃ res, ((behind hdr r l o h).2 bs fd).1 = .ok res) (q : Callback.Request) (fd : Int) :
    ∃ res, (run hdr r l o h q fd).1 = .ok res := by
  have hi : ∃ res, (Callback.invoke hdr r (behind hdr r l o h).1 (fun bs f => ((behind hdr r l o h).2 bs f).1) o.frame q
      fd).1 = .ok res := by
    unfold Callback.invoke
    split
    · exact ⟨_, rfl⟩
    · split
      · exact ⟨_, rfl⟩
      · exact hf _ _
  simp only [run]
  split
  · exact noSys_some hi
  · exact hi

end answers

/-- **C129.** In every run, every message of a sandbox that has the size of a request is answered exactly once, whatever
it contains: the host receives it and sends one reply, or ends the sandbox if the reply cannot be sent; shorter messages
have no effect.  The host's allocator is assumed not to fail, its functions to return, and none of them to be empty. -/
theorem bsd_every_message_answered (hdr : Word) (regs : Nat → Region) (hregs : ∀ i, (regs i).WF hdr)
    (as : List Action) (hfew : ∀ i, (handlersFor i as).length + 7 ≤ 2 ^ 31 - 1)
    (hfull : ∀ i, NoEmpty (configsFor i as)) (k i : Nat) (o : Outside) (p : Packet)
    (hk : as[k]? = some (.message i o p)) (ho : Calm o.toLinux) :
    ∃ es e, (runAll hdr regs start as).1[k]? = some (.handled (.ok es) e) ∧
      (p.len < 24 → es = []) ∧
      (24 ≤ p.len → ∃ x h, es = [.received p.req p.fd, if o.sendOk then .replied x h else .killed]) := by
  obtain ⟨l, hl, he⟩ := at_message hdr regs as hfew k i o p hk
  have hn : NoEmpty (configsFor i (as.take k)) := by
    have h : configsFor i (as.take k ++ as.drop k) = configsFor i (as.take k) ++ configsFor i (as.drop k) :=
      List.filterMap_append
    rw [List.take_append_drop] at h
    intro op he
    refine hfull i op ?_
    rw [h]
    exact List.mem_append_left _ he
  rw [he]
  have h24 : Callback.requestSize = 24 := rfl
  unfold handle
  by_cases hlen : p.len < Callback.requestSize
  · rw [if_pos hlen]
    exact ⟨_, _, rfl, fun _ => rfl, fun h => by omega⟩
  · rw [if_neg hlen]
    have fin : ∀ x : Outcome Callback.Result × Effects, (∃ res, x.1 = .ok res) →
        ∃ es e, some (Seen.handled
          (match x.1 with
            | .ok res =>
              ((.ok [.received p.req p.fd, if o.sendOk then .replied res.integer res.handle else .killed], x.2) :
                Outcome (List Event) × Effects)
            | .abort => (.abort, x.2)
            | .throws => (.throws, x.2)
            | .ub => (.ub, x.2)).1
          (match x.1 with
            | .ok res =>
              ((.ok [.received p.req p.fd, if o.sendOk then .replied res.integer res.handle else .killed], x.2) :
                Outcome (List Event) × Effects)
            | .abort => (.abort, x.2)
            | .throws => (.throws, x.2)
            | .ub => (.ub, x.2)).2) = some (Seen.handled (.ok es) e) ∧ (p.len < 24 → es = []) ∧
          (24 ≤ p.len → ∃ x h, es = [.received p.req p.fd, if o.sendOk then .replied x h else .killed]) := by
      rintro ⟨ret, e⟩ ⟨res, rfl⟩
      exact ⟨_, _, rfl, fun h => by omega, fun _ => ⟨res.integer, res.handle, rfl⟩⟩
    rw [hl.table, Callback.dispatch_tableOf]
    unfold handlerFor
    by_cases h7 : p.req.kind.toNat < 7
    · rw [if_pos h7]
      exact fin _ (run_ok (h := .builtin _) (fun bs fd => builtin_ok (hregs i) hl hn ho _ bs fd) _ _)
    · rw [if_neg h7]
      rcases hu : (handlersFor i (as.take k))[p.req.kind.toNat - 7]? with _ | u
      · exact fin (noSys (.ok {}), {}) ⟨_, rfl⟩
      · exact fin _ (run_ok (h := .user u) (fun bs fd => ho.user u bs fd) _ _)

/-- **C129.** A message that nobody is to act upon makes the host do nothing, and the answer is FreeBSD's number for
`ENOSYS`. -/
theorem bsd_idle (hdr : Word) (regs : Nat → Region) (hregs : ∀ i, (regs i).WF hdr)
    (as : List Action) (hfew : ∀ i, (handlersFor i as).length + 7 ≤ 2 ^ 31 - 1) (k i : Nat) (o : Outside) (p : Packet)
    (hk : as[k]? = some (.message i o p)) (hlen : 24 ≤ p.len) (hsend : o.sendOk = true)
    (hu : ∀ h, 0 < (o.user h).1 ∧ (o.user h).1 < 2 ^ 64)
    (hidle : Idle (handlersFor i (as.take k)) (fun h => (o.user h).1) ((regs i).base.toNat + hdr.toNat) (regs i).top.toNat p) :
    (runAll hdr regs start as).1[k]? = some (.handled (.ok [.received p.req p.fd, .replied (-78) (-1)]) {}) := by
  obtain ⟨l, hl, he⟩ := at_message hdr regs as hfew k i o p hk
  rw [he]
  have h24 : Callback.requestSize = 24 := rfl
  have wrong : ∀ h n, (behind hdr (regs i) l o h).1 = n → n < 2 ^ 64 →
      (p.req.size.toNat ≠ n ∨ p.req.data.toNat < (regs i).base.toNat + hdr.toNat ∨
        (regs i).top.toNat < p.req.data.toNat + n) →
      run hdr (regs i) l o h p.req p.fd = (.ok ⟨-78, -1⟩, {}) := by
    intro h n hn h64 hw
    unfold run Callback.invoke
    rw [hn]
    by_cases hsz : p.req.size ≠ BitVec.ofNat 64 n
    · rw [if_pos hsz]; rfl
    · rw [if_neg hsz]
      have hsz' : p.req.size.toNat = n := by
        have : p.req.size = BitVec.ofNat 64 n := Classical.byContradiction hsz
        rw [this, BitVec.toNat_ofNat]; omega
      have hc : Bounds.contains hdr (regs i) p.req.data p.req.size = false := by
        cases hc : Bounds.contains hdr (regs i) p.req.data p.req.size with
        | false => rfl
        | true =>
          have := (Bounds.contains_iff _ _ (hregs i) _ _).1 hc
          omega
      rw [if_pos hc]; rfl
  unfold handle
  rw [if_neg (by omega), hl.table, Callback.dispatch_tableOf]
  unfold Idle at hidle
  simp only at hidle
  unfold handlerFor
  by_cases h7 : p.req.kind.toNat < 7
  · rw [if_pos h7]
    rw [if_pos h7] at hidle
    have hw := wrong (.builtin p.req.kind.toNat) (sizeFor p.req.kind.toNat) rfl
      (by unfold sizeFor; split <;> omega) hidle
    simp only [hw, hsend, if_true]
  · rw [if_neg h7]
    rw [if_neg h7] at hidle
    rcases hx : (handlersFor i (as.take k))[p.req.kind.toNat - 7]? with _ | u
    · simp only [Option.map_none, hsend, if_true]; rfl
    · have hw := wrong (.user u) (o.user u).1 (by simp only [behind]; have := (hu u).1; omega) (hu u).2 (hidle u hx)
      simp only [Option.map_some, hw, hsend, if_true]

/-! ### Examples -/

/-- The memory of the sandbox whose mapping starts at `b`: a frame at offset 0x1000 whose first two words point to offset
0x2000, where the path `/a/b` is. -/
def exMem (b : Word) : Mem := fun a =>
  let d := (a - b).toNat
  if 0x1000 ≤ d ∧ d < 0x1010 then ((EndToEnd.le 8 (b + 0x2000).toNat)[d % 8]?).getD 0
  else if 0x2000 ≤ d then (([47, 97, 47, 98] : List Byte)[d - 0x2000]?).getD 0
  else 0

/-- The host of the examples of `Verif.Authority`, on FreeBSD. -/
def exOut (b : Word) : Outside :=
  { Authority.exOut b with frame := exMem b, path := (exMem b, exMem b), address := exMem b, bsd := fun _ _ => (9, 0) }

/-- A message of sandbox `i` with its frame at a fixed place. -/
def exMsg (i : Nat) (kind n : Word) (fd : Int) : Action :=
  .message i (exOut (Rpc.exMap i).base) ⟨24, ⟨kind, n, (Rpc.exMap i).base + 0x1000⟩, fd⟩

/-- The host exports a directory to sandbox 0, allows it `connect`, and registers a handler for it; to sandbox 1 it
grants nothing.  Both ask for everything; the last two messages have a wrong size and a number of nothing. -/
def exActs : List Action :=
  [.exports 0 ⟨true, [47, 97], 5⟩, .config 0 (.allow .connect), .register 0 33,
   exMsg 0 0 16 (-1), exMsg 1 0 16 (-1), exMsg 0 5 24 6, exMsg 1 5 24 6, exMsg 0 7 8 (-1), exMsg 1 7 8 (-1),
   exMsg 1 3 24 6, exMsg 0 5 23 6, exMsg 0 99 8 6]

def exRegs (i : Nat) : Region := (Rpc.exMap i).region Rpc.exCfg

theorem exRegs_wf (i : Nat) : (exRegs i).WF Rpc.exCfg.hdr :=
  Bounds.ofMapping_wf _ _ _ (Rpc.exMap_ok i).room (Rpc.exMap_ok i).no_wrap

/-- The hypotheses of the theorems can be met, with messages of all kinds. -/
theorem exActs_ok : (∀ i, FileTree.ShortPaths (exportsTo i exActs)) ∧
    (∀ i, (handlersFor i exActs).length + 7 ≤ 2 ^ 31 - 1) ∧ (∀ i, NoEmpty (configsFor i exActs)) ∧
    (∀ i, Sane (exRegs i) (exOut (Rpc.exMap i).base).toLinux) ∧ (∀ b, Calm (exOut b).toLinux) := by
  refine ⟨?_, ?_, ?_, ?_, ?_⟩
  · intro i e he
    by_cases h : 0 = i
    · simp [exportsTo, exActs, exMsg, h] at he
      rw [he]; decide
    · simp [exportsTo, exActs, exMsg, h] at he
  · intro i
    by_cases h : 0 = i
    · subst h; decide
    · simp [handlersFor, exActs, exMsg, h]
  · intro i op h
    simp only [configsFor, List.mem_filterMap] at h
    obtain ⟨a, ha, hs⟩ := h
    simp only [exActs, exMsg, List.mem_cons, List.not_mem_nil, or_false] at ha
    rcases ha with rfl | rfl | rfl | rfl | rfl | rfl | rfl | rfl | rfl | rfl | rfl | rfl <;> simp at hs
  · intro i
    refine ⟨nofun, ?_⟩
    intro f q
    exact ⟨by simp [exOut, Authority.exOut, AddrInfo.needed], nofun⟩
  · intro b
    refine ⟨fun n x h => ?_, fun n h => (by cases h), fun h bs fd => ⟨_, rfl⟩⟩
    cases h
    exact List.length_replicate

/-- What one sees of a message: the descriptors in the host's calls, and how many functions were called. -/
def glance : Seen → Option (List (Option Int) × Nat × Nat × Nat)
  | .handled (.ok _) e => some (e.log.map (fun x => match x.op with
      | .openat fd _ _ _ => some fd
      | _ => none), e.sockets.length, e.lookups.length, e.users.length)
  | _ => none

/-- The reply to a message. -/
def replyOf : Seen → Option (Int × Int)
  | .handled (.ok [_, .replied x h]) _ => some (x, h)
  | _ => none

/-- Sandbox 0 has a file opened beneath descriptor 5, its `connect` reaches the system, its handler is called; sandbox 1
gets nothing but an `openat` relative to the descriptor that it sent. -/
example : (runAll Rpc.exCfg.hdr exRegs start exActs).1.map glance =
    [none, none, none, some ([some 5], 0, 0, 0), some ([], 0, 0, 0), some ([], 1, 0, 0), some ([], 0, 0, 0),
     some ([], 0, 0, 1), some ([], 0, 0, 0), some ([some 6, none], 0, 0, 0), some ([], 0, 0, 0), some ([], 0, 0, 0)] := by
  decide +kernel

example : (runAll Rpc.exCfg.hdr exRegs start exActs).1.map replyOf =
    [none, none, none, some (-78, 9), some (-2, -1), some (0, -1), some (-78, -1), some (33, -1), some (-78, -1),
     some (9, -1), some (-78, -1), some (-78, -1)] := by
  decide +kernel

/-- The hypotheses of `bsd_idle` can be met. -/
example : (runAll Rpc.exCfg.hdr exRegs start exActs).1[10]? =
    some (.handled (.ok [.received ⟨5, 23, (Rpc.exMap 0).base + 0x1000⟩ 6, .replied (-78) (-1)]) {}) :=
  bsd_idle _ _ exRegs_wf exActs exActs_ok.2.1 10 0 (exOut (Rpc.exMap 0).base) ⟨24, ⟨5, 23, (Rpc.exMap 0).base + 0x1000⟩, 6⟩ rfl
    (by decide) rfl (fun _ => ⟨show 0 < 8 by omega, show 8 < 2 ^ 64 by omega⟩) (by simp [Idle, sizeFor])

/-- The hypotheses of `bsd_authority` and `bsd_every_message_answered` can be met. -/
example : ∃ es e, (runAll Rpc.exCfg.hdr exRegs start exActs).1[3]? = some (.handled (.ok es) e) ∧
    Justified (exActs.take 3) 0 (exRegs 0).base.toNat (exRegs 0).top.toNat
      ⟨24, ⟨0, 16, (Rpc.exMap 0).base + 0x1000⟩, -1⟩ e := by
  obtain ⟨h1, h2, h3, h4, h5⟩ := exActs_ok
  obtain ⟨es, e, ha, -⟩ := bsd_every_message_answered _ _ exRegs_wf exActs h2 h3 3 0 _ _ rfl (h5 _)
  obtain ⟨ev, e', hb, hj, -⟩ := bsd_authority _ _ exRegs_wf exActs h1 h2 3 0 _ _ rfl (h4 _)
  rw [ha] at hb
  cases hb
  exact ⟨es, e, ha, hj⟩

/-- `bsd_isolation` for a run in which both sandboxes have messages handled. -/
example : (runAll Rpc.exCfg.hdr exRegs start (exActs.filter (fun a => about a = 1))).1.map replyOf =
    [some (-2, -1), some (-78, -1), some (-78, -1), some (9, -1)] := by
  decide +kernel

end Verif.BsdAuthority
