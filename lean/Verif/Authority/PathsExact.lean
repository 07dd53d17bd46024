import Verif.Authority.SocketsExact

/-!
# Exactly what a sandbox is told about its calls on files: specification and theorems (property C83)

For `open`, `stat`, `access` and `openat`, in runs with any number of sandboxes: the answer and the system calls that the host
makes, in terms of the message, the memory, the kernel and the exports that the host has made to this sandbox.
-/

namespace Verif.Authority

open Verif.Bounds (Region)
open Verif.Callback (Packet Event Result)
open Verif.FileTree (Export ShortPaths specHistory runHistory)
open Verif.FileTree.Spec (Answers cut)
open Verif.Path.Spec (resolve)
open Verif.PathSyscall (HostOp Log Kernel Call getPath)
open Verif.PathSyscall.Spec (join textOf)
open Verif.Strings (MallocOk asNat)
open Verif.Rpc (Cfg Range Mapping Sys exCfg exMap exSys buddyRange)
open Verif.Rpc.Spec (MapOk)
open Spec

namespace Spec

/-- There is no string at `a`: it is not in the heap, or nothing ends it there (`include/process_sandbox/sandbox.h:751-771`). -/
def NoString (hdr : Word) (r : Region) (m : Nat → Byte) (a : Word) : Prop :=
  ¬ (r.base.toNat + hdr.toNat ≤ a.toNat ∧ a.toNat < r.top.toNat) ∨ ∀ j, a.toNat ≤ j → j < r.top.toNat → m j ≠ 0

/-- The host's private copy of the string at `a` is `text`: its length is measured in the first of two memories and its bytes
are read in the second (`include/process_sandbox/sandbox.h:751-771`). -/
def Copied (hdr : Word) (r : Region) (m1 m2 : Nat → Byte) (a : Word) (text : List Byte) : Prop :=
  ∃ n, (∀ j, j < n → m1 (a.toNat + j) ≠ 0) ∧ m1 (a.toNat + n) = 0 ∧ r.base.toNat + hdr.toNat ≤ a.toNat ∧
    a.toNat + n < r.top.toNat ∧ text = textOf ((List.range n).map (fun j => m2 (a.toNat + j)))

/-- A call and what the kernel says to it, after the calls in `log` (`src/libsandbox.cc:386-607`). -/
def calledAfter (k : Kernel) (log : Log) (op : HostOp) : Log := log ++ [⟨op, (k log op).1, (k log op).2⟩]

/-- The call that only names an object beneath an exported directory, `O_PATH`
(`include/process_sandbox/platform/safe_syscalls-linux.h:103-154`). -/
def naming (h : Int) (rest : List (List Byte)) : HostOp :=
  .openat2 h (if rest = [] then none else some (join rest)) 0x200000 0 8

/-- The result of a call as a number (`src/libsandbox.cc:352-355`). -/
def number (x : Int × Int) : Int := if 0 ≤ x.1 then x.1 else -x.2

/-- The call by which `open` gets its descriptor: a duplicate of an exported file, or an open beneath an exported directory
(`src/libsandbox.cc:414-430`). -/
def opening (h : Int) (rest : List (List Byte)) (flags mode : BitVec 32) : HostOp :=
  if rest = [] then .dup h else .openat2 h (some (join rest)) (flags.signExtend 64) (mode.setWidth 64) 8

/-- What is said, and called, when a request for the names `rest` beneath the export `h` is carried out: number, descriptor,
system calls (`src/libsandbox.cc:411-431`, `:577-607`). -/
inductive Carried (hdr : Word) (r : Region) (k : Kernel) (h : Int) (rest : List (List Byte)) : Call → Int → Int → Log → Prop where
  | opened (a flags mode) : 0 ≤ (k [] (opening h rest flags mode)).1 →
      Carried hdr r k h rest (.open_ a flags mode) (-38) (k [] (opening h rest flags mode)).1
        (calledAfter k [] (opening h rest flags mode))
  | notOpened (a flags mode) : (k [] (opening h rest flags mode)).1 < 0 →
      Carried hdr r k h rest (.open_ a flags mode) (-(k [] (opening h rest flags mode)).2) (-1)
        (calledAfter k [] (opening h rest flags mode))
  | notNamed (a mode) : (k [] (naming h rest)).1 < 0 →
      Carried hdr r k h rest (.access a mode) (-(k [] (naming h rest)).2) (-1) (calledAfter k [] (naming h rest))
  | accessed (a mode p l) : (k [] (naming h rest)).1 = p → 0 ≤ p → l = calledAfter k [] (naming h rest) →
      Carried hdr r k h rest (.access a mode) (number (k l (.faccessat2 p [] mode 0x1000))) (-1)
        (calledAfter k (calledAfter k l (.faccessat2 p [] mode 0x1000)) (.close p))
  | noRoom (a sb) : ¬ Inside hdr r sb 144 → Carried hdr r k h rest (.stat a sb) (-22) (-1) []
  | statFile (a sb) : Inside hdr r sb 144 → rest = [] →
      Carried hdr r k h rest (.stat a sb) (number (k [] (.fstat h sb))) (-1) (calledAfter k [] (.fstat h sb))
  | statNone (a sb) : Inside hdr r sb 144 → rest ≠ [] → (k [] (naming h rest)).1 < 0 →
      Carried hdr r k h rest (.stat a sb) (-(k [] (naming h rest)).2) (-1) (calledAfter k [] (naming h rest))
  | statSome (a sb p l) : Inside hdr r sb 144 → rest ≠ [] → (k [] (naming h rest)).1 = p → 0 ≤ p →
      l = calledAfter k [] (naming h rest) →
      Carried hdr r k h rest (.stat a sb) (number (k l (.fstatat p [] sb 0x1000))) (-1)
        (calledAfter k (calledAfter k l (.fstatat p [] sb 0x1000)) (.close p))

/-- What is said about a request on a path, and the system calls for it, if its arguments are `c`: a string is needed, and it
must not climb above the root; some export to this sandbox must answer it (`src/libsandbox.cc:385-406`). -/
inductive PathTold (hist : List Export) (hdr : Word) (r : Region) (o : Outside) (c : Call) : Int → Int → Log → Prop where
  | noString : NoString hdr r (asNat o.path.1) c.path → PathTold hist hdr r o c (-22) (-1) []
  | climbs (text) : Copied hdr r (asNat o.path.1) (asNat o.path.2) c.path text → resolve [] (cut text) = none →
      PathTold hist hdr r o c (-22) (-1) []
  | absent (text names) : Copied hdr r (asNat o.path.1) (asNat o.path.2) c.path text → resolve [] (cut text) = some names →
      (∀ h rest, ¬ Answers (specHistory hist) names h rest) → PathTold hist hdr r o c (-2) (-1) []
  | carried (text names h rest x d log) : Copied hdr r (asNat o.path.1) (asNat o.path.2) c.path text →
      resolve [] (cut text) = some names → Answers (specHistory hist) names h rest →
      Carried hdr r o.kernel h rest c x d log → PathTold hist hdr r o c x d log

/-- What is said about an `openat` whose frame is `bs`, and the system calls for it: one open that cannot leave the directory
whose descriptor the sandbox sent, then the closing of that descriptor.  The answer is the number that the kernel gave the
host, or -1; no descriptor goes with it.  Where there is no string, no path is passed (`src/libsandbox.cc:437-445`). -/
inductive RelTold (hdr : Word) (r : Region) (o : Outside) (fd : Int) (bs : List Byte) : Int → Log → Prop where
  | asked (path : Option (List Byte)) (op : HostOp) :
      (path = none ∧ NoString hdr r (asNat o.path.1) (arg64 bs 8)) ∨
        (∃ text, path = some text ∧ Copied hdr r (asNat o.path.1) (asNat o.path.2) (arg64 bs 8) text) →
      op = .openat2 fd path ((arg32 (bs.drop 4)).signExtend 64) ((arg32 bs).setWidth 64) 8 →
      RelTold hdr r o fd bs (o.kernel [] op).1
        (if 0 ≤ fd then calledAfter o.kernel (calledAfter o.kernel [] op) (.close fd) else calledAfter o.kernel [] op)

/-- The arguments of a request on a path as they lie in its frame (`src/libsandbox.cc:414`, `:580`, `:596`; numbers:
`include/process_sandbox/callback_numbers.h:26-41`). -/
def pathCall (n : Nat) (bs : List Byte) : Call :=
  if n = 0 then .open_ (arg64 bs 8) (arg32 (bs.drop 4)) (arg32 bs)
  else if n = 1 then .stat (arg64 bs 8) (arg64 bs 0)
  else .access (arg64 bs 8) (arg32 bs)

end Spec

variable {hdr : Word} {r : Region} {l : Lib} {o : Outside}

theorem textOf_snoc_zero (s : List Byte) : textOf (s ++ [0]) = textOf s := by
  unfold textOf
  induction s with
  | nil => simp
  | cons b s ih =>
    simp only [List.cons_append, List.takeWhile_cons, ih]

/-- The private copy, in the words of the specification. -/
theorem getPath_spec (hwf : r.WF hdr) (hm : MallocOk o.malloc) (a : Word) {b : Option Strings.Buf}
    (h : getPath (pathEnv hdr r l o) a = .ok b) :
    (b = none ∧ NoString hdr r (asNat o.path.1) a) ∨
    ∃ s, b = some s ∧ Copied hdr r (asNat o.path.1) (asNat o.path.2) a (textOf s) := by
  cases b with
  | some s =>
    obtain ⟨n, h1, h2, h3, h4, h5⟩ := Strings.strdupOut_bytes hdr r hwf o.malloc hm o.path.1 o.path.2 a s h
    refine .inr ⟨s, rfl, n, h1, h2, h3, h4, ?_⟩
    rw [h5, textOf_snoc_zero]
  | none =>
    refine .inl ⟨rfl, ?_⟩
    unfold NoString
    by_cases hin : r.base.toNat + hdr.toNat ≤ a.toNat ∧ a.toNat < r.top.toNat
    · refine .inr ?_
      intro j hj1 hj2 hz
      -- an allocator that never fails finds the same
      have hnull := (Strings.strdupOut_null_iff hdr r hwf (fun n => some (List.replicate n 0)) (fun n b h => by
        simp only [Option.some.injEq] at h; subst h; simp) (fun n => by simp) o.path.1 o.path.2 a)
      have : (Strings.strdupOut hdr r (fun n => some (List.replicate n 0)) o.path.1 o.path.2 a).result = .ok none := by
        have h : (Strings.strdupOut hdr r o.malloc o.path.1 o.path.2 a).result = .ok none := h
        unfold Strings.strdupOut at h ⊢
        split at h
        · rename_i hc
          rw [if_pos hc]
          simp only at h ⊢
          split at h
          · rename_i hl
            rw [if_pos hl]
          · split at h
            · cases h
            · split at h
              · split at h <;> cases h
              · cases h
        · rename_i hc
          rw [if_neg hc]
      rcases hnull.1 this with h' | h'
      · exact h' hin
      · exact h' j hj1 hj2 hz
    · exact .inl hin

theorem inside_stat (hwf : r.WF hdr) (sb : Word) :
    Bounds.contains hdr r sb PathSyscall.statSize = true ↔ Inside hdr r sb 144 :=
  inside_iff hwf sb 144 (by omega) (by omega)

/-- A request that some export answers, in the words of the specification. -/
theorem serve_carried (hwf : r.WF hdr) {hist : List Export} (hs : ShortPaths hist) (ht : l.tree = runHistory hist) (c : Call)
    {b : Strings.Buf} (hb : getPath (pathEnv hdr r l o) c.path = .ok (some b)) {names : List (List Byte)}
    (hn : resolve [] (cut (textOf b)) = some names) {h : Int} {rest : List (List Byte)}
    (ha : Answers (specHistory hist) names h rest) {res : Result} {log : Log}
    (he : PathSyscall.serve (pathEnv hdr r l o) c = .ok (res, log)) :
    Carried hdr r o.kernel h rest c res.integer res.handle log := by
  obtain ⟨e, -, -, h2, -⟩ := PathSyscall.answers_export hist names h rest ha
  have hsafe := PathSyscall.resolve_safe (textOf b) (PathSyscall.zero_not_mem_textOf b) names hn
  have hrest : ∀ n ∈ rest, PathSyscall.Spec.SafeName n := fun n hr => hsafe n (by rw [h2]; simp [hr])
  have htail := PathSyscall.tailText_eq rest hrest
  have hp := fun handler => ((PathSyscall.handlePath_eq (pathEnv hdr r l o) hist hs ht c.path b hb handler).2 names hn).2 h rest ha
  have hemp : (Path.Path.mk false rest).isEmpty = decide (rest = []) := by
    cases rest <;> rfl
  have hname : (if (Path.Path.mk false rest).isEmpty then none else some (PathSyscall.tailText ⟨false, rest⟩)) =
      (if rest = [] then none else some (join rest)) := by
    rw [htail, hemp]; by_cases hr : rest = [] <;> simp [hr]
  cases c with
  | open_ a flags mode =>
    simp only [PathSyscall.serve, PathSyscall.handleOpen] at he
    simp only [Call.path] at hp
    rw [hp, PathSyscall.openBody] at he
    have hop : (if (Path.Path.mk false rest).isEmpty = false then
        PathSyscall.openatBeneath (pathEnv hdr r l o).kernel [] h (some (PathSyscall.tailText ⟨false, rest⟩)) flags mode
        else PathSyscall.sys (pathEnv hdr r l o).kernel [] (.dup h)) =
        (o.kernel [] (opening h rest flags mode), calledAfter o.kernel [] (opening h rest flags mode)) := by
      rw [hemp, htail]
      unfold opening calledAfter
      by_cases hr : rest = [] <;> simp [hr, PathSyscall.openatBeneath, PathSyscall.sys, pathEnv, PathSyscall.resolveBeneath]
    rw [hop] at he
    simp only [PathSyscall.returnFd] at he
    by_cases h0 : 0 ≤ (o.kernel [] (opening h rest flags mode)).1
    · rw [if_pos h0] at he
      cases he
      exact .opened a flags mode h0
    · rw [if_neg h0] at he
      cases he
      exact .notOpened a flags mode (by omega)
  | access a mode =>
    simp only [PathSyscall.serve, PathSyscall.handleAccess] at he
    simp only [Call.path] at hp
    rw [hp, PathSyscall.accessBody, hname] at he
    unfold PathSyscall.faccessatBeneath PathSyscall.openatBeneath at he
    have hk : PathSyscall.sys (pathEnv hdr r l o).kernel [] (.openat2 h (if rest = [] then none else some (join rest))
        (PathSyscall.oPath.signExtend 64) ((0 : BitVec 32).setWidth 64) PathSyscall.resolveBeneath) =
        (o.kernel [] (naming h rest), calledAfter o.kernel [] (naming h rest)) := rfl
    rw [hk] at he
    simp only at he
    by_cases h0 : (o.kernel [] (naming h rest)).1 < 0
    · rw [if_pos h0] at he
      cases he
      exact .notNamed a mode h0
    · rw [if_neg h0] at he
      cases he
      exact .accessed a mode _ _ rfl (Int.not_lt.1 h0) rfl
  | stat a sb =>
    simp only [PathSyscall.serve, PathSyscall.handleStat] at he
    simp only [Call.path] at hp
    rw [hp, PathSyscall.statBody] at he
    rw [show (pathEnv hdr r l o).hdr = hdr from rfl, show (pathEnv hdr r l o).region = r from rfl] at he
    by_cases hin : Inside hdr r sb 144
    · rw [if_pos ((inside_stat hwf sb).2 hin)] at he
      by_cases hr : rest = []
      · rw [if_pos (by rw [hemp]; simpa using hr)] at he
        cases he
        exact .statFile a sb hin hr
      · rw [if_neg (by rw [hemp]; simpa using hr), htail] at he
        unfold PathSyscall.fstatatBeneath PathSyscall.openatBeneath at he
        have hk : PathSyscall.sys (pathEnv hdr r l o).kernel [] (.openat2 h (some (join rest))
            (PathSyscall.oPath.signExtend 64) ((0 : BitVec 32).setWidth 64) PathSyscall.resolveBeneath) =
            (o.kernel [] (naming h rest), calledAfter o.kernel [] (naming h rest)) := by
          unfold naming
          rw [if_neg hr]
          rfl
        rw [hk] at he
        simp only at he
        by_cases h0 : (o.kernel [] (naming h rest)).1 < 0
        · rw [if_pos h0] at he
          cases he
          exact .statNone a sb hin hr h0
        · rw [if_neg h0] at he
          cases he
          exact .statSome a sb _ _ hin hr rfl (Int.not_lt.1 h0) rfl
    · rw [if_neg (by rw [inside_stat hwf]; exact hin)] at he
      cases he
      exact .noRoom a sb hin

theorem serve_told (hwf : r.WF hdr) (hm : MallocOk o.malloc) {hist : List Export} (hs : ShortPaths hist)
    (ht : l.tree = runHistory hist) (c : Call) {res : Result} {log : Log}
    (he : PathSyscall.serve (pathEnv hdr r l o) c = .ok (res, log)) :
    PathTold hist hdr r o c res.integer res.handle log := by
  have hp : ∃ b, getPath (pathEnv hdr r l o) c.path = .ok b := by
    cases hg : getPath (pathEnv hdr r l o) c.path with
    | ok b => exact ⟨b, rfl⟩
    | abort => exfalso; cases c <;> simp [PathSyscall.serve, PathSyscall.handleOpen, PathSyscall.handleAccess,
        PathSyscall.handleStat, PathSyscall.handlePath, Call.path] at he hg <;> rw [hg] at he <;> cases he
    | throws => exfalso; cases c <;> simp [PathSyscall.serve, PathSyscall.handleOpen, PathSyscall.handleAccess,
        PathSyscall.handleStat, PathSyscall.handlePath, Call.path] at he hg <;> rw [hg] at he <;> cases he
    | ub => exfalso; cases c <;> simp [PathSyscall.serve, PathSyscall.handleOpen, PathSyscall.handleAccess,
        PathSyscall.handleStat, PathSyscall.handlePath, Call.path] at he hg <;> rw [hg] at he <;> cases he
  obtain ⟨b, hb⟩ := hp
  rcases getPath_spec hwf hm c.path hb with ⟨rfl, hno⟩ | ⟨s, rfl, hc⟩
  · have : PathSyscall.serve (pathEnv hdr r l o) c = .ok (⟨-22, -1⟩, []) := by
      cases c <;> simp only [PathSyscall.serve, PathSyscall.handleOpen, PathSyscall.handleAccess, PathSyscall.handleStat,
        PathSyscall.handlePath, Call.path] at hb ⊢ <;> rw [hb] <;> rfl
    rw [this] at he
    cases he
    exact .noString hno
  · have hp := fun handler => PathSyscall.handlePath_eq (pathEnv hdr r l o) hist hs ht c.path s hb handler
    cases hr : resolve [] (cut (textOf s)) with
    | none =>
      have : PathSyscall.serve (pathEnv hdr r l o) c = .ok (⟨-22, -1⟩, []) := by
        cases c <;> exact (hp _).1 hr
      rw [this] at he
      cases he
      exact .climbs _ hc hr
    | some names =>
      by_cases hex : ∃ h rest, Answers (specHistory hist) names h rest
      · obtain ⟨h, rest, ha⟩ := hex
        exact .carried _ names h rest _ _ _ hc hr ha (serve_carried hwf hs ht c hb hr ha he)
      · have hall : ∀ h rest, ¬ Answers (specHistory hist) names h rest := fun h rest ha => hex ⟨h, rest, ha⟩
        have : PathSyscall.serve (pathEnv hdr r l o) c = .ok (⟨-2, -1⟩, []) := by
          cases c <;> exact ((hp _).2 names hr).1 hall
        rw [this] at he
        cases he
        exact .absent _ names hc hr hall

/-- The reply to a message of a built-in kind: the code's own if the frame is not accepted, otherwise the handler's. -/
theorem builtin_reply {σ} (c : Cfg) (R : Range σ) (maps : Nat → Mapping) (hmaps : ∀ i, MapOk c (maps i)) (sys : Sys σ)
    (as : List Action) (hfew : ∀ i, (handlersFor i as).length + 7 ≤ 2 ^ 31 - 1) (k i : Nat) (o : Outside) (p : Packet)
    (hk : as[k]? = some (.message i o p)) (n : Nat) (h7 : n < 7) (hkind : p.req.kind.toNat = n)
    (es : List Event) (e : Effects) (hs : (runAll c R maps (start sys) as).1[k]? = some (.handled (.ok es) e))
    (x h : Int) (hx : Event.replied x h ∈ es) :
    ∃ l, Holds l i (as.take k) ∧
      ((¬ Accepted c.hdr ((maps i).region c) p (frameSize n) ∧ x = -38 ∧ h = -1 ∧ e = {}) ∨
       (Accepted c.hdr ((maps i).region c) p (frameSize n) ∧
        builtin c.hdr ((maps i).region c) l o n (frameOf o p (frameSize n)) p.fd = (.ok ⟨x, h⟩, e))) := by
  obtain ⟨l, hl, he⟩ := at_message c R maps sys as hfew k i o p hk
  refine ⟨l, hl, ?_⟩
  have hwf : ((maps i).region c).WF c.hdr := Bounds.ofMapping_wf _ _ _ (hmaps i).room (hmaps i).no_wrap
  rw [he] at hs
  simp only [Option.some.injEq, Seen.handled.injEq] at hs
  obtain ⟨h1, h2⟩ := hs
  have hd : Callback.dispatch l.table.handlers p.req.kind = some (.builtin n) := by
    rw [hl.table, Callback.dispatch_tableOf, Callback.Spec.handlerFor, if_pos (by omega), hkind]
  have hpos := frameSize_pos n
  have h64 : frameSize n < 2 ^ 64 := by unfold frameSize; split <;> decide
  by_cases hlen : p.len < Callback.requestSize
  · unfold Callback.handle at h1
    simp only at h1
    rw [if_pos hlen] at h1; cases h1; cases hx
  have hres : run c.hdr ((maps i).region c) l o (.builtin n) p.req p.fd = .ok ⟨x, h⟩ := by
    unfold Callback.handle at h1
    simp only at h1
    rw [if_neg hlen] at h1
    simp only [hd] at h1
    rcases hr : run c.hdr ((maps i).region c) l o (.builtin n) p.req p.fd with res | _ | _ | _ <;> rw [hr] at h1
    · simp only at h1
      split at h1
      · cases h1
        simp only [List.mem_cons, List.not_mem_nil, or_false, reduceCtorEq, false_or] at hx
        cases hx
        rfl
      · cases h1
        simp at hx
    · cases h1
    · cases h1
    · cases h1
  unfold effects at h2
  rw [if_neg hlen] at h2
  unfold run at hres
  simp only [hd, show (behind c.hdr ((maps i).region c) l o (.builtin n)).1 = frameSize n from rfl,
    show (behind c.hdr ((maps i).region c) l o (.builtin n)).2 = builtin c.hdr ((maps i).region c) l o n from rfl] at h2 hres
  have hf := invoke_frame (o := o) hwf p (frameSize n) hpos h64
    (fun bs f => (builtin c.hdr ((maps i).region c) l o n bs f).1)
  by_cases hacc : Accepted c.hdr ((maps i).region c) p (frameSize n)
  · refine .inr ⟨hacc, ?_⟩
    rw [hf.1 hacc] at hres
    have ha : (Callback.invoke c.hdr ((maps i).region c) (frameSize n)
        (fun bs f => (builtin c.hdr ((maps i).region c) l o n bs f).1) o.frame p.req p.fd).2 =
        Callback.copyAddrs p.req.data (frameSize n) := by
      obtain ⟨a1, a2⟩ := hacc
      have hsz : p.req.size = BitVec.ofNat 64 (frameSize n) := by
        apply BitVec.eq_of_toNat_eq; rw [a1]; simp; omega
      unfold Callback.invoke
      rw [if_neg (by simpa using hsz), if_neg (by rw [hsz, (inside_iff hwf p.req.data _ hpos h64).2 a2]; decide)]
    have hne : Callback.copyAddrs p.req.data (frameSize n) ≠ [] := by
      intro h
      have := Callback.copyAddrs_length p.req.data (frameSize n)
      rw [h, List.length_nil] at this
      omega
    rw [ha, if_neg hne, frame_eq] at h2
    exact Prod.ext hres h2
  · refine .inl ⟨hacc, ?_⟩
    rw [hf.2 hacc] at hres
    cases hres
    rw [Callback.invoke_refuses c.hdr ((maps i).region c) hwf _ h64 _ o.frame p.req p.fd hacc] at h2
    exact ⟨rfl, rfl, h2.symm⟩

theorem half_eq (bs : List Byte) (j : Nat) : half bs j = arg32 (bs.drop (4 * j)) := by
  unfold half arg32; rw [ofLe_eq]

/-- **C83.** Exactly what a sandbox is told about `open`, `stat` and `access`, and which system calls the host makes for them:
`ENOSYS` and none if the frame is not accepted; otherwise as the exports to this sandbox, and the kernel, have it. -/
theorem path_told {σ} (c : Cfg) (R : Range σ) (maps : Nat → Mapping) (hmaps : ∀ i, MapOk c (maps i)) (sys : Sys σ)
    (as : List Action) (hshort : ∀ i, ShortPaths (exportsTo i as))
    (hfew : ∀ i, (handlersFor i as).length + 7 ≤ 2 ^ 31 - 1) (k i : Nat) (o : Outside) (p : Packet)
    (hk : as[k]? = some (.message i o p)) (hm : MallocOk o.malloc) (h3 : p.req.kind.toNat < 3)
    (es : List Event) (e : Effects) (hs : (runAll c R maps (start sys) as).1[k]? = some (.handled (.ok es) e))
    (x h : Int) (hx : Event.replied x h ∈ es) :
    (¬ Accepted c.hdr ((maps i).region c) p 16 ∧ x = -38 ∧ h = -1 ∧ e = {}) ∨
    (Accepted c.hdr ((maps i).region c) p 16 ∧ ∃ log, e = { log := log } ∧
      PathTold (exportsTo i (as.take k)) c.hdr ((maps i).region c) o (pathCall p.req.kind.toNat (frameOf o p 16)) x h log) := by
  have hwf : ((maps i).region c).WF c.hdr := Bounds.ofMapping_wf _ _ _ (hmaps i).room (hmaps i).no_wrap
  have hst : ShortPaths (exportsTo i (as.take k)) := by
    have h : exportsTo i (as.take k ++ as.drop k) = exportsTo i (as.take k) ++ exportsTo i (as.drop k) :=
      List.filterMap_append
    rw [List.take_append_drop] at h
    intro e he
    exact hshort i e (by rw [h]; exact List.mem_append_left _ he)
  obtain ⟨l, hl, hr⟩ := builtin_reply c R maps hmaps sys as hfew k i o p hk _ (by omega) rfl es e hs x h hx
  have h16 : frameSize p.req.kind.toNat = 16 := by
    generalize p.req.kind.toNat = n at h3
    match n, h3 with
    | 0, _ => rfl
    | 1, _ => rfl
    | 2, _ => rfl
  rw [h16] at hr
  rcases hr with hr | ⟨hacc, hr⟩
  · exact .inl hr
  · refine .inr ⟨hacc, ?_⟩
    have hb : builtin c.hdr ((maps i).region c) l o p.req.kind.toNat (frameOf o p 16) p.fd =
        logged (PathSyscall.serve (pathEnv c.hdr ((maps i).region c) l o) (pathCall p.req.kind.toNat (frameOf o p 16))) := by
      generalize p.req.kind.toNat = n at h3
      match n, h3 with
      | 0, _ => simp only [builtin, pathCall, word_eq, half_eq, if_true, Nat.mul_one, Nat.mul_zero, List.drop_zero]
      | 1, _ => simp only [builtin, pathCall, word_eq, if_true, Nat.mul_one, Nat.mul_zero, if_false, Nat.one_ne_zero]
      | 2, _ => simp only [builtin, pathCall, word_eq, half_eq, Nat.mul_one, Nat.mul_zero, List.drop_zero]; rfl
    rw [hb] at hr
    cases hsv : PathSyscall.serve (pathEnv c.hdr ((maps i).region c) l o) (pathCall p.req.kind.toNat (frameOf o p 16)) with
    | ok y =>
      obtain ⟨res, log⟩ := y
      rw [hsv] at hr
      cases hr
      exact ⟨log, rfl, serve_told hwf hm hst hl.tree _ hsv⟩
    | abort => rw [hsv] at hr; cases hr
    | throws => rw [hsv] at hr; cases hr
    | ub => rw [hsv] at hr; cases hr

/-- **C83.** Exactly what a sandbox is told about `openat`, and which system calls the host makes for it. -/
theorem openat_told {σ} (c : Cfg) (R : Range σ) (maps : Nat → Mapping) (hmaps : ∀ i, MapOk c (maps i)) (sys : Sys σ)
    (as : List Action) (hfew : ∀ i, (handlersFor i as).length + 7 ≤ 2 ^ 31 - 1) (k i : Nat) (o : Outside) (p : Packet)
    (hk : as[k]? = some (.message i o p)) (hm : MallocOk o.malloc) (h3 : p.req.kind.toNat = 3)
    (es : List Event) (e : Effects) (hs : (runAll c R maps (start sys) as).1[k]? = some (.handled (.ok es) e))
    (x h : Int) (hx : Event.replied x h ∈ es) : h = -1 ∧
    ((¬ Accepted c.hdr ((maps i).region c) p 24 ∧ x = -38 ∧ e = {}) ∨
     (Accepted c.hdr ((maps i).region c) p 24 ∧ ∃ log, e = { log := log } ∧
      RelTold c.hdr ((maps i).region c) o p.fd (frameOf o p 24) x log)) := by
  have hwf : ((maps i).region c).WF c.hdr := Bounds.ofMapping_wf _ _ _ (hmaps i).room (hmaps i).no_wrap
  obtain ⟨l, hl, hr⟩ := builtin_reply c R maps hmaps sys as hfew k i o p hk 3 (by omega) h3 es e hs x h hx
  rw [show frameSize 3 = 24 from rfl] at hr
  rcases hr with ⟨h1, h2, h4, h5⟩ | ⟨hacc, hr⟩
  · exact ⟨h4, .inl ⟨h1, h2, h5⟩⟩
  · simp only [builtin, word_eq, half_eq, PathSyscall.handleOpenat] at hr
    simp only [Nat.mul_one, Nat.mul_zero, List.drop_zero] at hr
    cases hg : getPath (pathEnv c.hdr ((maps i).region c) l o) (arg64 (frameOf o p 24) 8) with
    | ok b =>
      rw [hg] at hr
      simp only [logged] at hr
      cases hr
      refine ⟨rfl, .inr ⟨hacc, _, rfl, ?_⟩⟩
      have hb := getPath_spec hwf hm _ hg
      exact .asked (b.map Strings.cText) _ (by
        rcases hb with ⟨rfl, hn⟩ | ⟨s, rfl, hc⟩
        · exact .inl ⟨rfl, hn⟩
        · exact .inr ⟨textOf s, by rw [Option.map_some, PathSyscall.cText_eq_textOf], hc⟩) rfl
    | abort => rw [hg] at hr; cases hr
    | throws => rw [hg] at hr; cases hr
    | ub => rw [hg] at hr; cases hr

/-! ### The answer is settled -/

theorem copied_unique {m1 m2 : Nat → Byte} {a : Word} {s t : List Byte} (hs : Copied hdr r m1 m2 a s)
    (ht : Copied hdr r m1 m2 a t) : s = t := by
  obtain ⟨n, h1, h2, -, -, rfl⟩ := hs
  obtain ⟨n', g1, g2, -, -, rfl⟩ := ht
  have : n = n' := by
    rcases Nat.lt_trichotomy n n' with h | h | h
    · exact absurd h2 (g1 n h)
    · exact h
    · exact absurd g2 (h1 n' h)
  rw [this]

theorem copied_string {m1 m2 : Nat → Byte} {a : Word} {s : List Byte} (hs : Copied hdr r m1 m2 a s)
    (hn : NoString hdr r m1 a) : False := by
  obtain ⟨n, h1, h2, h3, h4, -⟩ := hs
  rcases hn with hn | hn
  · exact hn ⟨h3, by omega⟩
  · exact hn _ (by omega) h4 h2

theorem carried_unique {k : Kernel} {h : Int} {rest : List (List Byte)} {c : Call} {x y d f : Int} {log log' : Log}
    (hx : Carried hdr r k h rest c x d log) (hy : Carried hdr r k h rest c y f log') : x = y ∧ d = f ∧ log = log' := by
  cases hx <;> cases hy <;> first | exact ⟨rfl, rfl, rfl⟩ | contradiction | omega | (subst_vars; first | exact ⟨rfl, rfl, rfl⟩ | contradiction | omega)

/-- What is said about a request on a path, and what is called for it, is settled by the memory, the kernel and the exports. -/
theorem pathTold_unique {hist : List Export} (hs : ShortPaths hist) {c : Call} {x y d f : Int} {log log' : Log}
    (hx : PathTold hist hdr r o c x d log) (hy : PathTold hist hdr r o c y f log') : x = y ∧ d = f ∧ log = log' := by
  cases hx with
  | noString h =>
    cases hy with
    | noString => exact ⟨rfl, rfl, rfl⟩
    | climbs _ g => exact (copied_string g h).elim
    | absent _ _ g => exact (copied_string g h).elim
    | carried _ _ _ _ _ _ _ g => exact (copied_string g h).elim
  | climbs s h1 h2 =>
    cases hy with
    | noString g => exact (copied_string h1 g).elim
    | climbs => exact ⟨rfl, rfl, rfl⟩
    | absent t names g1 g2 => cases copied_unique h1 g1; rw [h2] at g2; cases g2
    | carried t names _ _ _ _ _ g1 g2 => cases copied_unique h1 g1; rw [h2] at g2; cases g2
  | absent s names h1 h2 h3 =>
    cases hy with
    | noString g => exact (copied_string h1 g).elim
    | climbs t g1 g2 => cases copied_unique h1 g1; rw [h2] at g2; cases g2
    | absent => exact ⟨rfl, rfl, rfl⟩
    | carried t names' h rest _ _ _ g1 g2 g3 =>
      cases copied_unique h1 g1; rw [h2] at g2; cases g2; exact (h3 _ _ g3).elim
  | carried s names h rest _ _ _ h1 h2 h3 h4 =>
    cases hy with
    | noString g => exact (copied_string h1 g).elim
    | climbs t g1 g2 => cases copied_unique h1 g1; rw [h2] at g2; cases g2
    | absent t names' g1 g2 g3 => cases copied_unique h1 g1; rw [h2] at g2; cases g2; exact (g3 _ _ h3).elim
    | carried t names' h' rest' _ _ _ g1 g2 g3 g4 =>
      cases copied_unique h1 g1
      rw [h2] at g2
      cases g2
      obtain ⟨rfl, rfl⟩ := Run.answers_unique hs h3 g3
      exact carried_unique h4 g4

/-- So is what is said about an `openat`. -/
theorem relTold_unique {fd : Int} {bs : List Byte} {x y : Int} {log log' : Log}
    (hx : RelTold hdr r o fd bs x log) (hy : RelTold hdr r o fd bs y log') : x = y ∧ log = log' := by
  obtain ⟨p, op, h1, rfl⟩ := hx
  obtain ⟨q, op', g1, rfl⟩ := hy
  have : p = q := by
    rcases h1 with ⟨rfl, h⟩ | ⟨s, rfl, h⟩ <;> rcases g1 with ⟨rfl, g⟩ | ⟨t, rfl, g⟩
    · rfl
    · exact (copied_string g h).elim
    · exact (copied_string h g).elim
    · rw [copied_unique h g]
  subst this
  exact ⟨rfl, rfl⟩

/-! ### Examples -/

/-- Answers in the example run. -/
private def said (k : Nat) : Option (Int × Int) :=
  ((runAll exCfg (buddyRange exCfg) exMap (start exSys) exActs).1[k]?).bind (fun s => match s with
    | .handled (.ok [_, .replied x h]) _ => some (x, h) | _ => none)

private theorem said_eq : said 3 = some (-38, 9) ∧ said 4 = some (-2, -1) ∧ said 11 = some (9, -1) := by decide +kernel

/-- Sandbox 0 gets a descriptor for its `open`, by virtue of what was exported to it. -/
example : ∃ log, PathTold (exportsTo 0 (exActs.take 3)) exCfg.hdr ((exMap 0).region exCfg) (exOut (exMap 0).base)
    (pathCall 0 (frameOf (exOut (exMap 0).base) ⟨24, ⟨0, 16, (exMap 0).base + 0x1000⟩, -1⟩ 16)) (-38) 9 log := by
  obtain ⟨h1, h2, h3, -⟩ := exActs_ok
  obtain ⟨es, e, ha, -, hb⟩ := every_message_answered exCfg (buddyRange exCfg) exMap Rpc.exMap_ok exSys exActs h2 exNoEmpty
    3 0 _ _ rfl (exCalm _)
  obtain ⟨x, h, rfl⟩ := hb (Nat.le_refl 24)
  have hx : Event.replied x h ∈ [Event.received ⟨0, 16, (exMap 0).base + 0x1000⟩ (-1), .replied x h] := by simp
  have hl := said_eq.1
  unfold said at hl
  rw [ha] at hl
  have hl : some (x, h) = some ((-38 : Int), (9 : Int)) := hl
  cases hl
  rcases path_told exCfg (buddyRange exCfg) exMap Rpc.exMap_ok exSys exActs h1 h2 3 0 _ _ rfl
    (fun n b hb => by cases hb; exact List.length_replicate) (by decide) _ e ha _ _ hx with ⟨-, -, h, -⟩ | ⟨-, log, -, h⟩
  · cases h
  · exact ⟨log, h⟩

/-- Sandbox 1 is told that there is no such file. -/
example : PathTold (exportsTo 1 (exActs.take 4)) exCfg.hdr ((exMap 1).region exCfg) (exOut (exMap 1).base)
    (pathCall 0 (frameOf (exOut (exMap 1).base) ⟨24, ⟨0, 16, (exMap 1).base + 0x1000⟩, -1⟩ 16)) (-2) (-1) [] := by
  obtain ⟨h1, h2, h3, -⟩ := exActs_ok
  obtain ⟨es, e, ha, -, hb⟩ := every_message_answered exCfg (buddyRange exCfg) exMap Rpc.exMap_ok exSys exActs h2 exNoEmpty
    4 1 _ _ rfl (exCalm _)
  obtain ⟨x, h, rfl⟩ := hb (Nat.le_refl 24)
  have hx : Event.replied x h ∈ [Event.received ⟨0, 16, (exMap 1).base + 0x1000⟩ (-1), .replied x h] := by simp
  have hl := said_eq.2.1
  unfold said at hl
  rw [ha] at hl
  have hl : some (x, h) = some ((-2 : Int), (-1 : Int)) := hl
  cases hl
  have hlog : ((runAll exCfg (buddyRange exCfg) exMap (start exSys) exActs).1[4]?).bind (fun s => match s with
    | .handled _ e => some e.log.length | _ => none) = some 0 := by decide +kernel
  rw [ha] at hlog
  have hlog : some e.log.length = some 0 := hlog
  rcases path_told exCfg (buddyRange exCfg) exMap Rpc.exMap_ok exSys exActs h1 h2 4 1 _ _ rfl
    (fun n b hb => by cases hb; exact List.length_replicate) (by decide) _ e ha _ _ hx with ⟨-, h, -⟩ | ⟨-, log, rfl, h⟩
  · cases h
  · simp only [Option.some.injEq, List.length_eq_zero_iff] at hlog
    subst hlog
    exact h

/-- The `openat` of sandbox 1 gives it the number of a descriptor of the host. -/
example : ∃ log, RelTold exCfg.hdr ((exMap 1).region exCfg) (exOut (exMap 1).base) 6
    (frameOf (exOut (exMap 1).base) ⟨24, ⟨3, 24, (exMap 1).base + 0x1000⟩, 6⟩ 24) 9 log := by
  obtain ⟨h1, h2, h3, -⟩ := exActs_ok
  obtain ⟨es, e, ha, -, hb⟩ := every_message_answered exCfg (buddyRange exCfg) exMap Rpc.exMap_ok exSys exActs h2 exNoEmpty
    11 1 _ _ rfl (exCalm _)
  obtain ⟨x, h, rfl⟩ := hb (Nat.le_refl 24)
  have hx : Event.replied x h ∈ [Event.received ⟨3, 24, (exMap 1).base + 0x1000⟩ 6, .replied x h] := by simp
  have hl := said_eq.2.2
  unfold said at hl
  rw [ha] at hl
  have hl : some (x, h) = some ((9 : Int), (-1 : Int)) := hl
  cases hl
  obtain ⟨-, ⟨-, h, -⟩ | ⟨-, log, -, h⟩⟩ := openat_told exCfg (buddyRange exCfg) exMap Rpc.exMap_ok exSys exActs h2 11 1 _ _ rfl
    (fun n b hb => by cases hb; exact List.length_replicate) (by decide) _ e ha _ _ hx
  · cases h
  · exact ⟨log, h⟩

end Verif.Authority
