import Verif.Authority.Answer

/-!
# How the handling of a message can end otherwise than in a reply: specification and theorems (C87)

`every_message_answered` assumes that the host has memory, that it registered no empty function, and that the functions
of its user return.  Here none of this is assumed, and it is said exactly which messages throw, abort or are undefined
then.
-/

namespace Verif.Authority

open Verif.Bounds (Region)
open Verif.Strings (MallocOk NoRoom asNat)
open Verif.Callback (Packet Event Result tableOf)
open Verif.Net (Op Config configure)
open Verif.Net.Spec (IsLast)
open Verif.NetEnd (empty_last)
open Verif.AddrInfo.Spec (bytesAt leNat)
open Verif.EndToEnd (ofLe)
open Verif.Rpc (Cfg Range Mapping Sys exCfg exMap exSys buddyRange)
open Verif.Rpc.Spec (MapOk)
open Spec

namespace Spec

/-- The `n` bytes at `a` lie in the heap. -/
def Inside (hdr : Word) (r : Region) (a : Word) (n : Nat) : Prop :=
  r.base.toNat + hdr.toNat ≤ a.toNat ∧ a.toNat + n ≤ r.top.toNat

/-- The frame of a message is accepted for an argument of `n` bytes. -/
def Accepted (hdr : Word) (r : Region) (p : Packet) (n : Nat) : Prop :=
  p.req.size.toNat = n ∧ Inside hdr r p.req.data n

/-- The bytes of the frame, when they are copied. -/
def frameOf (o : Outside) (p : Packet) (n : Nat) : List Byte := bytesAt (asNat o.frame) p.req.data.toNat n

/-- The 64-bit argument at offset `off` of a frame. -/
def arg64 (bs : List Byte) (off : Nat) : Word := .ofNat 64 (leNat ((bs.drop off).take 8))

/-- The 32-bit argument at the beginning of a frame. -/
def arg32 (bs : List Byte) : BitVec 32 := .ofNat 32 (leNat (bs.take 4))

/-- A lookup gets as far as its strings: the place for the result is in the heap, and so are the hints, if any.  The
frame holds, from the beginning, the place for the result, the hints, the service and the node. -/
def Lookable (hdr : Word) (r : Region) (bs : List Byte) : Prop :=
  Inside hdr r (arg64 bs 0) 8 ∧ (arg64 bs 8 = 0 ∨ Inside hdr r (arg64 bs 8) 48)

/-- The built-in requests for which the host has no memory: `n` is the kind and `bs` the frame. -/
inductive Starved (hdr : Word) (r : Region) (o : Outside) : Nat → List Byte → Prop where
  | path (n : Nat) (bs : List Byte) : n < 4 → NoRoom hdr r o.malloc o.path.1 (arg64 bs 8) → Starved hdr r o n bs
  | node (bs : List Byte) : Lookable hdr r bs → NoRoom hdr r o.malloc o.node.1 (arg64 bs 24) → Starved hdr r o 6 bs
  | service (bs : List Byte) : Lookable hdr r bs → NoRoom hdr r o.malloc o.service.1 (arg64 bs 16) → Starved hdr r o 6 bs

/-- The built-in requests that the host would pass to a function which it registered and which is empty. -/
inductive Hollow (conf : List Config) (hdr : Word) (r : Region) (o : Outside) (fd : Int) : Nat → List Byte → Prop where
  | socket (op : Op) (bs : List Byte) : op ≠ .getAddrInfo → IsLast conf op (.register op none) → 0 ≤ fd →
      (arg32 bs).toNat ≤ 4096 → Inside hdr r (arg64 bs 8) (arg32 bs).toNat → (arg64 bs 8).toNat < r.top.toNat →
      Hollow conf hdr r o fd (kindOf op) bs
  | lookup (bs : List Byte) : IsLast conf .getAddrInfo (.register .getAddrInfo none) → Lookable hdr r bs →
      ¬ Starved hdr r o 6 bs → Hollow conf hdr r o fd 6 bs

/-- The frame of a built-in kind: four numbers for a lookup, three for `openat`, `bind` and `connect`, otherwise two. -/
def argSize (n : Nat) : Nat := if n < 3 then 16 else if n = 6 then 32 else 24

/-- What the user's function for this message does instead of returning. -/
def UserEnds (users : List Nat) (hdr : Word) (r : Region) (o : Outside) (p : Packet) (x : Outcome Result) : Prop :=
  ∃ n u, p.req.kind.toNat = 7 + n ∧ users[n]? = some u ∧ Accepted hdr r p (max 1 (o.user u).1) ∧
    (o.user u).2 (frameOf o p (max 1 (o.user u).1)) p.fd = x

/-- The handling of the message throws. -/
def Throws (users : List Nat) (conf : List Config) (hdr : Word) (r : Region) (o : Outside) (p : Packet) : Prop :=
  24 ≤ p.len ∧ (UserEnds users hdr r o p .throws ∨
    p.req.kind.toNat < 7 ∧ Accepted hdr r p (argSize p.req.kind.toNat) ∧
      Hollow conf hdr r o p.fd p.req.kind.toNat (frameOf o p (argSize p.req.kind.toNat)))

/-- The handling of the message is undefined. -/
def Undefined (users : List Nat) (hdr : Word) (r : Region) (o : Outside) (p : Packet) : Prop :=
  24 ≤ p.len ∧ (UserEnds users hdr r o p .ub ∨
    p.req.kind.toNat < 7 ∧ Accepted hdr r p (argSize p.req.kind.toNat) ∧
      Starved hdr r o p.req.kind.toNat (frameOf o p (argSize p.req.kind.toNat)))

/-- The handling of the message aborts: there is no such built-in request. -/
def Aborts (users : List Nat) (hdr : Word) (r : Region) (o : Outside) (p : Packet) : Prop :=
  24 ≤ p.len ∧ UserEnds users hdr r o p .abort

end Spec

section
variable {hdr : Word} {r : Region} {l : Lib} {o : Outside} {i : Nat} {as : List Action}

theorem ofLe_eq (bs : List Byte) : ofLe bs = leNat bs := by
  induction bs with
  | nil => rfl
  | cons b bs ih => simp only [ofLe, leNat, ih]

theorem word_eq (bs : List Byte) (j : Nat) : word bs j = arg64 bs (8 * j) := by
  unfold word arg64; rw [ofLe_eq]

/-- What is known of an outcome: `t` and `u` say when it throws and when it is undefined, and it is a result
otherwise. -/
structure Exactly {α : Type} (x : Outcome α) (t u : Prop) : Prop where
  abort : x ≠ .abort
  throws : x = .throws ↔ t
  ub : x = .ub ↔ u

theorem Exactly.ok {α : Type} (a : α) {t u : Prop} (ht : ¬ t) (hu : ¬ u) : Exactly (.ok a) t u :=
  ⟨nofun, iff_of_false nofun ht, iff_of_false nofun hu⟩

theorem invoke_exactly {α : Type} {ps : Net.Policies} {op : Op} (call : Net.Callee → α → Int × Int) (arg : α) :
    (ps.get op = .handler none → Net.invoke ps op call arg = .throws) ∧
    (ps.get op ≠ .handler none → ∃ x, Net.invoke ps op call arg = .ok x) := by
  refine ⟨fun h => ?_, fun h => invoke_full h call arg⟩
  unfold Net.invoke
  rw [h]

theorem serve_exactly (hwf : r.WF hdr) (hm : MallocOk o.malloc) (c : PathSyscall.Call) {t : Prop} (ht : ¬ t) :
    Exactly (logged (PathSyscall.serve (pathEnv hdr r l o) c)).1 t (NoRoom hdr r o.malloc o.path.1 c.path) := by
  have hp : ∀ a handler, Exactly (logged (PathSyscall.handlePath (pathEnv hdr r l o) a handler)).1 t
      (NoRoom hdr r o.malloc o.path.1 a) := by
    intro a handler
    have hs := Strings.strdupOut_outcome hdr r hwf o.malloc hm o.path.1 o.path.2 a
    unfold PathSyscall.handlePath PathSyscall.getPath
    by_cases hr : NoRoom hdr r o.malloc o.path.1 a
    · simp only [pathEnv, hs.1.2 hr, logged]
      exact ⟨nofun, iff_of_false nofun ht, iff_of_true rfl hr⟩
    · obtain ⟨b, hb⟩ := hs.2 hr
      simp only [pathEnv, hb]
      cases b with
      | none => exact .ok _ ht hr
      | some raw =>
        obtain ⟨p, hp⟩ : ∃ p, Path.ofView (some 0) (Strings.cText raw) = .ok p :=
          (Path.ofView_ok (some 0) (Strings.cText raw)).2 (Or.inr ⟨0, rfl, by decide⟩)
        simp only [hp]
        split
        · exact .ok _ ht hr
        · split
          · exact .ok _ ht hr
          · exact .ok _ ht hr
  cases c <;> exact hp _ _

theorem openat_exactly (hwf : r.WF hdr) (hm : MallocOk o.malloc) (fd : Int) (a : Word) (flags mode : BitVec 32)
    {t : Prop} (ht : ¬ t) :
    Exactly (logged (PathSyscall.handleOpenat (pathEnv hdr r l o) fd a flags mode)).1 t
      (NoRoom hdr r o.malloc o.path.1 a) := by
  have hs := Strings.strdupOut_outcome hdr r hwf o.malloc hm o.path.1 o.path.2 a
  unfold PathSyscall.handleOpenat PathSyscall.getPath
  by_cases hr : NoRoom hdr r o.malloc o.path.1 a
  · simp only [pathEnv, hs.1.2 hr, logged]
    exact ⟨nofun, iff_of_false nofun ht, iff_of_true rfl hr⟩
  · obtain ⟨b, hb⟩ := hs.2 hr
    simp only [pathEnv, hb]
    exact .ok _ ht hr

theorem inside_iff (hwf : r.WF hdr) (a : Word) (n : Nat) (hn : 0 < n) (h64 : n < 2 ^ 64) :
    Bounds.contains hdr r a (.ofNat 64 n) = true ↔ Inside hdr r a n := by
  have e : (BitVec.ofNat 64 n).toNat = n := by simp; omega
  rw [Bounds.contains_iff hdr r hwf, e]
  unfold Inside
  omega

theorem hollow_socket {conf : List Config} {fd : Int} {bs : List Byte} {op : Op} (hop : op ≠ .getAddrInfo) :
    Hollow conf hdr r o fd (kindOf op) bs ↔
      IsLast conf op (.register op none) ∧ 0 ≤ fd ∧ (arg32 bs).toNat ≤ 4096 ∧
        Inside hdr r (arg64 bs 8) (arg32 bs).toNat ∧ (arg64 bs 8).toNat < r.top.toNat := by
  constructor
  · intro h
    generalize hk : kindOf op = k at h
    cases h with
    | socket op' bs _ h1 h2 h3 h4 h5 =>
      have : op' = op := by cases op <;> cases op' <;> first | rfl | cases hk
      subst this
      exact ⟨h1, h2, h3, h4, h5⟩
    | lookup bs h1 h2 h3 => cases op <;> first | exact absurd rfl hop | cases hk
  · rintro ⟨h1, h2, h3, h4, h5⟩
    exact .socket op bs hop h1 h2 h3 h4 h5

theorem hollow_lookup {conf : List Config} {fd : Int} {bs : List Byte} : Hollow conf hdr r o fd 6 bs ↔
    IsLast conf .getAddrInfo (.register .getAddrInfo none) ∧ Lookable hdr r bs ∧ ¬ Starved hdr r o 6 bs := by
  constructor
  · intro h
    generalize hk : 6 = k at h
    cases h with
    | socket op' bs hop _ _ _ _ _ => cases op' <;> first | exact absurd rfl hop | cases hk
    | lookup bs h1 h2 h3 => exact ⟨h1, h2, h3⟩
  · rintro ⟨h1, h2, h3⟩
    exact .lookup bs h1 h2 h3

theorem not_hollow {conf : List Config} {fd : Int} {bs : List Byte} {k : Nat} (hk : k < 4) :
    ¬ Hollow conf hdr r o fd k bs := by
  intro h
  cases h with
  | socket op bs hop _ _ _ _ _ => cases op <;> simp [kindOf] at hk
  | lookup bs h1 h2 h3 => omega

theorem starved_path {k : Nat} (hk : k < 4) (bs : List Byte) :
    Starved hdr r o k bs ↔ NoRoom hdr r o.malloc o.path.1 (arg64 bs 8) := by
  constructor
  · intro h
    cases h with
    | path _ _ _ h => exact h
    | node => omega
    | service => omega
  · exact fun h => .path k bs hk h

theorem starved_lookup (bs : List Byte) : Starved hdr r o 6 bs ↔ Lookable hdr r bs ∧
    (NoRoom hdr r o.malloc o.node.1 (arg64 bs 24) ∨ NoRoom hdr r o.malloc o.service.1 (arg64 bs 16)) := by
  constructor
  · intro h
    cases h with
    | path _ _ h _ => omega
    | node _ h1 h2 => exact ⟨h1, .inl h2⟩
    | service _ h1 h2 => exact ⟨h1, .inr h2⟩
  · rintro ⟨h1, h2 | h2⟩
    · exact .node bs h1 h2
    · exact .service bs h1 h2

theorem not_starved {k : Nat} (h4 : ¬ k < 4) (h6 : k ≠ 6) (bs : List Byte) : ¬ Starved hdr r o k bs := by
  intro h
  cases h with
  | path _ _ h _ => exact h4 h
  | node => exact h6 rfl
  | service => exact h6 rfl

theorem sockets_exactly (hwf : r.WF hdr) {conf : List Config} (hl : l.policies = configure conf) {op : Op}
    (hop : op ≠ .getAddrInfo) (bs : List Byte) (fd : Int) {u : Prop} (hu : ¬ u) :
    Exactly (sockets hdr r l o op bs fd).1 (Hollow conf hdr r o fd (kindOf op) bs) u := by
  rw [hollow_socket hop]
  have ha : NetEnd.addrArg bs = arg64 bs 8 := by unfold NetEnd.addrArg arg64; rw [ofLe_eq]
  have hlen : NetEnd.lenArg bs = arg32 bs := by unfold NetEnd.lenArg arg32; rw [ofLe_eq]
  unfold sockets
  simp only [ha, hlen]
  by_cases hb : Net.BadSock hdr r fd (arg64 bs 8) (arg32 bs)
  · rw [Net.sock_refused hdr r hwf l.policies op o.socket o.address fd _ _ hb]
    refine .ok _ ?_ hu
    rintro ⟨-, h2, h3, h4, h5⟩
    unfold Inside at h4
    unfold Net.BadSock at hb
    omega
  · obtain ⟨buf, reads, -, -, -, -, he⟩ := Net.sock_mediated hdr r hwf l.policies op o.socket o.address fd _ _ hb
    rw [he]
    have hin : 0 ≤ fd ∧ (arg32 bs).toNat ≤ 4096 ∧ Inside hdr r (arg64 bs 8) (arg32 bs).toNat ∧
        (arg64 bs 8).toNat < r.top.toNat := by
      unfold Inside
      unfold Net.BadSock at hb
      omega
    have hx := invoke_exactly (ps := l.policies) (op := op) o.socket (⟨fd, buf, (arg32 bs).toNat⟩ : Net.SockArgs)
    have hiff := empty_last conf op
    rw [← hl] at hiff
    by_cases hg : l.policies.get op = .handler none
    · rw [hx.1 hg]
      exact ⟨nofun, iff_of_true rfl ⟨hiff.1 hg, hin⟩, iff_of_false nofun hu⟩
    · obtain ⟨x, hx⟩ := hx.2 hg
      rw [hx]
      exact .ok _ (fun h => hg (hiff.2 h.1)) hu

theorem lookup_exactly (hwf : r.WF hdr) (hm : MallocOk o.malloc) {conf : List Config}
    (hl : l.policies = configure conf) (bs : List Byte) (fd : Int) :
    Exactly (AddrInfo.handleGetaddrinfo (lookupEnv hdr r l o) (word bs 3) (word bs 2) (word bs 1) (word bs 0)).result
      (Hollow conf hdr r o fd 6 bs) (Starved hdr r o 6 bs) := by
  simp only [word_eq, Nat.reduceMul]
  have hslot := inside_iff hwf (arg64 bs 0) 8 (by omega) (by omega)
  have hhint := inside_iff hwf (arg64 bs 8) 48 (by omega) (by omega)
  have hiff := empty_last conf .getAddrInfo
  rw [← hl] at hiff
  unfold AddrInfo.handleGetaddrinfo
  split
  · rename_i hc
    have hno : ¬ Lookable hdr r bs := by
      rintro ⟨h, -⟩
      exact Bool.eq_false_iff.1 hc (hslot.2 h)
    exact .ok _ (fun h => hno (hollow_lookup.1 h).2.1) (fun h => hno ((starved_lookup bs).1 h).1)
  · rename_i hc
    have hc : Inside hdr r (arg64 bs 0) 8 := hslot.1 (by
      rcases hb : Bounds.contains hdr r (arg64 bs 0) (.ofNat 64 8) with _ | _
      · exact absurd hb hc
      · rfl)
    split
    · rename_i hh
      have hno : ¬ Lookable hdr r bs := by
        rintro ⟨-, h | h⟩
        · exact hh.1 h
        · exact Bool.eq_false_iff.1 hh.2 (hhint.2 h)
      exact .ok _ (fun h => hno (hollow_lookup.1 h).2.1) (fun h => hno ((starved_lookup bs).1 h).1)
    · rename_i hh
      have hlk : Lookable hdr r bs := by
        refine ⟨hc, ?_⟩
        by_cases hz : arg64 bs 8 = 0
        · exact .inl hz
        · refine .inr (hhint.1 ?_)
          rcases hb : Bounds.contains hdr r (arg64 bs 8) (.ofNat 64 48) with _ | _
          · exact absurd ⟨hz, hb⟩ hh
          · rfl
      have h1 := Strings.strdupOut_outcome hdr r hwf o.malloc hm o.node.1 o.node.2 (arg64 bs 24)
      have h2 := Strings.strdupOut_outcome hdr r hwf o.malloc hm o.service.1 o.service.2 (arg64 bs 16)
      have hst := starved_lookup (hdr := hdr) (r := r) (o := o) bs
      have hub : Starved hdr r o 6 bs →
          Exactly (.ub : Outcome Result) (Hollow conf hdr r o fd 6 bs) (Starved hdr r o 6 bs) :=
        fun hs => ⟨nofun, iff_of_false nofun (fun h => (hollow_lookup.1 h).2.2 hs), iff_of_true rfl hs⟩
      by_cases hn : NoRoom hdr r o.malloc o.node.1 (arg64 bs 24)
      · simp only [lookupEnv, h1.1.2 hn]
        exact hub (hst.2 ⟨hlk, .inl hn⟩)
      · obtain ⟨b1, e1⟩ := h1.2 hn
        by_cases hs : NoRoom hdr r o.malloc o.service.1 (arg64 bs 16)
        · simp only [lookupEnv, e1, h2.1.2 hs]
          exact hub (hst.2 ⟨hlk, .inr hs⟩)
        · obtain ⟨b2, e2⟩ := h2.2 hs
          have hns : ¬ Starved hdr r o 6 bs := by
            rw [hst]
            rintro ⟨-, h | h⟩
            · exact hn h
            · exact hs h
          simp only [lookupEnv, e1, e2]
          unfold AddrInfo.ask
          have hx := invoke_exactly (ps := l.policies) (op := .getAddrInfo) (fun c q => (o.lookup c q).1)
            ⟨b1.map Strings.cText, b2.map Strings.cText, AddrInfo.copyHints (lookupEnv hdr r l o) (arg64 bs 8)⟩
          simp only [lookupEnv] at hx ⊢
          by_cases hg : l.policies.get .getAddrInfo = .handler none
          · rw [hx.1 hg]
            exact ⟨nofun, iff_of_true rfl (hollow_lookup.2 ⟨hiff.1 hg, hlk, hns⟩), iff_of_false nofun hns⟩
          · obtain ⟨x, hx⟩ := hx.2 hg
            rw [hx]
            obtain ⟨res, hres⟩ := finish_ok ⟨hdr, r, o.malloc, l.policies, o.lookup, o.alloc, o.node, o.service, o.hints⟩
              (arg64 bs 0) x.1 (match x.2 with | [] => [] | (c, q) :: _ => (o.lookup c q).2) x.2
            have key : ∀ y, y = Outcome.ok res → Exactly y (Hollow conf hdr r o fd 6 bs) (Starved hdr r o 6 bs) := by
              rintro y rfl
              exact .ok _ (fun h => hg (hiff.2 (hollow_lookup.1 h).1)) hns
            exact key _ hres

theorem builtin_exactly (hwf : r.WF hdr) (hm : MallocOk o.malloc) (hl : Holds l i as) (k : Nat) (hk : k < 7)
    (bs : List Byte) (fd : Int) :
    Exactly (builtin hdr r l o k bs fd).1 (Hollow (configsFor i as) hdr r o fd k bs) (Starved hdr r o k bs) := by
  have h0 : ∀ k < 4, ∀ (x : Outcome Result), Exactly x (Hollow (configsFor i as) hdr r o fd k bs)
      (NoRoom hdr r o.malloc o.path.1 (arg64 bs 8)) →
      Exactly x (Hollow (configsFor i as) hdr r o fd k bs) (Starved hdr r o k bs) := by
    intro k hk x hx
    rw [starved_path hk]
    exact hx
  have hw : word bs 1 = arg64 bs 8 := word_eq bs 1
  match k, hk with
  | 0, _ => exact h0 0 (by omega) _ (by rw [← hw]; exact serve_exactly hwf hm _ (not_hollow (by omega)))
  | 1, _ => exact h0 1 (by omega) _ (by rw [← hw]; exact serve_exactly hwf hm _ (not_hollow (by omega)))
  | 2, _ => exact h0 2 (by omega) _ (by rw [← hw]; exact serve_exactly hwf hm _ (not_hollow (by omega)))
  | 3, _ => exact h0 3 (by omega) _ (by rw [← hw]; exact openat_exactly hwf hm _ _ _ _ (not_hollow (by omega)))
  | 4, _ => exact sockets_exactly hwf hl.policies (op := .bind) nofun bs fd (not_starved (by omega) (by omega) bs)
  | 5, _ => exact sockets_exactly hwf hl.policies (op := .connect) nofun bs fd (not_starved (by omega) (by omega) bs)
  | 6, _ => exact lookup_exactly hwf hm hl.policies bs fd

theorem frame_eq (o : Outside) (p : Packet) (n : Nat) :
    (Callback.copyAddrs p.req.data n).map o.frame = frameOf o p n := by
  apply List.ext_getElem
  · simp [frameOf, bytesAt, Callback.copyAddrs_length]
  · intro j h1 h2
    simp [frameOf, bytesAt, asNat, Callback.copyAddrs_get, BitVec.ofNat_add]

theorem invoke_frame (hwf : r.WF hdr) (p : Packet) (n : Nat) (hn : 0 < n) (h64 : n < 2 ^ 64)
    (fn : List Byte → Int → Outcome Result) :
    (Accepted hdr r p n → (Callback.invoke hdr r n fn o.frame p.req p.fd).1 = fn (frameOf o p n) p.fd) ∧
    (¬ Accepted hdr r p n → (Callback.invoke hdr r n fn o.frame p.req p.fd).1 = .ok ⟨-38, -1⟩) := by
  constructor
  · rintro ⟨h1, h2⟩
    have hs : p.req.size = BitVec.ofNat 64 n := by
      apply BitVec.eq_of_toNat_eq; rw [h1]; simp; omega
    unfold Callback.invoke
    rw [if_neg (by simpa using hs), if_neg (by rw [hs, (inside_iff hwf p.req.data n hn h64).2 h2]; decide)]
    simp only [frame_eq]
  · intro h
    rw [Callback.invoke_refuses hdr r hwf n h64 fn o.frame p.req p.fd h]

theorem frameSize_eq (k : Nat) (hk : k < 7) : frameSize k = argSize k := by
  match k, hk with
  | 0, _ | 1, _ | 2, _ | 3, _ | 4, _ | 5, _ | 6, _ => rfl

theorem handle_exactly (hwf : r.WF hdr) (hm : MallocOk o.malloc) (hsz : ∀ u, (o.user u).1 < 2 ^ 64) (hl : Holds l i as)
    (p : Packet) :
    let ev := Callback.handle l.table.handlers (run hdr r l o) (some p) o.sendOk
    (ev = .abort ↔ Aborts (handlersFor i as) hdr r o p) ∧
    (ev = .throws ↔ Throws (handlersFor i as) (configsFor i as) hdr r o p) ∧
    (ev = .ub ↔ Undefined (handlersFor i as) hdr r o p) := by
  intro ev
  by_cases h24 : p.len < 24
  · have : ev = .ok [] := by
      show Callback.handle _ _ _ _ = _
      unfold Callback.handle
      exact if_pos h24
    rw [this]
    refine ⟨iff_of_false nofun ?_, iff_of_false nofun ?_, iff_of_false nofun ?_⟩ <;> rintro ⟨h, -⟩ <;> omega
  · have hret : ∀ (ret : Outcome Result) (a t u : Prop), (ret = .abort ↔ a) → (ret = .throws ↔ t) → (ret = .ub ↔ u) →
        ((match ret with
        | .ok res =>
          if o.sendOk then .ok [.received p.req p.fd, .replied res.integer res.handle]
          else .ok [.received p.req p.fd, .killed]
        | .abort => .abort
        | .throws => .throws
        | .ub => .ub : Outcome (List Event)) = .abort ↔ a) ∧
        ((match ret with
        | .ok res =>
          if o.sendOk then .ok [.received p.req p.fd, .replied res.integer res.handle]
          else .ok [.received p.req p.fd, .killed]
        | .abort => .abort
        | .throws => .throws
        | .ub => .ub : Outcome (List Event)) = .throws ↔ t) ∧
        ((match ret with
        | .ok res =>
          if o.sendOk then .ok [.received p.req p.fd, .replied res.integer res.handle]
          else .ok [.received p.req p.fd, .killed]
        | .abort => .abort
        | .throws => .throws
        | .ub => .ub : Outcome (List Event)) = .ub ↔ u) := by
      intro ret a t u ha ht hu
      rw [← ha, ← ht, ← hu]
      cases ret <;> cases o.sendOk <;> simp
    show (Callback.handle _ _ _ _ = _ ↔ _) ∧ (Callback.handle _ _ _ _ = _ ↔ _) ∧ (Callback.handle _ _ _ _ = _ ↔ _)
    unfold Callback.handle
    simp only
    have h24' : ¬ p.len < Callback.requestSize := h24
    simp only [if_neg h24']
    simp only [Aborts, Throws, Undefined, Nat.not_lt.1 h24, true_and]
    rw [hl.table, Callback.dispatch_tableOf]
    unfold Callback.Spec.handlerFor
    by_cases h7 : p.req.kind.toNat < 7
    · have hnu : ∀ x, ¬ UserEnds (handlersFor i as) hdr r o p x := by
        rintro x ⟨n, u, h, -⟩
        omega
      simp only [hnu, h7, true_and, false_or, if_true]
      refine hret _ _ _ _ ?_ ?_ ?_
      all_goals
        unfold run
        simp only [behind]
        have hi := invoke_frame (o := o) hwf p (frameSize p.req.kind.toNat)
          (by rw [frameSize_eq _ h7]; unfold argSize; split <;> (try split) <;> omega)
          (by rw [frameSize_eq _ h7]; unfold argSize; split <;> (try split) <;> omega)
          (fun bs f => (builtin hdr r l o p.req.kind.toNat bs f).1)
        rw [frameSize_eq _ h7] at hi ⊢
        by_cases ha : Accepted hdr r p (argSize p.req.kind.toNat)
        · rw [hi.1 ha]
          have hb := builtin_exactly hwf hm hl p.req.kind.toNat h7 (frameOf o p (argSize p.req.kind.toNat)) p.fd
          try simp only [ha, true_and]
          first | exact iff_of_false hb.abort id | exact hb.throws | exact hb.ub
        · rw [hi.2 ha]
          try simp only [ha, false_and]
          exact iff_of_false nofun id
    · simp only [h7, false_and, or_false, if_false]
      have hu : ∀ x, UserEnds (handlersFor i as) hdr r o p x ↔ ∃ u, (handlersFor i as)[p.req.kind.toNat - 7]? = some u ∧
          Accepted hdr r p (max 1 (o.user u).1) ∧ (o.user u).2 (frameOf o p (max 1 (o.user u).1)) p.fd = x := by
        intro x
        constructor
        · rintro ⟨n, u, h1, h2, h3⟩
          have : p.req.kind.toNat - 7 = n := by omega
          rw [this]
          exact ⟨u, h2, h3⟩
        · rintro ⟨u, h2, h3⟩
          exact ⟨_, u, by omega, h2, h3⟩
      simp only [hu]
      rcases hg : (handlersFor i as)[p.req.kind.toNat - 7]? with _ | u
      · simp only [Option.map_none]
        refine hret (.ok {}) _ _ _ ?_ ?_ ?_ <;> exact iff_of_false nofun (fun ⟨_, h, _⟩ => nomatch h)
      · simp only [Option.map_some]
        refine hret _ _ _ _ ?_ ?_ ?_
        all_goals
          unfold run
          simp only [behind]
          have hs := hsz u
          have hi := invoke_frame (o := o) hwf p (max 1 (o.user u).1) (by omega) (by omega)
            (fun bs f => (o.user u).2 bs f)
          by_cases ha : Accepted hdr r p (max 1 (o.user u).1)
          · rw [hi.1 ha]
            constructor
            · intro h; exact ⟨u, rfl, ha, h⟩
            · rintro ⟨u', h, -, h'⟩; cases h; exact h'
          · rw [hi.2 ha]
            refine iff_of_false nofun ?_
            rintro ⟨u', h, h', -⟩
            cases h
            exact ha h'

end

/-- **C87**, without the assumptions of `every_message_answered`: in every run, the handling of a message aborts, throws
or is undefined exactly in the cases of the specification.  It aborts only if a function of the user does.  It throws if
a function of the user does, or if the message is a well-formed `bind`, `connect` or lookup for which the host has
registered an empty function.  It is undefined if a function of the user is, or if the host has no memory to copy the
path, node or service of a request.  In all other cases it is answered. -/
theorem message_ends_iff {σ} (c : Cfg) (R : Range σ) (maps : Nat → Mapping) (hmaps : ∀ i, MapOk c (maps i))
    (sys : Sys σ) (as : List Action) (hfew : ∀ i, (handlersFor i as).length + 7 ≤ 2 ^ 31 - 1) (k i : Nat) (o : Outside)
    (p : Packet) (hk : as[k]? = some (.message i o p)) (hm : MallocOk o.malloc) (hsz : ∀ u, (o.user u).1 < 2 ^ 64) :
    ∃ ev e, (runAll c R maps (start sys) as).1[k]? = some (.handled ev e) ∧
      (ev = .abort ↔ Aborts (handlersFor i (as.take k)) c.hdr ((maps i).region c) o p) ∧
      (ev = .throws ↔ Throws (handlersFor i (as.take k)) (configsFor i (as.take k)) c.hdr ((maps i).region c) o p) ∧
      (ev = .ub ↔ Undefined (handlersFor i (as.take k)) c.hdr ((maps i).region c) o p) := by
  obtain ⟨hlt, hget⟩ := List.getElem?_eq_some_iff.1 hk
  have hsplit : as = as.take k ++ .message i o p :: as.drop (k + 1) := by
    rw [← hget, List.getElem_cons_drop, List.take_append_drop]
  have hlen : (as.take k).length = k := by rw [List.length_take]; omega
  have hf : (handlersFor i (as.take k)).length + 7 ≤ 2 ^ 31 - 1 := by
    have h : handlersFor i (as.take k ++ as.drop k) = handlersFor i (as.take k) ++ handlersFor i (as.drop k) :=
      List.filterMap_append
    have := hfew i
    rw [List.take_append_drop] at h
    rw [h, List.length_append] at this
    omega
  have hl := runAll_holds c R maps sys i k (as.take k) hlen hf
  have hwf : ((maps i).region c).WF c.hdr := Bounds.ofMapping_wf _ _ _ (hmaps i).room (hmaps i).no_wrap
  have hrun := runAll_append c R maps (.message i o p :: as.drop (k + 1)) (as.take k) (start sys)
  rw [← hsplit] at hrun
  refine ⟨_, effects c.hdr ((maps i).region c) ((runAll c R maps (start sys) (as.take k)).2.libs i) o p, ?_,
    handle_exactly hwf hm hsz hl p⟩
  rw [hrun]
  simp only
  rw [List.getElem?_append_right (by rw [runAll_length, hlen]; omega), runAll_length, hlen, Nat.sub_self]
  rfl

/-- The host of the examples without memory. -/
def exPoor (b : Word) : Outside := { exOut b with malloc := fun _ => none }

/-- The hypotheses can be met by a host without memory, whose sandbox asks for a path: it does not get an answer. -/
example : MallocOk (exPoor (exMap 0).base).malloc ∧ (∀ u, ((exPoor (exMap 0).base).user u).1 < 2 ^ 64) ∧
    (match (runAll exCfg (buddyRange exCfg) exMap (start exSys)
      [.message 0 (exPoor (exMap 0).base) ⟨24, ⟨0, 16, (exMap 0).base + 0x1000⟩, -1⟩]).1[0]? with
      | some (.handled .ub _) => true | _ => false) = true ∧
    Undefined [] exCfg.hdr ((exMap 0).region exCfg) (exPoor (exMap 0).base)
      ⟨24, ⟨0, 16, (exMap 0).base + 0x1000⟩, -1⟩ := by
  refine ⟨nofun, fun _ => (by show 8 < 2 ^ 64; decide), by decide +kernel, by decide,
    .inr ⟨by decide, ⟨by decide, by decide +kernel, by decide +kernel⟩, ?_⟩⟩
  refine .path _ _ (by decide) ⟨by decide +kernel, [47, 97, 47, 98], ⟨?_, by decide +kernel⟩, by decide +kernel, rfl⟩
  decide +kernel

end Verif.Authority
