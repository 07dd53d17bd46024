import Verif.Balance.Spec
import Verif.Socket.Props
import Verif.Authority.Frames

/-!
# The host's descriptors while it handles messages: theorems (C86)
-/

namespace Verif.Balance

open Verif.Fd
open Verif.Bounds (Region)
open Verif.Callback (Request Result)
open Verif.PathSyscall (Entry Log HostOp Kernel sys)
open Verif.Authority (Lib Outside effects run)
open Verif.Socket (opened)
open Spec

theorem close_put {t : Table} {n : Nat} {o : Option Obj} (h : t n = none) : close (t.put n o) (n : Int) = t := by
  funext i
  simp only [close, Int.natCast_nonneg, if_true, Int.toNat_natCast, Table.put]
  split
  · rename_i e; rw [e, h]
  · rfl

theorem close_comm (t : Table) (a b : Int) : close (close t a) b = close (close t b) a := by
  funext i
  unfold close
  by_cases ha : 0 ≤ a <;> by_cases hb : 0 ≤ b <;> simp only [ha, hb, if_true, if_false, Table.put]
  split <;> split <;> rfl

/-- What a handler leaves: with the descriptor in its reply closed, the table is as before. -/
def Even (obj : Obj) (t : Table) (x : Result × Log) : Prop := close (replay obj t x.2) x.1.handle = t

theorem close_m1 (t : Table) : close t (-1) = t := by simp [close]

section handlers
variable {lim : Nat} {obj : Obj} {t : Table} {v : PathSyscall.Env}

theorem even_return {fd : Int} {op : HostOp} (hk : Fresh lim obj t v.kernel) (hm : op = .dup fd ∨ ∃ d p f m r, op = .openat2 d p f m r) :
    Even obj t (PathSyscall.returnFd (sys v.kernel [] op).1, (sys v.kernel [] op).2) := by
  have hM : Makes op := by rcases hm with rfl | ⟨_, _, _, _, _, rfl⟩ <;> trivial
  have h := hk [] op hM
  have hap : ∀ x : Int × Int, apply obj t ⟨op, x.1, x.2⟩ = if 0 ≤ x.1 then t.put x.1.toNat (some obj) else t := by
    intro x
    rcases hm with rfl | ⟨_, _, _, _, _, rfl⟩ <;> rfl
  show close (replay obj t (([] : Log) ++ [⟨op, (v.kernel [] op).1, (v.kernel [] op).2⟩]))
    (PathSyscall.returnFd (v.kernel [] op)).handle = t
  simp only [replay, List.nil_append, List.foldl_cons, List.foldl_nil, hap, PathSyscall.returnFd]
  by_cases h0 : 0 ≤ (v.kernel [] op).1
  · rw [if_pos h0, if_pos h0]
    obtain ⟨n, hn⟩ := Int.eq_ofNat_of_zero_le h0
    simp only [hn, Int.toNat_natCast] at h ⊢
    exact close_put (h (Int.natCast_nonneg n)).2
  · rw [if_neg h0, if_neg (by omega)]
    exact close_m1 t

/-- Opening, one call that makes no descriptor, closing. -/
theorem even_probe {fd : Int} {path : Option (List Byte)} (f : Int → HostOp) (hf : ∀ p, ¬ Makes (f p))
    (hc : ∀ p q, f p ≠ .close q) (hk : Fresh lim obj t v.kernel) (res : Result) (hr : res.handle = -1)
    {log : Log} (hlog : log = (match PathSyscall.openatBeneath v.kernel [] fd path PathSyscall.oPath 0 with
      | ((p, _), log1) => if p < 0 then log1 else (sys v.kernel (sys v.kernel log1 (f p)).2 (.close p)).2)) :
    Even obj t (res, log) := by
  have hn : ∀ t : Table, ∀ p x y, apply obj t ⟨f p, x, y⟩ = t := by
    intro t p x y
    have h1 := hf p
    have h2 := hc p
    unfold apply
    cases h : f p <;> simp only [h, Makes] at h1 h2 ⊢
    · exact absurd trivial h1
    · exact absurd trivial h1
    · exact absurd rfl (h2 _)
  simp only [Even, hr, close_m1]
  rw [hlog]
  have hfr := hk [] (.openat2 fd path (PathSyscall.oPath.signExtend 64) ((0 : BitVec 32).setWidth 64)
    PathSyscall.resolveBeneath) trivial
  rcases hop : v.kernel [] (.openat2 fd path (PathSyscall.oPath.signExtend 64) ((0 : BitVec 32).setWidth 64)
    PathSyscall.resolveBeneath) with ⟨ret, er⟩
  rw [hop] at hfr
  simp only [PathSyscall.openatBeneath, sys, List.nil_append, hop]
  split
  · rename_i hneg
    show (if 0 ≤ ret then t.put ret.toNat (some obj) else t) = t
    rw [if_neg (by omega)]
  · rename_i hneg
    have h0 : 0 ≤ ret := by omega
    simp only [replay, List.cons_append, List.nil_append, List.foldl_cons, List.foldl_nil, hn]
    show close (if 0 ≤ ret then t.put ret.toNat (some obj) else t) ret = t
    rw [if_pos h0]
    obtain ⟨n, rfl⟩ := Int.eq_ofNat_of_zero_le h0
    exact close_put (hfr h0).2

theorem even_nothing (i : Int) : Even obj t ({ integer := i }, []) := close_m1 t

theorem even_path {a : Word} {handler : Int → Path.Path → Result × Log} (h : ∀ fd p, Even obj t (handler fd p))
    {x : Result × Log} (hx : PathSyscall.handlePath v a handler = .ok x) : Even obj t x := by
  unfold PathSyscall.handlePath at hx
  repeat' split at hx
  all_goals first | cases hx | skip
  all_goals first | exact even_nothing _ | skip
  exact h _ _

theorem access_log (k : Kernel) (fd : Int) (path : Option (List Byte)) (mode flags : BitVec 32) :
    (PathSyscall.faccessatBeneath k [] fd path mode flags).2 =
      (match PathSyscall.openatBeneath k [] fd path PathSyscall.oPath 0 with
      | ((p, _), log1) => if p < 0 then log1
        else (sys k (sys k log1 (.faccessat2 p [] mode (flags ||| PathSyscall.atEmptyPath))).2 (.close p)).2) := by
  unfold PathSyscall.faccessatBeneath
  rcases PathSyscall.openatBeneath k [] fd path PathSyscall.oPath 0 with ⟨⟨p, e⟩, log1⟩
  simp only
  split <;> rfl

theorem stat_log (k : Kernel) (fd : Int) (path : Option (List Byte)) (sb : Word) (flags : BitVec 32) :
    (PathSyscall.fstatatBeneath k [] fd path sb flags).2 =
      (match PathSyscall.openatBeneath k [] fd path PathSyscall.oPath 0 with
      | ((p, _), log1) => if p < 0 then log1
        else (sys k (sys k log1 (.fstatat p [] sb (flags ||| PathSyscall.atEmptyPath))).2 (.close p)).2) := by
  unfold PathSyscall.fstatatBeneath
  rcases PathSyscall.openatBeneath k [] fd path PathSyscall.oPath 0 with ⟨⟨p, e⟩, log1⟩
  simp only
  split <;> rfl

theorem even_serve (hk : Fresh lim obj t v.kernel) (call : PathSyscall.Call) {x : Result × Log}
    (hx : PathSyscall.serve v call = .ok x) : Even obj t x := by
  cases call with
  | open_ a flags mode =>
    refine even_path (fun fd p => ?_) hx
    simp only [PathSyscall.openBody]
    split
    · exact even_return (fd := fd) hk (.inr ⟨_, _, _, _, _, rfl⟩)
    · exact even_return hk (.inl rfl)
  | access a mode =>
    refine even_path (fun fd p => ?_) hx
    simp only [PathSyscall.accessBody]
    refine even_probe (v := v) (fun q => .faccessat2 q [] mode (0 ||| PathSyscall.atEmptyPath)) (fun _ => id) nofun hk _
      (by rfl) (fd := fd) (path := if p.isEmpty then none else some (PathSyscall.tailText p)) ?_
    exact access_log _ _ _ _ _
  | stat a sb =>
    refine even_path (fun fd p => ?_) hx
    simp only [PathSyscall.statBody]
    split
    · split
      · show close (replay obj t [_]) (-1) = t
        rw [close_m1]; rfl
      · refine even_probe (v := v) (fun q => .fstatat q [] sb (0 ||| PathSyscall.atEmptyPath)) (fun _ => id) nofun hk _
          (by rfl) (fd := fd) (path := some (PathSyscall.tailText p)) ?_
        exact stat_log _ _ _ _ _
    · exact even_nothing _

end handlers

theorem ofLe_lt (bs : List Byte) : EndToEnd.ofLe bs < 256 ^ bs.length := by
  induction bs with
  | nil => simp [EndToEnd.ofLe]
  | cons b bs ih =>
    have hb := b.toNat_lt
    simp only [EndToEnd.ofLe, List.length_cons, Nat.pow_succ]
    omega

/-- The host reads the request that the child wrote: the fields, in their order, each with its lowest byte first. -/
theorem decode_request (q : Request) (rest : List Byte) :
    decode (EndToEnd.le 8 q.kind.toNat ++ EndToEnd.le 8 q.size.toNat ++ EndToEnd.le 8 q.data.toNat ++ rest) = q := by
  have h8 : ∀ v, (EndToEnd.le 8 v).length = 8 := EndToEnd.le_length 8
  unfold decode
  rw [List.append_assoc, List.append_assoc, List.take_left' (h8 _), EndToEnd.ofLe_le64,
    Authority.cut_at _ _ _ _ 8 (h8 _) (h8 _), EndToEnd.ofLe_le64, ← List.append_assoc,
    Authority.cut_at _ _ _ _ 8 (by simp [h8]) (h8 _), EndToEnd.ofLe_le64]

example : decode ([3, 0, 0, 0, 0, 0, 0, 0, 24, 0, 0, 0, 0, 0, 0, 0, 0, 0x10, 1, 0, 0, 0, 0, 0]) = ⟨3, 24, 0x11000⟩ := by
  decide +kernel

section message
variable {lim : Nat} {obj : Obj} {hdr : Word} {r : Region} {l : Lib} {o : Outside} {users : List Nat}

theorem logged_ok {y : Outcome (Result × Log)} {res : Result} (h : (Authority.logged y).1 = .ok res) :
    y = .ok (res, (Authority.logged y).2.log) := by
  cases y with
  | ok x => cases h; rfl
  | abort => cases h
  | throws => cases h
  | ub => cases h

theorem even_builtin {t : Table} (hk : Fresh lim obj t o.kernel) {k : Nat} (h3 : k ≠ 3) {bs : List Byte} {fd : Int}
    {res : Result} (h : (Authority.builtin hdr r l o k bs fd).1 = .ok res) :
    Even obj t (res, (Authority.builtin hdr r l o k bs fd).2.log) := by
  unfold Authority.builtin at h ⊢
  split at h
  · exact even_serve (v := Authority.pathEnv hdr r l o) hk _ (logged_ok h)
  · exact even_serve (v := Authority.pathEnv hdr r l o) hk _ (logged_ok h)
  · exact even_serve (v := Authority.pathEnv hdr r l o) hk _ (logged_ok h)
  · exact absurd rfl h3
  · have := Authority.sock_handle _ _ _ _ _ _ _ _ h
    simp only [Authority.sockets, Even, this, close_m1]; rfl
  · have := Authority.sock_handle _ _ _ _ _ _ _ _ h
    simp only [Authority.sockets, Even, this, close_m1]; rfl
  · have := Authority.lookup_handle _ _ _ _ _ _ h
    simp only [Even, this, close_m1]; rfl
  · cases h; exact close_m1 t

/-- A message whose number is not one of the user's either has no effect or is given to a built-in handler. -/
theorem entry_cases (hl : l.table = Callback.tableOf users) (q : Request) (fd : Int)
    (hq : q.kind.toNat < 7 + users.length → q.kind.toNat < 7) :
    (answer hdr r l o q fd = .ok {} ∧ (effects hdr r l o ⟨Callback.requestSize, q, fd⟩).log = []) ∨
    ∃ bs, q.kind.toNat < 7 ∧ answer hdr r l o q fd = (Authority.builtin hdr r l o q.kind.toNat bs fd).1 ∧
      (effects hdr r l o ⟨Callback.requestSize, q, fd⟩).log =
        (Authority.builtin hdr r l o q.kind.toNat bs fd).2.log := by
  unfold answer effects
  simp only [Nat.lt_irrefl, if_false]
  rw [hl, Callback.dispatch_tableOf, Callback.Spec.handlerFor]
  by_cases h7 : q.kind.toNat < 7
  · rw [if_pos h7]
    simp only [run, Authority.behind]
    unfold Callback.invoke
    split
    · exact .inl ⟨rfl, rfl⟩
    · split
      · exact .inl ⟨rfl, rfl⟩
      · have hpos : 0 < Authority.frameSize q.kind.toNat := by unfold Authority.frameSize; split <;> decide
        have hne : Callback.copyAddrs q.data (Authority.frameSize q.kind.toNat) ≠ [] := by
          intro h
          have := Callback.copyAddrs_length q.data (Authority.frameSize q.kind.toNat)
          rw [h, List.length_nil] at this
          omega
        simp only [if_neg hne]
        exact .inr ⟨_, h7, rfl, rfl⟩
  · rw [if_neg h7, List.getElem?_eq_none (by omega)]
    exact .inl ⟨rfl, rfl⟩

theorem received {t : Table} {p : Socket.Packet} (hp : Decent p) :
    ∃ ok bs fd t1, Socket.receive lim t Callback.requestSize (-1) [.packet p] = (ok, bs, fd, t1) ∧
      close t1 fd = t ∧ (ok = false → t1 = t) ∧ (ok = true → bs = p.data.take 24) ∧
      (0 ≤ fd → t1 fd.toNat ≠ none) := by
  have h24 : Callback.requestSize = 24 := rfl
  simp only [h24, Socket.receive, Socket.receiveMsg, if_true]
  rcases hp with hp | ⟨hp, hd⟩
  · rw [hp]
    have hi : Socket.install lim ((Socket.cmsgSpace - 16) / 4) t [] = ([], t) := by simp [Socket.install]
    simp only [hi]
    split
    · exact ⟨_, _, _, _, rfl, by simp [Socket.cmsgLen, close_m1], by simp, by simp, by simp [Socket.cmsgLen]⟩
    · exact ⟨_, _, _, _, rfl, close_m1 _, fun _ => rfl, by simp, by simp⟩
  · obtain ⟨ob, ho⟩ : ∃ ob, p.fds = [ob] := by
      match h : p.fds, hp with
      | [ob], _ => exact ⟨ob, rfl⟩
    have hlen : (p.data.take 24).length = 24 := by rw [List.length_take]; omega
    rw [ho]
    rcases hn : lowest lim t with _ | n
    · have hi : Socket.install lim ((Socket.cmsgSpace - 16) / 4) t [ob] = ([], t) := by
        simp [Socket.install, Socket.cmsgSpace, hn]
      simp only [hi, hlen]
      exact ⟨_, _, _, _, rfl, by simp [Socket.cmsgLen, close_m1], by simp, by simp, by simp [Socket.cmsgLen]⟩
    · have hi : Socket.install lim ((Socket.cmsgSpace - 16) / 4) t [ob] = ([(n : Int)], t.put n (some ob)) := by
        simp [Socket.install, Socket.cmsgSpace, hn]
      simp only [hi, hlen]
      refine ⟨_, _, _, _, rfl, ?_, by simp, by simp, ?_⟩
      · simp only [List.length_cons, List.length_nil, List.headD_cons, if_true, Nat.zero_add, close_m1]
        exact close_put (lowest_some.1 hn).2.1
      · simp [close_m1, Table.put]

theorem close_put_ne {t : Table} {n : Nat} {x : Option Obj} {c : Int} (h : c ≠ n) :
    close (t.put n x) c = (close t c).put n x := by
  funext i
  unfold close
  split
  · simp only [Table.put]
    split <;> split <;> first | rfl | omega
  · rfl

/-- What `handle_openat` leaves: the new descriptor, and nothing of the one that came with the request. -/
theorem openat_table {t1 t : Table} (hk : Fresh lim obj t1 o.kernel) {bs : List Byte} {fd : Int} (hc : close t1 fd = t)
    (hfd : 0 ≤ fd → t1 fd.toNat ≠ none) {res : Result} (h : (Authority.builtin hdr r l o 3 bs fd).1 = .ok res) :
    res.handle = -1 ∧ (Authority.builtin hdr r l o 3 bs fd).2.log ≠ [] ∧
    (replay obj t1 (Authority.builtin hdr r l o 3 bs fd).2.log = if 0 ≤ res.integer then
        t.put res.integer.toNat (some obj) else t) ∧
    (0 ≤ res.integer → res.integer.toNat < lim ∧ t res.integer.toNat = none) := by
  have hlog := logged_ok h
  generalize hL : (Authority.logged (PathSyscall.handleOpenat (Authority.pathEnv hdr r l o) fd (Authority.word bs 1)
    (Authority.half bs 1) (Authority.half bs 0))).2.log = log at hlog
  have hL' : (Authority.builtin hdr r l o 3 bs fd).2.log = log := hL
  rw [hL']
  unfold PathSyscall.handleOpenat at hlog
  split at hlog
  · rename_i p hp
    simp only [PathSyscall.openatBeneath, sys, List.nil_append] at hlog
    have hfr := hk [] (.openat2 fd (p.map Strings.cText) ((Authority.half bs 1).signExtend 64)
      ((Authority.half bs 0).setWidth 64) PathSyscall.resolveBeneath) trivial
    change 0 ≤ _ → _ ∧ t1 _ = none at hfr
    rcases hop : o.kernel [] (.openat2 fd (p.map Strings.cText) ((Authority.half bs 1).signExtend 64)
      ((Authority.half bs 0).setWidth 64) PathSyscall.resolveBeneath) with ⟨ret, er⟩
    rw [hop] at hfr
    simp only [Authority.pathEnv, hop] at hlog
    have hne : 0 ≤ ret → fd ≠ (ret.toNat : Int) := by
      intro h0 e
      exact hfd (by omega) (by rw [e, Int.toNat_natCast]; exact (hfr h0).2)
    have ht : 0 ≤ ret → t ret.toNat = none := by
      intro h0
      rw [← hc]
      unfold close
      split
      · simp only [Table.put]; split
        · rfl
        · exact (hfr h0).2
      · exact (hfr h0).2
    obtain ⟨rfl, rfl⟩ : res = { integer := ret } ∧ log = _ := by
      have := Outcome.ok.inj hlog
      exact ⟨(congrArg Prod.fst this).symm, (congrArg Prod.snd this).symm⟩
    refine ⟨rfl, by split <;> simp, ?_, fun h0 => ⟨(hfr h0).1, ht h0⟩⟩
    split
    · rename_i hge
      show close (if 0 ≤ ret then t1.put ret.toNat (some obj) else t1) fd = _
      by_cases h0 : 0 ≤ ret
      · rw [if_pos h0, if_pos h0, close_put_ne (hne h0), hc]
      · rw [if_neg h0, if_neg h0, hc]
    · rename_i hlt
      have e : t1 = t := by rw [← hc]; unfold close; rw [if_neg (by omega)]
      rw [e]; rfl
  · cases hlog
  · cases hlog
  · cases hlog

/-- **C86, one message.**  A packet that can be received without loss, and does not ask for a callback of the user: the
host's descriptors are afterwards exactly as they were, whatever the packet says, whatever the handler does, and whether
or not the reply can be sent; except that a relative `openat` may leave one more, which was free before. -/
theorem message_keeps_descriptors_partial (hl : l.table = Callback.tableOf users) {w : Table → Outside}
    {p : Socket.Packet} {t t' : Table} (hp : Decent p) (hq : asksFor p < 7 + users.length → asksFor p < 7)
    (hk : ∀ t1, Fresh lim obj t1 (w t1).kernel) (h : turn lim obj hdr r l (w, p) t = .ok t') :
    t' = t ∨ (asksFor p = 3 ∧ ∃ n, n < lim ∧ t n = none ∧ t' = t.put n (some obj)) := by
  obtain ⟨ok, bs, fd, t1, hr, hc, hf, hb, hfd⟩ := received (lim := lim) (t := t) hp
  simp only [turn, hr] at h
  cases ok with
  | false => cases h; exact .inl (hf rfl)
  | true =>
    simp only at h
    obtain rfl := hb rfl
    have hkind : (decode (p.data.take 24)).kind.toNat = asksFor p := by
      have hlt := ofLe_lt (p.data.take 8)
      have hle : (p.data.take 8).length ≤ 8 := by rw [List.length_take]; omega
      have : 256 ^ (p.data.take 8).length ≤ 256 ^ 8 := Nat.pow_le_pow_right (by decide) hle
      simp only [decode, asksFor, List.take_take, BitVec.toNat_ofNat]
      rw [show min 8 24 = 8 from rfl]
      exact Nat.mod_eq_of_lt (by omega)
    rw [← hkind] at hq ⊢
    generalize decode (p.data.take 24) = q at h hq ⊢
    unfold finish at h
    have hfr := hk t1
    generalize w t1 = o at h hfr
    rcases entry_cases (hdr := hdr) (r := r) (o := o) hl q fd hq with ⟨ha, hlg⟩ | ⟨bs, h7, ha, hlg⟩
    · rw [ha] at h
      simp only [hlg, ne_eq, not_true, and_false, if_false] at h
      cases h
      left
      show close (close t1 fd) (-1) = t
      rw [close_m1, hc]
    · rw [ha, hlg] at h
      rcases hans : (Authority.builtin hdr r l o q.kind.toNat bs fd).1 with res | _ | _ | _ <;> rw [hans] at h
      · simp only at h
        by_cases h3 : q.kind.toNat = 3
        · have hq3 : q.kind = 3 := BitVec.eq_of_toNat_eq (by rw [h3]; rfl)
          rw [h3] at h hans
          obtain ⟨g1, g2, g3, g4⟩ := openat_table hfr hc hfd hans
          rw [if_pos ⟨hq3, g2⟩, g3, g1, close_m1] at h
          cases h
          by_cases h0 : 0 ≤ res.integer
          · rw [if_pos h0]
            exact .inr ⟨h3, _, (g4 h0).1, (g4 h0).2, rfl⟩
          · rw [if_neg h0]; exact .inl rfl
        · have hev := even_builtin hfr h3 hans
          have hq3 : ¬ (q.kind = 3) := fun e => h3 (by rw [e]; rfl)
          simp only [hq3, false_and, if_false] at h
          cases h
          left
          rw [close_comm]
          unfold Even at hev
          rw [hev, hc]
      · cases h
      · cases h
      · cases h

/-- **C86 (partial), any number of messages.**  Requests other than the relative `openat` and the callbacks of the user,
with at most one descriptor each and in any number, leave the host's descriptors exactly as they were.  What is
missing: the relative `openat` (`openat_leaks`), packets with two descriptors or too short for a request
(`Verif.Socket`), and the callbacks of the user, which may keep what they receive. -/
theorem messages_keep_descriptors_partial (hl : l.table = Callback.tableOf users)
    {ms : List ((Table → Outside) × Socket.Packet)} {t t' : Table}
    (hm : ∀ m ∈ ms, Decent m.2 ∧ (asksFor m.2 < 7 ∨ 7 + users.length ≤ asksFor m.2) ∧ asksFor m.2 ≠ 3 ∧
      ∀ t1, Fresh lim obj t1 (m.1 t1).kernel)
    (h : turns lim obj hdr r l ms t = .ok t') : t' = t := by
  induction ms generalizing t with
  | nil => cases h; rfl
  | cons m ms ih =>
    simp only [turns] at h
    obtain ⟨h1, h2, h3, h4⟩ := hm m (by simp)
    rcases ht : turn lim obj hdr r l m t with t1 | _ | _ | _ <;> rw [ht] at h
    · rcases message_keeps_descriptors_partial (w := m.1) (p := m.2) hl h1 (by omega) h4 ht with rfl | ⟨h, -⟩
      · exact ih (fun m hm' => hm m (by simp [hm'])) h
      · exact absurd h h3
    · cases h
    · cases h
    · cases h

theorem free_of_opened {t : Table} (ht : opened lim t < lim) : ∃ m, m < lim ∧ t m = none := by
  cases hl : lowest lim t with
  | some n => exact ⟨n, (lowest_some.1 hl).1, (lowest_some.1 hl).2.1⟩
  | none =>
    exfalso
    have : opened lim t = lim := by
      unfold opened
      rw [List.filter_eq_self.2]
      · simp
      · intro i hi
        have := lowest_none.1 hl i (by simpa using hi)
        simpa [Option.isSome_iff_ne_none] using this
    omega

theorem free_after {t t1 : Table} {fd : Int} (hroom : opened lim t + 2 ≤ lim) (hc : close t1 fd = t) :
    ∃ i, i < lim ∧ t1 i = none := by
  obtain ⟨a, ha, ha'⟩ := free_of_opened (lim := lim) (t := t) (by omega)
  have hb := Socket.opened_put (o := ⟨0, true⟩) ha' lim
  rw [if_pos ha] at hb
  obtain ⟨b, hb, hb'⟩ := free_of_opened (lim := lim) (t := t.put a (some ⟨0, true⟩)) (by omega)
  have hne : b ≠ a := by rintro rfl; simp [Table.put] at hb'
  rw [put_ne _ _ hne] at hb'
  have key : ∀ i, t i = none → (i : Int) ≠ fd → t1 i = none := by
    intro i hi hne
    rw [← hc] at hi
    unfold close at hi
    split at hi
    · rw [put_ne _ _ (by omega)] at hi; exact hi
    · exact hi
  by_cases e : (a : Int) = fd
  · exact ⟨b, hb, key b hb' (by omega)⟩
  · exact ⟨a, ha, key a ha' e⟩

/-- **C86 fails for the relative `openat`.**  If the frame is accepted and the kernel opens the file, the host has one
more descriptor after the message than before, for the file that was opened; nothing closes it. -/
theorem openat_leaks (hl : l.table = Callback.tableOf users) {w : Table → Outside} {p : Socket.Packet} {t : Table}
    (hp : Decent p) (hlen : 24 ≤ p.data.length) (hk : ∀ t1, Fresh lim obj t1 (w t1).kernel)
    (h3 : asksFor p = 3) (hsz : (decode (p.data.take 24)).size = 24)
    (hin : Bounds.contains hdr r (decode (p.data.take 24)).data 24 = true)
    (hroom : opened lim t + 2 ≤ lim)
    (hopen : ∀ t1 fd path flags mode, (∃ i, i < lim ∧ t1 i = none) →
      0 ≤ ((w t1).kernel [] (.openat2 fd path flags mode PathSyscall.resolveBeneath)).1)
    (hmalloc : ∀ t1, Strings.MallocOk (w t1).malloc ∧ Strings.MallocTotal (w t1).malloc) :
    ∃ n, n < lim ∧ t n = none ∧ turn lim obj hdr r l (w, p) t = .ok (t.put n (some obj)) := by
  obtain ⟨ok, bs, fd, t1, hr, hc, hf, hb, hfd⟩ := received (lim := lim) (t := t) hp
  have hok : ok = true := by
    have h24 : Callback.requestSize = 24 := rfl
    simp only [h24, Socket.receive, Socket.receiveMsg, if_true, List.length_take, Nat.min_eq_left hlen,
      decide_true] at hr
    exact (congrArg Prod.fst hr).symm
  subst hok
  obtain rfl := hb rfl
  have hkind : (decode (p.data.take 24)).kind.toNat = 3 := by
    simp only [decode, List.take_take, BitVec.toNat_ofNat]
    rw [show min 8 24 = 8 from rfl]
    unfold asksFor at h3
    rw [h3]
  simp only [turn, hr]
  generalize decode (p.data.take 24) = q at hsz hin hkind
  have hq3 : q.kind = 3 := BitVec.eq_of_toNat_eq (by rw [hkind]; rfl)
  have hfr := hk t1
  have hop := fun fd path flags mode => hopen t1 fd path flags mode (free_after hroom hc)
  have hpa : ∀ a, ∃ b, PathSyscall.getPath (Authority.pathEnv hdr r l (w t1)) a = .ok b := by
    intro a
    unfold PathSyscall.getPath
    rcases Strings.strdupOut_safe hdr r (w t1).malloc (hmalloc t1).1 (hmalloc t1).2 (w t1).path.1 (w t1).path.2 a with
      h | ⟨b, h, -⟩
    · exact ⟨_, h⟩
    · exact ⟨_, h⟩
  generalize w t1 = o at hfr hop hpa
  have hd : Callback.dispatch l.table.handlers q.kind = some (.builtin 3) := by
    rw [hl, Callback.dispatch_tableOf, hkind]; rfl
  have hne : Callback.copyAddrs q.data 24 ≠ [] := by
    intro h
    have := Callback.copyAddrs_length q.data 24
    rw [h, List.length_nil] at this
    omega
  have hinv : ∀ fn : List Byte → Int → Outcome Result, Callback.invoke hdr r 24 fn o.frame q fd =
      (fn ((Callback.copyAddrs q.data 24).map o.frame) fd, Callback.copyAddrs q.data 24) := by
    intro fn
    unfold Callback.invoke
    rw [if_neg (by rw [hsz]; simp), if_neg (by rw [hsz, hin]; simp)]
  have ha : answer hdr r l o q fd =
      (Authority.builtin hdr r l o 3 ((Callback.copyAddrs q.data 24).map o.frame) fd).1 := by
    simp only [answer, hd, run, Authority.behind, Authority.frameSize, hinv]
  have hlg : (effects hdr r l o ⟨Callback.requestSize, q, fd⟩).log =
      (Authority.builtin hdr r l o 3 ((Callback.copyAddrs q.data 24).map o.frame) fd).2.log := by
    simp only [effects, hd, Authority.behind, Authority.frameSize, hinv, Nat.lt_irrefl, if_false, if_neg hne]
  have hans : ∃ res, (Authority.builtin hdr r l o 3 ((Callback.copyAddrs q.data 24).map o.frame) fd).1 = .ok res ∧
      0 ≤ res.integer := by
    simp only [Authority.builtin, PathSyscall.handleOpenat]
    generalize (Callback.copyAddrs q.data 24).map o.frame = bs
    obtain ⟨b, hb⟩ := hpa (Authority.word bs 1)
    rw [hb]
    exact ⟨_, rfl, hop _ _ _ _⟩
  obtain ⟨res, hres, h0⟩ := hans
  obtain ⟨g1, g2, g3, g4⟩ := openat_table hfr hc hfd hres
  refine ⟨res.integer.toNat, (g4 h0).1, (g4 h0).2, ?_⟩
  simp only [finish, ha, hres, hlg]
  rw [if_pos ⟨hq3, g2⟩, g3, g1, close_m1, if_pos h0]

/-- **C86 fails without limit.**  A sandbox that repeats one request to open a file relative to a directory takes one
descriptor of the host each time, until the host has none left. -/
theorem openat_exhausts (hl : l.table = Callback.tableOf users) {w : Table → Outside} {p : Socket.Packet}
    (hp : Decent p) (hlen : 24 ≤ p.data.length) (hk : ∀ t1, Fresh lim obj t1 (w t1).kernel)
    (h3 : asksFor p = 3) (hsz : (decode (p.data.take 24)).size = 24)
    (hin : Bounds.contains hdr r (decode (p.data.take 24)).data 24 = true)
    (hopen : ∀ t1 fd path flags mode, (∃ i, i < lim ∧ t1 i = none) →
      0 ≤ ((w t1).kernel [] (.openat2 fd path flags mode PathSyscall.resolveBeneath)).1)
    (hmalloc : ∀ t1, Strings.MallocOk (w t1).malloc ∧ Strings.MallocTotal (w t1).malloc) (n : Nat) (t : Table)
    (hroom : opened lim t + n + 1 ≤ lim) :
    ∃ t', turns lim obj hdr r l (List.replicate n (w, p)) t = .ok t' ∧ opened lim t' = opened lim t + n := by
  induction n generalizing t with
  | zero => exact ⟨t, rfl, rfl⟩
  | succ n ih =>
    obtain ⟨i, hi, hf, ht⟩ := openat_leaks (t := t) hl hp hlen hk h3 hsz hin (by omega) hopen hmalloc
    have ho := Socket.opened_put (o := obj) hf lim
    rw [if_pos hi] at ho
    obtain ⟨t', h1, h2⟩ := ih (t.put i (some obj)) (by omega)
    refine ⟨t', ?_, by omega⟩
    simp only [List.replicate_succ, turns, ht, h1]

end message

/-! ### The hypotheses can be met -/

/-- A kernel that gives the lowest free number to every new descriptor. -/
def exKernel (lim : Nat) (obj : Obj) (t : Table) : Kernel := fun log op =>
  match op with
  | .openat2 .. => ((create lim (replay obj t log) obj).1, 24)
  | .dup _ => ((create lim (replay obj t log) obj).1, 24)
  | _ => (0, 0)

theorem create_nonneg {lim : Nat} {t : Table} {obj : Obj} (h : 0 ≤ (create lim t obj).1) :
    (create lim t obj).1.toNat < lim ∧ t (create lim t obj).1.toNat = none := by
  unfold create at h ⊢
  cases hl : lowest lim t with
  | some n => exact ⟨(lowest_some.1 hl).1, (lowest_some.1 hl).2.1⟩
  | none => simp [hl] at h

theorem exKernel_fresh (lim : Nat) (obj : Obj) (t : Table) : Fresh lim obj t (exKernel lim obj t) := by
  intro log op hm h
  cases op <;> first | exact create_nonneg h | exact absurd hm id

/-- A library with a directory exported as `/a`. -/
def exLib : Lib := { Authority.fresh with tree := ((⟨true, [47, 97], 5⟩ : FileTree.Export).run []).2.1 }

theorem exLib_table : exLib.table = Callback.tableOf [] := (Authority.fresh_holds 0).table

/-- The first request of the sandbox is `open` of `/a/b`: it makes the host open a file below that directory. -/
example : (effects 0x400 ⟨0x10400, 0x20000⟩ exLib (Authority.exOut 0x10000) ⟨24, ⟨0, 16, 0x11000⟩, -1⟩).log.length = 1 := by
  decide +kernel

/-- What is outside, with that kernel. -/
def exOutside (t : Table) : Outside := { Authority.exOut 0x10000 with kernel := exKernel 64 ⟨77, false⟩ t }

/-- A request for a call, with the tuple at 0x11000 and a directory attached. -/
def exPacket (kind size : Nat) : Socket.Packet :=
  ⟨EndToEnd.le 8 kind ++ EndToEnd.le 8 size ++ EndToEnd.le 8 0x11000, [⟨5, false⟩]⟩

example : Decent (exPacket 3 24) ∧ 24 ≤ (exPacket 3 24).data.length ∧ asksFor (exPacket 3 24) = 3 ∧
    (decode ((exPacket 3 24).data.take 24)).size = 24 ∧
    Bounds.contains 0x400 ⟨0x10400, 0x20000⟩ (decode ((exPacket 3 24).data.take 24)).data 24 = true ∧
    exLib.table = Callback.tableOf [] := by
  refine ⟨.inr ⟨rfl, by decide⟩, by decide, by decide +kernel, by decide +kernel, by decide +kernel, ?_⟩
  exact exLib_table

/-- With 64 numbers and three of them in use, 60 such requests leave 63 in use. -/
example : ∃ t', turns 64 ⟨77, false⟩ 0x400 ⟨0x10400, 0x20000⟩ exLib
    (List.replicate 60 (exOutside, exPacket 3 24)) Socket.exT = .ok t' ∧ opened 64 t' = opened 64 Socket.exT + 60 := by
  refine openat_exhausts (users := []) exLib_table (.inr ⟨rfl, by decide⟩) (by decide)
    (fun t1 => exKernel_fresh _ _ _) (by decide +kernel) (by decide +kernel) (by decide +kernel) ?_ ?_ 60 _
    (by decide +kernel)
  · rintro t1 fd path flags mode ⟨i, hi, hf⟩
    obtain ⟨n, hn, -⟩ := lowest_le hi hf
    show 0 ≤ (create 64 t1 _).1
    unfold create
    rw [hn]
    exact Int.natCast_nonneg n
  · intro t1
    refine ⟨fun n b h => ?_, fun n h => by cases h⟩
    cases h
    exact List.length_replicate

/-- Requests of all other kinds, each with a directory attached, leave the table as it was. -/
example (t' : Table) (h : turns 64 ⟨77, false⟩ 0x400 ⟨0x10400, 0x20000⟩ exLib
    ([(0, 16), (1, 16), (2, 16), (4, 24), (5, 24), (6, 32), (9, 16)].map fun x => (exOutside, exPacket x.1 x.2))
    Socket.exT = .ok t') : t' = Socket.exT := by
  refine messages_keep_descriptors_partial (users := []) exLib_table ?_ h
  intro m hm
  simp only [List.map_cons, List.map_nil, List.mem_cons, List.not_mem_nil, or_false] at hm
  rcases hm with rfl | rfl | rfl | rfl | rfl | rfl | rfl <;>
    exact ⟨.inr ⟨rfl, by decide⟩, by decide +kernel, by decide +kernel, fun t1 => exKernel_fresh _ _ _⟩

/-- The outcome of those requests is a table. -/
example : (match turns 64 ⟨77, false⟩ 0x400 ⟨0x10400, 0x20000⟩ exLib
    ([(0, 16), (1, 16), (2, 16), (4, 24), (5, 24), (6, 32), (9, 16)].map fun x => (exOutside, exPacket x.1 x.2))
    Socket.exT with | .ok _ => true | _ => false) = true := by decide +kernel

end Verif.Balance
