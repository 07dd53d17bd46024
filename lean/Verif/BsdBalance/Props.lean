import Verif.Balance.Props
import Verif.BsdAuthority.Props
import Verif.BsdBalance.Spec

/-!
# The host's descriptors while it handles messages on FreeBSD: theorems (C130)
-/

namespace Verif.BsdBalance

open Verif.Fd
open Verif.Bounds (Region)
open Verif.Callback (Request Result)
open Verif.BsdPath (Entry Log HostOp Kernel sys)
open Verif.Authority (Lib frameSize)
open Verif.BsdAuthority (Outside Effects run builtin)
open Verif.Socket (opened)
open Verif.Balance (close_put close_comm close_m1 close_put_ne decode)
open Verif.Balance.Spec (Decent asksFor)
open Spec

/-- What a handler leaves: with the descriptor in its reply closed, the table is as before. -/
def Even (obj : Obj) (t : Table) (x : Result × Log) : Prop := close (replay obj t x.2) x.1.handle = t

section handlers
variable {lim : Nat} {obj : Obj} {t : Table} {v : BsdPath.Env}

theorem even_return {fd : Int} {op : HostOp} (hk : Fresh lim obj t v.kernel) (hm : op = .dup fd ∨ ∃ d p f m, op = .openat d p f m) :
    Even obj t (BsdPath.returnFd (sys v.kernel [] op).1, (sys v.kernel [] op).2) := by
  have hM : Makes op := by rcases hm with rfl | ⟨_, _, _, _, rfl⟩ <;> trivial
  have h := hk [] op hM
  have hap : ∀ x : Int × Int, apply obj t ⟨op, x.1, x.2⟩ = if 0 ≤ x.1 then t.put x.1.toNat (some obj) else t := by
    intro x
    rcases hm with rfl | ⟨_, _, _, _, rfl⟩ <;> rfl
  show close (replay obj t (([] : Log) ++ [⟨op, (v.kernel [] op).1, (v.kernel [] op).2⟩]))
    (BsdPath.returnFd (v.kernel [] op)).handle = t
  simp only [replay, List.nil_append, List.foldl_cons, List.foldl_nil, hap, BsdPath.returnFd]
  by_cases h0 : 0 ≤ (v.kernel [] op).1
  · rw [if_pos h0, if_pos h0]
    obtain ⟨n, hn⟩ := Int.eq_ofNat_of_zero_le h0
    simp only [hn, Int.toNat_natCast] at h ⊢
    exact close_put (h (Int.natCast_nonneg n)).2
  · rw [if_neg h0, if_neg (by omega)]
    exact close_m1 t

theorem even_nothing (i : Int) : Even obj t ({ integer := i }, []) := close_m1 t

theorem even_path {a : Word} {handler : Int → Path.Path → Result × Log} (h : ∀ fd p, Even obj t (handler fd p))
    {x : Result × Log} (hx : BsdPath.handlePath v a handler = .ok x) : Even obj t x := by
  unfold BsdPath.handlePath at hx
  repeat' split at hx
  all_goals first | cases hx | skip
  all_goals first | exact even_nothing _ | skip
  exact h _ _

theorem even_serve (hk : Fresh lim obj t v.kernel) (call : PathSyscall.Call) {x : Result × Log}
    (hx : BsdPath.serve v call = .ok x) : Even obj t x := by
  cases call with
  | open_ a flags mode =>
    refine even_path (fun fd p => ?_) hx
    simp only [BsdPath.openBody]
    split
    · exact even_return (fd := fd) hk (.inr ⟨_, _, _, _, rfl⟩)
    · exact even_return hk (.inl rfl)
  | access a mode =>
    refine even_path (fun fd p => ?_) hx
    exact close_m1 _
  | stat a sb =>
    refine even_path (fun fd p => ?_) hx
    simp only [BsdPath.statBody]
    split
    · split
      · exact close_m1 _
      · exact close_m1 _
    · exact even_nothing _

end handlers

section message
variable {lim : Nat} {obj : Obj} {hdr : Word} {r : Region} {l : Lib} {o : Outside} {users : List Nat}

theorem logged_ok {y : Outcome (Result × Log)} {res : Result} (h : (BsdAuthority.logged y).1 = .ok res) :
    y = .ok (res, (BsdAuthority.logged y).2.log) := by
  cases y with
  | ok x => cases h; rfl
  | abort => cases h
  | throws => cases h
  | ub => cases h

theorem sockets_handle {op : Net.Op} {bs : List Byte} {fd : Int} {res : Result}
    (h : (BsdAuthority.sockets hdr r l o op bs fd).1 = .ok res) : res.handle = -1 := by
  have h3 := Authority.sock_handle (hdr := hdr) (r := r) l.policies op o.socket o.address fd (BsdNet.addrArg bs)
    (BsdNet.lenArg bs)
  simp only [BsdAuthority.sockets] at h
  split at h
  · obtain ⟨y, hy, he⟩ := BsdAuthority.noSys_ok h
    exact he.trans (h3 y hy)
  · exact h3 res h

theorem even_builtin {t : Table} (hk : Fresh lim obj t o.bsd) {k : Nat} (h3 : k ≠ 3) {bs : List Byte} {fd : Int}
    {res : Result} (h : (builtin hdr r l o k bs fd).1 = .ok res) :
    Even obj t (res, (builtin hdr r l o k bs fd).2.log) := by
  unfold builtin at h ⊢
  split at h
  · exact even_serve (v := BsdAuthority.pathEnv hdr r l o) hk _ (logged_ok h)
  · split at h
    · exact absurd rfl h3
    · simp only [Even, sockets_handle h, close_m1]; rfl
    · simp only [Even, sockets_handle h, close_m1]; rfl
    · have := BsdAuthority.lookup_handle _ _ _ _ _ _ h
      simp only [Even, this, close_m1]; rfl
    · cases h; exact close_m1 t

/-- A message whose number is not one of the user's either has no effect or is given to a built-in handler. -/
theorem entry_cases (hl : l.table = Callback.tableOf users) (q : Request) (fd : Int)
    (hq : q.kind.toNat < 7 + users.length → q.kind.toNat < 7) :
    (∃ i, answer hdr r l o q fd = (.ok { integer := i, handle := -1 }, {}) ∧ i < 0) ∨
    ∃ bs, q.kind.toNat < 7 ∧ answer hdr r l o q fd = builtin hdr r l o q.kind.toNat bs fd := by
  unfold answer
  rw [hl, Callback.dispatch_tableOf, Callback.Spec.handlerFor]
  by_cases h7 : q.kind.toNat < 7
  · rw [if_pos h7]
    simp only [run, BsdAuthority.behind]
    unfold Callback.invoke
    split
    · exact .inl ⟨_, rfl, by decide⟩
    · split
      · exact .inl ⟨_, rfl, by decide⟩
      · have hne : Callback.copyAddrs q.data (frameSize q.kind.toNat) ≠ [] := by
          intro h
          have := Callback.copyAddrs_length q.data (frameSize q.kind.toNat)
          have hpos := BsdAuthority.frameSize_pos q.kind.toNat
          rw [h, List.length_nil] at this
          omega
        simp only [if_neg hne]
        exact .inr ⟨_, h7, rfl⟩
  · rw [if_neg h7, List.getElem?_eq_none (by omega)]
    exact .inl ⟨_, rfl, by decide⟩

theorem received {t : Table} {p : Socket.Packet} (hp : Decent p) :
    ∃ ok bs fd t1, receive lim t p = (ok, bs, fd, t1) ∧
      close t1 fd = t ∧ (ok = false → t1 = t) ∧ (ok = true → bs = p.data.take 24) ∧
      (0 ≤ fd → t1 fd.toNat ≠ none) := by
  unfold receive
  split
  · exact ⟨_, _, _, _, rfl, close_m1 _, fun _ => rfl, by simp, by simp⟩
  · exact Balance.received hp

/-- What `handle_openat` leaves: the new descriptor, and nothing of the one that came with the request. -/
theorem openat_table {t1 t : Table} (hk : Fresh lim obj t1 o.bsd) {bs : List Byte} {fd : Int} (hc : close t1 fd = t)
    (hfd : 0 ≤ fd → t1 fd.toNat ≠ none) {res : Result} (h : (builtin hdr r l o 3 bs fd).1 = .ok res) :
    res.handle = -1 ∧ (builtin hdr r l o 3 bs fd).2.log ≠ [] ∧
    (replay obj t1 (builtin hdr r l o 3 bs fd).2.log = if 0 ≤ res.integer then
        t.put res.integer.toNat (some obj) else t) ∧
    (0 ≤ res.integer → res.integer.toNat < lim ∧ t res.integer.toNat = none) := by
  have hlog := logged_ok h
  generalize hL : (BsdAuthority.logged (BsdPath.handleOpenat (BsdAuthority.pathEnv hdr r l o) fd (BsdRel.pathArg bs)
    (BsdRel.flagsArg bs) (BsdRel.modeArg bs))).2.log = log at hlog
  have hL' : (builtin hdr r l o 3 bs fd).2.log = log := hL
  rw [hL']
  unfold BsdPath.handleOpenat at hlog
  split at hlog
  · rename_i p hp
    simp only [BsdPath.openatBeneath, sys, List.nil_append] at hlog
    have hfr := hk [] (.openat fd (p.map Strings.cText) (BsdRel.flagsArg bs ||| BsdPath.oResolveBeneath)
      (BsdRel.modeArg bs)) trivial
    change 0 ≤ _ → _ ∧ t1 _ = none at hfr
    rcases hop : o.bsd [] (.openat fd (p.map Strings.cText) (BsdRel.flagsArg bs ||| BsdPath.oResolveBeneath)
      (BsdRel.modeArg bs)) with ⟨ret, er⟩
    rw [hop] at hfr
    simp only [BsdAuthority.pathEnv, hop] at hlog
    have hne : 0 ≤ ret → fd ≠ (ret.toNat : Int) := by
      intro h0 e
      exact hfd (by omega) (by rw [e, Int.toNat_natCast]; exact (hfr h0).2)
    have ht : 0 ≤ ret → t ret.toNat = none := by
      intro h0
      rw [← hc]
      unfold close
      split
      · simp only [Table.put]; split
        · rfl
        · exact (hfr h0).2
      · exact (hfr h0).2
    obtain ⟨rfl, rfl⟩ : res = { integer := ret } ∧ log = _ := by
      have := Outcome.ok.inj hlog
      exact ⟨(congrArg Prod.fst this).symm, (congrArg Prod.snd this).symm⟩
    refine ⟨rfl, by split <;> simp, ?_, fun h0 => ⟨(hfr h0).1, ht h0⟩⟩
    split
    · rename_i hge
      show close (if 0 ≤ ret then t1.put ret.toNat (some obj) else t1) fd = _
      by_cases h0 : 0 ≤ ret
      · rw [if_pos h0, if_pos h0, close_put_ne (hne h0), hc]
      · rw [if_neg h0, if_neg h0, hc]
    · rename_i hlt
      have e : t1 = t := by rw [← hc]; unfold close; rw [if_neg (by omega)]
      rw [e]; rfl
  · cases hlog
  · cases hlog
  · cases hlog

theorem kind_asks (p : Socket.Packet) : (decode (p.data.take 24)).kind.toNat = asksFor p := by
  have hlt := Balance.ofLe_lt (p.data.take 8)
  have hle : (p.data.take 8).length ≤ 8 := by rw [List.length_take]; omega
  have : 256 ^ (p.data.take 8).length ≤ 256 ^ 8 := Nat.pow_le_pow_right (by decide) hle
  simp only [decode, asksFor, List.take_take, BitVec.toNat_ofNat]
  rw [show min 8 24 = 8 from rfl]
  exact Nat.mod_eq_of_lt (by omega)

/-- **C130, one message.**  A packet that can be received without loss, and does not ask for a callback of the user,
leaves another table of descriptors exactly if it is a relative `openat` and the host says that it has opened the file;
and then there is one descriptor more, under the very number that the sandbox is told. -/
theorem bsd_message_leaks_iff (hl : l.table = Callback.tableOf users) {w : Table → Outside} {p : Socket.Packet} {t t' : Table}
    (hp : Decent p) (hq : asksFor p < 7 + users.length → asksFor p < 7) (hk : ∀ t1, Fresh lim obj t1 (w t1).bsd)
    (h : turn lim obj hdr r l (w, p) t = .ok t') :
    (t' ≠ t ↔ Granted lim hdr r l (w, p) t) ∧
    ∀ i, asksFor p = 3 → number lim hdr r l (w, p) t = some i → 0 ≤ i →
      i.toNat < lim ∧ t i.toNat = none ∧ t' = t.put i.toNat (some obj) := by
  obtain ⟨ok, bs, fd, t1, hr, hc, hf, hb, hfd⟩ := received (lim := lim) (t := t) hp
  simp only [turn, hr] at h
  have no : t' = t → (∀ i, number lim hdr r l (w, p) t = some i → asksFor p = 3 → ¬ 0 ≤ i) →
      (t' ≠ t ↔ Granted lim hdr r l (w, p) t) ∧
      ∀ i, asksFor p = 3 → number lim hdr r l (w, p) t = some i → 0 ≤ i →
        i.toNat < lim ∧ t i.toNat = none ∧ t' = t.put i.toNat (some obj) := by
    intro e hn
    exact ⟨⟨fun h => absurd e h, fun ⟨h1, i, h2, h3⟩ => absurd h3 (hn i h2 h1)⟩, fun i h1 h2 h3 => absurd h3 (hn i h2 h1)⟩
  cases ok with
  | false =>
    cases h
    refine no (hf rfl) ?_
    intro i hi
    simp only [number, hr] at hi
    cases hi
  | true =>
    simp only at h
    obtain rfl := hb rfl
    have hnum : number lim hdr r l (w, p) t = match (answer hdr r l (w t1) (decode (p.data.take 24)) fd).1 with
        | .ok res => some res.integer
        | _ => none := by simp only [number, hr]; rfl
    have hkind := kind_asks p
    rw [← hkind] at hq
    have hgr : Granted lim hdr r l (w, p) t ↔
        (decode (p.data.take 24)).kind.toNat = 3 ∧ ∃ i, number lim hdr r l (w, p) t = some i ∧ 0 ≤ i := by
      rw [hkind]; rfl
    rw [hgr, ← hkind]
    rw [← hkind] at no
    rw [hgr] at no
    generalize decode (p.data.take 24) = q at h hq hnum no ⊢
    unfold finish at h
    have hfr := hk t1
    generalize w t1 = o at h hfr hnum
    rcases entry_cases (hdr := hdr) (r := r) (o := o) hl q fd hq with ⟨j, ha, hj⟩ | ⟨bs, h7, ha⟩
    · rw [ha] at h hnum
      simp only [ne_eq, not_true, and_false, if_false] at h
      cases h
      refine no ?_ ?_
      · show close (close t1 fd) (-1) = t
        rw [close_m1, hc]
      · intro i hi _
        rw [hnum] at hi
        cases hi
        show ¬ 0 ≤ j
        omega
    · rw [ha] at h hnum
      rcases hans : builtin hdr r l o q.kind.toNat bs fd with ⟨x, e⟩
      have hans1 : (builtin hdr r l o q.kind.toNat bs fd).1 = x := by rw [hans]
      have hans2 : (builtin hdr r l o q.kind.toNat bs fd).2 = e := by rw [hans]
      rw [hans] at h hnum
      rcases x with res | _ | _ | _
      · simp only at h hnum
        by_cases h3 : q.kind.toNat = 3
        · have hq3 : q.kind = 3 := BitVec.eq_of_toNat_eq (by rw [h3]; rfl)
          rw [h3] at hans1 hans2
          obtain ⟨g1, g2, g3, g4⟩ := openat_table hfr hc hfd hans1
          rw [hans2] at g2 g3
          rw [if_pos ⟨hq3, g2⟩, g3, g1, close_m1] at h
          by_cases h0 : 0 ≤ res.integer
          · rw [if_pos h0] at h
            cases h
            refine ⟨⟨fun _ => ⟨h3, _, hnum, h0⟩, fun _ e => ?_⟩, ?_⟩
            · have := congrFun e res.integer.toNat
              rw [(g4 h0).2] at this
              simp [Table.put] at this
            · intro i _ hi _
              rw [hnum] at hi
              cases hi
              exact ⟨(g4 h0).1, (g4 h0).2, rfl⟩
          · rw [if_neg h0] at h
            cases h
            refine no rfl ?_
            intro i hi _
            rw [hnum] at hi
            cases hi
            exact h0
        · have hev := even_builtin hfr h3 hans1
          rw [hans2] at hev
          have hq3 : ¬ (q.kind = 3) := fun e => h3 (by rw [e]; rfl)
          simp only [hq3, false_and, if_false] at h
          cases h
          refine no ?_ (fun i _ h => absurd h h3)
          rw [close_comm]
          unfold Even at hev
          rw [hev, hc]
      · cases h
      · cases h
      · cases h

/-- **C130, any number of messages.**  The host has afterwards as many descriptors more as it has granted relative
`openat`s, and no other request makes a difference. -/
theorem bsd_messages_leak_exactly (hl : l.table = Callback.tableOf users)
    {ms : List ((Table → Outside) × Socket.Packet)} {t t' : Table}
    (hm : ∀ m ∈ ms, Decent m.2 ∧ (asksFor m.2 < 7 ∨ 7 + users.length ≤ asksFor m.2) ∧
      ∀ t1, Fresh lim obj t1 (m.1 t1).bsd)
    (h : turns lim obj hdr r l ms t = .ok t') : opened lim t' = opened lim t + grants lim obj hdr r l ms t := by
  induction ms generalizing t with
  | nil => cases h; rfl
  | cons m ms ih =>
    simp only [turns] at h
    obtain ⟨h1, h2, h4⟩ := hm m (by simp)
    rcases ht : turn lim obj hdr r l m t with t1 | _ | _ | _ <;> rw [ht] at h
    · have hi := ih (fun m hm' => hm m (by simp [hm'])) h
      obtain ⟨g1, g2⟩ := bsd_message_leaks_iff (w := m.1) (p := m.2) hl h1 (by omega) h4 ht
      simp only [grants, ht]
      by_cases hg : Granted lim hdr r l m t
      · obtain ⟨h3, i, hn, h0⟩ := id hg
        obtain ⟨k1, k2, k3⟩ := g2 i h3 hn h0
        have ho := Socket.opened_put (o := obj) k2 lim
        rw [if_pos k1, ← k3] at ho
        rw [if_pos hg]
        omega
      · rw [if_neg hg]
        have e : t1 = t := Classical.not_not.1 (mt g1.1 hg)
        rw [e] at hi ⊢
        omega
    · cases h
    · cases h
    · cases h

/-- **C130 (partial), any number of messages.**  Requests other than the relative `openat` and the callbacks of the user,
with at most one descriptor each and in any number, leave the host's descriptors exactly as they were.  What is
missing: the relative `openat` (`bsd_openat_leaks`), packets with two descriptors or too short for a request
(`Verif.Socket`), and the callbacks of the user, which may keep what they receive. -/
theorem bsd_messages_keep_descriptors_partial (hl : l.table = Callback.tableOf users)
    {ms : List ((Table → Outside) × Socket.Packet)} {t t' : Table}
    (hm : ∀ m ∈ ms, Decent m.2 ∧ (asksFor m.2 < 7 ∨ 7 + users.length ≤ asksFor m.2) ∧ asksFor m.2 ≠ 3 ∧
      ∀ t1, Fresh lim obj t1 (m.1 t1).bsd)
    (h : turns lim obj hdr r l ms t = .ok t') : t' = t := by
  induction ms generalizing t with
  | nil => cases h; rfl
  | cons m ms ih =>
    simp only [turns] at h
    obtain ⟨h1, h2, h3, h4⟩ := hm m (by simp)
    rcases ht : turn lim obj hdr r l m t with t1 | _ | _ | _ <;> rw [ht] at h
    · have e : t1 = t := Classical.not_not.1 (mt (bsd_message_leaks_iff (w := m.1) (p := m.2) hl h1 (by omega) h4 ht).1.1
        (fun g => h3 g.1))
      rw [e] at h
      exact ih (fun m hm' => hm m (by simp [hm'])) h
    · cases h
    · cases h
    · cases h

/-- **C130 fails for the relative `openat`.**  If the frame is accepted and the kernel opens the file, the host has one
more descriptor after the message than before, for the file that was opened; nothing closes it. -/
theorem bsd_openat_leaks (hl : l.table = Callback.tableOf users) {w : Table → Outside} {p : Socket.Packet} {t : Table}
    (hp : Decent p) (hlen : 24 ≤ p.data.length) (hk : ∀ t1, Fresh lim obj t1 (w t1).bsd)
    (h3 : asksFor p = 3) (hsz : (decode (p.data.take 24)).size = 24)
    (hin : Bounds.contains hdr r (decode (p.data.take 24)).data 24 = true)
    (hroom : opened lim t + 2 ≤ lim)
    (hopen : ∀ t1 fd path flags mode, (∃ i, i < lim ∧ t1 i = none) →
      0 ≤ ((w t1).bsd [] (.openat fd path flags mode)).1)
    (hmalloc : ∀ t1, Strings.MallocOk (w t1).malloc ∧ Strings.MallocTotal (w t1).malloc) :
    ∃ n, n < lim ∧ t n = none ∧ turn lim obj hdr r l (w, p) t = .ok (t.put n (some obj)) := by
  have hrecv : receive lim t p = Socket.receive lim t Callback.requestSize (-1) [.packet p] := by
    unfold receive
    obtain ⟨i, hi, hf⟩ := Balance.free_of_opened (lim := lim) (t := t) (by omega)
    rw [if_neg]
    intro ⟨_, h⟩
    exact lowest_none.1 h i hi hf
  obtain ⟨ok, bs, fd, t1, hr, hc, hf, hb, hfd⟩ := received (lim := lim) (t := t) hp
  have hok : ok = true := by
    rw [hrecv] at hr
    have h24 : Callback.requestSize = 24 := rfl
    simp only [h24, Socket.receive, Socket.receiveMsg, if_true, List.length_take, Nat.min_eq_left hlen,
      decide_true] at hr
    exact (congrArg Prod.fst hr).symm
  subst hok
  obtain rfl := hb rfl
  have hkind := (kind_asks p).trans h3
  simp only [turn, hr]
  generalize decode (p.data.take 24) = q at hsz hin hkind
  have hq3 : q.kind = 3 := BitVec.eq_of_toNat_eq (by rw [hkind]; rfl)
  have hfr := hk t1
  have hop := fun fd path flags mode => hopen t1 fd path flags mode (Balance.free_after hroom hc)
  have hpa : ∀ a, ∃ b, BsdPath.getPath (BsdAuthority.pathEnv hdr r l (w t1)) a = .ok b := by
    intro a
    unfold BsdPath.getPath
    rcases Strings.strdupOut_safe hdr r (w t1).malloc (hmalloc t1).1 (hmalloc t1).2 (w t1).path.1 (w t1).path.2 a with
      h | ⟨b, h, -⟩
    · exact ⟨_, h⟩
    · exact ⟨_, h⟩
  generalize w t1 = o at hfr hop hpa
  have hd : Callback.dispatch l.table.handlers q.kind = some (.builtin 3) := by
    rw [hl, Callback.dispatch_tableOf, hkind]; rfl
  have hne : Callback.copyAddrs q.data 24 ≠ [] := by
    intro h
    have := Callback.copyAddrs_length q.data 24
    rw [h, List.length_nil] at this
    omega
  have ha : answer hdr r l o q fd = builtin hdr r l o 3 ((Callback.copyAddrs q.data 24).map o.frame) fd := by
    have hinv : ∀ fn : List Byte → Int → Outcome Result, Callback.invoke hdr r 24 fn o.frame q fd =
        (fn ((Callback.copyAddrs q.data 24).map o.frame) fd, Callback.copyAddrs q.data 24) := by
      intro fn
      unfold Callback.invoke
      rw [if_neg (by rw [hsz]; simp), if_neg (by rw [hsz, hin]; simp)]
    simp only [answer, hd, run, BsdAuthority.behind, frameSize, hinv, if_neg hne]
  have hans : ∃ res, (builtin hdr r l o 3 ((Callback.copyAddrs q.data 24).map o.frame) fd).1 = .ok res ∧
      0 ≤ res.integer := by
    generalize (Callback.copyAddrs q.data 24).map o.frame = bs
    show ∃ res, (BsdAuthority.logged (BsdPath.handleOpenat (BsdAuthority.pathEnv hdr r l o) fd (BsdRel.pathArg bs)
      (BsdRel.flagsArg bs) (BsdRel.modeArg bs))).1 = .ok res ∧ _
    simp only [BsdPath.handleOpenat]
    obtain ⟨b, hb⟩ := hpa (BsdRel.pathArg bs)
    rw [hb]
    exact ⟨_, rfl, hop _ _ _ _⟩
  obtain ⟨res, hres, h0⟩ := hans
  obtain ⟨g1, g2, g3, g4⟩ := openat_table hfr hc hfd hres
  refine ⟨res.integer.toNat, (g4 h0).1, (g4 h0).2, ?_⟩
  unfold finish
  rw [ha]
  generalize builtin hdr r l o 3 ((Callback.copyAddrs q.data 24).map o.frame) fd = x at hres g2 g3
  obtain ⟨x, e⟩ := x
  simp only at hres
  subst hres
  simp only
  rw [if_pos ⟨hq3, g2⟩, g3, g1, close_m1, if_pos h0]

/-- **C130 fails without limit.**  A sandbox that repeats one request to open a file relative to a directory takes one
descriptor of the host each time, until the host has none left. -/
theorem bsd_openat_exhausts (hl : l.table = Callback.tableOf users) {w : Table → Outside} {p : Socket.Packet}
    (hp : Decent p) (hlen : 24 ≤ p.data.length) (hk : ∀ t1, Fresh lim obj t1 (w t1).bsd)
    (h3 : asksFor p = 3) (hsz : (decode (p.data.take 24)).size = 24)
    (hin : Bounds.contains hdr r (decode (p.data.take 24)).data 24 = true)
    (hopen : ∀ t1 fd path flags mode, (∃ i, i < lim ∧ t1 i = none) →
      0 ≤ ((w t1).bsd [] (.openat fd path flags mode)).1)
    (hmalloc : ∀ t1, Strings.MallocOk (w t1).malloc ∧ Strings.MallocTotal (w t1).malloc) (n : Nat) (t : Table)
    (hroom : opened lim t + n + 1 ≤ lim) :
    ∃ t', turns lim obj hdr r l (List.replicate n (w, p)) t = .ok t' ∧ opened lim t' = opened lim t + n := by
  induction n generalizing t with
  | zero => exact ⟨t, rfl, rfl⟩
  | succ n ih =>
    obtain ⟨i, hi, hf, ht⟩ := bsd_openat_leaks (t := t) hl hp hlen hk h3 hsz hin (by omega) hopen hmalloc
    have ho := Socket.opened_put (o := obj) hf lim
    rw [if_pos hi] at ho
    obtain ⟨t', h1, h2⟩ := ih (t.put i (some obj)) (by omega)
    refine ⟨t', ?_, by omega⟩
    simp only [List.replicate_succ, turns, ht, h1]

/-- **C130, the end of the descriptors.**  When the host has no number left, every further message that carries a
descriptor is lost: nothing is done and nothing changes. -/
theorem bsd_exhausted_loses {w : Table → Outside} {p : Socket.Packet} {t : Table} (hp : p.fds ≠ [])
    (hfull : ∀ i, i < lim → t i ≠ none) :
    turn lim obj hdr r l (w, p) t = .ok t ∧ number lim hdr r l (w, p) t = none := by
  have : receive lim t p = (false, [], -1, t) := by
    unfold receive
    rw [if_pos ⟨hp, lowest_none.2 hfull⟩]
  simp only [turn, number, this, and_self]

end message

/-! ### The hypotheses can be met -/

/-- A kernel that gives the lowest free number to every new descriptor. -/
def exKernel (lim : Nat) (obj : Obj) (t : Table) : Kernel := fun log op =>
  match op with
  | .openat .. => ((create lim (replay obj t log) obj).1, 24)
  | .dup _ => ((create lim (replay obj t log) obj).1, 24)
  | _ => (0, 0)

theorem exKernel_fresh (lim : Nat) (obj : Obj) (t : Table) : Fresh lim obj t (exKernel lim obj t) := by
  intro log op hm h
  cases op <;> first | exact Balance.create_nonneg h | exact absurd hm id

/-- What is outside, with that kernel. -/
def exOutside (t : Table) : Outside := { BsdAuthority.exOut 0x10000 with bsd := exKernel 64 ⟨77, false⟩ t }

/-- With 64 numbers and three of them in use, 60 such requests leave 63 in use. -/
example : ∃ t', turns 64 ⟨77, false⟩ 0x400 ⟨0x10400, 0x20000⟩ Balance.exLib
    (List.replicate 60 (exOutside, Balance.exPacket 3 24)) Socket.exT = .ok t' ∧
      opened 64 t' = opened 64 Socket.exT + 60 := by
  refine bsd_openat_exhausts (users := []) Balance.exLib_table (.inr ⟨rfl, by decide⟩) (by decide)
    (fun t1 => exKernel_fresh _ _ _) (by decide +kernel) (by decide +kernel) (by decide +kernel) ?_ ?_ 60 _
    (by decide +kernel)
  · rintro t1 fd path flags mode ⟨i, hi, hf⟩
    obtain ⟨n, hn, -⟩ := lowest_le hi hf
    show 0 ≤ (create 64 t1 _).1
    unfold create
    rw [hn]
    exact Int.natCast_nonneg n
  · intro t1
    refine ⟨fun n b h => ?_, fun n h => by cases h⟩
    cases h
    exact List.length_replicate

/-- Requests of all other kinds, each with a directory attached, leave the table as it was. -/
example (t' : Table) (h : turns 64 ⟨77, false⟩ 0x400 ⟨0x10400, 0x20000⟩ Balance.exLib
    ([(0, 16), (1, 16), (2, 16), (4, 24), (5, 24), (6, 32), (9, 16)].map fun x => (exOutside, Balance.exPacket x.1 x.2))
    Socket.exT = .ok t') : t' = Socket.exT := by
  refine bsd_messages_keep_descriptors_partial (users := []) Balance.exLib_table ?_ h
  intro m hm
  simp only [List.map_cons, List.map_nil, List.mem_cons, List.not_mem_nil, or_false] at hm
  rcases hm with rfl | rfl | rfl | rfl | rfl | rfl | rfl <;>
    exact ⟨.inr ⟨rfl, by decide⟩, by decide +kernel, by decide +kernel, fun t1 => exKernel_fresh _ _ _⟩

/-- The outcome of those requests is a table. -/
example : (match turns 64 ⟨77, false⟩ 0x400 ⟨0x10400, 0x20000⟩ Balance.exLib
    ([(0, 16), (1, 16), (2, 16), (4, 24), (5, 24), (6, 32), (9, 16)].map fun x => (exOutside, Balance.exPacket x.1 x.2))
    Socket.exT with | .ok _ => true | _ => false) = true := by decide +kernel

/-- A relative `openat`, an `open`, and another relative `openat`: two descriptors are lost. -/
example : grants 64 ⟨77, false⟩ 0x400 ⟨0x10400, 0x20000⟩ Balance.exLib
    [(exOutside, Balance.exPacket 3 24), (exOutside, Balance.exPacket 0 16), (exOutside, Balance.exPacket 3 24)]
    Socket.exT = 2 := by
  decide +kernel

example (t' : Table) (h : turns 64 ⟨77, false⟩ 0x400 ⟨0x10400, 0x20000⟩ Balance.exLib
    [(exOutside, Balance.exPacket 3 24), (exOutside, Balance.exPacket 0 16), (exOutside, Balance.exPacket 3 24)]
    Socket.exT = .ok t') : opened 64 t' = opened 64 Socket.exT + 2 := by
  have hm : ∀ m ∈ [(exOutside, Balance.exPacket 3 24), (exOutside, Balance.exPacket 0 16),
      (exOutside, Balance.exPacket 3 24)], Decent m.2 ∧ (asksFor m.2 < 7 ∨ 7 + 0 ≤ asksFor m.2) ∧
      ∀ t1, Fresh 64 ⟨77, false⟩ t1 (m.1 t1).bsd := by
    intro m hm
    simp only [List.mem_cons, List.not_mem_nil, or_false] at hm
    rcases hm with rfl | rfl | rfl <;>
      exact ⟨.inr ⟨rfl, by decide⟩, by decide +kernel, fun t1 => exKernel_fresh _ _ _⟩
  rw [bsd_messages_leak_exactly (users := []) Balance.exLib_table hm h]
  have : grants 64 ⟨77, false⟩ 0x400 ⟨0x10400, 0x20000⟩ Balance.exLib
    [(exOutside, Balance.exPacket 3 24), (exOutside, Balance.exPacket 0 16), (exOutside, Balance.exPacket 3 24)]
    Socket.exT = 2 := by decide +kernel
  rw [this]

/-- A host without a free number. -/
example : turn 3 ⟨77, false⟩ 0x400 ⟨0x10400, 0x20000⟩ Balance.exLib (exOutside, Balance.exPacket 0 16)
    (fun _ => some ⟨1, false⟩) = .ok (fun _ => some ⟨1, false⟩) :=
  (bsd_exhausted_loses (by decide) (fun _ _ => by simp)).1

end Verif.BsdBalance
