import Verif.BsdMake.Inv

/-!
# Making and destroying sandboxes on FreeBSD: properties C114 and C115, and C111 for that system
-/

namespace Verif.BsdMake

open Verif.Fd Verif.Start Verif.FileTree Verif.FileTree.Spec
open Verif.Make (opened create_ok create_full free_fill free_fill_one)
open Verif.Cycle (free_closes)

/-! ### Cases used in the examples -/

/-- A system that refuses nothing. -/
def exSys : Sys := ⟨true, true, true, true, true, true, true, true, true⟩

/-- A host with its three standard streams. -/
def exTable : Table := fun i => if i < 3 then some ⟨i, true⟩ else none

/-- A disk with all four default exports. -/
def exDisk : List Byte → Option Obj := fun p => some ⟨50 + p.length % 16, false⟩

/-- A system with 64 descriptors for each process, on which the library exists. -/
def exEnv : Env := ⟨64, some ⟨99, false⟩, false⟩

theorem exOld : ∀ i o, exTable i = some o → o.id < 100 := by
  intro i o h
  unfold exTable at h
  split at h
  · cases h
    simp only
    omega
  · cases h

theorem exFiles : ∀ p o, exDisk p = some o → o.id < 100 := by
  intro p o h
  simp only [exDisk, Option.some.injEq] at h
  subst h
  simp only
  omega

/-! ### C111: what happens if something is missing -/

/-- The ways in which the constructor can end, without the details of a sandbox that has been made. -/
inductive Kind where
  | stops (s : Stop)
  | undefined
  | made
  deriving Repr, DecidableEq

/-- Which of them it was (`src/libsandbox.cc:865-932`). -/
def kind : Out → Kind
  | .stops s => .stops s
  | .undefined => .undefined
  | .made _ => .made

/-- How many descriptors there are when the process is made (`src/libsandbox.cc:914`). -/
def before (files : Nat) (firstMap firstService : Bool) : Nat :=
  5 + files + (if firstMap then 1 else 0) + (if firstService then 1 else 0)

/-- **C111 on FreeBSD, exactly.**  For every host, every set of answers and every number of free descriptors: the constructor stops before there is a
process exactly as the table `fate` says.  If everything before was there, it uses a variable without a value if `pdfork` fails or there is no descriptor
for it, and exits if there is none for the queue or the process cannot be watched; otherwise the sandbox is made. -/
theorem bsd_ends_exactly (dbg : Bool) (fuel : Nat) (e : Env) (disk : List Byte → Option Obj) (s : Sys) (h : Host) :
    kind (make dbg fuel e disk s h) =
      match fate dbg s h.pagemap.isNone h.poller.isNone (free h.t e.lim) (opened disk).length with
      | some o => .stops o
      | none =>
        if s.forked = false ∨ free h.t e.lim < before (opened disk).length h.pagemap.isNone h.poller.isNone + 1 then .undefined
        else if s.watched = false ∨ free h.t e.lim < before (opened disk).length h.pagemap.isNone h.poller.isNone + 2 then .stops .exits
        else .made := by
  obtain ⟨h1, h2⟩ := prepare_steps dbg e.lim disk s h
  rw [← h1]
  unfold make
  rcases hp : prepare dbg e.lim disk s h with o | r
  · simp [stopped, kind]
  · rw [hp] at h2
    obtain ⟨t1, t2, t, shm, svc, own, rpc, cb, pm, poller, hh, -, hr⟩ := h2 rfl
    cases hr
    have hb : before (opened disk).length h.pagemap.isNone h.poller.isNone = (Make.created disk h.plain).length := by
      rw [Make.created_length, Make.need, before]
      rcases hx : h.poller <;> rcases hy : h.pagemap <;> simp [Host.plain, Make.Host.firstMap, hx, hy]
    have hroom := hh.room
    have hf : free t e.lim = free h.t e.lim - (Make.created disk h.plain).length := by
      rw [hh.table, free_fill]
      rfl
    simp only [Host.plain] at hroom
    rw [hb]
    simp only [stopped]
    obtain ⟨c, hcc⟩ : ∃ c, c = (Make.created disk h.plain).length := ⟨_, rfl⟩
    rw [← hcc] at hf ⊢
    replace hroom : c ≤ free h.t e.lim := by rw [hcc]; exact hroom
    by_cases c1 : 0 < free t e.lim
    · obtain ⟨n, x1, -⟩ := create_ok (o := ⟨h.next + 7, true⟩) c1
      rw [x1]
      simp only
      have hn : ¬ (n : Int) < 0 := by omega
      have g1 : ¬ free h.t e.lim < c + 1 := by omega
      simp only [hn, g1, or_false]
      split
      · rfl
      have hf2 := free_fill_one t ⟨h.next + 7, true⟩ e.lim
      by_cases c2 : 0 < free (Make.fill t [⟨h.next + 7, true⟩]) e.lim
      · obtain ⟨k, y1, -⟩ := create_ok (o := ⟨h.next + 8, true⟩) c2
        rw [y1]
        have hk : ¬ (k : Int) < 0 := by omega
        have g2 : ¬ free h.t e.lim < c + 2 := by omega
        simp only [hk, g2, or_false, false_or]
        split <;> rfl
      · rw [create_full (by omega)]
        have g2 : free h.t e.lim < c + 2 := by omega
        simp [g2, kind]
    · rw [create_full (by omega)]
      have g1 : free h.t e.lim < c + 1 := by omega
      simp [g1, kind]

/-- With 13 descriptors for each process there is none for the first process, with 14 none for its queue. -/
example : kind (make false 10 { exEnv with lim := 14 } exDisk exSys ⟨exTable, 100, none, none, []⟩) = .undefined ∧
    kind (make false 10 { exEnv with lim := 15 } exDisk exSys ⟨exTable, 100, none, none, []⟩) = .stops .exits ∧
    kind (make false 10 { exEnv with lim := 16 } exDisk exSys ⟨exTable, 100, none, none, []⟩) = .made := by
  simp only [bsd_ends_exactly]
  decide +kernel

/-- The system refuses nothing. -/
def Sys.good (s : Sys) : Prop :=
  s.anon = true ∧ s.shmSized = true ∧ s.shmMapped = true ∧ s.pmSized = true ∧ s.pmMapped = true ∧ s.thread = true ∧ s.registered = true ∧
    s.forked = true ∧ s.watched = true

theorem kind_made {o : Out} : kind o = .made ↔ ∃ m, o = .made m := by
  cases o <;> simp [kind]

/-- **C111 on FreeBSD fails.**  If the system refuses nothing, a sandbox is made exactly if there are enough descriptors; if there are not, the
constructor does not report it. -/
theorem bsd_shortage (dbg : Bool) (fuel : Nat) (e : Env) (disk : List Byte → Option Obj) (s : Sys) (h : Host) (hg : s.good) :
    ((∃ m, make dbg fuel e disk s h = .made m) ↔ before (opened disk).length h.pagemap.isNone h.poller.isNone + 2 ≤ free h.t e.lim) ∧
    make dbg fuel e disk s h ≠ .stops .throws := by
  have hk := bsd_ends_exactly dbg fuel e disk s h
  obtain ⟨g1, g2, g3, g4, g5, g6, g7, g8, g9⟩ := hg
  have key : ∀ (a b : Bool) (n f : Nat), ∃ o, fate dbg s a b n f = o ∧ o ≠ some .throws ∧ (before f a b ≤ n ↔ o = none) := by
    intro a b n f
    refine ⟨_, rfl, ?_⟩
    simp only [fate, before, g1, g2, g3, g4, g5, g6, g7]
    cases a <;> cases b <;> simp only [Bool.false_eq_true, reduceCtorEq, or_false, and_false, false_and, if_false, if_true, true_and] <;>
      (repeat' split) <;> simp <;> omega
  obtain ⟨o, k1, k2, k3⟩ := key h.pagemap.isNone h.poller.isNone (free h.t e.lim) (opened disk).length
  rw [k1] at hk
  simp only [g8, g9, false_or, Bool.true_eq_false] at hk
  constructor
  · rw [← kind_made, hk]
    cases o with
    | some o =>
      simp only [reduceCtorEq, iff_false, false_iff] at k3 ⊢
      omega
    | none =>
      simp only
      split
      · simp
        omega
      · split
        · simp
          omega
        · simp
          omega
  · intro hc
    rw [hc] at hk
    cases o with
    | some o =>
      simp only [kind, Kind.stops.injEq] at hk
      exact k2 (by rw [hk])
    | none =>
      simp only [kind] at hk
      split at hk
      · cases hk
      · split at hk <;> cases hk

example : exSys.good := ⟨rfl, rfl, rfl, rfl, rfl, rfl, rfl, rfl, rfl⟩

/-! ### C114: what is open -/

section
variable {dbg : Bool} {fuel : Nat} {e : Env} {disk : List Byte → Option Obj} {t0 : Table} {n0 : Nat}

/-- **C114, every descriptor has one owner.**  Whatever sandboxes are made and destroyed, whatever their processes do, and whatever the memory service
drops, in any order: what was open before the first sandbox is open and unchanged; and what is open besides is exactly the page map, the queue of
the memory service, what the existing sandboxes are responsible for and the sockets in the table of the memory service, each once. -/
theorem accounted (ht : ∀ i o, t0 i = some o → o.id < n0) (hd : ∀ p o, disk p = some o → o.id < n0) (evs : List Ev) (w : World)
    (h : run dbg fuel e disk (start t0 n0) evs = some w) : Accounted e.lim t0 w.h.t w.owned :=
  (inv_run (inv_start ht hd) h).acc

/-- Two sandboxes, of which the first has been destroyed but not yet dropped by the memory service. -/
example : ∃ w, run false 10 exEnv exDisk (start exTable 100) [.make exSys, .make exSys, .ends 0, .destroy 0] = some w ∧
    w.libs.length = 1 ∧ w.ranges.length = 2 := by
  have : ((run false 10 exEnv exDisk (start exTable 100) [.make exSys, .make exSys, .ends 0, .destroy 0]).map fun w =>
      (w.libs.length, w.ranges.length)) = some (1, 2) := by decide +kernel
  obtain ⟨w, h1, h2⟩ := Option.map_eq_some_iff.1 this
  simp only [Prod.mk.injEq] at h2
  exact ⟨w, h1, h2⟩

/-- **C114, the memory service learns of every end.**  The system reports that a socket of the memory service has lost its peer exactly if the process of
its sandbox has ended and so has every process that still had the other end from it. -/
theorem eof_iff (ht : ∀ i o, t0 i = some o → o.id < n0) (hd : ∀ p o, disk p = some o → o.id < n0) (evs : List Ev) (w : World)
    (h : run dbg fuel e disk (start t0 n0) evs = some w) (r : Int × Nat) (hr : r ∈ w.ranges) :
    hungUp e.lim w r.2 = true ↔ (∀ l ∈ w.libs, l.peer = r.2 → l.runs = false) ∧ ∀ t ∈ w.strays, openId e.lim t r.2 = false := by
  have hi := inv_run (inv_start ht hd) h
  obtain ⟨p1, p2, p3⟩ := hi.peers r hr
  unfold hungUp
  rw [p3]
  simp only [Bool.not_false, Bool.true_and, Bool.and_eq_true, List.all_eq_true, Bool.not_eq_true', Bool.and_eq_false_iff]
  refine and_congr_left fun _ => ⟨fun h1 l hl hp => ?_, fun h1 l hl => ?_⟩
  · rcases h1 l hl with h2 | h2
    · exact h2
    · rw [← hp, (hi.libs l hl).2.2.1] at h2
      cases h2
  · by_cases hp : l.peer = r.2
    · exact .inl (h1 l hl hp)
    · exact .inr ((hi.libs l hl).2.2.2.2 r.2 p1 p2 (Ne.symm hp) ⟨r, hr, rfl⟩)

/-- Of two sandboxes the first has ended. -/
example : ((run false 10 exEnv exDisk (start exTable 100) [.make exSys, .make exSys, .ends 0]).map fun w =>
    w.ranges.map fun r => hungUp 64 w r.2) = some [true, false] := by decide +kernel

theorem Accounted.count {lim : Nat} {t0 t : Table} {xs : List Int} (h : Accounted lim t0 t xs) : free t lim + xs.length = free t0 lim := by
  have hx : ∃ ns : List Nat, xs = ns.map Int.ofNat := by
    have := h.mine
    clear h
    induction xs with
    | nil => exact ⟨[], rfl⟩
    | cons x xs ih =>
      obtain ⟨ns, rfl⟩ := ih fun y hy => this y (by simp [hy])
      obtain ⟨n, rfl, -⟩ := this x (by simp)
      exact ⟨n :: ns, rfl⟩
  obtain ⟨ns, rfl⟩ := hx
  have hc := (show Accounted lim t0 t (ns.map Int.ofNat ++ []) by simpa using h).close
  have ht : (ns.map Int.ofNat).foldl Fd.close t = t0 := by
    funext i
    exact hc.rest i (by simp)
  have hd : ns.Nodup := by
    have := h.nodup
    unfold List.Nodup at this ⊢
    rw [List.pairwise_map] at this
    exact List.Pairwise.imp (fun hab hc => hab (by rw [hc])) this
  have := free_closes (lim := lim) ns t hd fun n hn => by
    obtain ⟨k, h1, h2, -, h3⟩ := h.mine n (List.mem_map_of_mem hn)
    have : k = n := by omega
    subst this
    exact ⟨h2, h3⟩
  rw [ht] at this
  simpa using this.symm

/-- **C114, how much is in use.**  At every moment the number of descriptors in use by sandboxes and the memory service is the number of those that someone
is responsible for. -/
theorem in_use (ht : ∀ i o, t0 i = some o → o.id < n0) (hd : ∀ p o, disk p = some o → o.id < n0) (evs : List Ev) (w : World)
    (h : run dbg fuel e disk (start t0 n0) evs = some w) : free w.h.t e.lim + w.owned.length = free t0 e.lim :=
  (accounted ht hd evs w h).count

/-- Two sandboxes: 20 descriptors. -/
example : ((run false 10 exEnv exDisk (start exTable 100) [.make exSys, .make exSys]).map fun w => (w.owned.length, free w.h.t 64)) = some (20, 41) ∧
    free exTable 64 = 61 := by decide +kernel

/-- **C114, nothing is left over.**  When all sandboxes have been destroyed and the memory service has dropped their sockets, the host has open exactly what
it had before the first one, and the page map and the queue of the memory service. -/
theorem all_returned (ht : ∀ i o, t0 i = some o → o.id < n0) (hd : ∀ p o, disk p = some o → o.id < n0) (evs : List Ev) (w : World)
    (h : run dbg fuel e disk (start t0 n0) evs = some w) (hl : w.libs = []) (hr : w.ranges = []) :
    ∀ i : Nat, w.h.t i ≠ none ↔ t0 i ≠ none ∨ w.h.pagemap = some (i : Int) ∨ w.h.poller = some (i : Int) := by
  have ha := accounted ht hd evs w h
  have ho : ∀ x, x ∈ w.owned ↔ w.h.pagemap = some x ∨ w.h.poller = some x := by
    intro x
    simp only [World.owned, hl, hr, List.flatMap_nil, List.map_nil, List.append_nil, List.mem_append, Option.mem_toList]
  intro i
  by_cases hx : (i : Int) ∈ w.owned
  · obtain ⟨n, h1, -, h2, h3⟩ := ha.mine i hx
    have : n = i := by omega
    subst this
    simp [h2, h3, (ho _).1 hx]
  · rw [ha.rest i hx]
    rw [ho] at hx
    simp [hx]

/-- Two sandboxes at the same time, destroyed in the order in which they were made. -/
example : ((run false 10 exEnv exDisk (start exTable 100)
    [.make exSys, .make exSys, .ends 1, .ends 0, .destroy 0, .eof 0, .destroy 0, .eof 0]).map fun w =>
      (w.libs.length, w.ranges.length, free w.h.t 64)) = some (0, 0, 59) := by decide +kernel

/-! ### The end of everything -/

theorem run_append : ∀ (as bs : List Ev) (w : World),
    run dbg fuel e disk w (as ++ bs) = (run dbg fuel e disk w as).bind fun w' => run dbg fuel e disk w' bs
  | [], bs, w => by simp [run]
  | a :: as, bs, w => by
    simp only [List.cons_append, run]
    split
    · exact run_append as bs _
    · rfl

theorem drains_aux : ∀ (n : Nat) (w : World), Inv e.lim disk t0 n0 w → w.ranges.length = n → w.libs = [] → w.strays = [] →
    ∃ w', run dbg fuel e disk w (List.replicate n (.eof 0)) = some w' ∧ w'.ranges = [] ∧ w'.libs = [] ∧ w'.strays = []
  | 0, w, _, hn, hl, hs => ⟨w, rfl, List.eq_nil_of_length_eq_zero hn, hl, hs⟩
  | n + 1, w, hi, hn, hl, hs => by
    rcases hr : w.ranges with _ | ⟨⟨x, p⟩, rs⟩
    · rw [hr] at hn
      cases hn
    · have h0 : w.ranges[0]? = some (x, p) := by rw [hr]; rfl
      have hu : hungUp e.lim w p = true := by
        have := (hi.peers (x, p) (by rw [hr]; simp)).2.2
        simp only at this
        simp [hungUp, this, hl, hs]
      have hstep : step dbg fuel e disk w (.eof 0) = some (w.drop 0 x) := by
        simp only [step, h0, hu, if_true]
      obtain ⟨w', h1, h2⟩ := drains_aux n (w.drop 0 x) (inv_step hi hstep) (by simp [World.drop, hr] at hn ⊢; exact hn) hl hs
      refine ⟨w', ?_, h2⟩
      rw [List.replicate_succ, run, hstep]
      exact h1

/-- **C114, the memory service drops everything.**  When all sandboxes have been destroyed and no process is left that one of them has started, the
memory service is told of the end of every socket that it still has, and after that the host has open exactly what it had before the first sandbox, and
the page map and the queue. -/
theorem drains (ht : ∀ i o, t0 i = some o → o.id < n0) (hd : ∀ p o, disk p = some o → o.id < n0) (evs : List Ev) (w : World)
    (h : run dbg fuel e disk (start t0 n0) evs = some w) (hl : w.libs = []) (hs : w.strays = []) :
    ∃ w', run dbg fuel e disk w (List.replicate w.ranges.length (.eof 0)) = some w' ∧ w'.ranges = [] ∧
      ∀ i : Nat, w'.h.t i ≠ none ↔ t0 i ≠ none ∨ w'.h.pagemap = some (i : Int) ∨ w'.h.poller = some (i : Int) := by
  obtain ⟨w', h1, h2, h3, h4⟩ := drains_aux (dbg := dbg) (fuel := fuel) _ w (inv_run (inv_start ht hd) h) rfl hl hs
  refine ⟨w', h1, h2, all_returned (dbg := dbg) (fuel := fuel) (e := e) ht hd (evs ++ List.replicate w.ranges.length (.eof 0)) w' ?_ h3 h2⟩
  rw [run_append, h]
  exact h1

/-- Two sandboxes have been destroyed before the memory service has looked. -/
example : ((run false 10 exEnv exDisk (start exTable 100) [.make exSys, .make exSys, .ends 1, .ends 0, .destroy 0, .destroy 0]).map fun w =>
      (w.libs.length, w.ranges.length, w.strays.length)) = some (0, 2, 0) := by decide +kernel

theorem cycle_aux (s : Sys) (hg : s.good) (hroom : 9 + (opened disk).length ≤ free t0 e.lim) (w : World) (hi : Inv e.lim disk t0 n0 w)
    (hl : w.libs = []) (hr : w.ranges = []) (hs : w.strays = []) :
    ∃ w', run dbg fuel e disk w [.make s, .ends 0, .destroy 0, .eof 0] = some w' ∧ w'.libs = [] ∧ w'.ranges = [] ∧ w'.strays = [] := by
  have hc := hi.acc.count
  have hm : ∃ m, make dbg fuel e disk s w.h = .made m := by
    rw [(bsd_shortage dbg fuel e disk s w.h hg).1]
    unfold before
    simp only [World.owned, hl, hr, List.flatMap_nil, List.map_nil, List.append_nil, List.length_append] at hc
    rcases hx : w.h.pagemap <;> rcases hy : w.h.poller <;> simp [hx, hy] at hc ⊢ <;> omega
  obtain ⟨m, hm⟩ := hm
  -- the sandbox is made
  obtain ⟨w1, s1, l1, r1, t1⟩ : ∃ w1, step dbg fuel e disk w (.make s) = some w1 ∧
      w1.libs = [⟨handlesOf m.tree, m.shm, m.own, m.proc, m.kq, w.h.next + 3, m.seen, true⟩] ∧ w1.ranges = [(m.svc, w.h.next + 3)] ∧ w1.strays = [] := by
    have hs1 : step dbg fuel e disk w (.make s) = some
        { h := ⟨m.t, w.h.next + 9, some m.pm, some m.poller, w.h.allQueues ++ [w.h.next + 8]⟩,
          libs := [⟨handlesOf m.tree, m.shm, m.own, m.proc, m.kq, w.h.next + 3, m.seen, true⟩],
          ranges := [(m.svc, w.h.next + 3)], strays := w.strays } := by
      simp [step, hm, hl, hr]
    exact ⟨_, hs1, rfl, rfl, hs⟩
  have i1 := inv_step hi s1
  -- its process ends
  obtain ⟨w2, s2, l2, r2, t2⟩ : ∃ w2, step dbg fuel e disk w1 (.ends 0) = some w2 ∧
      w2.libs = [⟨handlesOf m.tree, m.shm, m.own, m.proc, m.kq, w.h.next + 3, m.seen, false⟩] ∧ w2.ranges = [(m.svc, w.h.next + 3)] ∧ w2.strays = [] := by
    refine ⟨{ w1 with libs := [⟨handlesOf m.tree, m.shm, m.own, m.proc, m.kq, w.h.next + 3, m.seen, false⟩] }, ?_, rfl, r1, t1⟩
    simp [step, l1]
  have i2 := inv_step i1 s2
  -- it is destroyed
  obtain ⟨w3, s3, l3, r3, t3⟩ : ∃ w3, step dbg fuel e disk w2 (.destroy 0) = some w3 ∧
      w3.libs = [] ∧ w3.ranges = [(m.svc, w.h.next + 3)] ∧ w3.strays = [] := by
    refine ⟨{ w2 with h := { w2.h with t := Lib.closed ⟨handlesOf m.tree, m.shm, m.own, m.proc, m.kq, w.h.next + 3, m.seen, false⟩ w2.h.t }, libs := [] },
      ?_, rfl, r2, t2⟩
    simp [step, l2]
  have i3 := inv_step i2 s3
  obtain ⟨w4, s4, r4, l4, t4⟩ := drains_aux (dbg := dbg) (fuel := fuel) 1 w3 i3 (by rw [r3]; rfl) l3 t3
  refine ⟨w4, ?_, l4, r4, t4⟩
  simp only [run, s1, s2, s3]
  exact s4

/-- **C114, without limit.**  A host with room for one sandbox can make and destroy any number, one after the other. -/
theorem cycles_unlimited (ht : ∀ i o, t0 i = some o → o.id < n0) (hd : ∀ p o, disk p = some o → o.id < n0)
    (hroom : 9 + (opened disk).length ≤ free t0 e.lim) (ss : List Sys) (hg : ∀ s ∈ ss, s.good) :
    ∃ w, run dbg fuel e disk (start t0 n0) (ss.flatMap fun s => [.make s, .ends 0, .destroy 0, .eof 0]) = some w ∧ w.libs = [] ∧ w.ranges = [] := by
  have key : ∀ (ss : List Sys) (w : World), Inv e.lim disk t0 n0 w → w.libs = [] → w.ranges = [] → w.strays = [] → (∀ s ∈ ss, s.good) →
      ∃ w', run dbg fuel e disk w (ss.flatMap fun s => [.make s, .ends 0, .destroy 0, .eof 0]) = some w' ∧ w'.libs = [] ∧ w'.ranges = [] := by
    intro ss
    induction ss with
    | nil => exact fun w _ hl hr _ _ => ⟨w, rfl, hl, hr⟩
    | cons s ss ih =>
      intro w hi hl hr hs hg
      obtain ⟨w1, h1, h2, h3, h4⟩ := cycle_aux (dbg := dbg) (fuel := fuel) s (hg s (by simp)) hroom w hi hl hr hs
      obtain ⟨w2, g1, g2⟩ := ih w1 (inv_run hi h1) h2 h3 h4 fun s hs => hg s (by simp [hs])
      refine ⟨w2, ?_, g2⟩
      rw [List.flatMap_cons, run_append, h1]
      exact g1
  exact key ss (start t0 n0) (inv_start ht hd) rfl rfl rfl hg

/-- The usual room: compare `Cycle.cycles_bounded`, where each of them costs four descriptors. -/
example : 9 + (opened exDisk).length ≤ free exTable exEnv.lim := by decide +kernel

/-! ### C115: what is still running -/

/-- **C115 (partial).**  If no sandboxed code starts a process, nothing runs but the processes of the sandboxes that exist.  What is missing: sandboxed
code that does, see `process_survives`. -/
theorem no_strays_partial (evs : List Ev) (w : World) (h : run dbg fuel e disk (start t0 n0) evs = some w) (hf : ∀ k, .forks k ∉ evs) :
    w.strays = [] := by
  have key : ∀ (evs : List Ev) (w w' : World), run dbg fuel e disk w evs = some w' → (∀ k, .forks k ∉ evs) → w.strays = [] → w'.strays = [] := by
    intro evs
    induction evs with
    | nil =>
      intro w w' h _ hs
      cases h
      exact hs
    | cons ev evs ih =>
      intro w w' h hf hs
      rw [run] at h
      split at h
      · rename_i w1 h1
        refine ih w1 w' h (fun k hk => hf k (by simp [hk])) ?_
        cases ev with
        | forks k => exact absurd (by simp) (hf k)
        | again j => simp [step, hs] at h1
        | strayEnds j => simp [step, hs] at h1
        | make s =>
          simp only [step] at h1
          split at h1
          · cases h1
            exact hs
          · cases h1
        | ends k =>
          simp only [step] at h1
          split at h1
          · cases h1
            exact hs
          · cases h1
        | destroy k =>
          simp only [step] at h1
          split at h1
          · split at h1
            · cases h1
            · cases h1
              exact hs
          · cases h1
        | eof k =>
          simp only [step] at h1
          split at h1
          · split at h1
            · cases h1
              exact hs
            · cases h1
          · cases h1
        | fail k =>
          simp only [step] at h1
          split at h1
          · cases h1
            exact hs
          · cases h1
      · cases h
  exact key evs _ w h hf rfl

/-- The first of two sandboxes is destroyed. -/
example : (run false 10 exEnv exDisk (start exTable 100) [.make exSys, .make exSys, .ends 0, .destroy 0, .eof 0]).isSome = true ∧
    ∀ k, Ev.forks k ∉ [.make exSys, .make exSys, .ends 0, .destroy 0, .eof 0] := by
  refine ⟨by decide +kernel, by simp⟩

theorem survives_aux : ∀ (evs : List Ev) (w w' : World) (x : Int) (p : Nat) (t : Table), (x, p) ∈ w.ranges → t ∈ w.strays → openId e.lim t p = true →
    (∀ ev ∈ evs, (∀ j, ev ≠ .strayEnds j) ∧ ∀ k, ev ≠ .fail k) → run dbg fuel e disk w evs = some w' → (x, p) ∈ w'.ranges ∧ t ∈ w'.strays
  | [], w, w', x, p, t, h1, h2, _, _, h => by
    cases h
    exact ⟨h1, h2⟩
  | ev :: evs, w, w', x, p, t, h1, h2, h3, hev, h => by
    rw [run] at h
    split at h
    · rename_i w1 hs
      suffices hk : (x, p) ∈ w1.ranges ∧ t ∈ w1.strays from
        survives_aux evs w1 w' x p t hk.1 hk.2 h3 (fun ev' he => hev ev' (by simp [he])) h
      cases ev with
      | strayEnds j => exact absurd rfl ((hev _ (by simp)).1 j)
      | fail k => exact absurd rfl ((hev _ (by simp)).2 k)
      | forks k =>
        simp only [step] at hs
        split at hs
        · split at hs
          · cases hs
            exact ⟨h1, by simp [h2]⟩
          · cases hs
        · cases hs
      | again j =>
        simp only [step] at hs
        split at hs
        · cases hs
          exact ⟨h1, by simp [h2]⟩
        · cases hs
      | make s =>
        simp only [step] at hs
        split at hs
        · cases hs
          exact ⟨by simp [h1], h2⟩
        · cases hs
      | ends k =>
        simp only [step] at hs
        split at hs
        · cases hs
          exact ⟨h1, h2⟩
        · cases hs
      | destroy k =>
        simp only [step] at hs
        split at hs
        · split at hs
          · cases hs
          · cases hs
            exact ⟨h1, h2⟩
        · cases hs
      | eof k =>
        simp only [step] at hs
        split at hs
        · rename_i y q hk
          split at hs
          · rename_i hu
            cases hs
            refine ⟨?_, h2⟩
            have hq : ¬ (x, p) = (y, q) := by
              intro hc
              cases hc
              unfold hungUp at hu
              simp only [Bool.and_eq_true, List.all_eq_true, Bool.not_eq_true'] at hu
              rw [hu.2 t h2] at h3
              cases h3
            have := (perm_erase hk).mem_iff.1 h1
            rcases List.mem_cons.1 this with this | this
            · exact absurd this hq
            · exact this
          · cases hs
        · cases hs
    · cases h

/-- **C115 fails on FreeBSD.**  At every moment at which a sandbox runs, its code can start a process that outlives it: the sandbox ends and is destroyed, and
however the host goes on, as long as that process does not end it keeps everything that the sandbox had, and the memory service keeps the socket, with the
address of the destroyed object, and is not told of its end, unless it gives up the socket itself. -/
theorem process_survives (ht : ∀ i o, t0 i = some o → o.id < n0) (hd : ∀ p o, disk p = some o → o.id < n0) (evs : List Ev) (w : World)
    (h : run dbg fuel e disk (start t0 n0) evs = some w) (k : Nat) (l : Lib) (hk : w.libs[k]? = some l) (hl : l.runs = true) (x : Int)
    (hx : (x, l.peer) ∈ w.ranges) :
    ∃ w', run dbg fuel e disk w [.forks k, .ends k, .destroy k] = some w' ∧ (∀ l' ∈ w'.libs, l'.peer ≠ l.peer) ∧
      ∀ evs' w'', (∀ ev ∈ evs', (∀ j, ev ≠ .strayEnds j) ∧ ∀ k, ev ≠ .fail k) → run dbg fuel e disk w' evs' = some w'' →
        l.seen ∈ w''.strays ∧ (x, l.peer) ∈ w''.ranges ∧ hungUp e.lim w'' l.peer = false ∧
        ∃ n : Nat, x = n ∧ w''.h.t n ≠ none ∧ t0 n = none := by
  have hi := inv_run (inv_start ht hd) h
  have hmem := List.mem_of_getElem? hk
  obtain ⟨-, -, hp, -⟩ := hi.libs l hmem
  have hlt : k < w.libs.length := (List.getElem?_eq_some_iff.1 hk).1
  have e1 : step dbg fuel e disk w (.forks k) = some { w with strays := w.strays ++ [l.seen] } := by
    simp only [step, hk, hl, if_true]
  have e2 : step dbg fuel e disk { w with strays := w.strays ++ [l.seen] } (.ends k) =
      some { w with strays := w.strays ++ [l.seen], libs := w.libs.set k { l with runs := false } } := by
    simp only [step, hk]
  have hg : (w.libs.set k { l with runs := false })[k]? = some { l with runs := false } := by
    simp [hlt]
  have e3 : step dbg fuel e disk { w with strays := w.strays ++ [l.seen], libs := w.libs.set k { l with runs := false } } (.destroy k) =
      some { w with strays := w.strays ++ [l.seen], libs := (w.libs.set k { l with runs := false }).eraseIdx k,
                    h := { w.h with t := Lib.closed { l with runs := false } w.h.t } } := by
    simp only [step, hg]
    rfl
  have hrun : run dbg fuel e disk w [.forks k, .ends k, .destroy k] =
      some { w with strays := w.strays ++ [l.seen], libs := (w.libs.set k { l with runs := false }).eraseIdx k,
                    h := { w.h with t := Lib.closed { l with runs := false } w.h.t } } := by
    simp only [run, e1, e2, e3]
  refine ⟨_, hrun, ?_, ?_⟩
  · intro l' hl' hc
    have hi3 := inv_step (inv_step hi e1) e2
    have h1 := ((perm_erase hg).map (·.peer)).nodup_iff.1 hi3.distinct
    simp only [List.map_cons, List.nodup_cons] at h1
    exact h1.1 (List.mem_map.2 ⟨l', hl', hc⟩)
  · intro evs' w'' hev hr
    obtain ⟨g1, g2⟩ := by
      refine survives_aux evs' _ w'' x l.peer l.seen ?_ ?_ hp hev hr
      · exact hx
      · exact List.mem_append_right _ (List.mem_singleton.2 rfl)
    refine ⟨g2, g1, ?_, ?_⟩
    · unfold hungUp
      have : (w''.strays.all fun t => !openId e.lim t l.peer) = false := by
        rw [List.all_eq_false]
        exact ⟨l.seen, g2, by simp [hp]⟩
      rw [this]
      simp
    · have hacc := (inv_run (inv_run hi hrun) hr).acc
      obtain ⟨n, n1, -, n2, n3⟩ := hacc.mine x (by
        simp only [World.owned, List.mem_append, List.mem_map]
        exact .inr (.inr (.inr ⟨_, g1, rfl⟩)))
      exact ⟨n, n1, n3, n2⟩

/-- A sandbox that runs and is known to the memory service. -/
example : ((run false 10 exEnv exDisk (start exTable 100) [.make exSys]).map fun w =>
    (w.libs.map fun l => (l.runs, l.peer), w.ranges)) = some ([(true, 103)], [(9, 103)]) := by decide +kernel

end

end Verif.BsdMake
