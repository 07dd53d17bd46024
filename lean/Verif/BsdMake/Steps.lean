import Verif.BsdMake.Model
import Verif.Cycle.Core

/-!
# Making a sandbox on FreeBSD: the ways to end, and the constructor step by step
-/

namespace Verif.BsdMake

open Verif.Fd Verif.Start Verif.FileTree
open Verif.Make (fill free_fill free_fill_one fill_fill fill_nil fill_keeps fill_zero create_ok create_full pair_ok
  pair_full none_of_fill construct_fill opened Handed PmAt)

/-! ### Specification -/

/-- The host, as `Make` sees it (`src/libsandbox.cc:865`). -/
def Host.plain (h : Host) : Make.Host := ⟨h.t, h.next, h.pagemap, h.poller.isSome⟩

/-- How making a sandbox stops before there is a process, by the first thing that is missing: `room` free descriptors, `files` default exports that
exist (`src/libsandbox.cc:865-885`). -/
def fate (dbg : Bool) (s : Sys) (firstMap firstService : Bool) (room files : Nat) : Option Stop :=
  let maps := if firstMap then 1 else 0
  let polls := if firstService then 1 else 0
  if room < 1 ∨ s.anon = false ∨ s.shmSized = false then some .aborts
  else if dbg = true ∧ s.shmMapped = false then some .aborts
  else if firstMap = true ∧ (room < 2 ∨ s.pmSized = false) then some .aborts
  else if firstMap = true ∧ s.pmMapped = false then some (if dbg then .aborts else .faults)
  else if s.shmMapped = false then some .faults
  else if room < 1 + maps + files + 2 then some .exits
  else if firstService = true ∧ s.thread = false then some .throws
  else if room < 1 + maps + files + 2 + polls ∨ s.registered = false then some .aborts
  else if room < 1 + maps + files + 2 + polls + 2 then some .exits
  else none

/-- The memory service's queue: the one there was, or a new descriptor (`include/process_sandbox/platform/poller_kqueue.h:22`). -/
def PollerAt (h : Host) (t : Table) (k : Int) : Prop :=
  match h.poller with
  | some p => k = p
  | none => ∃ n : Nat, k = n ∧ t n = some ⟨h.next + 4, true⟩

/-! ### The constructor, step by step -/

/-- From the second pair of sockets on (`src/libsandbox.cc:885`). -/
def last (lim : Nat) (h : Host) (tree : Dir) (t : Table) (shm pm svc rpc poller : Int) : Except Stop Ready :=
  match Make.pair lim t ⟨h.next + 5, true⟩ ⟨h.next + 6, true⟩ with
  | none => .error .exits
  | some (own, cb, t) => .ok ⟨tree, t, shm, pm, svc, rpc, poller, own, cb⟩

/-- From the first pair of sockets on (`src/libsandbox.cc:880-885`). -/
def sockets (lim : Nat) (s : Sys) (h : Host) (tree : Dir) (t : Table) (shm pm : Int) : Except Stop Ready :=
  match Make.pair lim t ⟨h.next + 2, true⟩ ⟨h.next + 3, true⟩ with
  | none => .error .exits
  | some (svc, rpc, t) =>
  match serve s lim h t with
  | .error o => .error o
  | .ok (poller, t) => last lim h tree t shm pm svc rpc poller

/-- How that part stops, with `room` free descriptors (`src/libsandbox.cc:880-885`). -/
def fate2 (s : Sys) (firstService : Bool) (room : Nat) : Option Stop :=
  let polls := if firstService then 1 else 0
  if room < 2 then some .exits
  else if firstService = true ∧ s.thread = false then some .throws
  else if room < 2 + polls ∨ s.registered = false then some .aborts
  else if room < 2 + polls + 2 then some .exits
  else none

/-- How a part of the constructor stopped (`src/libsandbox.cc:865-885`). -/
def stopped : Except Stop Ready → Option Stop
  | .error o => some o
  | .ok _ => none

/-- Two pairs of sockets and the queue, as they are after `sockets` (`src/libsandbox.cc:880-885`). -/
structure Socks (lim : Nat) (s : Sys) (h : Host) (tree : Dir) (t : Table) (shm pm : Int) (svc own rpc cb : Nat) (poller : Int) (t' : Table) : Prop where
  table : t' = fill t ([⟨h.next + 2, true⟩, ⟨h.next + 3, true⟩] ++ (if h.poller.isSome then [] else [⟨h.next + 4, true⟩]) ++
    [⟨h.next + 5, true⟩, ⟨h.next + 6, true⟩])
  room : 4 + (if h.poller.isSome then 0 else 1) ≤ free t lim
  atSvc : t' svc = some ⟨h.next + 2, true⟩ ∧ t svc = none
  atRpc : t' rpc = some ⟨h.next + 3, true⟩ ∧ t rpc = none
  atOwn : t' own = some ⟨h.next + 5, true⟩ ∧ t own = none
  atCb : t' cb = some ⟨h.next + 6, true⟩ ∧ t cb = none
  atPoller : PollerAt h t' poller
  ready : sockets lim s h tree t shm pm = .ok ⟨tree, t', shm, pm, svc, rpc, poller, own, cb⟩

theorem last_steps (lim : Nat) (h : Host) (tree : Dir) (t : Table) (shm pm svc rpc poller : Int) :
    (free t lim < 2 → last lim h tree t shm pm svc rpc poller = .error .exits) ∧
    (2 ≤ free t lim → ∃ own cb : Nat, ∃ t' : Table, t' = fill t [⟨h.next + 5, true⟩, ⟨h.next + 6, true⟩] ∧
      t' own = some ⟨h.next + 5, true⟩ ∧ t' cb = some ⟨h.next + 6, true⟩ ∧ t own = none ∧ t cb = none ∧
      last lim h tree t shm pm svc rpc poller = .ok ⟨tree, t', shm, pm, svc, rpc, poller, own, cb⟩) := by
  refine ⟨fun hl => by simp [last, pair_full hl], fun hl => ?_⟩
  obtain ⟨own, cb, q1, q2, q3, q4, q5, -⟩ := pair_ok (lim := lim) (t := t) (a := ⟨h.next + 5, true⟩) (b := ⟨h.next + 6, true⟩) hl
  exact ⟨own, cb, _, rfl, q4, q5, q2, q3, by simp only [last, q1]⟩

theorem sockets_steps (lim : Nat) (s : Sys) (h : Host) (tree : Dir) (t : Table) (shm pm : Int) :
    stopped (sockets lim s h tree t shm pm) = fate2 s h.poller.isNone (free t lim) ∧
    (fate2 s h.poller.isNone (free t lim) = none → ∃ svc own rpc cb poller t', Socks lim s h tree t shm pm svc own rpc cb poller t') := by
  by_cases h2 : free t lim < 2
  · simp [sockets, pair_full h2, fate2, h2, stopped]
  obtain ⟨svc, rpc, p1, p2, p3, p4, p5, -⟩ := pair_ok (lim := lim) (t := t) (a := ⟨h.next + 2, true⟩) (b := ⟨h.next + 3, true⟩) (by omega)
  have hf1 := free_fill t [⟨h.next + 2, true⟩, ⟨h.next + 3, true⟩] lim
  generalize ht1 : fill t [⟨h.next + 2, true⟩, ⟨h.next + 3, true⟩] = t1 at p1 p4 p5 hf1
  simp only [List.length_cons, List.length_nil] at hf1
  have hs : sockets lim s h tree t shm pm = match serve s lim h t1 with
      | .error o => .error o
      | .ok (poller, t) => last lim h tree t shm pm svc rpc poller := by
    simp only [sockets, p1]
  have back : ∀ n, t1 n = none → t n = none := fun n hn => none_of_fill (os := [⟨h.next + 2, true⟩, ⟨h.next + 3, true⟩]) (by rw [ht1]; exact hn)
  rcases hp : h.poller with _ | k
  · simp only [Option.isNone_none]
    have hsv : serve s lim h t1 = (if s.thread = false then .error .throws
        else if (create lim t1 ⟨h.next + 4, true⟩).1 < 0 ∨ s.registered = false then .error .aborts
        else .ok (create lim t1 ⟨h.next + 4, true⟩)) := by
      simp only [serve, hp]
    rw [hs, hsv]
    rcases hth : s.thread with _ | _
    · simp [fate2, hth, stopped, h2]
    rcases hreg : s.registered with _ | _
    · simp [fate2, hth, hreg, stopped, h2]
    by_cases h3 : free t lim < 3
    · rw [create_full (by omega)]
      simp [fate2, hth, hreg, stopped, h2, h3]
    obtain ⟨n, c1, c2, c3, -⟩ := create_ok (lim := lim) (t := t1) (o := ⟨h.next + 4, true⟩) (by omega)
    have hn : ¬ ((n : Int) < 0 ∨ true = false) := by
      rintro (h | h)
      · omega
      · cases h
    rw [c1, if_neg (by simp), if_neg hn]
    simp only
    obtain ⟨k1, k2⟩ := last_steps lim h tree (fill t1 [⟨h.next + 4, true⟩]) shm pm svc rpc n
    have hf2 := free_fill_one t1 ⟨h.next + 4, true⟩ lim
    by_cases h5 : free t lim < 5
    · rw [k1 (by omega)]
      simp [fate2, hth, hreg, h2, h3, h5, stopped]
    · obtain ⟨own, cb, t', g1, g2, g3, g4, g5, g6⟩ := k2 (by omega)
      have hup : ∀ i o, t1 i = some o → t' i = some o := fun i o hi => by
        rw [g1]
        exact fill_keeps (fill_keeps hi)
      rw [g6]
      refine ⟨by simp [fate2, hth, hreg, h2, h3, h5, stopped], fun _ => ⟨svc, own, rpc, cb, n, t', ?_, ?_, ⟨hup _ _ p4, p2⟩, ⟨hup _ _ p5, p3⟩, ⟨g2, ?_⟩, ⟨g3, ?_⟩, ?_, ?_⟩⟩
      · rw [g1, ← ht1, fill_fill, fill_fill, hp]
        simp
      · simp [hp]
        omega
      · exact back _ (none_of_fill g4)
      · exact back _ (none_of_fill g5)
      · simp only [PollerAt, hp]
        exact ⟨n, rfl, by rw [g1]; exact fill_keeps c3⟩
      · rw [hs, hsv, hth, hreg, c1, if_neg (by simp), if_neg hn]
        exact g6
  · simp only [Option.isNone_some]
    have hsv : serve s lim h t1 = if s.registered then .ok (k, t1) else .error .aborts := by
      simp only [serve, hp]
    rw [hs, hsv]
    rcases hreg : s.registered with _ | _
    · simp [fate2, hreg, stopped, h2]
    obtain ⟨k1, k2⟩ := last_steps lim h tree t1 shm pm svc rpc k
    simp only [if_true]
    by_cases h4 : free t lim < 4
    · rw [k1 (by omega)]
      simp [fate2, hreg, h2, h4, stopped]
    · obtain ⟨own, cb, t', g1, g2, g3, g4, g5, g6⟩ := k2 (by omega)
      have hup : ∀ i o, t1 i = some o → t' i = some o := fun i o hi => by
        rw [g1]
        exact fill_keeps hi
      rw [g6]
      refine ⟨by simp [fate2, hreg, h2, h4, stopped], fun _ => ⟨svc, own, rpc, cb, k, t', ?_, ?_, ⟨hup _ _ p4, p2⟩, ⟨hup _ _ p5, p3⟩, ⟨g2, back _ g4⟩, ⟨g3, back _ g5⟩, ?_, ?_⟩⟩
      · rw [g1, ← ht1, fill_fill, hp]
        simp
      · simp [hp]
        omega
      · simp only [PollerAt, hp]
      · rw [hs, hsv, hreg]
        exact g6

theorem object_ok {s : Sys} {lim : Nat} {t : Table} {o : Obj} (hs : s.anon = true) (h : 0 < free t lim) :
    ∃ n : Nat, object s lim t o = ((n : Int), fill t [o]) ∧ t n = none ∧ fill t [o] n = some o ∧ n < lim := by
  rw [object, if_pos hs]
  exact create_ok h

theorem prepare_sockets (dbg : Bool) (lim : Nat) (disk : List Byte → Option Obj) (s : Sys) (h : Host) :
    prepare dbg lim disk s h =
      match object s lim h.t ⟨h.next, true⟩ with
      | (shm, t) =>
        if shm < 0 ∨ s.shmSized = false then .error .aborts
        else if dbg = true ∧ s.shmMapped = false then .error .aborts
        else
          match pagemapOf dbg s lim h t with
          | .error o => .error o
          | .ok (pm, t) =>
            if s.shmMapped = false then .error .faults
            else sockets lim s h (Defaults.construct disk lim t).1 (Defaults.construct disk lim t).2 shm pm := rfl

theorem fate_fate2 (dbg : Bool) (s : Sys) (fm fs : Bool) (room files : Nat) :
    fate dbg s fm fs room files =
      if room < 1 ∨ s.anon = false ∨ s.shmSized = false then some .aborts
      else if dbg = true ∧ s.shmMapped = false then some .aborts
      else if fm = true ∧ (room < 2 ∨ s.pmSized = false) then some .aborts
      else if fm = true ∧ s.pmMapped = false then some (if dbg then .aborts else .faults)
      else if s.shmMapped = false then some .faults
      else fate2 s fs (room - (1 + if fm then 1 else 0) - files) := by
  have e1 : ∀ m p : Nat, (room < 1 + m + files + 2 + p) ↔ (room - (1 + m) - files < 2 + p) := by omega
  have e2 : ∀ m : Nat, (room < 1 + m + files + 2) ↔ (room - (1 + m) - files < 2) := by omega
  have e3 : ∀ m p : Nat, (room < 1 + m + files + 2 + p + 2) ↔ (room - (1 + m) - files < 2 + p + 2) := by omega
  simp only [fate, fate2, e1, e2, e3]

/-- The constructor stops exactly as said, and otherwise has all its descriptors. -/
theorem prepare_steps (dbg : Bool) (lim : Nat) (disk : List Byte → Option Obj) (s : Sys) (h : Host) :
    stopped (prepare dbg lim disk s h) = fate dbg s h.pagemap.isNone h.poller.isNone (free h.t lim) (opened disk).length ∧
    (stopped (prepare dbg lim disk s h) = none → ∃ (t1 t2 t : Table) (shm svc own rpc cb : Nat) (pm poller : Int),
      Handed disk h.plain lim t1 t2 t shm svc own rpc cb pm ∧ PollerAt h t poller ∧
      prepare dbg lim disk s h = .ok ⟨(Defaults.construct disk lim t1).1, t, shm, pm, svc, rpc, poller, own, cb⟩) := by
  rw [prepare_sockets, fate_fate2]
  by_cases h1 : free h.t lim < 1 ∨ s.anon = false
  · have ho : object s lim h.t ⟨h.next, true⟩ = (-1, h.t) := by
      rcases h1 with h1 | h1
      · unfold object
        split
        · exact create_full (by omega)
        · rfl
      · simp [object, h1]
    have h1' : free h.t lim < 1 ∨ s.anon = false ∨ s.shmSized = false := by
      rcases h1 with h1 | h1
      · exact .inl h1
      · exact .inr (.inl h1)
    simp only [ho]
    rw [if_pos h1', if_pos (.inl (by decide))]
    exact ⟨rfl, nofun⟩
  have hgood : s.anon = true := by
    rcases hm : s.anon with _ | _
    · exact absurd (.inr hm) h1
    · rfl
  obtain ⟨shm, o1, o2, o3, -⟩ := object_ok (s := s) (lim := lim) (t := h.t) (o := ⟨h.next, true⟩) hgood (by omega)
  have hf1 := free_fill_one h.t ⟨h.next, true⟩ lim
  generalize ht1 : fill h.t [⟨h.next, true⟩] = t1 at o1 o3 hf1
  simp only [o1]
  rcases hss : s.shmSized with _ | _
  · simp [stopped]
  by_cases hmap : dbg = true ∧ s.shmMapped = false
  · simp [hmap, stopped]
  have hc1 : ¬ ((shm : Int) < 0 ∨ true = false) := by
    rintro (h | h)
    · omega
    · cases h
  have hc2 : ¬ (free h.t lim < 1 ∨ s.anon = false ∨ true = false) := by
    rintro (h | h | h)
    · omega
    · exact h1 (.inr h)
    · cases h
  rw [if_neg hc1, if_neg hmap, if_neg hc2, if_neg hmap]
  -- from the table `t1'` after the page map on
  have tail : ∀ (pm : Int) (t1' : Table) (os : List Obj), os = (if h.pagemap = none then [⟨h.next + 1, true⟩] else []) →
      t1' = fill t1 os → os.length + 1 ≤ free h.t lim → PmAt h.plain t1' pm → s.shmMapped = true →
      stopped (sockets lim s h (Defaults.construct disk lim t1').1 (Defaults.construct disk lim t1').2 shm pm) =
        fate2 s h.poller.isNone (free h.t lim - (1 + os.length) - (opened disk).length) ∧
      (stopped (sockets lim s h (Defaults.construct disk lim t1').1 (Defaults.construct disk lim t1').2 shm pm) = none →
        ∃ (t1 t2 t : Table) (shm' svc own rpc cb : Nat) (pm' poller : Int), Handed disk h.plain lim t1 t2 t shm' svc own rpc cb pm' ∧
          PollerAt h t poller ∧
          sockets lim s h (Defaults.construct disk lim t1').1 (Defaults.construct disk lim t1').2 shm pm =
            .ok ⟨(Defaults.construct disk lim t1).1, t, shm', pm', svc, rpc, poller, own, cb⟩) := by
    intro pm t1' os hos ht1' hroom hpm hsm
    have hfr : free t1' lim = free h.t lim - (1 + os.length) := by
      rw [ht1', free_fill, hf1]
      omega
    have hcf := construct_fill disk lim t1'
    have hfc : free (Defaults.construct disk lim t1').2 lim = free h.t lim - (1 + os.length) - (opened disk).length := by
      rw [hcf, free_fill, hfr, List.length_take]
      omega
    obtain ⟨g1, g2⟩ := sockets_steps lim s h (Defaults.construct disk lim t1').1 (Defaults.construct disk lim t1').2 shm pm
    rw [hfc] at g1 g2
    refine ⟨g1, fun hn => ?_⟩
    obtain ⟨svc, own, rpc, cb, poller, t', k⟩ := g2 (g1 ▸ hn)
    have k2 := k.room
    rw [hfc] at k2
    have hle : (opened disk).length ≤ free t1' lim := by omega
    have hkeep : ∀ i o, (Defaults.construct disk lim t1').2 i = some o → t' i = some o := fun i o hi => by
      rw [k.table]
      exact fill_keeps hi
    have hkeep1 : ∀ i o, t1' i = some o → t' i = some o := fun i o hi => hkeep i o (by rw [hcf]; exact fill_keeps hi)
    have htab : t' = fill h.t (Make.created disk h.plain) := by
      rw [k.table, hcf, List.take_of_length_le hle, ht1', ← ht1, fill_fill, fill_fill, fill_fill, hos]
      rcases hpo : h.poller <;> rcases hpg : h.pagemap <;> simp [Make.created, Host.plain, hpo, hpg]
    refine ⟨t1', _, t', shm, svc, own, rpc, cb, pm, poller, ⟨?_, htab, ⟨hkeep1 _ _ ?_, o2⟩, ?_, k.atSvc.1, k.atRpc.1, k.atOwn.1, k.atCb.1, ⟨?_, hle⟩, rfl,
      ⟨k.atRpc.2, k.atOwn.2, k.atCb.2, k.atSvc.2⟩, ?_, ?_, hkeep⟩, k.atPoller, k.ready⟩
    · have : (Make.created disk h.plain).length = 1 + os.length + (opened disk).length + (4 + if h.poller.isSome then 0 else 1) := by
        rw [hos]
        rcases hpo : h.poller <;> rcases hpg : h.pagemap <;> simp [Make.created, Host.plain, hpo, hpg] <;> omega
      simp only [Host.plain] at this ⊢
      omega
    · rw [ht1']
      exact fill_keeps o3
    · unfold PmAt at hpm ⊢
      split
      · rename_i p hp
        rw [hp] at hpm
        exact hpm
      · rename_i hp
        rw [hp] at hpm
        obtain ⟨n, n1, n2, n3⟩ := hpm
        exact ⟨n, n1, hkeep1 _ _ n2, n3⟩
    · rw [ht1', ← ht1, fill_fill]
      exact fill_zero _ _ _
    · intro i o hi
      rw [ht1', ← ht1, fill_fill]
      exact fill_keeps hi
    · intro i o hi
      rw [hcf, ht1', ← ht1, fill_fill, fill_fill]
      exact fill_keeps hi
  rcases hp : h.pagemap with _ | p
  · -- the first page map
    simp only [pagemapOf, hp, Option.isNone_none]
    by_cases h2 : free h.t lim < 2
    · have ho : object s lim t1 ⟨h.next + 1, true⟩ = (-1, t1) := by
        rw [object, if_pos hgood]
        exact create_full (by omega)
      rw [ho]
      simp [h2, stopped]
    obtain ⟨n, q1, q2, q3, -⟩ := object_ok (s := s) (lim := lim) (t := t1) (o := ⟨h.next + 1, true⟩) hgood (by omega)
    have hn : ¬ (n : Int) < 0 := by omega
    simp only [q1]
    rcases hps : s.pmSized with _ | _
    · simp [stopped]
    rcases hpm : s.pmMapped with _ | _
    · rcases dbg <;> simp [hn, h2, stopped]
    rcases hsm : s.shmMapped with _ | _
    · simp [hn, h2, stopped]
    obtain ⟨r1, r2⟩ := tail n (fill t1 [⟨h.next + 1, true⟩]) [⟨h.next + 1, true⟩] (by simp [hp]) rfl (by simp; omega)
      (by
        simp only [PmAt, Host.plain, hp]
        exact ⟨n, rfl, q3, none_of_fill (os := [⟨h.next, true⟩]) (by rw [ht1]; exact q2)⟩) hsm
    simp only [hn, h2, or_false, and_false, if_false, Bool.true_eq_false, if_true, List.length_cons, List.length_nil] at r1 r2 ⊢
    exact ⟨r1, r2⟩
  · simp only [pagemapOf, hp, Option.isNone_some]
    rcases hsm : s.shmMapped with _ | _
    · simp [stopped]
    obtain ⟨r1, r2⟩ := tail p t1 [] (by simp [hp]) (fill_nil t1).symm (by simp; omega) (by simp only [PmAt, Host.plain, hp]) hsm
    simp only [Bool.false_eq_true, Bool.true_eq_false, false_and, if_false, List.length_nil] at r1 r2 ⊢
    exact ⟨r1, r2⟩

end Verif.BsdMake
