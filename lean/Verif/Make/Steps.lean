import Verif.Make.Lemmas

/-!
# Making a sandbox: the ways to end, and the constructor step by step
-/

namespace Verif.Make

open Verif.Fd Verif.Start Verif.FileTree Verif.Path Verif.FileTree.Spec

/-! ### Specification -/

/-- The ways to end before there is a process (`src/libsandbox.cc:865-914`). -/
inductive Early where
  | aborts
  | exits
  | faults
  | throws
  deriving Repr, DecidableEq

/-- Whether and how the constructor ended before there was a process (`src/libsandbox.cc:865-914`). -/
def early : Out → Option Early
  | .aborts => some .aborts
  | .exits => some .exits
  | .faults => some .faults
  | .throws => some .throws
  | .hangs => none
  | .made _ => none

/-- How making a sandbox ends early, by the first thing that is missing: `room` free descriptors, `files` default exports that exist.
Two socket pairs and the shared memory always need descriptors; the page map and the poller only for the first sandbox (`src/libsandbox.cc:865-885`). -/
def fate (dbg : Bool) (s : Sys) (firstMap firstService : Bool) (room files : Nat) : Option Early :=
  let maps := if firstMap then 1 else 0
  let polls := if firstService then 1 else 0
  if room < 1 ∨ (s.memfd = false ∧ s.posix = false) ∨ s.shmSized = false then some .aborts
  else if dbg = true ∧ s.shmMapped = false then some .aborts
  else if firstMap = true ∧ (room < 2 ∨ s.pmSized = false) then some .aborts
  else if firstMap = true ∧ s.pmMapped = false then some (if dbg then .aborts else .faults)
  else if s.shmMapped = false then some .faults
  else if room < 1 + maps + files + 2 then some .exits
  else if firstService = true ∧ s.thread = false then some .throws
  else if room < 1 + maps + files + 2 + polls ∨ s.registered = false then some .aborts
  else if room < 1 + maps + files + 2 + polls + 2 then some .exits
  else none

/-- The system refuses nothing (for `src/libsandbox.cc:865-914`). -/
def Sys.good (s : Sys) : Prop :=
  (s.memfd = true ∨ s.posix = true) ∧ s.shmSized = true ∧ s.shmMapped = true ∧ s.pmSized = true ∧ s.pmMapped = true ∧
    s.thread = true ∧ s.registered = true

/-- Whether the sandbox is the first to need a page map (`include/process_sandbox/sandbox.h:466-475`). -/
def Host.firstMap (h : Host) : Bool := h.pagemap.isNone

/-! ### The constructor, step by step -/

/-- What is left once all descriptors are there: the process (`src/libsandbox.cc:914-932`). -/
def forks (fuel : Nat) (e : Env) (s : Sys) (tree : Dir) (t : Table) (shm pm svc own rpc cb : Int) : Out :=
  if s.forked then
    match startChild fuel e t ⟨shm, pm, rpc, cb⟩ with
    | (.looping, _) => .hangs
    | (out, hs) => .made ⟨tree, some out, close (close t hs.cb) hs.rpc, hs.shm, own, svc, pm⟩
  else .made ⟨tree, none, close (close t cb) rpc, shm, own, svc, pm⟩

theorem early_forks (fuel : Nat) (e : Env) (s : Sys) (tree : Dir) (t : Table) (shm pm svc own rpc cb : Int) :
    early (forks fuel e s tree t shm pm svc own rpc cb) = none := by
  unfold forks
  split
  · split <;> rfl
  · rfl

/-- The page map's handle: the one there was, or a new descriptor (`include/process_sandbox/sandbox.h:195-202`). -/
def PmAt (h : Host) (t : Table) (pm : Int) : Prop :=
  match h.pagemap with
  | some p => pm = p
  | none => ∃ n : Nat, pm = n ∧ t n = some ⟨h.next + 1, true⟩ ∧ h.t n = none

/-- Where the constructor's handles are; `t1` is the table before the default exports are opened, `t2` afterwards, `t` at the end
(`src/libsandbox.cc:865-914`). -/
structure Handed (disk : List Byte → Option Obj) (h : Host) (lim : Nat) (t1 t2 t : Table) (shm svc own rpc cb : Nat) (pm : Int) : Prop where
  room : (created disk h).length ≤ free h.t lim
  table : t = fill h.t (created disk h)
  atShm : t shm = some ⟨h.next, true⟩ ∧ h.t shm = none
  atPm : PmAt h t pm
  atSvc : t svc = some ⟨h.next + 2, true⟩
  atRpc : t rpc = some ⟨h.next + 3, true⟩
  atOwn : t own = some ⟨h.next + 5, true⟩
  atCb : t cb = some ⟨h.next + 6, true⟩
  /-- the shared memory is open already, so descriptor 0 is in use -/
  before : t1 0 ≠ none ∧ (opened disk).length ≤ free t1 lim
  after : t2 = (Defaults.construct disk lim t1).2
  /-- the sockets get other numbers than the exports -/
  fresh : t2 rpc = none ∧ t2 own = none ∧ t2 cb = none ∧ t2 svc = none
  start : ∀ i o, h.t i = some o → t1 i = some o
  keep : (∀ i o, h.t i = some o → t2 i = some o) ∧ ∀ i o, t2 i = some o → t i = some o

theorem fill_zero (t : Table) (o : Obj) (os : List Obj) : fill t (o :: os) 0 ≠ none := by
  unfold fill
  rcases h : t 0 with _ | x
  · simp [free]
  · simp

theorem none_of_fill {t : Table} {os : List Obj} {i : Nat} (h : fill t os i = none) : t i = none := by
  rcases ht : t i with _ | o
  · rfl
  · rw [fill_keeps ht] at h
    cases h

/-- From the second pair of sockets on (`src/libsandbox.cc:885-932`). -/
def last (fuel : Nat) (e : Env) (s : Sys) (h : Host) (tree : Dir) (t : Table) (shm pm svc rpc : Int) : Out :=
  match pair e.lim t ⟨h.next + 5, true⟩ ⟨h.next + 6, true⟩ with
  | none => .exits
  | some (own, cb, t) => forks fuel e s tree t shm pm svc own rpc cb

/-- From the first pair of sockets on (`src/libsandbox.cc:880-932`). -/
def sockets (fuel : Nat) (e : Env) (s : Sys) (h : Host) (tree : Dir) (t : Table) (shm pm : Int) : Out :=
  match pair e.lim t ⟨h.next + 2, true⟩ ⟨h.next + 3, true⟩ with
  | none => .exits
  | some (svc, rpc, t) =>
  match serve s e.lim h t with
  | .error o => o
  | .ok t =>
  last fuel e s h tree t shm pm svc rpc

/-- How that part ends early, with `room` free descriptors (`src/libsandbox.cc:880-885`). -/
def fate2 (s : Sys) (firstService : Bool) (room : Nat) : Option Early :=
  let polls := if firstService then 1 else 0
  if room < 2 then some .exits
  else if firstService = true ∧ s.thread = false then some .throws
  else if room < 2 + polls ∨ s.registered = false then some .aborts
  else if room < 2 + polls + 2 then some .exits
  else none

theorem sockets_steps (fuel : Nat) (e : Env) (s : Sys) (h : Host) (tree : Dir) (t : Table) (shm pm : Int) :
    early (sockets fuel e s h tree t shm pm) = fate2 s (!h.service) (free t e.lim) ∧
    (fate2 s (!h.service) (free t e.lim) = none → ∃ svc own rpc cb : Nat, ∃ t' : Table,
      t' = fill t ([⟨h.next + 2, true⟩, ⟨h.next + 3, true⟩] ++ (if h.service then [] else [⟨h.next + 4, true⟩]) ++
        [⟨h.next + 5, true⟩, ⟨h.next + 6, true⟩]) ∧
      4 + (if h.service then 0 else 1) ≤ free t e.lim ∧
      t' svc = some ⟨h.next + 2, true⟩ ∧ t svc = none ∧
      t' rpc = some ⟨h.next + 3, true⟩ ∧ t' own = some ⟨h.next + 5, true⟩ ∧ t' cb = some ⟨h.next + 6, true⟩ ∧
      t rpc = none ∧ t own = none ∧ t cb = none ∧
      sockets fuel e s h tree t shm pm = forks fuel e s tree t' shm pm svc own rpc cb) := by
  by_cases h2 : free t e.lim < 2
  · simp [sockets, pair_full h2, fate2, h2, early]
  obtain ⟨svc, rpc, p1, p2, p3, p4, p5, -⟩ := pair_ok (lim := e.lim) (t := t) (a := ⟨h.next + 2, true⟩) (b := ⟨h.next + 3, true⟩) (by omega)
  have hf1 := free_fill t [⟨h.next + 2, true⟩, ⟨h.next + 3, true⟩] e.lim
  generalize ht1 : fill t [⟨h.next + 2, true⟩, ⟨h.next + 3, true⟩] = t1 at p1 p4 p5 hf1
  simp only [List.length_cons, List.length_nil] at hf1
  simp only [sockets, p1]
  -- the service
  have key : ∀ t2 : Table, (∃ os, t2 = fill t1 os ∧ os = (if h.service then [] else [⟨h.next + 4, true⟩])) →
      (free t2 e.lim < 2 → early (last fuel e s h tree t2 shm pm svc rpc) = some .exits) ∧
      (2 ≤ free t2 e.lim → early (last fuel e s h tree t2 shm pm svc rpc) = none ∧
        ∃ own cb : Nat, ∃ t' : Table, t' = fill t2 [⟨h.next + 5, true⟩, ⟨h.next + 6, true⟩] ∧
          t' svc = some ⟨h.next + 2, true⟩ ∧ t svc = none ∧
      t' rpc = some ⟨h.next + 3, true⟩ ∧ t' own = some ⟨h.next + 5, true⟩ ∧ t' cb = some ⟨h.next + 6, true⟩ ∧
          t own = none ∧ t cb = none ∧
          last fuel e s h tree t2 shm pm svc rpc = forks fuel e s tree t' shm pm svc own rpc cb) := by
    rintro t2 ⟨os, rfl, -⟩
    refine ⟨fun hl => by simp [last, pair_full hl, early], fun hl => ?_⟩
    obtain ⟨own, cb, q1, q2, q3, q4, q5, -⟩ := pair_ok (lim := e.lim) (t := fill t1 os) (a := ⟨h.next + 5, true⟩) (b := ⟨h.next + 6, true⟩) hl
    simp only [last, q1]
    refine ⟨early_forks _ _ _ _ _ _ _ _ _ _ _, own, cb, _, rfl, fill_keeps (fill_keeps p4), p2, fill_keeps (fill_keeps p5), q4, q5, ?_, ?_, rfl⟩
    · exact none_of_fill (os := [⟨h.next + 2, true⟩, ⟨h.next + 3, true⟩]) (by rw [ht1]; exact none_of_fill q2)
    · exact none_of_fill (os := [⟨h.next + 2, true⟩, ⟨h.next + 3, true⟩]) (by rw [ht1]; exact none_of_fill q3)
  rcases hs : h.service with _ | _
  · -- the first
    simp only [serve, hs]
    rcases hth : s.thread with _ | _
    · simp [fate2, hth, early, h2]
    · rcases hreg : s.registered with _ | _
      · simp [fate2, hth, hreg, early, h2]
      · by_cases h3 : free t e.lim < 3
        · rw [create_full (by omega)]
          simp [fate2, hth, hreg, early, h2, h3]
        · obtain ⟨n, c1, c2, c3, -⟩ := create_ok (lim := e.lim) (t := t1) (o := ⟨h.next + 4, true⟩) (by omega)
          obtain ⟨k2, k3⟩ := key (fill t1 [⟨h.next + 4, true⟩]) ⟨_, rfl, by simp [hs]⟩
          have hf2 := free_fill_one t1 ⟨h.next + 4, true⟩ e.lim
          have hn : ¬ (n : Int) < 0 := by omega
          simp only [c1]
          by_cases h5 : free t e.lim < 5
          · have := k2 (by omega)
            simp [fate2, hth, hreg, h2, h3, h5, hn] at this ⊢
            exact this
          · obtain ⟨k4, own, cb, t', k5, k5a, k5b, k6, k7, k8, k9, k10, k11⟩ := k3 (by omega)
            refine ⟨?_, fun _ => ⟨svc, own, rpc, cb, t', ?_, ?_, k5a, k5b, k6, k7, k8, p3, k9, k10, ?_⟩⟩
            · simp [fate2, hth, hreg, h2, h3, h5, hn] at k4 ⊢
              exact k4
            · rw [k5, ← ht1, fill_fill, fill_fill]
              simp
            · simp
              omega
            · simpa [hn] using k11
  · simp only [serve, hs]
    rcases hreg : s.registered with _ | _
    · simp [fate2, hreg, early, h2]
    · obtain ⟨k2, k3⟩ := key t1 ⟨[], (fill_nil t1).symm, by simp [hs]⟩
      by_cases h4 : free t e.lim < 4
      · have := k2 (by omega)
        simp [fate2, hreg, h2, h4] at this ⊢
        exact this
      · obtain ⟨k4, own, cb, t', k5, k5a, k5b, k6, k7, k8, k9, k10, k11⟩ := k3 (by omega)
        refine ⟨?_, fun _ => ⟨svc, own, rpc, cb, t', ?_, ?_, k5a, k5b, k6, k7, k8, p3, k9, k10, ?_⟩⟩
        · simp [fate2, hreg, h2, h4] at k4 ⊢
          exact k4
        · rw [k5, ← ht1, fill_fill]
          simp
        · simp
          omega
        · simpa using k11

theorem make_sockets (dbg : Bool) (fuel : Nat) (e : Env) (disk : List Byte → Option Obj) (s : Sys) (h : Host) :
    make dbg fuel e disk s h =
      match object s e.lim h.t ⟨h.next, true⟩ with
      | (shm, t) =>
        if shm < 0 ∨ s.shmSized = false then .aborts
        else if dbg = true ∧ s.shmMapped = false then .aborts
        else
          match pagemapOf dbg s e.lim h t with
          | .error o => o
          | .ok (pm, t) =>
            if s.shmMapped = false then .faults
            else sockets fuel e s h (Defaults.construct disk e.lim t).1 (Defaults.construct disk e.lim t).2 shm pm := rfl

theorem fate_fate2 (dbg : Bool) (s : Sys) (fm fs : Bool) (room files : Nat) :
    fate dbg s fm fs room files =
      if room < 1 ∨ (s.memfd = false ∧ s.posix = false) ∨ s.shmSized = false then some .aborts
      else if dbg = true ∧ s.shmMapped = false then some .aborts
      else if fm = true ∧ (room < 2 ∨ s.pmSized = false) then some .aborts
      else if fm = true ∧ s.pmMapped = false then some (if dbg then .aborts else .faults)
      else if s.shmMapped = false then some .faults
      else fate2 s fs (room - (1 + if fm then 1 else 0) - files) := by
  have e1 : ∀ m p : Nat, (room < 1 + m + files + 2 + p) ↔ (room - (1 + m) - files < 2 + p) := by omega
  have e2 : ∀ m : Nat, (room < 1 + m + files + 2) ↔ (room - (1 + m) - files < 2) := by omega
  have e3 : ∀ m p : Nat, (room < 1 + m + files + 2 + p + 2) ↔ (room - (1 + m) - files < 2 + p + 2) := by omega
  simp only [fate, fate2, e1, e2, e3]

/-- The constructor ends early exactly as said, and otherwise has all its descriptors. -/
theorem make_steps (dbg : Bool) (fuel : Nat) (e : Env) (disk : List Byte → Option Obj) (s : Sys) (h : Host) :
    early (make dbg fuel e disk s h) = fate dbg s h.firstMap (!h.service) (free h.t e.lim) (opened disk).length ∧
    (early (make dbg fuel e disk s h) = none → ∃ (t1 t2 t : Table) (shm svc own rpc cb : Nat) (pm : Int),
      Handed disk h e.lim t1 t2 t shm svc own rpc cb pm ∧
      make dbg fuel e disk s h = forks fuel e s (Defaults.construct disk e.lim t1).1 t shm pm svc own rpc cb) := by
  rw [make_sockets, fate_fate2]
  by_cases h1 : free h.t e.lim < 1 ∨ (s.memfd = false ∧ s.posix = false)
  · have ho : object s e.lim h.t ⟨h.next, true⟩ = (-1, h.t) := by
      rcases h1 with h1 | ⟨h1, h1'⟩
      · exact object_full (by omega)
      · simp [object, h1, h1']
    have h1' : free h.t e.lim < 1 ∨ (s.memfd = false ∧ s.posix = false) ∨ s.shmSized = false := by
      rcases h1 with h1 | h1
      · exact .inl h1
      · exact .inr (.inl h1)
    simp only [ho]
    rw [if_pos h1', if_pos (.inl (by decide))]
    exact ⟨rfl, nofun⟩
  have hgood : s.memfd = true ∨ s.posix = true := by
    rcases hm : s.memfd with _ | _
    · rcases hp : s.posix with _ | _
      · exact absurd (.inr ⟨hm, hp⟩) h1
      · exact .inr rfl
    · exact .inl rfl
  obtain ⟨shm, o1, o2, o3, -⟩ := object_ok (s := s) (lim := e.lim) (t := h.t) (o := ⟨h.next, true⟩) hgood (by omega)
  have hf1 := free_fill_one h.t ⟨h.next, true⟩ e.lim
  generalize ht1 : fill h.t [⟨h.next, true⟩] = t1 at o1 o3 hf1
  simp only [o1]
  rcases hss : s.shmSized with _ | _
  · simp [early]
  by_cases hmap : dbg = true ∧ s.shmMapped = false
  · simp [hmap, early]
  have hc1 : ¬ ((shm : Int) < 0 ∨ true = false) := by
    rintro (h | h)
    · omega
    · cases h
  have hc2 : ¬ (free h.t e.lim < 1 ∨ (s.memfd = false ∧ s.posix = false) ∨ true = false) := by
    rintro (h | h | h)
    · omega
    · exact h1 (.inr h)
    · cases h
  rw [if_neg hc1, if_neg hmap, if_neg hc2, if_neg hmap]
  -- from the table `t1'` after the page map on
  have tail : ∀ (pm : Int) (t1' : Table) (os : List Obj), os = (if h.pagemap = none then [⟨h.next + 1, true⟩] else []) →
      t1' = fill t1 os → os.length + 1 ≤ free h.t e.lim → PmAt h t1' pm → s.shmMapped = true →
      early (sockets fuel e s h (Defaults.construct disk e.lim t1').1 (Defaults.construct disk e.lim t1').2 shm pm) =
        fate2 s (!h.service) (free h.t e.lim - (1 + os.length) - (opened disk).length) ∧
      (early (sockets fuel e s h (Defaults.construct disk e.lim t1').1 (Defaults.construct disk e.lim t1').2 shm pm) = none →
        ∃ (t1 t2 t : Table) (shm' svc own rpc cb : Nat) (pm' : Int), Handed disk h e.lim t1 t2 t shm' svc own rpc cb pm' ∧
          sockets fuel e s h (Defaults.construct disk e.lim t1').1 (Defaults.construct disk e.lim t1').2 shm pm =
            forks fuel e s (Defaults.construct disk e.lim t1).1 t shm' pm' svc own rpc cb) := by
    intro pm t1' os hos ht1' hroom hpm hsm
    have hfr : free t1' e.lim = free h.t e.lim - (1 + os.length) := by
      rw [ht1', free_fill, hf1]
      omega
    have hcf := construct_fill disk e.lim t1'
    have hfc : free (Defaults.construct disk e.lim t1').2 e.lim = free h.t e.lim - (1 + os.length) - (opened disk).length := by
      rw [hcf, free_fill, hfr, List.length_take]
      omega
    obtain ⟨g1, g2⟩ := sockets_steps fuel e s h (Defaults.construct disk e.lim t1').1 (Defaults.construct disk e.lim t1').2 shm pm
    rw [hfc] at g1 g2
    refine ⟨g1, fun hn => ?_⟩
    obtain ⟨svc, own, rpc, cb, t', k1, k2, k2a, k2b, k3, k4, k5, k6, k7, k8, k9⟩ := g2 (g1 ▸ hn)
    have hle : (opened disk).length ≤ free t1' e.lim := by omega
    have hkeep : ∀ i o, (Defaults.construct disk e.lim t1').2 i = some o → t' i = some o := fun i o hi => by
      rw [k1]
      exact fill_keeps hi
    have hkeep1 : ∀ i o, t1' i = some o → t' i = some o := fun i o hi => hkeep i o (by rw [hcf]; exact fill_keeps hi)
    have htab : t' = fill h.t (created disk h) := by
      rw [k1, hcf, List.take_of_length_le hle, ht1', ← ht1, fill_fill, fill_fill, fill_fill, hos]
      simp only [created, List.append_assoc]
    refine ⟨t1', _, t', shm, svc, own, rpc, cb, pm, ⟨?_, htab, ⟨hkeep1 _ _ ?_, o2⟩, ?_, k2a, k3, k4, k5, ⟨?_, hle⟩, rfl, ⟨k6, k7, k8, k2b⟩, ?_, ?_, hkeep⟩, k9⟩
    · have : (created disk h).length = 1 + os.length + (opened disk).length + (4 + if h.service then 0 else 1) := by
        rw [hos]
        simp only [created, List.length_append]
        rcases h.service <;> split <;> simp <;> omega
      omega
    · rw [ht1']
      exact fill_keeps o3
    · unfold PmAt at hpm ⊢
      split
      · rename_i p hp
        rw [hp] at hpm
        exact hpm
      · rename_i hp
        rw [hp] at hpm
        obtain ⟨n, n1, n2, n3⟩ := hpm
        exact ⟨n, n1, hkeep1 _ _ n2, n3⟩
    · rw [ht1', ← ht1, fill_fill]
      exact fill_zero _ _ _
    · intro i o hi
      rw [ht1', ← ht1, fill_fill]
      exact fill_keeps hi
    · intro i o hi
      rw [hcf, ht1', ← ht1, fill_fill, fill_fill]
      exact fill_keeps hi
  rcases hp : h.pagemap with _ | p
  · -- the first page map
    have hfm : h.firstMap = true := by simp [Host.firstMap, hp]
    simp only [pagemapOf, hp, hfm]
    by_cases h2 : free h.t e.lim < 2
    · rw [object_full (by omega)]
      simp [h2, early]
    obtain ⟨n, q1, q2, q3, -⟩ := object_ok (s := s) (lim := e.lim) (t := t1) (o := ⟨h.next + 1, true⟩) hgood (by omega)
    have hn : ¬ (n : Int) < 0 := by omega
    simp only [q1]
    rcases hps : s.pmSized with _ | _
    · simp [early]
    rcases hpm : s.pmMapped with _ | _
    · rcases dbg <;> simp [hn, h2, early]
    rcases hsm : s.shmMapped with _ | _
    · simp [hn, h2, early]
    obtain ⟨r1, r2⟩ := tail n (fill t1 [⟨h.next + 1, true⟩]) [⟨h.next + 1, true⟩] (by simp [hp]) rfl (by simp; omega)
      (by
        rw [PmAt, hp]
        exact ⟨n, rfl, q3, none_of_fill (os := [⟨h.next, true⟩]) (by rw [ht1]; exact q2)⟩) hsm
    simp only [hn, h2, or_false, and_false, if_false, Bool.true_eq_false, if_true, List.length_cons, List.length_nil] at r1 r2 ⊢
    exact ⟨r1, r2⟩
  · have hfm : h.firstMap = false := by simp [Host.firstMap, hp]
    simp only [pagemapOf, hp, hfm]
    rcases hsm : s.shmMapped with _ | _
    · simp [early]
    obtain ⟨r1, r2⟩ := tail p t1 [] (by simp [hp]) (fill_nil t1).symm (by simp; omega) (by rw [PmAt, hp]) hsm
    simp only [Bool.false_eq_true, Bool.true_eq_false, false_and, if_false, List.length_nil] at r1 r2 ⊢
    exact ⟨r1, r2⟩

end Verif.Make
