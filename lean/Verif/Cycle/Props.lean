import Verif.Cycle.Core

/-!
# Making and destroying sandboxes: property C113
-/

namespace Verif.Cycle

open Verif.Fd Verif.Start Verif.FileTree Verif.Make Verif.FileTree.Spec

/-! ### A host that has never made a sandbox, used in the examples -/

/-- The host of the examples of `Make`, with its three standard streams open and nothing in the memory service. -/
def exWorld : World := ⟨Make.exHost, []⟩

theorem exSound (lim : Nat) : Sound lim exDisk exWorld := by
  refine ⟨fun i o hi => ?_, fun p o hp => ?_, nofun⟩
  · simp only [exWorld, Make.exHost] at hi ⊢
    split at hi
    · cases hi
      simp only
      omega
    · cases hi
  · simp only [exDisk, Option.some.injEq] at hp
    subst hp
    simp only [exWorld, Make.exHost]
    omega

/-! ### One sandbox -/

/-- **C113 fails for every sandbox.**  Whatever the host has open, whatever the system answers and however little room there is: when a
sandbox whose process was started has been destroyed, and its process and everything it owned are gone, the host has fewer free descriptors
than before.  Nothing of what it had is lost, and the descriptor of the shared memory is never closed. -/
theorem sandbox_costs (dbg : Bool) (fuel : Nat) (e : Env) (disk : List Byte → Option Obj) (s : Sys) (w : World) (m : Make.Made)
    (hw : Sound e.lim disk w) (hf : s.forked = true) (hm : make dbg fuel e disk s w.h = .made m) :
    free (destroy e.lim w m).h.t e.lim < free w.h.t e.lim ∧
    (∀ i o, w.h.t i = some o → (destroy e.lim w m).h.t i = some o) ∧
    ∃ i, i < e.lim ∧ w.h.t i = none ∧ (destroy e.lim w m).h.t i = some ⟨w.h.next, true⟩ := by
  obtain ⟨t, shm, svc, own, rpc, cb, ns, out, hs, p⟩ := parts hm hf
  obtain ⟨-, h2, h3, h4, h5⟩ := p.sound hw
  exact ⟨free_lt h2 h4 (by rw [h3]; simp) _ h5, h2, shm, h5, h4, h3⟩

/-- Whether a sandbox was made (for the examples; `src/libsandbox.cc:932`). -/
def isMade : Make.Out → Bool
  | .made _ => true
  | _ => false

theorem isMade_iff {o : Make.Out} : isMade o = true ↔ ∃ m, o = .made m := by
  cases o <;> simp [isMade]

/-- The library that the sandbox is to run is missing, so that its child exits at once. -/
example : Sound 64 exDisk exWorld ∧ exSys.forked = true ∧ ∃ m, make false 10 ⟨64, none, true⟩ exDisk exSys exWorld.h = .made m :=
  ⟨exSound 64, rfl, isMade_iff.1 (by decide +kernel)⟩

/-- **C113 fails, exactly.**  A sandbox whose process ran its program costs the host four descriptors for ever: the shared memory, both
ends of the socket to the memory service and the child's end of the callback socket; the first one also the page map and the poller. -/
theorem sandbox_costs_four (dbg : Bool) (fuel : Nat) (e : Env) (disk : List Byte → Option Obj) (s : Sys) (w : World) (m : Make.Made) (t' : Table)
    (hw : Sound e.lim disk w) (hf : s.forked = true) (hm : make dbg fuel e disk s w.h = .made m) (hx : m.child = some (.exec t')) :
    free (destroy e.lim w m).h.t e.lim + 4 + (if w.h.firstMap then 1 else 0) + (if w.h.service then 0 else 1) = free w.h.t e.lim := by
  obtain ⟨t, shm, svc, own, rpc, cb, ns, out, hs, p⟩ := parts hm hf
  rw [p.child.2.2] at hx
  have h := p.exec hw (Option.some.inj hx)
  rw [created_length, need] at h
  rcases hsv : w.h.service <;> rw [hsv] at h <;> simp at h ⊢ <;> omega

/-- A host with room for it: see `Make.child_table`. -/
example : ∃ m t', make false 10 ⟨64, some ⟨99, false⟩, true⟩ exDisk exSys exWorld.h = .made m ∧ m.child = some (.exec t') := by
  obtain ⟨m, t', h1, h2, -⟩ := child_table false 10 ⟨64, some ⟨99, false⟩, true⟩ exDisk exSys exWorld.h ⟨101, true⟩ ⟨99, false⟩
    ⟨.inl rfl, rfl, rfl, rfl, rfl, rfl, rfl⟩ rfl exRoomy rfl rfl (by omega)
  exact ⟨m, t', h1, h2⟩

/-! ### Again and again -/

/-- **C113 fails for every host.**  A host with `n` free descriptors makes at most `n` sandboxes one after the other, whatever the system
answers as long as the processes start; the constructor of a further one does not return. -/
theorem cycles_bounded (dbg : Bool) (fuel : Nat) (e : Env) (disk : List Byte → Option Obj) : ∀ (ss : List Sys) (w : World),
    Sound e.lim disk w → (∀ s ∈ ss, s.forked = true) →
    (cycles dbg fuel e disk ss w).1 ≤ free w.h.t e.lim ∧
    (free w.h.t e.lim < ss.length → ∃ o, (cycles dbg fuel e disk ss w).2 = some o ∧ isMade o = false)
  | [], w, _, _ => by simp [cycles]
  | s :: ss, w, hw, hf => by
    rcases hm : make dbg fuel e disk s w.h with _ | _ | _ | _ | _ | m
    case made =>
      obtain ⟨h1, -, -⟩ := sandbox_costs dbg fuel e disk s w m hw (hf s (by simp)) hm
      obtain ⟨t, shm, svc, own, rpc, cb, ns, out, hs, p⟩ := parts hm (hf s (by simp))
      obtain ⟨h2, h3⟩ := cycles_bounded dbg fuel e disk ss (destroy e.lim w m) (p.sound hw).1 (fun x hx => hf x (by simp [hx]))
      simp only [cycles, hm]
      refine ⟨by omega, fun hl => h3 ?_⟩
      simp only [List.length_cons] at hl
      omega
    all_goals
      simp only [cycles, hm]
      exact ⟨by omega, fun _ => ⟨_, rfl, rfl⟩⟩

/-- The host of the examples with at most 24 descriptors: 21 free ones, 22 attempts. -/
example : Sound 24 exDisk exWorld ∧ (∀ s ∈ List.replicate 22 exSys, s.forked = true) ∧ free exWorld.h.t 24 < (List.replicate 22 exSys).length := by
  refine ⟨exSound 24, fun s hs => ?_, by decide +kernel⟩
  rw [List.eq_of_mem_replicate hs]
  rfl

/-! ### A host that has made some sandboxes: the exact number -/

/-- A host that has made sandboxes before: the page map is open, the memory service runs, and the eight lowest numbers are in use (as they are
after four sandboxes; `src/libsandbox.cc:865-932`). -/
structure Steady (w : World) (p : Nat) : Prop where
  map : w.h.pagemap = some (p : Int)
  mapOpen : w.h.t p ≠ none
  service : w.h.service = true
  low : ∀ i, i < 8 → w.h.t i ≠ none

/-- How the next sandbox goes, by the number of free descriptors alone. -/
inductive Fate where
  | ends (o : Make.Out)
  | costs (n : Nat)

/-- A sandbox in a host with `room` free descriptors that needs `n` of them; `low`: the page map's number is less than 8, so that the child must
copy it; `lib`: the library exists.  With none left the host is aborted and with too few it exits; with none left for the copy it waits
for ever; with none left for the library the child exits and one descriptor is lost; otherwise four are. -/
def fateOf (low lib : Bool) (n room : Nat) : Fate :=
  let copy := if low then 1 else 0
  if room = 0 then .ends .aborts
  else if room < n then .ends .exits
  else if room < n + copy then .ends .hangs
  else if room = n + copy ∨ lib = false then .costs 1
  else .costs 4

theorem moveFd_high {lim fuel : Nat} {t : Table} {x : Int} (h : 8 ≤ x) (hf : 1 ≤ fuel) : moveFd lim fuel t x = some (x, t) := by
  obtain ⟨k, rfl⟩ : ∃ k, fuel = k + 1 := ⟨fuel - 1, by omega⟩
  rw [moveFd, if_neg (by simp [lastFd]; omega)]

theorem moveFd_bad {lim : Nat} {t : Table} : ∀ fuel, moveFd lim fuel t (-1) = none
  | 0 => rfl
  | fuel + 1 => by
    rw [moveFd, if_pos (by decide)]
    simp only [dup, show t.at (-1) = none from rfl]
    exact moveFd_bad fuel

/-- The child of a steady host. -/
theorem steady_child {fuel : Nat} {e : Env} {t : Table} {p shm rpc cb : Nat} (hlow : ∀ i, i < 8 → t i ≠ none) (hp : t p ≠ none)
    (h1 : 8 ≤ shm) (h2 : 8 ≤ rpc) (h3 : 8 ≤ cb) (hf : 2 ≤ fuel) :
    let copy := if p < 8 then 1 else 0
    if free t e.lim < copy then (startChild fuel e t ⟨shm, p, rpc, cb⟩).1 = .looping
    else if free t e.lim = copy ∨ e.lib = none then startChild fuel e t ⟨shm, p, rpc, cb⟩ = (.exit, ⟨-1, p, rpc, cb⟩)
    else ∃ t', (startChild fuel e t ⟨shm, p, rpc, cb⟩).1 = .exec t' := by
  have high : ∀ (T : Table), (∀ i o, t i = some o → T i = some o) → ∀ n : Nat, T n = none → 8 ≤ n := by
    intro T hT n hn
    refine Classical.byContradiction fun hc => ?_
    rcases ht : t n with _ | o
    · exact hlow n (by omega) ht
    · rw [hT n o ht] at hn
      cases hn
  -- from the copy of the page map on
  have rest : ∀ (pmFd : Int) (T : Table), (∀ i o, t i = some o → T i = some o) → moveFd e.lim fuel t p = some (pmFd, T) →
      if free T e.lim = 0 ∨ e.lib = none then startChild fuel e t ⟨shm, p, rpc, cb⟩ = (.exit, ⟨-1, p, rpc, cb⟩)
      else ∃ t', (startChild fuel e t ⟨shm, p, rpc, cb⟩).1 = .exec t' := by
    intro pmFd T hT hm
    unfold startChild
    simp only [moveFd_high (show (8 : Int) ≤ shm by omega) (show 1 ≤ fuel by omega), hm,
      moveFd_high (show (8 : Int) ≤ cb by omega) (show 1 ≤ fuel by omega),
      moveFd_high (show (8 : Int) ≤ rpc by omega) (show 1 ≤ fuel by omega)]
    rcases hl : e.lib with _ | o
    · simp
    · by_cases h0 : free T e.lim = 0
      · simp [create_full h0, h0]
      · obtain ⟨n, c1, c2, -⟩ := create_ok (o := o) (by omega : 0 < free T e.lim)
        have hn := high T hT n c2
        rw [if_neg (by simp [h0])]
        simp only [c1]
        rw [if_neg (by omega), moveFd_high (by omega) (by omega)]
        exact ⟨_, rfl⟩
  intro copy
  by_cases hp8 : p < 8
  · have hcopy : copy = 1 := if_pos hp8
    rw [hcopy]
    obtain ⟨k, rfl⟩ : ∃ k, fuel = k + 1 := ⟨fuel - 1, by omega⟩
    rcases hpo : t p with _ | o
    · exact absurd hpo hp
    by_cases h0 : free t e.lim = 0
    · rw [if_pos (by omega)]
      have hm : moveFd e.lim (k + 1) t p = none := by
        rw [moveFd, if_pos (by simp [lastFd]; omega)]
        simp only [dup, at_nat, hpo, create_full h0]
        exact moveFd_bad k
      unfold startChild
      simp only [moveFd_high (show (8 : Int) ≤ shm by omega) (show 1 ≤ k + 1 by omega), hm]
    · rw [if_neg (by omega)]
      obtain ⟨n, c1, c2, -⟩ := create_ok (o := o) (by omega : 0 < free t e.lim)
      have hn := high t (fun _ _ h => h) n c2
      have hm : moveFd e.lim (k + 1) t p = some ((n : Int), fill t [o]) := by
        rw [moveFd, if_pos (by simp [lastFd]; omega)]
        simp only [dup, at_nat, hpo, c1]
        exact moveFd_high (by omega) (by omega)
      have := rest n _ (fun _ _ h => fill_keeps h) hm
      rw [free_fill_one] at this
      have hiff : (free t e.lim - 1 = 0 ∨ e.lib = none) ↔ (free t e.lim = 1 ∨ e.lib = none) := by
        rw [show free t e.lim - 1 = 0 ↔ free t e.lim = 1 by omega]
      simp only [hiff] at this
      exact this
  · have hcopy : copy = 0 := if_neg hp8
    rw [hcopy, if_neg (by omega)]
    exact rest p t (fun _ _ h => h) (moveFd_high (by omega) (by omega))

theorem only_at {pre post : List Obj} {x : Obj} (h1 : ∀ y ∈ pre, y.id ≠ x.id) (h2 : ∀ y ∈ post, y.id ≠ x.id) {k : Nat} {o : Obj}
    (hk : (pre ++ x :: post)[k]? = some o) (ho : o.id = x.id) : k = pre.length := by
  rcases Nat.lt_trichotomy k pre.length with h | h | h
  · rw [List.getElem?_append_left h] at hk
    exact absurd ho (h1 o (List.mem_of_getElem? hk))
  · exact h
  · rw [List.getElem?_append_right (by omega)] at hk
    obtain ⟨j, hj⟩ : ∃ j, k - pre.length = j + 1 := ⟨k - pre.length - 1, by omega⟩
    rw [hj, List.getElem?_cons_succ] at hk
    exact absurd ho (h2 o (List.mem_of_getElem? hk))

/-- What is opened before the child's end of the socket to the memory service (`src/libsandbox.cc:866-880`). -/
def earlier (disk : List Byte → Option Obj) (h : Make.Host) : List Obj :=
  [⟨h.next, true⟩] ++ (if h.pagemap = none then [⟨h.next + 1, true⟩] else []) ++ opened disk ++ [⟨h.next + 2, true⟩]

theorem free_lt_of_none {t : Table} {a b : Nat} (h : t a = none) (hl : a < b) : free t a < free t b := by
  have h1 := free_le_of_le t (show a + 1 ≤ b by omega)
  have h2 : free t (a + 1) = free t a + 1 := by
    show free t a + _ = _
    rw [if_pos h]
  omega

/-- If the child of a steady host exits, the host has lost the shared memory's descriptor and nothing else. -/
theorem Parts.exit {fuel : Nat} {e : Env} {disk : List Byte → Option Obj} {w : World} {m : Make.Made} {t : Table} {shm svc own rpc cb : Nat}
    {ns : List Nat} {out : Start.Out} {hs : Handles} (p : Parts fuel e disk w m t shm svc own rpc cb ns out hs) (hw : Sound e.lim disk w)
    (h1 : hs.cb = cb) (h2 : hs.rpc = rpc) :
    free (destroy e.lim w m).h.t e.lim + 1 + (created disk w.h).length = free w.h.t e.lim + 5 + (opened disk).length := by
  have ne : ∀ (i k : Nat) (x y : Obj), t i = some x → t k = some y → x.id ≠ y.id → i ≠ k := by
    rintro i k x y hi hk hxy rfl
    rw [hi] at hk
    cases hk
    exact hxy rfl
  have hcr := ne cb rpc _ _ p.atCb p.atRpc (by simp)
  have hor := ne own rpc _ _ p.atOwn p.atRpc (by simp)
  have hoc := ne own cb _ _ p.atOwn p.atCb (by simp)
  have hsr := ne svc rpc _ _ p.atSvc p.atRpc (by simp)
  have hsc := ne svc cb _ _ p.atSvc p.atCb (by simp)
  have hso := ne svc own _ _ p.atSvc p.atOwn (by simp)
  obtain ⟨-, b1, n1⟩ := p.new hw p.atCb (by simp)
  obtain ⟨-, b2, n2⟩ := p.new hw p.atRpc (by simp)
  obtain ⟨-, b3, n3⟩ := p.new hw p.atOwn (by simp)
  obtain ⟨-, b4, n4⟩ := p.new hw p.atSvc (by simp)
  -- the other end of the service's socket is closed
  have hgone : ¬ openId e.lim p.left (w.h.next + 3) = true := by
    rw [openId_iff]
    rintro ⟨i, o, -, hi, hid⟩
    have hti := p.from hi
    by_cases hir : i = rpc
    · subst hir
      unfold Parts.left at hi
      rw [closes_other ns _ n2, close_other (by omega), h2, close_nat, put_same] at hi
      cases hi
    · -- there is no second descriptor of it
      have hnew : w.h.t i = none := (p.new hw hti (by omega)).1
      have hnewr : w.h.t rpc = none := (p.new hw p.atRpc (by simp)).1
      rw [p.table] at hti
      have htr := p.atRpc
      rw [p.table] at htr
      simp only [fill, hnew] at hti
      simp only [fill, hnewr] at htr
      have hpos : ∀ (k : Nat) (o : Obj), (created disk w.h)[k]? = some o → o.id = w.h.next + 3 →
          k = (earlier disk w.h).length := by
        intro k o hk hid
        refine only_at (x := ⟨w.h.next + 3, true⟩) (post := (if w.h.service then [] else [⟨w.h.next + 4, true⟩]) ++
          [⟨w.h.next + 5, true⟩, ⟨w.h.next + 6, true⟩]) ?_ ?_ (by rw [← hk]; simp [created, earlier]) hid
        · intro y hy
          simp only [earlier, List.mem_append, List.mem_cons, List.not_mem_nil, or_false] at hy
          rcases hy with ((rfl | hy) | hy) | rfl
          · simp
          · split at hy
            · simp only [List.mem_cons, List.not_mem_nil, or_false] at hy
              simp [hy]
            · simp at hy
          · simp only [opened, List.mem_filterMap] at hy
            obtain ⟨d, -, hd⟩ := hy
            have := hw.files _ _ hd
            simp only
            omega
          · simp
        · intro y hy
          simp only [List.mem_append, List.mem_cons, List.not_mem_nil, or_false] at hy
          rcases hy with hy | rfl | rfl
          · split at hy
            · simp at hy
            · simp only [List.mem_cons, List.not_mem_nil, or_false] at hy
              simp [hy]
          · simp
          · simp
      have hfe : free w.h.t i = free w.h.t rpc := (hpos _ _ hti hid).trans (hpos _ _ htr rfl).symm
      rcases Nat.lt_or_gt_of_ne hir with hlt | hlt
      · have := free_lt_of_none (t := w.h.t) hnew hlt
        omega
      · have := free_lt_of_none (t := w.h.t) hnewr hlt
        omega
  rw [p.destroyed hw, if_neg hgone]
  simp only
  have hsv : p.left svc ≠ none := by
    rw [p.kept p.atSvc hsr hsc hso n4]
    simp
  rw [free_close hsv b4]
  have c1 : free (close t (cb : Int)) e.lim = free t e.lim + 1 := free_close (by rw [p.atCb]; simp) b1
  have c2 : free (close (close t (cb : Int)) (rpc : Int)) e.lim = free t e.lim + 2 := by
    rw [free_close _ b2, c1]
    rw [close_other (by omega), p.atRpc]
    simp
  have c3 : free (close (close (close t (cb : Int)) (rpc : Int)) (own : Int)) e.lim = free t e.lim + 3 := by
    rw [free_close _ b3, c2]
    rw [close_other (by omega), close_other (by omega), p.atOwn]
    simp
  unfold Parts.left
  rw [h1, h2, free_closes ns _ p.files.1, c3, p.files.2.1, p.table, free_fill]
  · have := p.room
    omega
  · intro n hn
    obtain ⟨g1, q, o, -, g2⟩ := p.files.2.2 n hn
    refine ⟨fill_below p.room g1 (by rw [← p.table, g2]; simp), ?_⟩
    rw [close_other, close_other, close_other, g2]
    · simp
    · intro h
      have : cb = n := by omega
      exact n1 (this ▸ hn)
    · intro h
      have : rpc = n := by omega
      exact n2 (this ▸ hn)
    · intro h
      have : own = n := by omega
      exact n3 (this ▸ hn)

/-- **C113, one sandbox of a steady host, exactly.**  How it goes depends on the number of free descriptors alone, and a host that goes on is
steady again. -/
theorem steady_cycle (dbg : Bool) (fuel : Nat) (e : Env) (disk : List Byte → Option Obj) (s : Sys) (w : World) (p : Nat)
    (hw : Sound e.lim disk w) (hst : Steady w p) (hg : s.good) (hf : s.forked = true) (hfuel : 2 ≤ fuel) :
    match fateOf (decide (p < 8)) e.lib.isSome (5 + (opened disk).length) (free w.h.t e.lim) with
    | .ends o => make dbg fuel e disk s w.h = o
    | .costs n => ∃ m, make dbg fuel e disk s w.h = .made m ∧ free (destroy e.lim w m).h.t e.lim + n = free w.h.t e.lim ∧
        Sound e.lim disk (destroy e.lim w m) ∧ Steady (destroy e.lim w m) p := by
  have hfm : w.h.firstMap = false := by simp [Host.firstMap, hst.map]
  have hneed : need (opened disk).length w.h.firstMap (!w.h.service) = 5 + (opened disk).length := by
    simp [need, hfm, hst.service]
  obtain ⟨e1, e2⟩ := shortage_ends_host dbg fuel e disk s w.h hg
  rw [hneed] at e1
  have early_out : ∀ o : Make.Out, (o = .aborts ∨ o = .exits) → early (make dbg fuel e disk s w.h) = early o → make dbg fuel e disk s w.h = o := by
    intro o ho h
    rcases ho with rfl | rfl <;> rcases hm : make dbg fuel e disk s w.h <;> rw [hm] at h <;> simp [early] at h ⊢
  by_cases h0 : free w.h.t e.lim = 0
  · simp only [fateOf, h0, if_true]
    refine early_out _ (.inl rfl) ?_
    rw [e2 (fun hc => by have := e1.1 hc; omega), hfm]
    simp [h0, early]
  by_cases hl : free w.h.t e.lim < 5 + (opened disk).length
  · simp only [fateOf, h0, hl, if_true, if_false]
    refine early_out _ (.inr rfl) ?_
    rw [e2 (fun hc => by have := e1.1 hc; omega), hfm]
    simp [h0, early, hst.service]
  -- all descriptors are there
  obtain ⟨t1, t2, t, shm, svc, own, rpc, cb, pm, hh, hmk⟩ := (make_steps dbg fuel e disk s w.h).2 (e1.2 (by omega))
  rw [forks, if_pos hf] at hmk
  have hpm : pm = p := by
    have := hh.atPm
    rw [PmAt, hst.map] at this
    exact this
  subst hpm
  have hkeep : ∀ i o, w.h.t i = some o → t i = some o := fun i o hi => hh.keep.2 i o (hh.keep.1 i o hi)
  have hopen : ∀ i, w.h.t i ≠ none → t i ≠ none := by
    intro i hi
    rcases ht : w.h.t i with _ | o
    · exact absurd ht hi
    · rw [hkeep i o ht]
      simp
  have hnew : ∀ (i : Nat) (o : Obj), t i = some o → w.h.next ≤ o.id → 8 ≤ i := by
    intro i o hi ho
    refine Classical.byContradiction fun hc => ?_
    rcases ht : w.h.t i with _ | x
    · exact hst.low i (by omega) ht
    · have := hw.old i x ht
      rw [hkeep i x ht] at hi
      cases hi
      omega
  have hfree : free t e.lim = free w.h.t e.lim - (5 + (opened disk).length) := by
    rw [hh.table, free_fill, created_length, hneed]
  have hch := steady_child (fuel := fuel) (e := e) (t := t) (p := p) (shm := shm) (rpc := rpc) (cb := cb) (fun i hi => hopen i (hst.low i hi))
    (hopen p hst.mapOpen) (hnew shm _ hh.atShm.1 (by simp)) (hnew rpc _ hh.atRpc (by simp)) (hnew cb _ hh.atCb (by simp)) hfuel
  have hlen : (created disk w.h).length = 5 + (opened disk).length := by rw [created_length, hneed]
  -- the host afterwards
  have after : ∀ m, make dbg fuel e disk s w.h = .made m → Sound e.lim disk (destroy e.lim w m) ∧ Steady (destroy e.lim w m) p := by
    intro m hm
    obtain ⟨t, shm, svc, own, rpc, cb, ns, out, hs, q⟩ := parts hm hf
    obtain ⟨s1, s2, -⟩ := q.sound hw
    have hq := q.atPm
    rw [PmAt, hst.map] at hq
    have hop : ∀ i, w.h.t i ≠ none → (destroy e.lim w m).h.t i ≠ none := by
      intro i hi
      rcases ht : w.h.t i with _ | o
      · exact absurd ht hi
      · rw [s2 i o ht]
        simp
    refine ⟨s1, ?_, hop p hst.mapOpen, ?_, fun i hi => hop i (hst.low i hi)⟩
    · rw [← hq]
      rfl
    · rfl
  have hcopy : (if decide (p < 8) = true then 1 else 0) = if p < 8 then 1 else 0 := by simp
  simp only [fateOf, h0, hl, if_false, hcopy]
  simp only at hch
  by_cases hc : free t e.lim < if p < 8 then 1 else 0
  · rw [if_pos hc] at hch
    rw [if_pos (by omega)]
    simp only
    rcases hsc : startChild fuel e t ⟨shm, p, rpc, cb⟩ with ⟨out, hs⟩
    rw [hsc] at hch hmk
    simp only at hch
    subst hch
    exact hmk
  rw [if_neg hc] at hch
  rw [if_neg (by omega)]
  by_cases hx : free t e.lim = (if p < 8 then 1 else 0) ∨ e.lib = none
  · rw [if_pos hx] at hch
    have hx' : free w.h.t e.lim = 5 + (opened disk).length + (if p < 8 then 1 else 0) ∨ e.lib.isSome = false := by
      rcases hx with hx | hx
      · exact .inl (by omega)
      · exact .inr (by simp [hx])
    rw [if_pos hx']
    rw [hch] at hmk
    simp only at hmk ⊢
    obtain ⟨g1, g2⟩ := after _ hmk
    refine ⟨_, hmk, ?_, g1, g2⟩
    obtain ⟨ns, q⟩ := parts_of hh hch (by simp)
    have := q.exit hw rfl rfl
    rw [hlen] at this
    simp only at this
    omega
  · rw [if_neg hx] at hch
    have hx' : ¬ (free w.h.t e.lim = 5 + (opened disk).length + (if p < 8 then 1 else 0) ∨ e.lib.isSome = false) := by
      rintro (h | h)
      · exact hx (.inl (by omega))
      · exact hx (.inr (by simpa using h))
    rw [if_neg hx']
    obtain ⟨t', ht'⟩ := hch
    rcases hsc : startChild fuel e t ⟨shm, p, rpc, cb⟩ with ⟨out, hs⟩
    rw [hsc] at ht' hmk
    simp only at ht'
    subst ht'
    simp only at hmk ⊢
    obtain ⟨g1, g2⟩ := after _ hmk
    refine ⟨_, hmk, ?_, g1, g2⟩
    have := sandbox_costs_four dbg fuel e disk s w _ t' hw hf hmk rfl
    simp [hfm, hst.service] at this
    omega

/-- A host with 20 descriptors in use, the page map at 4. -/
def exSteady : World := ⟨⟨fun i => if i < 20 then some ⟨i, true⟩ else none, 100, some 4, true⟩, []⟩

theorem exSteady_ok (lim : Nat) : Sound lim exDisk exSteady ∧ Steady exSteady 4 := by
  refine ⟨⟨fun i o hi => ?_, fun p o hp => ?_, nofun⟩, rfl, by simp [exSteady], rfl, fun i hi => by simp [exSteady]; omega⟩
  · simp only [exSteady] at hi ⊢
    split at hi
    · cases hi
      simp only
      omega
    · cases hi
  · simp only [exDisk, Option.some.injEq] at hp
    subst hp
    simp only [exSteady]
    omega

/-- With 10 free descriptors, one more than are needed, the child cannot open the library: one is lost.  With 9 the host waits for ever. -/
example : fateOf true true 9 (free exSteady.h.t 30) = .costs 1 ∧ fateOf true true 9 (free exSteady.h.t 29) = .ends .hangs ∧
    5 + (opened exDisk).length = 9 := by
  have h1 : free exSteady.h.t 30 = 10 := by decide +kernel
  have h2 : free exSteady.h.t 29 = 9 := by decide +kernel
  rw [h1, h2]
  exact ⟨rfl, rfl, by decide +kernel⟩

/-- How many sandboxes a steady host makes, with `d` descriptors more than one of them needs (`src/libsandbox.cc:865-932`). -/
def many (low lib : Bool) (d : Nat) : Nat :=
  match low, lib with
  | false, true => d / 4 + 1
  | true, true => if d % 4 = 0 then d / 4 else d / 4 + 1
  | false, false => d + 1
  | true, false => d

/-- What happens to it then. -/
def how (low lib : Bool) (d : Nat) : Make.Out :=
  if low = true ∧ (d % 4 ≤ 1 ∨ lib = false) then .hangs else .exits

theorem cycles_ends {dbg : Bool} {fuel : Nat} {e : Env} {disk : List Byte → Option Obj} {s : Sys} {ss : List Sys} {w : World} {o : Make.Out}
    (h : make dbg fuel e disk s w.h = o) (hn : isMade o = false) : cycles dbg fuel e disk (s :: ss) w = (0, some o) := by
  subst h
  rcases hm : make dbg fuel e disk s w.h with _ | _ | _ | _ | _ | m <;> rw [hm] at hn <;> simp [isMade] at hn <;> simp only [cycles, hm]

/-- **C113, exactly.**  A steady host with `d` free descriptors more than a sandbox needs (five and one for each default export that
exists) makes `many` sandboxes.  The constructor of the next one never returns: it ends the host by `exit`, or the host waits for ever. -/
theorem steady_count (dbg : Bool) (fuel : Nat) (e : Env) (disk : List Byte → Option Obj) (p : Nat) (hfuel : 2 ≤ fuel) :
    ∀ (d : Nat) (ss : List Sys) (w : World), Sound e.lim disk w → Steady w p → (∀ s ∈ ss, s.good ∧ s.forked = true) →
      free w.h.t e.lim = 5 + (opened disk).length + d → many (decide (p < 8)) e.lib.isSome d < ss.length →
      cycles dbg fuel e disk ss w = (many (decide (p < 8)) e.lib.isSome d, some (how (decide (p < 8)) e.lib.isSome d)) := by
  -- a host with too few
  have short : ∀ (ss : List Sys) (w : World), Sound e.lim disk w → Steady w p → (∀ s ∈ ss, s.good ∧ s.forked = true) →
      0 < free w.h.t e.lim → free w.h.t e.lim < 5 + (opened disk).length → 0 < ss.length → cycles dbg fuel e disk ss w = (0, some .exits) := by
    intro ss w hw hst hs h0 hl hss
    rcases ss with _ | ⟨s, ss⟩
    · simp at hss
    have h := steady_cycle dbg fuel e disk s w p hw hst (hs s (by simp)).1 (hs s (by simp)).2 hfuel
    simp only [fateOf, hl, if_true, show ¬ free w.h.t e.lim = 0 by omega, if_false] at h
    exact cycles_ends h rfl
  intro d
  induction d using Nat.strongRecOn with
  | _ d ih =>
  intro ss w hw hst hs hd hlen
  rcases ss with _ | ⟨s, ss⟩
  · simp at hlen
  have hs' : ∀ x ∈ ss, x.good ∧ x.forked = true := fun x hx => hs x (by simp [hx])
  have h := steady_cycle dbg fuel e disk s w p hw hst (hs s (by simp)).1 (hs s (by simp)).2 hfuel
  simp only [List.length_cons] at hlen
  have n1 : ¬ free w.h.t e.lim = 0 := by omega
  have n2 : ¬ free w.h.t e.lim < 5 + (opened disk).length := by omega
  simp only [fateOf, n1, n2, if_false] at h
  have go : ∀ n, (∃ m, make dbg fuel e disk s w.h = .made m ∧ free (destroy e.lim w m).h.t e.lim + n = free w.h.t e.lim ∧
        Sound e.lim disk (destroy e.lim w m) ∧ Steady (destroy e.lim w m) p) →
      ∀ k o, (∀ w', Sound e.lim disk w' → Steady w' p → free w'.h.t e.lim + n = free w.h.t e.lim → cycles dbg fuel e disk ss w' = (k, some o)) →
      cycles dbg fuel e disk (s :: ss) w = (k + 1, some o) := by
    rintro n ⟨m, m1, m2, m3, m4⟩ k o hk
    simp only [cycles, m1, hk _ m3 m4 m2]
  -- the next host, with `d'` more than it needs
  have next : ∀ d' n, d = d' + n → 0 < n → many (decide (p < 8)) e.lib.isSome d' < ss.length →
      ∀ w', Sound e.lim disk w' → Steady w' p → free w'.h.t e.lim + n = free w.h.t e.lim →
      cycles dbg fuel e disk ss w' = (many (decide (p < 8)) e.lib.isSome d', some (how (decide (p < 8)) e.lib.isSome d')) :=
    fun d' n h1 h2 h3 w' k1 k2 k3 => ih d' (by omega) ss w' k1 k2 hs' (by omega) h3
  have last : ∀ n, d < n → n < 5 → 0 < ss.length →
      ∀ w', Sound e.lim disk w' → Steady w' p → free w'.h.t e.lim + n = free w.h.t e.lim → cycles dbg fuel e disk ss w' = (0, some .exits) :=
    fun n h1 h2 h3 w' k1 k2 k3 => short ss w' k1 k2 hs' (by omega) (by omega) h3
  clear ih short
  rcases hlow : decide (p < 8) with _ | _ <;> rcases hlib : e.lib.isSome with _ | _ <;> simp only [hlow, hlib] at h next hlen ⊢
  · -- high, no library
    simp only [Bool.false_eq_true, if_false, Nat.add_zero, n2, or_true, if_true] at h
    simp only [many] at hlen next ⊢
    have hh : how false false d = .exits := by simp [how]
    rw [hh]
    rcases d with _ | d
    · exact go 1 h 0 _ (last 1 (by omega) (by omega) (by omega))
    · have := next d 1 rfl (by omega) (by omega)
      rw [show how false false d = .exits by simp [how]] at this
      exact go 1 h _ _ this
  · -- high, with a library
    have hh : ∀ d, how false true d = .exits := fun d => by simp [how]
    simp only [Bool.false_eq_true, if_false, Nat.add_zero, n2, Bool.true_eq_false, or_false] at h
    simp only [many, hh] at hlen next ⊢
    by_cases h4 : 4 ≤ d
    · rw [if_neg (by omega)] at h
      have := go 4 h _ _ (next (d - 4) 4 (by omega) (by omega) (by omega))
      rw [this]
      congr 1
      omega
    · have hq : d / 4 + 1 = 0 + 1 := by omega
      rw [hq]
      by_cases h0 : d = 0
      · rw [if_pos (by omega)] at h
        exact go 1 h _ _ (last 1 (by omega) (by omega) (by omega))
      · rw [if_neg (by omega)] at h
        exact go 4 h _ _ (last 4 (by omega) (by omega) (by omega))
  · -- low, no library
    have hh : ∀ d, how true false d = .hangs := fun d => by simp [how]
    simp only [if_true, or_true] at h
    simp only [many, hh] at hlen next ⊢
    rcases d with _ | d
    · rw [if_pos (by omega)] at h
      exact cycles_ends h rfl
    · rw [if_neg (by omega)] at h
      exact go 1 h _ _ (next d 1 rfl (by omega) (by omega))
  · -- low, with a library
    simp only [if_true, Bool.true_eq_false, or_false] at h
    by_cases h4 : 4 ≤ d
    · rw [if_neg (by omega), if_neg (by omega)] at h
      have hm : many true true d = many true true (d - 4) + 1 := by
        simp only [many, show d % 4 = (d - 4) % 4 by omega]
        split <;> omega
      have hh : how true true d = how true true (d - 4) := by
        simp only [how, show d % 4 = (d - 4) % 4 by omega]
      rw [hm, hh]
      exact go 4 h _ _ (next (d - 4) 4 (by omega) (by omega) (by omega))
    · match d, h4 with
      | 0, _ =>
        rw [if_pos (by omega)] at h
        exact cycles_ends h rfl
      | 1, _ =>
        rw [if_neg (by omega), if_pos (by omega)] at h
        exact go 1 h _ _ (next 0 1 rfl (by omega) (by rw [show many true true 1 = 1 from rfl] at hlen; rw [show many true true 0 = 0 from rfl]; omega))
      | 2, _ =>
        rw [if_neg (by omega), if_neg (by omega)] at h
        rw [show many true true 2 = 1 from rfl] at hlen
        exact go 4 h _ _ (last 4 (by omega) (by omega) (by omega))
      | 3, _ =>
        rw [if_neg (by omega), if_neg (by omega)] at h
        rw [show many true true 3 = 1 from rfl] at hlen
        exact go 4 h _ _ (last 4 (by omega) (by omega) (by omega))
      | d + 4, h4 => exact absurd (by omega) h4

/-- A steady host with 44 free descriptors, 35 more than a sandbox needs, makes nine sandboxes and then exits. -/
example : cycles false 10 ⟨64, some ⟨99, false⟩, true⟩ exDisk (List.replicate 10 exSys) exSteady = (9, some .exits) :=
  steady_count false 10 ⟨64, some ⟨99, false⟩, true⟩ exDisk 4 (by omega) 35 _ _ (exSteady_ok 64).1 (exSteady_ok 64).2
    (fun s hs => by
      rw [List.eq_of_mem_replicate hs]
      exact ⟨⟨.inl rfl, rfl, rfl, rfl, rfl, rfl, rfl⟩, rfl⟩)
    (by decide +kernel) (by decide +kernel)

end Verif.Cycle
