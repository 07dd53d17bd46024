import Verif.BsdMake.Child

/-!
# What the sandboxes of one host have in common, on FreeBSD (property C116)

The whole way of a sandbox's process is followed: from the host in any state that a history of sandboxes can bring about, through the
constructor and `start_child`, to the program under the Capsicum policy.
-/

namespace Verif.BsdMake

open Verif.Fd Verif.Start Verif.FileTree
open Verif.Make (streams created)
open Verif.Capsicum (May meant Op)

section
variable {dbg : Bool} {fuel : Nat} {e : Env} {disk : List Byte → Option Obj} {t0 : Table} {n0 : Nat}

theorem run_sound (ht : ∀ i o, t0 i = some o → o.id < n0) (hd : ∀ p o, disk p = some o → o.id < n0) {evs : List Ev} {w : World}
    (h : run dbg fuel e disk (start t0 n0) evs = some w) :
    Sound disk w.h ⟨n0 + 1, true⟩ ∧ Inv e.lim disk t0 n0 w ∧ Keeps t0 n0 w := by
  have hi := inv_run (inv_start ht hd) h
  have hk := keeps_run (inv_start ht hd) keeps_start h
  refine ⟨⟨⟨hi.old, fun p o hp => Nat.lt_of_lt_of_le (hi.files.2 p o hp) hi.files.1⟩, fun q hq => ⟨(hk.queues q hq).2.1, fun p o hp => ?_⟩, hk.streams, ?_, ?_⟩,
    hi, hk⟩
  · have := hi.files.2 p o hp
    have := (hk.queues q hq).1
    omega
  · unfold Make.Host.mapObj
    rcases hpp : w.h.pagemap with _ | p
    · have : w.h.plain.pagemap = none := hpp
      rw [this]
      simp only [Host.plain]
      rw [(hk.first hpp).2.1]
    · have : w.h.plain.pagemap = some p := hpp
      rw [this]
      obtain ⟨n, rfl, h1, -⟩ := hk.map p hpp
      simp only [at_nat]
      exact h1
  · intro hc
    exact (hk.queues _ hc).2.2 rfl

/-- **C116, exactly what the program has.**  In every history, with the system refusing nothing and room for one more sandbox, the process of the next
sandbox executes the library runner.  The program then has: at 3 the new shared memory, at 4 the page map, which is one and the same for all sandboxes, at
5 and 7 the new sockets, at 6 the library, at 8 to 10 the library directories, nothing above, and as standard streams what the host has there or,
in place of each closed one, the next of the constructor's own descriptors; all but the socket at 5 with just the rights that are meant. -/
theorem bsd_program (ht : ∀ i o, t0 i = some o → o.id < n0) (hd : ∀ p o, disk p = some o → o.id < n0) (evs : List Ev) (w : World)
    (h : run dbg fuel e disk (start t0 n0) evs = some w) (s : Sys) (hg : s.good) (hr : w.h.plain.roomy e disk) (lib : Obj) (hlib : e.lib = some lib)
    (hfuel : 10 ≤ fuel) (d0 d1 d2 : Obj) (loc : String) :
    ∃ m c, make dbg fuel e disk s w.h = .made m ∧
      m.program ⟨e.lim, [some d0, some d1, some d2], true, true⟩ loc = some (.exec c [loc, "LD_LIBRARY_PATH_FDS=8:9:10"]) ∧
      (∀ i, c.fds i = finds (streams disk w.h.plain) ⟨w.h.next, true⟩ ⟨n0 + 1, true⟩ ⟨w.h.next + 6, true⟩ lib ⟨w.h.next + 3, true⟩ d0 d1 d2 i) ∧
      ∀ fd op, fd ≠ 5 → (May c fd op ↔ op ∈ meant fd) := by
  obtain ⟨sd, -, -⟩ := run_sound ht hd h
  obtain ⟨m, t', h1, h2, h3⟩ := make_child dbg fuel e disk s w.h ⟨n0 + 1, true⟩ lib hg hr sd hlib hfuel
  have hlen : 5 ≤ (created disk w.h.plain).length := by
    rw [Make.created_length, Make.need]
    omega
  have low : ∀ i, i < 8 → t' i ≠ none := by
    intro i hi
    rw [h3]
    have hst : ∀ i, i < 3 → streams disk w.h.plain i ≠ none := by
      intro i hi
      unfold streams
      split
      · simp
      · have hf := free_le w.h.plain.t i
        rw [List.getElem?_eq_getElem (by omega)]
        simp
    rcases i with _ | _ | _ | _ | _ | _ | _ | _ | i <;> simp [wanted]
    · exact hst 0 (by omega)
    · exact hst 1 (by omega)
    · exact hst 2 (by omega)
    · omega
  have top : ∀ i, 8 ≤ i → t' i = none := by
    intro i hi
    rw [h3]
    rcases i with _ | _ | _ | _ | _ | _ | _ | _ | i <;> simp [wanted] at hi ⊢
  have hlim : 11 ≤ e.lim := by
    obtain ⟨b, h1, -, h2⟩ := hr
    omega
  obtain ⟨c, hc⟩ := Capsicum.execve_runs low top hlim d0 d1 d2 loc
  obtain ⟨g1, g2, g3, g4, -⟩ := Capsicum.limited_partial (c := ⟨t', fun _ _ => true⟩) ⟨fun _ _ => rfl, top⟩ rfl hc
  simp only [List.cons.injEq, and_true] at g2
  refine ⟨m, c, h1, ?_, fun i => ?_, g4⟩
  · simp only [Made.program, h2, hc]
  · by_cases h8 : i < 8
    · rw [(g1 i h8).1]
      simp only
      rw [h3]
      rcases i with _ | _ | _ | _ | _ | _ | _ | _ | i
      all_goals first
        | rfl
        | omega
    · by_cases h11 : 11 ≤ i
      · rw [g3 i h11]
        obtain ⟨j, rfl⟩ : ∃ j, i = j + 11 := ⟨i - 11, by omega⟩
        rfl
      · have : i = 8 ∨ i = 9 ∨ i = 10 := by omega
        rcases this with rfl | rfl | rfl
        · exact g2.1
        · exact g2.2.1
        · exact g2.2.2

/-- A host has room if, after it, the numbers that it uses are low enough. -/
theorem roomy_of_owned {w : World} (b : Nat) (hb : 8 ≤ b) (ha : Accounted e.lim t0 w.h.t w.owned) (h0 : ∀ i, b ≤ i → t0 i = none)
    (ho : ∀ x ∈ w.owned, x < b) (hl : b + (created disk w.h.plain).length + 5 ≤ e.lim) : w.h.plain.roomy e disk := by
  refine ⟨b, hb, fun i hi => ?_, hl⟩
  show w.h.t i = none
  rw [ha.rest i fun hc => by have := ho _ hc; omega]
  exact h0 i hi

/-- The example table, but for one stream; it is still older than the first sandbox. -/
theorem exClosed (k : Nat) : ∀ i o, (fun i => if i = k then none else exTable i) i = some o → o.id < 100 := by
  intro i o h
  by_cases hk : i = k
  · simp [hk] at h
  · simp only [hk, if_false] at h
    exact exOld i o h

/-- A host with its output closed, which has made one sandbox and is about to make another. -/
theorem exSecond : ∃ w, run false 10 exEnv exDisk (start (fun i => if i = 1 then none else exTable i) 100) [.make exSys] = some w ∧
    w.h.plain.roomy exEnv exDisk := by
  have : ((run false 10 exEnv exDisk (start (fun i => if i = 1 then none else exTable i) 100) [.make exSys]).map fun w =>
      (w.owned.all (fun x => decide (x < 30)) && decide (30 + (created exDisk w.h.plain).length + 5 ≤ 64))) = some true := by decide +kernel
  obtain ⟨w, h1, h2⟩ := Option.map_eq_some_iff.1 this
  simp only [Bool.and_eq_true, List.all_eq_true, decide_eq_true_eq] at h2
  refine ⟨w, h1, roomy_of_owned 30 (by omega) (accounted (exClosed 1) exFiles _ w h1) (fun i hi => ?_) h2.1 h2.2⟩
  have : ¬ i = 1 := by omega
  simp only [this, if_false, exTable]
  rw [if_neg (by omega)]

/-- The same host with all streams open, and a third sandbox after the first has been destroyed. -/
theorem exThird : ∃ w, run false 10 exEnv exDisk (start exTable 100) [.make exSys, .make exSys, .ends 0, .destroy 0] = some w ∧
    w.h.plain.roomy exEnv exDisk := by
  have : ((run false 10 exEnv exDisk (start exTable 100) [.make exSys, .make exSys, .ends 0, .destroy 0]).map fun w =>
      (w.owned.all (fun x => decide (x < 40)) && decide (40 + (created exDisk w.h.plain).length + 5 ≤ 64))) = some true := by decide +kernel
  obtain ⟨w, h1, h2⟩ := Option.map_eq_some_iff.1 this
  simp only [Bool.and_eq_true, List.all_eq_true, decide_eq_true_eq] at h2
  exact ⟨w, h1, roomy_of_owned 40 (by omega) (accounted exOld exFiles _ w h1) (fun i hi => by simp [exTable]; omega) h2.1 h2.2⟩

/-- The hypotheses of `bsd_program` are met. -/
example : ∃ w m c env, run false 10 exEnv exDisk (start exTable 100) [.make exSys, .make exSys, .ends 0, .destroy 0] = some w ∧
    make false 10 exEnv exDisk exSys w.h = .made m ∧
    m.program ⟨64, [some ⟨60, false⟩, some ⟨61, false⟩, some ⟨62, false⟩], true, true⟩ "l" = some (.exec c env) ∧ c.fds 4 = some ⟨101, true⟩ ∧
    c.fds 9 = some ⟨61, false⟩ := by
  obtain ⟨w, h1, h2⟩ := exThird
  obtain ⟨m, c, g1, g2, g3, -⟩ := bsd_program exOld exFiles _ w h1 exSys ⟨rfl, rfl, rfl, rfl, rfl, rfl, rfl, rfl, rfl⟩ h2 ⟨99, false⟩ rfl (by omega) ⟨60, false⟩
    ⟨61, false⟩ ⟨62, false⟩ "l"
  exact ⟨w, m, c, _, h1, g1, g2, g3 4, g3 9⟩

/-- The number of an object that was made for an earlier sandbox: those made later have higher numbers, what is older than the first sandbox has lower
ones, and the page map is meant to be shared (`src/libsandbox.cc:865-885`). -/
def Earlier (n0 : Nat) (w : World) (o : Obj) : Prop := n0 ≤ o.id ∧ o.id < w.h.next ∧ o.id ≠ n0 + 1

/-- **C116, exactly.**  In every history: the program of the next sandbox has nothing that was made for another sandbox exactly if there is no such
thing in the host at the number of a standard stream that was closed when the host made its first sandbox. -/
theorem isolated_iff (ht : ∀ i o, t0 i = some o → o.id < n0) (hd : ∀ p o, disk p = some o → o.id < n0) (evs : List Ev) (w : World)
    (h : run dbg fuel e disk (start t0 n0) evs = some w) (s : Sys) (hg : s.good) (hr : w.h.plain.roomy e disk) (lib : Obj) (hlib : e.lib = some lib)
    (hfuel : 10 ≤ fuel) (d0 d1 d2 : Obj) (loc : String) (hold : lib.id < n0 ∧ d0.id < n0 ∧ d1.id < n0 ∧ d2.id < n0) :
    ∃ m c env, make dbg fuel e disk s w.h = .made m ∧ m.program ⟨e.lim, [some d0, some d1, some d2], true, true⟩ loc = some (.exec c env) ∧
      ((∀ i o, c.fds i = some o → ¬ Earlier n0 w o) ↔ ∀ i, i < 3 → t0 i = none → ∀ o, w.h.t i = some o → ¬ Earlier n0 w o) := by
  obtain ⟨m, c, h1, h2, h3, -⟩ := bsd_program ht hd evs w h s hg hr lib hlib hfuel d0 d1 d2 loc
  refine ⟨m, c, _, h1, h2, fun hc i hi hn o ho => hc i o ?_, fun hc i o ho => ?_⟩
  · rw [h3]
    have hst : streams disk w.h.plain i = some o := by
      have : w.h.plain.t i = some o := ho
      simp only [streams, this]
    rcases i with _ | _ | _ | i
    · exact hst
    · exact hst
    · exact hst
    · omega
  · rw [h3] at ho
    obtain ⟨-, hi, -⟩ := run_sound ht hd h
    have key : ∀ i, i < 3 → streams disk w.h.plain i = some o → ¬ Earlier n0 w o := by
      intro i hi3 hs he
      unfold streams at hs
      split at hs
      · rename_i x hx
        cases hs
        rcases h0 : t0 i with _ | y
        · exact hc i hi3 h0 _ hx he
        · -- what was open has not changed
          have hno : (i : Int) ∉ w.owned := by
            intro hm
            obtain ⟨n, e1, -, e2, -⟩ := hi.acc.mine _ hm
            have : n = i := by omega
            subst this
            rw [h0] at e2
            cases e2
          have := hi.acc.rest i hno
          have hx' : w.h.t i = some o := hx
          rw [hx'] at this
          have := ht i o this.symm
          have := he.1
          omega
      · have hm := List.mem_of_getElem? hs
        rcases created_new hm with hle | ⟨p, hp⟩
        · have hle' : w.h.next ≤ o.id := hle
          have := he.2.1
          omega
        · have := hd p o hp
          have := he.1
          omega
    rcases i with _ | _ | _ | _ | _ | _ | _ | _ | _ | _ | _ | i
    · exact key 0 (by omega) ho
    · exact key 1 (by omega) ho
    · exact key 2 (by omega) ho
    all_goals
      simp only [finds, wanted, Option.some.injEq, reduceCtorEq] at ho
    all_goals
      rintro ⟨e1, e2, e3⟩
      subst ho
      try simp only at e1 e2 e3
      omega

/-- **C116 (partial).**  A host that had its three standard streams open when it made its first sandbox: in every history the program of the next sandbox
has nothing that was made for another one.  What is missing: a host with a closed stream, see `neighbour_memory`. -/
theorem isolated_partial (ht : ∀ i o, t0 i = some o → o.id < n0) (hd : ∀ p o, disk p = some o → o.id < n0) (evs : List Ev) (w : World)
    (h : run dbg fuel e disk (start t0 n0) evs = some w) (s : Sys) (hg : s.good) (hr : w.h.plain.roomy e disk) (lib : Obj) (hlib : e.lib = some lib)
    (hfuel : 10 ≤ fuel) (d0 d1 d2 : Obj) (loc : String) (hold : lib.id < n0 ∧ d0.id < n0 ∧ d1.id < n0 ∧ d2.id < n0)
    (hopen : ∀ i, i < 3 → t0 i ≠ none) :
    ∃ m c env, make dbg fuel e disk s w.h = .made m ∧ m.program ⟨e.lim, [some d0, some d1, some d2], true, true⟩ loc = some (.exec c env) ∧
      ∀ i o, c.fds i = some o → ¬ Earlier n0 w o := by
  obtain ⟨m, c, env, h1, h2, h3⟩ := isolated_iff ht hd evs w h s hg hr lib hlib hfuel d0 d1 d2 loc hold
  exact ⟨m, c, env, h1, h2, h3.2 fun i hi hn => absurd hn (hopen i hi)⟩

/-- The hypotheses are met: a third sandbox, beside the second, in a host with its streams open. -/
example : ∃ w m c env, run false 10 exEnv exDisk (start exTable 100) [.make exSys, .make exSys, .ends 0, .destroy 0] = some w ∧
    make false 10 exEnv exDisk exSys w.h = .made m ∧
    m.program ⟨64, [some ⟨60, false⟩, some ⟨61, false⟩, some ⟨62, false⟩], true, true⟩ "l" = some (.exec c env) ∧
    ∀ i o, c.fds i = some o → ¬ Earlier 100 w o := by
  obtain ⟨w, h1, h2⟩ := exThird
  obtain ⟨m, c, env, g⟩ := isolated_partial exOld exFiles _ w h1 exSys ⟨rfl, rfl, rfl, rfl, rfl, rfl, rfl, rfl, rfl⟩ h2 ⟨99, false⟩ rfl (by omega) ⟨60, false⟩
    ⟨61, false⟩ ⟨62, false⟩ "l" (by decide) (by decide)
  exact ⟨w, m, c, env, h1, g⟩

/-- **C116 fails for every host with a closed standard stream.**  While its first sandbox exists, the second has the shared memory of the first one, with all
its data, as the standard stream that was closed first; it may write to it if that is not the standard input, and read it if it is. -/
theorem neighbour_memory (ht : ∀ i o, t0 i = some o → o.id < n0) (hd : ∀ p o, disk p = some o → o.id < n0) (s1 : Sys) (w : World)
    (h : run dbg fuel e disk (start t0 n0) [.make s1] = some w) (s : Sys) (hg : s.good) (hr : w.h.plain.roomy e disk) (lib : Obj) (hlib : e.lib = some lib)
    (hfuel : 10 ≤ fuel) (d0 d1 d2 : Obj) (loc : String) (i : Nat) (hi : i < 3) (hc : t0 i = none) (hfirst : ∀ j, j < i → t0 j ≠ none) :
    ∃ m c env, make dbg fuel e disk s w.h = .made m ∧ m.program ⟨e.lim, [some d0, some d1, some d2], true, true⟩ loc = some (.exec c env) ∧
      c.fds i = some ⟨n0, true⟩ ∧ Earlier n0 w ⟨n0, true⟩ ∧ (i = 0 → May c i .read) ∧ (i ≠ 0 → May c i .write) := by
  obtain ⟨m, c, h1, h2, h3, h4⟩ := bsd_program ht hd [.make s1] w h s hg hr lib hlib hfuel d0 d1 d2 loc
  have hfree : free t0 i = 0 := by
    rcases i with _ | _ | _ | i
    · rfl
    · simp [free, hfirst 0 (by omega)]
    · simp [free, hfirst 0 (by omega), hfirst 1 (by omega)]
    · omega
  have hw : w.h.t i = some ⟨n0, true⟩ ∧ w.h.next = n0 + 9 := by
    simp only [run, step] at h
    rcases hm1 : make dbg fuel e disk s1 (start t0 n0).h with _ | _ | m1
    · rw [hm1] at h
      cases h
    · rw [hm1] at h
      cases h
    · rw [hm1] at h
      simp only [Option.some.injEq] at h
      subst h
      refine ⟨?_, rfl⟩
      have ho : Old disk (start t0 n0).h := ⟨ht, hd⟩
      obtain ⟨k1, -⟩ := made_map ho hm1
      refine (k1 i hi ⟨n0, true⟩).2 ?_ ?_ ?_
      · have : (start t0 n0).h.plain.t i = none := hc
        have hf0 : free (start t0 n0).h.plain.t i = 0 := hfree
        simp only [streams, this, hf0]
        simp [created, start, Host.plain]
      · simp [start]
      · simp [start]
  refine ⟨m, c, _, h1, h2, ?_, ⟨Nat.le_refl _, by rw [hw.2]; simp only; omega, by simp⟩, fun h0 => ?_, fun h0 => ?_⟩
  · rw [h3]
    have hst : streams disk w.h.plain i = some ⟨n0, true⟩ := by
      have : w.h.plain.t i = some ⟨n0, true⟩ := hw.1
      simp only [streams, this]
    rcases i with _ | _ | _ | i
    · exact hst
    · exact hst
    · exact hst
    · omega
  · rw [h4 i .read (by omega), h0]
    decide
  · rw [h4 i .write (by omega)]
    have : i = 1 ∨ i = 2 := by omega
    rcases this with rfl | rfl <;> decide

/-- Standard output was closed: the second sandbox may write to the memory of the first, the object 100. -/
example : ∃ w m c env, run false 10 exEnv exDisk (start (fun i => if i = 1 then none else exTable i) 100) [.make exSys] = some w ∧
    make false 10 exEnv exDisk exSys w.h = .made m ∧
    m.program ⟨64, [some ⟨60, false⟩, some ⟨61, false⟩, some ⟨62, false⟩], true, true⟩ "l" = some (.exec c env) ∧
    c.fds 1 = some ⟨100, true⟩ ∧ May c 1 .write := by
  obtain ⟨w, h1, h2⟩ := exSecond
  obtain ⟨m, c, env, g1, g2, g3, -, -, g4⟩ := neighbour_memory (exClosed 1) exFiles exSys w h1 exSys ⟨rfl, rfl, rfl, rfl, rfl, rfl, rfl, rfl, rfl⟩ h2
    ⟨99, false⟩ rfl (by omega) ⟨60, false⟩ ⟨61, false⟩ ⟨62, false⟩ "l" 1 (by omega) rfl (by decide)
  exact ⟨w, m, c, env, h1, g1, g2, g3, g4 (by omega)⟩

/-- **C48 on FreeBSD for every sandbox, exactly.**  In every history, the program of the next sandbox can write to the page map exactly if two or three
of the standard streams were closed when the host made its first sandbox: then not only that one but all later ones have it as a standard stream. -/
theorem pagemap_writable_iff (ht : ∀ i o, t0 i = some o → o.id < n0) (hd : ∀ p o, disk p = some o → o.id < n0) (evs : List Ev) (w : World)
    (h : run dbg fuel e disk (start t0 n0) evs = some w) (s : Sys) (hg : s.good) (hr : w.h.plain.roomy e disk) (lib : Obj) (hlib : e.lib = some lib)
    (hfuel : 10 ≤ fuel) (d0 d1 d2 : Obj) (loc : String) (hold : lib.id < n0 ∧ d0.id < n0 ∧ d1.id < n0 ∧ d2.id < n0) :
    ∃ m c env, make dbg fuel e disk s w.h = .made m ∧ m.program ⟨e.lim, [some d0, some d1, some d2], true, true⟩ loc = some (.exec c env) ∧
      ((∃ i o, c.fds i = some o ∧ o.id = n0 + 1 ∧ (May c i .write ∨ May c i .mapWrite ∨ May c i .truncate)) ↔ 2 ≤ free t0 3) := by
  obtain ⟨m, c, h1, h2, h3, h4⟩ := bsd_program ht hd evs w h s hg hr lib hlib hfuel d0 d1 d2 loc
  obtain ⟨sd, hi, hk⟩ := run_sound ht hd h
  have hst : ∀ i, i < 3 → c.fds i = streams disk w.h.plain i := by
    intro i hi3
    rw [h3]
    rcases i with _ | _ | _ | i
    · rfl
    · rfl
    · rfl
    · omega
  -- the page map is at a standard stream exactly at the second closed one
  have hat : ∀ i, i < 3 → ((∃ o, streams disk w.h.plain i = some o ∧ o.id = n0 + 1) ↔ t0 i = none ∧ free t0 i = 1) := by
    intro i hi3
    rcases hpp : w.h.pagemap with _ | p
    · obtain ⟨f1, f2, -, -⟩ := hk.first hpp
      constructor
      · rintro ⟨o, ho, hid⟩
        unfold streams at ho
        split at ho
        · rename_i x hx
          cases ho
          have := hi.old i _ hx
          omega
        · rename_i hx
          have := created_map (h := w.h) sd.old.files hpp ho (by omega)
          have hx' : w.h.t i = none := hx
          rw [f1] at hx'
          have hy : free w.h.t i = 1 := this
          rw [f1] at hy
          exact ⟨hx', hy⟩
      · rintro ⟨g1, g2⟩
        have hx : w.h.plain.t i = none := by
          show w.h.t i = none
          rw [f1]
          exact g1
        have hy : free w.h.plain.t i = 1 := by
          show free w.h.t i = 1
          rw [f1]
          exact g2
        refine ⟨⟨w.h.next + 1, true⟩, ?_, by simp only; omega⟩
        simp only [streams, hx, hy]
        simp [created, Host.plain, hpp]
    · obtain ⟨n, -, g1, g2, g3, g4, g5⟩ := hk.map p hpp
      constructor
      · rintro ⟨o, ho, hid⟩
        unfold streams at ho
        split at ho
        · rename_i x hx
          cases ho
          have := g5 i _ hx hid
          rw [this]
          exact ⟨g3, g4⟩
        · have hm := List.mem_of_getElem? ho
          rcases created_new hm with hle | ⟨p, hp⟩
          · have hle' : w.h.next ≤ o.id := hle
            omega
          · have := hd p o hp
            omega
      · rintro ⟨k1, k2⟩
        have : i = n := free_inj k1 g3 (by omega)
        subst this
        refine ⟨⟨n0 + 1, true⟩, ?_, rfl⟩
        have hx : w.h.plain.t i = some ⟨n0 + 1, true⟩ := g1
        simp only [streams, hx]
  refine ⟨m, c, _, h1, h2, ?_⟩
  rw [Make.free_two]
  constructor
  · rintro ⟨i, o, ho, hid, hw⟩
    by_cases hi3 : i < 3
    · rw [hst i hi3] at ho
      exact ⟨i, hi3, (hat i hi3).1 ⟨o, ho, hid⟩⟩
    · rw [h3] at ho
      have hmay : ∀ op, i ≠ 5 → (May c i op → op ∈ meant i) := fun op h5 hm => (h4 i op h5).1 hm
      rcases i with _ | _ | _ | _ | _ | _ | _ | _ | _ | _ | _ | i
      · omega
      · omega
      · omega
      all_goals
        simp only [finds, wanted, Option.some.injEq, reduceCtorEq] at ho
      · subst ho
        simp only at hid
        rcases hpp : w.h.pagemap with _ | p
        · have := (hk.first hpp).2.1
          omega
        · obtain ⟨n, -, -, g2, -⟩ := hk.map p hpp
          omega
      · rcases hw with hw | hw | hw <;> · have := hmay _ (by omega) hw; simp [meant] at this
      · subst ho
        simp only at hid
        have := hi.files.1
        omega
      · subst ho
        omega
      · subst ho
        simp only at hid
        have := hi.files.1
        omega
      all_goals
        subst ho
        omega
  · rintro ⟨i, hi3, g1, g2⟩
    obtain ⟨o, ho, hid⟩ := (hat i hi3).2 ⟨g1, g2⟩
    refine ⟨i, o, by rw [hst i hi3]; exact ho, hid, .inl ?_⟩
    rw [h4 i .write (by omega)]
    have : i = 1 ∨ i = 2 := by
      rcases i with _ | _ | _ | i
      · simp [free] at g2
      · exact .inl rfl
      · exact .inr rfl
      · omega
    rcases this with rfl | rfl <;> decide

/-- One closed stream does not endanger the page map. -/
example : ∃ w m c env, run false 10 exEnv exDisk (start (fun i => if i = 1 then none else exTable i) 100) [.make exSys] = some w ∧
    make false 10 exEnv exDisk exSys w.h = .made m ∧
    m.program ⟨64, [some ⟨60, false⟩, some ⟨61, false⟩, some ⟨62, false⟩], true, true⟩ "l" = some (.exec c env) ∧
    ¬ ∃ i o, c.fds i = some o ∧ o.id = 101 ∧ (May c i .write ∨ May c i .mapWrite ∨ May c i .truncate) := by
  obtain ⟨w, h1, h2⟩ := exSecond
  obtain ⟨m, c, env, g1, g2, g3⟩ := pagemap_writable_iff (exClosed 1) exFiles _ w h1 exSys ⟨rfl, rfl, rfl, rfl, rfl, rfl, rfl, rfl, rfl⟩ h2
    ⟨99, false⟩ rfl (by omega) ⟨60, false⟩ ⟨61, false⟩ ⟨62, false⟩ "l" (by decide)
  exact ⟨w, m, c, env, h1, g1, g2, fun hc => absurd (g3.1 hc) (by decide)⟩

end

end Verif.BsdMake
