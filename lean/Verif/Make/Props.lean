import Verif.Make.Steps

/-!
# Making a sandbox: properties C111 and C112, and C65 for the whole constructor
-/

namespace Verif.Make

open Verif.Fd Verif.Start Verif.FileTree Verif.Path Verif.FileTree.Spec

/-! ### Cases used in the examples -/

/-- A system that refuses nothing. -/
def exSys : Sys := ⟨true, true, true, true, true, true, true, true, true⟩

/-- A host with its three standard streams and no sandbox yet. -/
def exHost : Host := ⟨fun i => if i < 3 then some ⟨i, true⟩ else none, 100, none, false⟩

/-- A disk with all four default exports. -/
def exDisk : List Byte → Option Obj := fun p => some ⟨50 + p.length % 16, false⟩

/-! ### C111: what happens if something is missing -/

/-- **C111, exactly.**  For every host, every set of answers and every number of free descriptors: the constructor ends early exactly as the
table `fate` says, which looks at what is missing first. -/
theorem ends_exactly (dbg : Bool) (fuel : Nat) (e : Env) (disk : List Byte → Option Obj) (s : Sys) (h : Host) :
    early (make dbg fuel e disk s h) = fate dbg s h.firstMap (!h.service) (free h.t e.lim) (opened disk).length :=
  (make_steps dbg fuel e disk s h).1

/-- A host with three of 11 open files in use has none left for the poller; with a limit of 12 there are none for the second socket pair; with 14 all is well. -/
example : early (make false 10 ⟨11, some ⟨99, false⟩, true⟩ exDisk exSys exHost) = some .aborts ∧
    early (make false 10 ⟨12, some ⟨99, false⟩, true⟩ exDisk exSys exHost) = some .exits ∧
    early (make false 10 ⟨14, some ⟨99, false⟩, true⟩ exDisk exSys exHost) = none := by
  simp only [ends_exactly]
  decide +kernel

theorem early_throws {o : Out} : early o = some .throws ↔ o = .throws := by
  cases o <;> simp [early]

/-- **C111 (partial).**  The constructor reports a failure by an exception exactly if the thread of the memory service cannot be started
and everything before that works.  What is missing: every other failure, see `shortage_ends_host` and `refusal_not_reported`. -/
theorem reported_iff_partial (dbg : Bool) (fuel : Nat) (e : Env) (disk : List Byte → Option Obj) (s : Sys) (h : Host) :
    make dbg fuel e disk s h = .throws ↔
      h.service = false ∧ s.thread = false ∧ (s.memfd = true ∨ s.posix = true) ∧ s.shmSized = true ∧ s.shmMapped = true ∧
        (h.pagemap = none → s.pmSized = true ∧ s.pmMapped = true) ∧
        1 + (if h.pagemap = none then 1 else 0) + (opened disk).length + 2 ≤ free h.t e.lim := by
  rw [← early_throws, ends_exactly, fate]
  rcases s with ⟨m, p, ss, sm, ps, pm, th, rg, fk⟩
  rcases h with ⟨t, nx, pmo, sv⟩
  simp only [Host.firstMap]
  rcases pmo with _ | q
  · simp only [Option.isNone_none, if_true]
    rcases m <;> rcases p <;> rcases ss <;> rcases sm <;> rcases ps <;> rcases pm <;> rcases th <;> rcases sv <;> rcases dbg <;>
      simp <;> grind
  · simp only [Option.isNone_some]
    rcases m <;> rcases p <;> rcases ss <;> rcases sm <;> rcases th <;> rcases sv <;> rcases dbg <;> simp <;> grind

/-- No thread can be started: the one failure that is reported. -/
example : make true 10 ⟨64, some ⟨99, false⟩, true⟩ exDisk { exSys with thread := false } exHost = .throws := by
  rw [reported_iff_partial]
  decide +kernel

/-- How many descriptors a new sandbox takes. -/
def need (files : Nat) (firstMap firstService : Bool) : Nat :=
  5 + files + (if firstMap then 1 else 0) + (if firstService then 1 else 0)

theorem created_length (disk : List Byte → Option Obj) (h : Host) :
    (created disk h).length = need (opened disk).length h.firstMap (!h.service) := by
  rcases h with ⟨t, nx, pmo, sv⟩
  simp only [created, need, Host.firstMap, List.length_append]
  rcases sv <;> rcases pmo with _ | p <;> simp <;> omega

/-- **C111 fails, all the way.**  A host that has too few descriptors left for one more sandbox does not get an error: it is ended, by
`abort` if there is none for the shared memory, the page map or the poller, and by `exit` otherwise; and it goes on exactly if
there are enough. -/
theorem shortage_ends_host (dbg : Bool) (fuel : Nat) (e : Env) (disk : List Byte → Option Obj) (s : Sys) (h : Host) (hg : s.good) :
    (early (make dbg fuel e disk s h) = none ↔ need (opened disk).length h.firstMap (!h.service) ≤ free h.t e.lim) ∧
    (early (make dbg fuel e disk s h) ≠ none →
      early (make dbg fuel e disk s h) =
        if free h.t e.lim < (if h.firstMap then 2 else 1) ∨
            (h.service = false ∧ free h.t e.lim = (if h.firstMap then 2 else 1) + (opened disk).length + 2)
        then some .aborts else some .exits) := by
  rw [ends_exactly]
  obtain ⟨g1, g2, g3, g4, g5, g6, g7⟩ := hg
  have g1' : ¬ (s.memfd = false ∧ s.posix = false) := by
    rintro ⟨a, b⟩
    simp [a, b] at g1
  simp only [fate, need, g2, g3, g4, g5, g6, g7, g1']
  rcases h.firstMap <;> rcases h.service <;> simp <;> grind

example : exSys.good ∧ free exHost.t 12 < need (opened exDisk).length true true := by
  refine ⟨⟨.inl rfl, rfl, rfl, rfl, rfl, rfl, rfl⟩, ?_⟩
  decide +kernel

/-- **C111 fails for every refusal but that of a thread.**  With room for everything: if the system refuses the shared memory, its size, a
mapping, or the registration of the socket, the constructor does not return to its caller in any way. -/
theorem refusal_not_reported (dbg : Bool) (fuel : Nat) (e : Env) (disk : List Byte → Option Obj) (s : Sys) (h : Host)
    (hr : need (opened disk).length h.firstMap (!h.service) ≤ free h.t e.lim) (ht : s.thread = true) (hb : ¬ s.good)
    (hn : h.pagemap = none) :
    make dbg fuel e disk s h = .aborts ∨ (make dbg fuel e disk s h = .faults ∧ dbg = false) := by
  have h1 := ends_exactly dbg fuel e disk s h
  have key : fate dbg s h.firstMap (!h.service) (free h.t e.lim) (opened disk).length = some .aborts ∨
      (fate dbg s h.firstMap (!h.service) (free h.t e.lim) (opened disk).length = some .faults ∧ dbg = false) := by
    rcases s with ⟨m, p, ss, sm, ps, pm, th, rg, fk⟩
    rcases h with ⟨t, nx, pmo, sv⟩
    simp only at hn ht
    subst hn ht
    simp only [Host.firstMap, Option.isNone_none, need, Sys.good, fate, if_true] at hb hr ⊢
    clear h1
    rcases m <;> rcases p <;> rcases ss <;> rcases sm <;> rcases ps <;> rcases pm <;> rcases rg <;> rcases sv <;> rcases dbg <;>
      simp at hb hr ⊢ <;> grind
  rw [← h1] at key
  rcases hm : make dbg fuel e disk s h <;> simp [hm, early] at key ⊢
  exact key

/-- The second mapping of the shared memory is refused. -/
example : make false 10 ⟨64, some ⟨99, false⟩, true⟩ exDisk { exSys with shmMapped := false } exHost = .faults ∧
    make true 10 ⟨64, some ⟨99, false⟩, true⟩ exDisk { exSys with shmMapped := false } exHost = .aborts := by
  constructor
  · rcases refusal_not_reported false 10 ⟨64, some ⟨99, false⟩, true⟩ exDisk { exSys with shmMapped := false } exHost
      (by decide +kernel) rfl (by simp [Sys.good]) rfl with h | h
    · have := ends_exactly false 10 ⟨64, some ⟨99, false⟩, true⟩ exDisk { exSys with shmMapped := false } exHost
      rw [h] at this
      exact absurd this (by decide +kernel)
    · exact h.1
  · rcases refusal_not_reported true 10 ⟨64, some ⟨99, false⟩, true⟩ exDisk { exSys with shmMapped := false } exHost
      (by decide +kernel) rfl (by simp [Sys.good]) rfl with h | h
    · exact h
    · cases h.2

/-! ### What stays as it was -/

/-- Moving a descriptor up closes nothing, and gives the number itself or one that was free. -/
theorem moveFd_keeps {lim : Nat} : ∀ (fuel : Nat) (t : Table) (x y : Int) (t' : Table), moveFd lim fuel t x = some (y, t') →
    (∀ i o, t i = some o → t' i = some o) ∧ (y = x ∨ t.at y = none)
  | 0, _, _, _, _, h => by simp [moveFd] at h
  | fuel + 1, t, x, y, t', h => by
    rw [moveFd] at h
    split at h
    · obtain ⟨h1, h2⟩ := moveFd_keeps fuel _ _ _ _ h
      have hd : (∀ i o, t i = some o → (dup lim t x).2 i = some o) ∧ t.at (dup lim t x).1 = none := by
        unfold dup
        split
        · rename_i o ho
          rcases Nat.eq_zero_or_pos (free t lim) with h0 | h0
          · rw [create_full h0]
            exact ⟨fun _ _ h => h, by simp [Table.at]⟩
          · obtain ⟨n, c1, c2, -⟩ := create_ok (o := o) h0
            rw [c1]
            exact ⟨fun _ _ h => fill_keeps h, by rw [at_nat]; exact c2⟩
        · exact ⟨fun _ _ h => h, by simp [Table.at]⟩
      refine ⟨fun i o hi => h1 i o (hd.1 i o hi), .inr ?_⟩
      rcases h2 with rfl | h2
      · exact hd.2
      · rcases hy : t.at y with _ | o
        · rfl
        · obtain ⟨n, rfl, hn⟩ := at_nonneg hy
          rw [at_nat, hd.1 n o hn] at h2
          cases h2
    · simp only [Option.some.injEq, Prod.mk.injEq] at h
      obtain ⟨rfl, rfl⟩ := h
      exact ⟨fun _ _ h => h, .inl rfl⟩

theorem at_none_of {t t' : Table} (hk : ∀ i o, t i = some o → t' i = some o) {y : Int} (h : t'.at y = none) : t.at y = none := by
  rcases hy : t.at y with _ | o
  · rfl
  · obtain ⟨n, rfl, hn⟩ := at_nonneg hy
    rw [at_nat, hk n o hn] at h
    cases h

/-- The handles that the host finds after the child has run: what it gave, or numbers that are free in its own table. -/
theorem startChild_handles {fuel : Nat} {e : Env} {t : Table} {hs hs' : Handles} {out : Start.Out} (h : startChild fuel e t hs = (out, hs'))
    (hl : out ≠ .looping) : (hs'.cb = hs.cb ∨ t.at hs'.cb = none) ∧ (hs'.rpc = hs.rpc ∨ t.at hs'.rpc = none) := by
  unfold startChild at h
  split at h
  · simp only [Prod.mk.injEq] at h
    exact absurd h.1.symm hl
  rename_i shmFd t1 m1
  split at h
  · simp only [Prod.mk.injEq] at h
    exact absurd h.1.symm hl
  rename_i pmFd t2 m2
  split at h
  · simp only [Prod.mk.injEq] at h
    exact absurd h.1.symm hl
  rename_i cbFd t3 m3
  split at h
  · simp only [Prod.mk.injEq] at h
    exact absurd h.1.symm hl
  rename_i rpcFd t4 m4
  obtain ⟨a1, -⟩ := moveFd_keeps _ _ _ _ _ m1
  obtain ⟨a2, -⟩ := moveFd_keeps _ _ _ _ _ m2
  obtain ⟨a3, b3⟩ := moveFd_keeps _ _ _ _ _ m3
  obtain ⟨-, b4⟩ := moveFd_keeps _ _ _ _ _ m4
  have c3 : cbFd = hs.cb ∨ t.at cbFd = none := b3.imp_right fun h =>
    at_none_of (fun i o hi => a2 i o (a1 i o hi)) h
  have c4 : rpcFd = hs.rpc ∨ t.at rpcFd = none := b4.imp_right fun h =>
    at_none_of (fun i o hi => a3 i o (a2 i o (a1 i o hi))) h
  have cm : t.at (-1) = none := by simp [Table.at]
  have fin : ∀ op : Int × Table,
      (if op.1 < 0 then (Start.Out.exit, { hs with shm := -1, cb := cbFd, rpc := rpcFd })
        else match moveFd e.lim fuel op.2 op.1 with
          | none => (.looping, { hs with shm := -1, cb := cbFd, rpc := rpcFd })
          | some (libFd, t) =>
            (.exec (dropWrite e (closefrom (dup2 (dup2 (dup2 (dup2 (dup2 t shmFd 3) pmFd 4) cbFd 5) libFd 6) rpcFd 7) lastFd)),
              { hs with shm := -1, cb := -1, rpc := -1 })) = (out, hs') →
      (hs'.cb = hs.cb ∨ t.at hs'.cb = none) ∧ (hs'.rpc = hs.rpc ∨ t.at hs'.rpc = none) := by
    intro op h
    split at h
    · simp only [Prod.mk.injEq] at h
      obtain ⟨-, rfl⟩ := h
      exact ⟨c3, c4⟩
    · split at h
      · simp only [Prod.mk.injEq] at h
        exact absurd h.1.symm hl
      · simp only [Prod.mk.injEq] at h
        obtain ⟨-, rfl⟩ := h
        exact ⟨.inr cm, .inr cm⟩
  exact fin _ h

theorem close_other {t : Table} {x : Int} {i : Nat} (h : x ≠ i) : close t x i = t i := by
  unfold close
  split
  · exact put_ne _ _ (by omega)
  · rfl

theorem made_keeps {fuel : Nat} {e : Env} {s : Sys} {tree : Dir} {t : Table} {shm pm : Int} {svc own rpc cb : Nat} {m : Made}
    (h : forks fuel e s tree t shm pm svc own rpc cb = .made m) :
    m.tree = tree ∧ ∀ i o, t i = some o → i ≠ rpc → i ≠ cb → m.t i = some o := by
  unfold forks at h
  split at h
  · split at h
    · cases h
    · rename_i out hs hne hst
      cases h
      refine ⟨rfl, fun i o hi h1 h2 => ?_⟩
      obtain ⟨c1, c2⟩ := startChild_handles hst hne
      have ne : ∀ y : Int, (y = rpc ∨ y = cb ∨ t.at y = none) → y ≠ i := by
        rintro y (hy | hy | hy) he
        · omega
        · omega
        · rw [he, at_nat, hi] at hy
          cases hy
      simp only
      rw [close_other (ne _ ?_), close_other (ne _ ?_)]
      · exact hi
      · rcases c1 with c | c
        · exact .inr (.inl c)
        · exact .inr (.inr c)
      · rcases c2 with c | c
        · exact .inl c
        · exact .inr (.inr c)
  · cases h
    refine ⟨rfl, fun i o hi h1 h2 => ?_⟩
    simp only
    rw [close_other (by omega), close_other (by omega)]
    exact hi

theorem early_made {o : Out} {m : Made} (h : o = .made m) : early o = none := by rw [h]; rfl

/-- **C47 for the whole constructor.**  Whatever the system answers and however little room there is: a sandbox that is made has changed none of the
descriptors that the host had. -/
theorem host_kept (dbg : Bool) (fuel : Nat) (e : Env) (disk : List Byte → Option Obj) (s : Sys) (h : Host) (m : Made)
    (hm : make dbg fuel e disk s h = .made m) : ∀ i o, h.t i = some o → m.t i = some o := by
  obtain ⟨t1, t2, t, shm, svc, own, rpc, cb, pm, hh, hf⟩ := (make_steps dbg fuel e disk s h).2 (early_made hm)
  rw [hf] at hm
  obtain ⟨-, hk⟩ := made_keeps hm
  intro i o hi
  have h2 := hh.keep.1 i o hi
  exact hk i o (hh.keep.2 i o h2) (by rintro rfl; simp [hh.fresh.1] at h2) (by rintro rfl; simp [hh.fresh.2.2.1] at h2)

/-- What a descriptor of the host refers to, if a sandbox was made. -/
def madeAt (o : Out) (i : Nat) : Option (Option Obj) :=
  match o with
  | .made m => some (m.t i)
  | _ => none

theorem madeAt_some {o : Out} {i : Nat} {x : Option Obj} (h : madeAt o i = some x) : ∃ m, o = .made m ∧ m.t i = x := by
  cases o with
  | made m => exact ⟨m, rfl, by simpa [madeAt] using h⟩
  | _ => simp [madeAt] at h

/-- Also if the library that the sandbox is to run does not exist: the child exits. -/
example : ∃ m, make false 10 ⟨64, none, true⟩ exDisk exSys exHost = .made m ∧ m.t 0 = some ⟨0, true⟩ := by
  have h : madeAt (make false 10 ⟨64, none, true⟩ exDisk exSys exHost) 0 = some (some ⟨0, true⟩) := by decide +kernel
  obtain ⟨m, h1, h2⟩ := madeAt_some h
  exact ⟨m, h1, h2⟩

/-! ### C65 for the whole constructor -/

/-- **C65.**  Whatever the host has open, however little room there is and whatever the system answers: in a sandbox that has been made, a path is
found exactly if it is beneath one of the three library directories that exist or is the linker's cache, if that exists; and the
handle that is found is an open descriptor of that object in the host. -/
theorem library_exports (dbg : Bool) (fuel : Nat) (e : Env) (disk : List Byte → Option Obj) (s : Sys) (h : Host) (m : Made)
    (hm : make dbg fuel e disk s h = .made m) (p rest : Path) :
    ((∃ x, lookupFile m.tree p = some (x, rest)) ↔
      rest.isAbsolute = false ∧ ∃ d ns, (d, ns) ∈ Defaults.allowedNames ∧ disk (Defaults.text ns) ≠ none ∧
        p.components = ns ++ rest.components ∧ (d = true ↔ rest.components ≠ [])) ∧
    ∀ x, lookupFile m.tree p = some (x, rest) → ∃ d ns o, (d, ns) ∈ Defaults.allowedNames ∧ disk (Defaults.text ns) = some o ∧
      p.components = ns ++ rest.components ∧ m.t.at x = some o := by
  obtain ⟨t1, t2, t, shm, svc, own, rpc, cb, pm, hh, hf⟩ := (make_steps dbg fuel e disk s h).2 (early_made hm)
  rw [hf] at hm
  obtain ⟨htree, hk⟩ := made_keeps hm
  rw [htree]
  constructor
  · have hg := congrArg (List.map (fun d : Bool × List Byte => (d.1, namesOf d.2)))
      (got_all_exist (disk := disk) (lim := e.lim) Defaults.defaults t1 hh.before.1 hh.before.2)
    rw [List.map_map] at hg
    have hw : ∀ x : Bool × Names, x ∈ (Defaults.defaults.filter (fun d => (disk d.2).isSome)).map (fun d => (d.1, namesOf d.2)) ↔
        x ∈ Defaults.allowedNames ∧ disk (Defaults.text x.2) ≠ none := by
      have hall : ∀ x ∈ Defaults.allowedNames, ∃ y ∈ Defaults.defaults, y.1 = x.1 ∧ y.2 = Defaults.text x.2 ∧ namesOf y.2 = x.2 := by
        decide +kernel
      intro x
      simp only [List.mem_map, List.mem_filter]
      constructor
      · rintro ⟨d, ⟨hd, hs⟩, rfl⟩
        obtain ⟨n1, n2, -⟩ := Defaults.defaults_names d hd
        refine ⟨n1, fun hc => ?_⟩
        simp only at hc
        rw [← n2] at hc
        simp [hc] at hs
      · rintro ⟨hx, hs⟩
        obtain ⟨y, hy, y1, y2, y3⟩ := hall x hx
        refine ⟨y, ⟨hy, ?_⟩, by rw [y1, y3]⟩
        rw [y2]
        exact Option.isSome_iff_ne_none.2 hs
    rw [Defaults.exact_of_got hg]
    refine and_congr_right fun _ => ⟨?_, ?_⟩
    · rintro ⟨x, hx, h1, h2⟩
      obtain ⟨w1, w2⟩ := (hw x).1 hx
      exact ⟨x.1, x.2, w1, w2, h1, h2⟩
    · rintro ⟨d, ns, w1, w2, h1, h2⟩
      exact ⟨(d, ns), (hw _).2 ⟨w1, w2⟩, h1, h2⟩
  · intro x hx
    obtain ⟨d, ns, o, h1, h2, h3, h4, -⟩ := Defaults.defaults_only disk e.lim t1 p rest x hx
    refine ⟨d, ns, o, h1, h2, h4, ?_⟩
    rw [← hh.after] at h3
    obtain ⟨n, rfl, hn⟩ := at_nonneg h3
    rw [at_nat]
    exact hk n o (hh.keep.2 n o hn) (by rintro rfl; simp [hh.fresh.1] at hn) (by rintro rfl; simp [hh.fresh.2.2.1] at hn)

/-- A host with descriptor 0 closed, the case in which the dispatcher alone would lose `/lib`: the shared memory has taken the number. -/
example : ∃ m, make false 10 ⟨64, some ⟨99, false⟩, true⟩ exDisk exSys { exHost with t := fun i => if i = 1 ∨ i = 2 then some ⟨i, true⟩ else none } =
      .made m ∧
    ∃ x, lookupFile m.tree ⟨true, [Defaults.bytes "lib", Defaults.bytes "libc.so"]⟩ = some (x, ⟨false, [Defaults.bytes "libc.so"]⟩) := by
  have h : madeAt (make false 10 ⟨64, some ⟨99, false⟩, true⟩ exDisk exSys
      { exHost with t := fun i => if i = 1 ∨ i = 2 then some ⟨i, true⟩ else none }) 0 = some (some ⟨100, true⟩) := by decide +kernel
  obtain ⟨m, h1, -⟩ := madeAt_some h
  refine ⟨m, h1, (library_exports _ _ _ _ _ _ _ h1 _ _).1.2 ⟨rfl, true, [Defaults.bytes "lib"], by decide +kernel, by simp [exDisk], rfl, by simp⟩⟩

/-! ### C112: the descriptors of the child -/

theorem free_above {t : Table} {b : Nat} (hb : ∀ i, b ≤ i → t i = none) : ∀ k, k - b ≤ free t k
  | 0 => by simp
  | k + 1 => by
    have ih := free_above hb k
    unfold free
    by_cases hk : b ≤ k
    · rw [if_pos (hb k hk)]
      omega
    · omega

/-- The host has room for a new sandbox and for the moves of its child. -/
def Host.roomy (h : Host) (e : Env) (disk : List Byte → Option Obj) : Prop :=
  ∃ b, 8 ≤ b ∧ (∀ i, b ≤ i → h.t i = none) ∧ b + (created disk h).length + 5 ≤ e.lim

/-- The page map that the sandbox will use. -/
def Host.mapObj (h : Host) (pm : Obj) : Prop :=
  match h.pagemap with
  | some p => h.t.at p = some pm
  | none => pm = ⟨h.next + 1, true⟩

/-- What the host's standard streams are when the child starts: those of the host, and for each that is closed the next of the
objects that the constructor opens. -/
def streams (disk : List Byte → Option Obj) (h : Host) (i : Nat) : Option Obj :=
  match h.t i with
  | some o => some o
  | none => (created disk h)[free h.t i]?

/-- **C112, exactly.**  A sandbox made by a host with room for it starts with the five objects at their numbers, nothing above
them, and as standard streams what the host has there or, in place of each closed one, the next of the constructor's own descriptors. -/
theorem child_table (dbg : Bool) (fuel : Nat) (e : Env) (disk : List Byte → Option Obj) (s : Sys) (h : Host) (pm lib : Obj)
    (hg : s.good) (hf : s.forked = true) (hr : h.roomy e disk) (hpm : h.mapObj pm) (hlib : e.lib = some lib) (hfuel : 10 ≤ fuel) :
    ∃ m t', make dbg fuel e disk s h = .made m ∧ m.child = some (.exec t') ∧
      ∀ i, t' i = wanted (streams disk h) ⟨h.next, true⟩ (if e.proc then Obj.readOnly pm else pm) ⟨h.next + 6, true⟩ lib
        ⟨h.next + 3, true⟩ i := by
  obtain ⟨b, hb8, hb, hl⟩ := hr
  have hfree := free_above hb e.lim
  have he : early (make dbg fuel e disk s h) = none :=
    (shortage_ends_host dbg fuel e disk s h hg).1.2 (by rw [← created_length]; omega)
  obtain ⟨t1, t2, t, shm, svc, own, rpc, cb, pmH, hh, hmk⟩ := (make_steps dbg fuel e disk s h).2 he
  have hroom : Room e.lim t := by
    refine ⟨b + (created disk h).length, by omega, fun i hi => ?_, by omega⟩
    rw [hh.table]
    have h1 := hb i (by omega)
    simp only [fill, h1]
    have := free_above hb i
    exact List.getElem?_eq_none (by omega)
  have href : Refer t ⟨shm, pmH, rpc, cb⟩ ⟨h.next, true⟩ pm ⟨h.next + 6, true⟩ ⟨h.next + 3, true⟩ := by
    refine ⟨by rw [at_nat]; exact hh.atShm.1, ?_, by rw [at_nat]; exact hh.atCb, by rw [at_nat]; exact hh.atRpc⟩
    have hp := hh.atPm
    unfold PmAt at hp
    unfold Host.mapObj at hpm
    split at hpm
    · rename_i p hpp
      rw [hpp] at hp
      obtain ⟨n, rfl, hn⟩ := at_nonneg hpm
      subst hp
      rw [at_nat]
      exact hh.keep.2 n _ (hh.keep.1 n _ hn)
    · rename_i hpp
      rw [hpp] at hp
      obtain ⟨n, rfl, hn, -⟩ := hp
      rw [at_nat, hn, hpm]
  have hlen : 5 ≤ (created disk h).length := by
    rw [created_length, need]
    omega
  have hstd : ∀ i, i < 3 → t i ≠ none := by
    intro i hi
    rw [hh.table]
    unfold fill
    rcases ht : h.t i with _ | o
    · have := free_le h.t i
      simp only
      rw [List.getElem?_eq_getElem (by omega)]
      simp
    · simp
  obtain ⟨t', hs, c1, c2⟩ := child_descriptors_partial (fuel := fuel) hroom href hlib hfuel hstd
  rw [hmk, forks, if_pos hf, c1]
  refine ⟨_, t', rfl, rfl, fun i => ?_⟩
  rw [c2 i, hh.table]
  rfl

/-- **C112 (partial).**  If the host's three standard streams are open, the child has these, the five objects and nothing else.  What is missing: a
host with a closed stream, see `closed_stream_filled`. -/
theorem child_table_open_partial (dbg : Bool) (fuel : Nat) (e : Env) (disk : List Byte → Option Obj) (s : Sys) (h : Host) (pm lib : Obj)
    (hg : s.good) (hf : s.forked = true) (hr : h.roomy e disk) (hpm : h.mapObj pm) (hlib : e.lib = some lib) (hfuel : 10 ≤ fuel)
    (hstd : ∀ i, i < 3 → h.t i ≠ none) :
    ∃ m t', make dbg fuel e disk s h = .made m ∧ m.child = some (.exec t') ∧
      ∀ i, t' i = wanted h.t ⟨h.next, true⟩ (if e.proc then Obj.readOnly pm else pm) ⟨h.next + 6, true⟩ lib ⟨h.next + 3, true⟩ i := by
  obtain ⟨m, t', h1, h2, h3⟩ := child_table dbg fuel e disk s h pm lib hg hf hr hpm hlib hfuel
  refine ⟨m, t', h1, h2, fun i => ?_⟩
  rw [h3 i]
  have hst : ∀ i, i < 3 → streams disk h i = h.t i := by
    intro i hi
    unfold streams
    rcases ht : h.t i with _ | o
    · exact absurd ht (hstd i hi)
    · rfl
  rcases i with _ | _ | _ | i
  · exact hst 0 (by omega)
  · exact hst 1 (by omega)
  · exact hst 2 (by omega)
  · rcases i with _ | _ | _ | _ | _ | i <;> rfl

theorem exRoomy : exHost.roomy ⟨64, some ⟨99, false⟩, true⟩ exDisk :=
  ⟨8, by omega, fun i hi => by simp [exHost]; omega, by decide +kernel⟩

example : exSys.good ∧ exSys.forked = true ∧ exHost.roomy ⟨64, some ⟨99, false⟩, true⟩ exDisk ∧ exHost.mapObj ⟨101, true⟩ ∧
    ∀ i, i < 3 → exHost.t i ≠ none :=
  ⟨⟨.inl rfl, rfl, rfl, rfl, rfl, rfl, rfl⟩, rfl, exRoomy, rfl, fun i hi => by simp [exHost, hi]⟩

/-- **C112 fails for every host with a closed standard stream.**  The child finds there, open for writing where that was, one of the
constructor's own descriptors: the shared memory for the first closed stream, and for the others what was opened next. -/
theorem closed_stream_filled (disk : List Byte → Option Obj) (h : Host) (i : Nat) (hi : i < 3) (hc : h.t i = none) :
    ∃ o ∈ created disk h, streams disk h i = some o ∧ (free h.t i = 0 → o = ⟨h.next, true⟩) ∧
      (free h.t i = 1 → h.pagemap = none → o = ⟨h.next + 1, true⟩) := by
  have hlen : 5 ≤ (created disk h).length := by
    rw [created_length, need]
    omega
  have hf := free_le h.t i
  have hlt : free h.t i < (created disk h).length := by omega
  refine ⟨(created disk h)[free h.t i], List.getElem_mem _, ?_, fun h0 => ?_, fun h1 hp => ?_⟩
  · simp only [streams, hc]
    exact List.getElem?_eq_getElem hlt
  · simp only [h0]
    simp [created]
  · simp only [h1]
    simp [created, hp]

/-- **C116 on Linux, exactly what is shared.**  Everything that the new sandbox has is new, the page map, the library, a library directory or the linker's
cache, or what the host has as a standard stream at that moment; and what the host has there it gets. -/
theorem child_objects (dbg : Bool) (fuel : Nat) (e : Env) (disk : List Byte → Option Obj) (s : Sys) (h : Host) (pm lib : Obj)
    (hg : s.good) (hf : s.forked = true) (hr : h.roomy e disk) (hpm : h.mapObj pm) (hlib : e.lib = some lib) (hfuel : 10 ≤ fuel) :
    ∃ m t', make dbg fuel e disk s h = .made m ∧ m.child = some (.exec t') ∧
      (∀ i o, t' i = some o → (i < 3 ∧ h.t i = some o) ∨ h.next ≤ o.id ∨ o.id = pm.id ∨ o = lib ∨ ∃ p, disk p = some o) ∧
      ∀ i o, i < 3 → h.t i = some o → t' i = some o := by
  obtain ⟨m, t', h1, h2, h3⟩ := child_table dbg fuel e disk s h pm lib hg hf hr hpm hlib hfuel
  have hs : ∀ i o, streams disk h i = some o → h.t i = some o ∨ h.next ≤ o.id ∨ ∃ p, disk p = some o := by
    intro i o ho
    unfold streams at ho
    split at ho
    · rename_i x hx
      cases ho
      exact .inl hx
    · right
      have hm := List.mem_of_getElem? ho
      simp only [created, opened, List.mem_append, List.mem_cons, List.not_mem_nil, or_false, List.mem_filterMap] at hm
      rcases hm with ((((rfl | hm) | ⟨d, -, hm⟩) | hm) | hm) | hm
      · simp
      · split at hm
        · simp only [List.mem_cons, List.not_mem_nil, or_false] at hm
          subst hm
          simp
        · simp at hm
      · exact .inr ⟨_, hm⟩
      · rcases hm with rfl | rfl <;> simp
      · split at hm
        · simp at hm
        · simp only [List.mem_cons, List.not_mem_nil, or_false] at hm
          subst hm
          simp
      · rcases hm with rfl | rfl <;> simp
  refine ⟨m, t', h1, h2, fun i o ho => ?_, fun i o hi ho => ?_⟩
  · rw [h3 i] at ho
    have key : ∀ i, i < 3 → streams disk h i = some o →
        (i < 3 ∧ h.t i = some o) ∨ h.next ≤ o.id ∨ o.id = pm.id ∨ o = lib ∨ ∃ p, disk p = some o := by
      intro i hi ho
      rcases hs i o ho with g | g | g
      · exact .inl ⟨hi, g⟩
      · exact .inr (.inl g)
      · exact .inr (.inr (.inr (.inr g)))
    rcases i with _ | _ | _ | _ | _ | _ | _ | _ | i
    · exact key 0 (by omega) ho
    · exact key 1 (by omega) ho
    · exact key 2 (by omega) ho
    all_goals simp only [wanted, Option.some.injEq, reduceCtorEq] at ho
    · subst ho
      simp
    · subst ho
      right; right; left
      split <;> rfl
    · subst ho
      simp
    · subst ho
      simp
    · subst ho
      simp
  · rw [h3 i]
    have : streams disk h i = some o := by simp only [streams, ho]
    rcases i with _ | _ | _ | i
    · exact this
    · exact this
    · exact this
    · omega

/-- **C116 fails on Linux for every host with a closed standard stream.**  The shared memory of its first sandbox takes the number of the first closed one, and as
long as it is open there, which is for ever (`Cycle`), every further sandbox has it, open for writing. -/
theorem neighbour_memory (dbg : Bool) (fuel : Nat) (e : Env) (disk : List Byte → Option Obj) (s1 s : Sys) (h h2 : Host) (m1 : Made) (pm lib : Obj)
    (hm1 : make dbg fuel e disk s1 h = .made m1) (i : Nat) (hi : i < 3) (hc : h.t i = none) (hfirst : ∀ j, j < i → h.t j ≠ none)
    (hk : h2.t i = m1.t i) (hg : s.good) (hf : s.forked = true) (hr : h2.roomy e disk) (hpm : h2.mapObj pm) (hlib : e.lib = some lib) (hfuel : 10 ≤ fuel) :
    ∃ m t', make dbg fuel e disk s h2 = .made m ∧ m.child = some (.exec t') ∧ t' i = some ⟨h.next, true⟩ := by
  obtain ⟨m, t', g1, g2, -, g3⟩ := child_objects dbg fuel e disk s h2 pm lib hg hf hr hpm hlib hfuel
  refine ⟨m, t', g1, g2, g3 i _ hi ?_⟩
  rw [hk]
  obtain ⟨t1, t2, t, shm, svc, own, rpc, cb, pmH, hh, hmk⟩ := (make_steps dbg fuel e disk s1 h).2 (early_made hm1)
  rw [hmk] at hm1
  have hfree : free h.t i = 0 := by
    rcases i with _ | _ | _ | i
    · rfl
    · simp [free, hfirst 0 (by omega)]
    · simp [free, hfirst 0 (by omega), hfirst 1 (by omega)]
    · omega
  have hti : t i = some ⟨h.next, true⟩ := by
    rw [hh.table]
    simp only [fill, hc, hfree]
    simp [created]
  refine (made_keeps hm1).2 i _ hti ?_ ?_
  · rintro rfl
    rw [hh.atRpc] at hti
    simp at hti
  · rintro rfl
    rw [hh.atCb] at hti
    simp at hti

/-- Nothing that the host has or can open is one of the objects that the constructor makes. -/
structure Fresh (disk : List Byte → Option Obj) (h : Host) (pm lib : Obj) : Prop where
  files : ∀ p o, disk p = some o → o.id < h.next ∧ o.id ≠ pm.id
  lib : lib.id < h.next ∧ lib.id ≠ pm.id
  old : h.pagemap ≠ none → pm.id < h.next
  streams : ∀ i, i < 3 → ∀ o, h.t i = some o → o.id ≠ pm.id

theorem free_two {t : Table} : 2 ≤ free t 3 ↔ ∃ i, i < 3 ∧ t i = none ∧ free t i = 1 := by
  simp only [free]
  constructor
  · intro hc
    by_cases h0 : t 0 = none <;> by_cases h1 : t 1 = none <;> by_cases h2 : t 2 = none <;> simp [h0, h1, h2] at hc
    · exact ⟨1, by omega, h1, by simp [free, h0]⟩
    · exact ⟨1, by omega, h1, by simp [free, h0]⟩
    · exact ⟨2, by omega, h2, by simp [free, h0, h1]⟩
    · exact ⟨2, by omega, h2, by simp [free, h0, h1]⟩
  · rintro ⟨i, hi, h1, h2⟩
    rcases i with _ | _ | _ | i
    · simp [free] at h2
    · simp only [free] at h2
      split at h2 <;> simp_all
    · simp only [free] at h2
      by_cases h0 : t 0 = none <;> by_cases h1' : t 1 = none <;> simp_all
    · omega

/-- **C48 for the whole constructor, exactly.**  The sandbox has no writable descriptor of the page map exactly if `/proc` is usable and it is
not the first sandbox of a host in which two or three of the standard streams are closed. -/
theorem pagemap_safe_iff (dbg : Bool) (fuel : Nat) (e : Env) (disk : List Byte → Option Obj) (s : Sys) (h : Host) (pm lib : Obj)
    (hg : s.good) (hf : s.forked = true) (hr : h.roomy e disk) (hpm : h.mapObj pm) (hlib : e.lib = some lib) (hfuel : 10 ≤ fuel)
    (hx : Fresh disk h pm lib) (hw : pm.wr = true) :
    ∃ m t', make dbg fuel e disk s h = .made m ∧ m.child = some (.exec t') ∧
      ((∀ i o, t' i = some o → o.id = pm.id → o.wr = false) ↔ e.proc = true ∧ (h.pagemap = none → free h.t 3 < 2)) := by
  obtain ⟨m, t', h1, h2, h3⟩ := child_table dbg fuel e disk s h pm lib hg hf hr hpm hlib hfuel
  refine ⟨m, t', h1, h2, fun hs => ⟨?_, fun hp => ?_⟩, fun ⟨hp, hc⟩ i o ho hid => ?_⟩
  · rcases hp : e.proc with _ | _
    · have := hs 4 pm (by rw [h3, hp]; rfl) rfl
      rw [hw] at this
      cases this
    · rfl
  · refine Classical.byContradiction fun hc => ?_
    obtain ⟨i, hi, hi1, hi2⟩ := free_two.1 (by omega : 2 ≤ free h.t 3)
    obtain ⟨o, -, ho, -, ho2⟩ := closed_stream_filled disk h i hi hi1
    rw [ho2 hi2 hp] at ho
    have hpe : pm = ⟨h.next + 1, true⟩ := by
      unfold Host.mapObj at hpm
      rw [hp] at hpm
      exact hpm
    have : t' i = some ⟨h.next + 1, true⟩ := by
      rw [h3 i]
      rcases i with _ | _ | _ | i
      · exact ho
      · exact ho
      · exact ho
      · omega
    have := hs i _ this (by rw [hpe])
    cases this
  · rw [h3 i] at ho
    have hpid : pm.id = h.next + 1 ∧ h.pagemap = none ∨ pm.id < h.next ∧ h.pagemap ≠ none := by
      rcases hpp : h.pagemap with _ | p
      · left
        unfold Host.mapObj at hpm
        rw [hpp] at hpm
        rw [hpm]
        exact ⟨rfl, rfl⟩
      · right
        exact ⟨hx.old (by simp [hpp]), by simp⟩
    -- a standard stream
    have key : ∀ i, i < 3 → streams disk h i = some o → False := by
      intro i hi hso
      unfold streams at hso
      split at hso
      · rename_i x hxi
        cases hso
        exact hx.streams i hi _ hxi hid
      · rename_i hni
        -- what comes after the shared memory and the page map is something else
        have rest : o ∈ opened disk ++ [⟨h.next + 2, true⟩, ⟨h.next + 3, true⟩] ++ (if h.service then [] else [⟨h.next + 4, true⟩]) ++
            [⟨h.next + 5, true⟩, ⟨h.next + 6, true⟩] → False := by
          intro hmem
          simp only [List.mem_append, List.mem_cons, List.not_mem_nil, or_false] at hmem
          rcases hmem with ((hm | hm) | hm) | hm
          · simp only [opened, List.mem_filterMap] at hm
            obtain ⟨d, -, hd⟩ := hm
            exact (hx.files _ _ hd).2 hid
          · rcases hm with rfl | rfl <;> simp only at hid <;> omega
          · split at hm
            · simp at hm
            · simp only [List.mem_cons, List.not_mem_nil, or_false] at hm
              rw [hm] at hid
              simp only at hid
              omega
          · rcases hm with rfl | rfl <;> simp only at hid <;> omega
        have hzero : o = ⟨h.next, true⟩ → False := by
          rintro rfl
          simp only at hid
          omega
        rcases hpp : h.pagemap with _ | p
        · have hne : free h.t i ≠ 1 := fun h1 => absurd (free_two.2 ⟨i, hi, hni, h1⟩) (by have := hc hpp; omega)
          have hcr : created disk h = ⟨h.next, true⟩ :: ⟨h.next + 1, true⟩ :: (opened disk ++ [⟨h.next + 2, true⟩, ⟨h.next + 3, true⟩] ++
              (if h.service then [] else [⟨h.next + 4, true⟩]) ++ [⟨h.next + 5, true⟩, ⟨h.next + 6, true⟩]) := by
            simp [created, hpp]
          rw [hcr] at hso
          rcases hn : free h.t i with _ | _ | n
          · rw [hn] at hso
            exact hzero (by simpa using hso.symm)
          · exact hne hn
          · rw [hn] at hso
            simp only [List.getElem?_cons_succ] at hso
            exact rest (List.mem_of_getElem? hso)
        · have hcr : created disk h = ⟨h.next, true⟩ :: (opened disk ++ [⟨h.next + 2, true⟩, ⟨h.next + 3, true⟩] ++
              (if h.service then [] else [⟨h.next + 4, true⟩]) ++ [⟨h.next + 5, true⟩, ⟨h.next + 6, true⟩]) := by
            simp [created, hpp]
          rw [hcr] at hso
          rcases hn : free h.t i with _ | n
          · rw [hn] at hso
            exact hzero (by simpa using hso.symm)
          · rw [hn] at hso
            simp only [List.getElem?_cons_succ] at hso
            exact rest (List.mem_of_getElem? hso)
    rcases i with _ | _ | _ | _ | _ | _ | _ | _ | i
    · exact (key 0 (by omega) ho).elim
    · exact (key 1 (by omega) ho).elim
    · exact (key 2 (by omega) ho).elim
    · simp only [wanted, Option.some.injEq] at ho
      subst ho
      simp only at hid
      omega
    · simp only [wanted, hp, if_true, Option.some.injEq] at ho
      rw [← ho]
      rfl
    · simp only [wanted, Option.some.injEq] at ho
      subst ho
      simp only at hid
      omega
    · simp only [wanted, Option.some.injEq] at ho
      subst ho
      exact absurd hid hx.lib.2
    · simp only [wanted, Option.some.injEq] at ho
      subst ho
      simp only at hid
      omega
    · simp [wanted] at ho

example : exSys.good ∧ exHost.roomy ⟨64, some ⟨99, false⟩, true⟩ exDisk ∧ exHost.mapObj ⟨101, true⟩ ∧ Fresh exDisk exHost ⟨101, true⟩ ⟨99, false⟩ := by
  refine ⟨⟨.inl rfl, rfl, rfl, rfl, rfl, rfl, rfl⟩, exRoomy, rfl, ⟨fun p o hp => ?_, ⟨by decide, by decide⟩, fun h => absurd rfl h, fun i hi o ho => ?_⟩⟩
  · simp only [exDisk, Option.some.injEq] at hp
    subst hp
    simp only [exHost]
    omega
  · simp only [exHost, hi, if_true, Option.some.injEq] at ho
    subst ho
    simp only
    omega

/-- The standard output of the host is closed, and its second sandbox has the memory of the first as standard output. -/
example : ∃ m1 m t', make false 10 ⟨64, some ⟨99, false⟩, true⟩ exDisk exSys { exHost with t := fun i => if i = 0 ∨ i = 2 then some ⟨i, true⟩ else none } =
      .made m1 ∧ m1.t 1 = some ⟨100, true⟩ ∧
    make false 10 ⟨64, some ⟨99, false⟩, true⟩ exDisk exSys ⟨fun i => if i < 3 then m1.t i else none, 200, none, true⟩ = .made m ∧ m.child = some (.exec t') ∧
    t' 1 = some ⟨100, true⟩ := by
  have h : madeAt (make false 10 ⟨64, some ⟨99, false⟩, true⟩ exDisk exSys
      { exHost with t := fun i => if i = 0 ∨ i = 2 then some ⟨i, true⟩ else none }) 1 = some (some ⟨100, true⟩) := by decide +kernel
  obtain ⟨m1, h1, h2⟩ := madeAt_some h
  obtain ⟨m, t', g1, g2, g3⟩ := neighbour_memory false 10 ⟨64, some ⟨99, false⟩, true⟩ exDisk exSys exSys _ ⟨fun i => if i < 3 then m1.t i else none, 200, none, true⟩
    m1 ⟨201, true⟩ ⟨99, false⟩ h1 1 (by omega) rfl (by decide) rfl ⟨.inl rfl, rfl, rfl, rfl, rfl, rfl, rfl⟩ rfl
    ⟨8, by omega, fun i hi => by simp; omega, by
      rw [created_length]
      have : 8 + need (opened exDisk).length true false + 5 ≤ 64 := by decide +kernel
      exact this⟩ rfl rfl (by omega)
  exact ⟨m1, m, t', h1, h2, g1, g2, g3⟩

/-- A daemon: descriptors 0 and 1 are closed.  Its first sandbox finds the page map of the host, open for writing, as its standard output. -/
theorem daemon_pagemap :
    ∃ m t', make false 10 ⟨64, some ⟨99, false⟩, true⟩ exDisk exSys { exHost with t := fun i => if i = 2 then some ⟨2, true⟩ else none } = .made m ∧
      m.child = some (.exec t') ∧ t' 0 = some ⟨100, true⟩ ∧ t' 1 = some ⟨101, true⟩ ∧ t' 4 = some ⟨101, false⟩ := by
  obtain ⟨m, t', h1, h2, h3⟩ := child_table false 10 ⟨64, some ⟨99, false⟩, true⟩ exDisk exSys
    { exHost with t := fun i => if i = 2 then some ⟨2, true⟩ else none } ⟨101, true⟩ ⟨99, false⟩
    ⟨.inl rfl, rfl, rfl, rfl, rfl, rfl, rfl⟩ rfl ⟨8, by omega, fun i hi => by simp; omega, by decide +kernel⟩ rfl rfl (by omega)
  exact ⟨m, t', h1, h2, (h3 0).trans (by decide +kernel), (h3 1).trans (by decide +kernel), h3 4⟩

end Verif.Make
