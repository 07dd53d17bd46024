import Verif.Capsicum.Model
import Verif.Start.Props

/-!
# Starting the child under Capsicum (property C71)
-/

namespace Verif.Capsicum

open Verif.Fd

/-! ### Specification -/

/-- Things to do with a descriptor; `other` stands for everything else, such as connecting a socket. -/
inductive Op where
  | read
  | write
  | mapRead
  | mapWrite
  | mapExec
  | truncate
  | lookup
  | sync
  | stat
  | other (n : Nat)
  deriving Repr, DecidableEq

/-- The rights that each needs, `rights(4)`. -/
def needs : Op → List Right
  | .read => [.read]
  | .write => [.write]
  | .mapRead => [.mmap, .read]
  | .mapWrite => [.mmap, .read, .write]
  | .mapExec => [.mmap, .mmapX]
  | .truncate => [.ftruncate]
  | .lookup => [.lookup]
  | .sync => [.fsync]
  | .stat => [.fstat]
  | .other n => [.other n]

/-- What a program may do with its descriptor. -/
def May (c : Child) (fd : Nat) (op : Op) : Prop := (c.fds fd).isSome ∧ ∀ r ∈ needs op, c.rights fd r = true

/-- What the child is meant to be able to do with each of its descriptors except the callback socket. -/
def meant : Nat → List Op
  | 0 => [.read]
  | 1 => [.write, .sync]
  | 2 => [.write, .sync]
  | 3 => [.read, .write, .mapRead, .mapWrite]
  | 4 => [.read, .mapRead]
  | 6 => [.read, .stat, .mapRead, .mapExec]
  | 7 => [.read, .write]
  | 8 => [.read, .stat, .lookup, .mapRead, .mapExec]
  | 9 => [.read, .stat, .lookup, .mapRead, .mapExec]
  | 10 => [.read, .stat, .lookup, .mapRead, .mapExec]
  | _ => []

/-- A child whose descriptors are all its own, with all rights, none from 8 up: what `start_child` hands over. -/
structure Fresh (c : Child) : Prop where
  all : ∀ i r, c.rights i r = true
  top : ∀ i, 8 ≤ i → c.fds i = none

/-! ### Lemmas -/

theorem openDir_next {lim : Nat} {c c' : Child} {d : Option Obj} {n : Nat}
    (h : openDir lim c d = ((n : Int), c')) :
    ∃ o, d = some o ∧ c'.fds = c.fds.put n (some o) ∧ c.fds n = none ∧ (∀ m, m < n → c.fds m ≠ none) ∧
      ∀ i r, c'.rights i r = if i = n then true else c.rights i r := by
  cases d with
  | none => simp [openDir] at h
  | some o =>
    cases hm : lowest lim c.fds with
    | none =>
      simp [openDir, create, hm] at h
    | some m =>
      simp only [openDir, create, hm, Prod.mk.injEq] at h
      obtain ⟨h1, h2⟩ := h
      have hmn : m = n := by omega
      subst hmn
      subst h2
      obtain ⟨-, h5, h6⟩ := lowest_some.1 hm
      refine ⟨o, rfl, rfl, h5, h6, fun i r => ?_⟩
      by_cases hi : i = m
      · simp [hi]
      · simp only [hi, if_false]
        rw [if_neg (by omega)]

theorem openDirs_three {a : Answers} {c c' : Child} (hd : a.dirs.length = 3)
    (hr : ∀ i r, c.rights i r = true) (h : openDirs a.lim c 8 a.dirs = some c') :
    ∃ d0 d1 d2, a.dirs = [some d0, some d1, some d2] ∧ c'.fds 8 = some d0 ∧ c'.fds 9 = some d1 ∧
      c'.fds 10 = some d2 ∧ (∀ i, i < 8 → c'.fds i = c.fds i ∧ c.fds i ≠ none) ∧
      (∀ i, 11 ≤ i → c'.fds i = c.fds i) ∧ ∀ i r, c'.rights i r = true := by
  obtain ⟨x0, x1, x2, hx⟩ : ∃ x0 x1 x2, a.dirs = [x0, x1, x2] := by
    match hm : a.dirs, hd with
    | [x0, x1, x2], _ => exact ⟨x0, x1, x2, rfl⟩
  rw [hx] at h
  simp only [openDirs] at h
  rcases h0 : openDir a.lim c x0 with ⟨f0, c0⟩
  rw [h0] at h; simp only at h
  split at h
  · rename_i e0
    rcases h1 : openDir a.lim c0 x1 with ⟨f1, c1⟩
    rw [h1] at h; simp only at h
    split at h
    · rename_i e1
      rcases h2 : openDir a.lim c1 x2 with ⟨f2, c2⟩
      rw [h2] at h; simp only at h
      split at h
      · rename_i e2
        simp at h; subst h
        subst e0 e1 e2
        obtain ⟨d0, rfl, p0, -, q0, r0⟩ := openDir_next (n := 8) h0
        obtain ⟨d1, rfl, p1, -, -, r1⟩ := openDir_next (n := 9) h1
        obtain ⟨d2, rfl, p2, -, -, r2⟩ := openDir_next (n := 10) h2
        refine ⟨d0, d1, d2, hx, ?_, ?_, ?_, ?_, ?_, ?_⟩
        · simp [p2, p1, p0, Table.put]
        · simp [p2, p1, Table.put]
        · simp [p2, Table.put]
        · intro i hi
          refine ⟨?_, q0 i hi⟩
          have : i ≠ 8 ∧ i ≠ 9 ∧ i ≠ 10 := by omega
          simp [p2, p1, p0, Table.put, this]
        · intro i hi
          have : i ≠ 8 ∧ i ≠ 9 ∧ i ≠ 10 := by omega
          simp [p2, p1, p0, Table.put, this]
        · intro i r
          rw [r2, r1, r0, hr]; simp
      · cases h
    · cases h
  · cases h

theorem limitFd_some {a : Answers} {c c' : Child} {fd : Nat} {rs : List Right}
    (h : limitFd a c fd rs = some c') :
    c'.fds = c.fds ∧ (c.fds fd).isSome ∧ ∀ i r, c'.rights i r = if i = fd then rs.contains r else c.rights i r := by
  unfold limitFd at h
  split at h
  · rename_i hc
    simp only [Option.some.injEq] at h; subst h
    exact ⟨rfl, hc.2.1, fun i r => rfl⟩
  · cases h

theorem limitAll_some {a : Answers} : ∀ (l : List (Nat × List Right)) {c c' : Child},
    (l.map (·.1)).Nodup → limitAll a c l = some c' →
    c'.fds = c.fds ∧ (∀ p ∈ l, (c.fds p.1).isSome ∧ ∀ r, c'.rights p.1 r = p.2.contains r) ∧
      ∀ i, i ∉ l.map (·.1) → ∀ r, c'.rights i r = c.rights i r := by
  intro l
  induction l with
  | nil => intro c c' _ h; simp [limitAll] at h; subst h; simp
  | cons p l ih =>
    intro c c' hn h
    obtain ⟨fd, rs⟩ := p
    simp only [limitAll] at h
    rcases h1 : limitFd a c fd rs with _ | c1
    · simp [h1] at h
    · simp only [h1] at h
      simp only [List.map_cons, List.nodup_cons] at hn
      obtain ⟨g1, g2, g3⟩ := limitFd_some h1
      obtain ⟨k1, k2, k3⟩ := ih hn.2 h
      refine ⟨k1.trans g1, ?_, ?_⟩
      · intro q hq
        simp only [List.mem_cons] at hq
        rcases hq with rfl | hq
        · refine ⟨g2, fun r => ?_⟩
          rw [k3 fd hn.1, g3]; simp
        · have := k2 q hq
          rw [g1] at this
          exact this
      · intro i hi r
        simp only [List.map_cons, List.mem_cons, not_or] at hi
        rw [k3 i hi.2, g3, if_neg hi.1]

/-- Every descriptor but 5 is limited to the rights for what is meant. -/
theorem limits_meant (fd : Nat) (h : fd < 11) (h5 : fd ≠ 5) :
    ∃ rs, (fd, rs) ∈ limits ∧ ∀ op, (∀ r ∈ needs op, rs.contains r = true) ↔ op ∈ meant fd := by
  have hcases : fd = 0 ∨ fd = 1 ∨ fd = 2 ∨ fd = 3 ∨ fd = 4 ∨ fd = 6 ∨ fd = 7 ∨ fd = 8 ∨ fd = 9 ∨ fd = 10 := by
    omega
  rcases hcases with rfl | rfl | rfl | rfl | rfl | rfl | rfl | rfl | rfl | rfl
  · exact ⟨[.read], by decide, fun op => by cases op <;> simp [needs, meant]⟩
  · exact ⟨[.write, .fsync], by decide, fun op => by cases op <;> simp [needs, meant]⟩
  · exact ⟨[.write, .fsync], by decide, fun op => by cases op <;> simp [needs, meant]⟩
  · exact ⟨mmapRW, by decide, fun op => by cases op <;> simp [needs, meant, mmapRW, mmapR]⟩
  · exact ⟨mmapR, by decide, fun op => by cases op <;> simp [needs, meant, mmapR]⟩
  · exact ⟨[.read, .fstat, .seek] ++ mmapRX, by decide,
      fun op => by cases op <;> simp [needs, meant, mmapRX, mmapR]⟩
  · exact ⟨[.write, .read], by decide, fun op => by cases op <;> simp [needs, meant]⟩
  all_goals exact ⟨[.read, .fstat, .lookup] ++ mmapRX, by decide,
      fun op => by cases op <;> simp [needs, meant, mmapRX, mmapR]⟩

/-! ### C71 -/

/-- **C71 (partial), what the program gets.**  If the library runner is executed at all, then all of 0 to 7 were
open, its descriptors are these and the three library directories at 8 to 10 and nothing else, and with each of them,
except the callback socket, it may do exactly what is meant: in particular the page map cannot be mapped for writing
nor written, the heap cannot be truncated, no library can be changed, and standard input cannot be written.

Missing: the callback socket, which keeps all rights (`callback_socket_unlimited`), and a parent with a closed
standard stream (`pagemap_writable_as_output`). -/
theorem limited_partial {a : Answers} {c c' : Child} {loc : String} {env : List String} (hf : Fresh c)
    (hd : a.dirs.length = 3) (h : execve a c loc = .exec c' env) :
    (∀ i, i < 8 → c'.fds i = c.fds i ∧ c.fds i ≠ none) ∧
      [c'.fds 8, c'.fds 9, c'.fds 10] = a.dirs ∧ (∀ i, 11 ≤ i → c'.fds i = none) ∧
      (∀ fd op, fd ≠ 5 → (May c' fd op ↔ op ∈ meant fd)) ∧
      env = [loc, "LD_LIBRARY_PATH_FDS=8:9:10"] := by
  unfold execve at h
  split at h
  · cases h
  · rename_i c1 hc1
    split at h
    · cases h
    · rename_i c2 hc2
      split at h
      · simp at h
        obtain ⟨rfl, rfl⟩ := h
        obtain ⟨d0, d1, d2, e0, e1, e2, e3, e4, e5, -⟩ := openDirs_three hd hf.all hc1
        obtain ⟨g1, g2, -⟩ := limitAll_some limits (by decide) hc2
        refine ⟨fun i hi => ?_, ?_, fun i hi => ?_, ?_, rfl⟩
        · rw [g1]; exact e4 i hi
        · rw [g1, e0, e1, e2, e3]
        · rw [g1, e5 i hi]; exact hf.top i (by omega)
        · intro fd op h5
          unfold May
          rw [g1]
          by_cases hb : 11 ≤ fd
          · have hz : c1.fds fd = none := by rw [e5 fd hb]; exact hf.top fd (by omega)
            have hm : meant fd = [] := by
              unfold meant
              split <;> first | omega | rfl
            simp [hz, hm]
          · have key : ∀ p ∈ limits, p.1 = fd → ((c1.fds fd).isSome ∧ ∀ r, c2.rights fd r = p.2.contains r) := by
              intro p hp he
              have := g2 p hp
              rw [he] at this
              exact this
            obtain ⟨rs, hrs, hop⟩ := limits_meant fd (by omega) h5
            obtain ⟨k1, k2⟩ := key _ hrs rfl
            simp only [k1, k2, true_and]
            exact hop op
      · cases h

/-- **C71 (violation).**  The callback socket keeps every right, whenever the program is executed: it is the one
descriptor for which `limit_fd` is not called, although the comment says that all are restricted. -/
theorem callback_socket_unlimited {a : Answers} {c c' : Child} {loc : String} {env : List String} (hf : Fresh c)
    (hd : a.dirs.length = 3) (h : execve a c loc = .exec c' env) (op : Op) : May c' 5 op := by
  unfold execve at h
  split at h
  · cases h
  · rename_i c1 hc1
    split at h
    · cases h
    · rename_i c2 hc2
      split at h
      · simp at h
        obtain ⟨rfl, rfl⟩ := h
        obtain ⟨d0, d1, d2, -, -, -, -, e4, -, e6⟩ := openDirs_three hd hf.all hc1
        obtain ⟨g1, -, g3⟩ := limitAll_some limits (by decide) hc2
        refine ⟨?_, fun r _ => ?_⟩
        · rw [g1, (e4 5 (by omega)).1]
          exact Option.isSome_iff_ne_none.2 (e4 5 (by omega)).2
        · rw [g3 5 (by decide), e6]
      · cases h

/-- With the descriptors below 8 open and none above, room for three more, the library directories present and no refusal, the program is executed. -/
theorem execve_runs {lim : Nat} {t' : Table} (low : ∀ i, i < 8 → t' i ≠ none) (top : ∀ i, 8 ≤ i → t' i = none) (hlim : 11 ≤ lim)
    (d0 d1 d2 : Obj) (loc : String) :
    ∃ c', execve ⟨lim, [some d0, some d1, some d2], true, true⟩ ⟨t', fun _ _ => true⟩ loc =
      .exec c' [loc, "LD_LIBRARY_PATH_FDS=8:9:10"] := by
  have l8 : lowest lim t' = some 8 := lowest_some.2 ⟨by omega, top 8 (by omega), fun m hm => low m hm⟩
  have l9 : lowest lim (t'.put 8 (some d0)) = some 9 := by
    refine lowest_some.2 ⟨by omega, ?_, fun m hm => ?_⟩
    · rw [put_ne _ _ (by omega)]; exact top 9 (by omega)
    · by_cases hm8 : m = 8
      · subst hm8; simp
      · rw [put_ne _ _ hm8]; exact low m (by omega)
  have l10 : lowest lim ((t'.put 8 (some d0)).put 9 (some d1)) = some 10 := by
    refine lowest_some.2 ⟨by omega, ?_, fun m hm => ?_⟩
    · rw [put_ne _ _ (by omega), put_ne _ _ (by omega)]; exact top 10 (by omega)
    · by_cases hm9 : m = 9
      · subst hm9; simp
      · rw [put_ne _ _ hm9]
        by_cases hm8 : m = 8
        · subst hm8; simp
        · rw [put_ne _ _ hm8]; exact low m (by omega)
  have hopen : ∃ c1, openDirs lim ⟨t', fun _ _ => true⟩ 8 [some d0, some d1, some d2] = some c1 := by
    simp [openDirs, openDir, create, l8, l9, l10]
  obtain ⟨c1, hc1⟩ := hopen
  obtain ⟨x0, x1, x2, -, e1, e2, e3, e4, -, e6⟩ := openDirs_three
    (a := ⟨lim, [some d0, some d1, some d2], true, true⟩) rfl (fun _ _ => rfl) hc1
  have hopn : ∀ i, i < 11 → (c1.fds i).isSome = true := by
    intro i hi
    by_cases h8 : i < 8
    · rw [(e4 i h8).1]; exact Option.isSome_iff_ne_none.2 (low i h8)
    · have : i = 8 ∨ i = 9 ∨ i = 10 := by omega
      rcases this with rfl | rfl | rfl
      · simp [e1]
      · simp [e2]
      · simp [e3]
  have hall : ∀ (l : List (Nat × List Right)) (c : Child), (l.map (·.1)).Nodup →
      (∀ p ∈ l, (c.fds p.1).isSome = true ∧ ∀ r, c.rights p.1 r = true) →
      ∃ c2, limitAll ⟨lim, [some d0, some d1, some d2], true, true⟩ c l = some c2 := by
    intro l
    induction l with
    | nil => intro c _ _; exact ⟨c, rfl⟩
    | cons p l ih =>
      intro c hn hp
      obtain ⟨fd, rs⟩ := p
      simp only [List.map_cons, List.nodup_cons] at hn
      have hc := hp (fd, rs) (by simp)
      simp only [limitAll, limitFd, hc.1, true_and]
      rw [if_pos (by simp [hc.2])]
      refine ih _ hn.2 ?_
      intro q hq
      have hqne : q.1 ≠ fd := by
        intro he
        exact hn.1 (he ▸ List.mem_map_of_mem hq)
      have := hp q (by simp [hq])
      simp only [hqne, if_false]
      exact this
  obtain ⟨c2, hc2⟩ := hall limits c1 (by decide) (fun p hp => ⟨hopn p.1 (by
    have : ∀ p ∈ limits, p.1 < 11 := by decide
    exact this p hp), e6 p.1⟩)
  exact ⟨c2, by simp only [execve, hc1, hc2, if_true]⟩

/-- **C71 (partial), a parent with open streams.**  With the three standard streams open in the parent, enough room
and the library and the library directories present, the child executes the library runner, with the five objects at
their numbers and the page map at 4 and nowhere else: it may be read and mapped for reading, and nothing else. -/
theorem started_limited_partial {fuel : Nat} {e : Start.Env} {t : Table} {hd : Start.Handles}
    {shm pm cb rpc lib d0 d1 d2 : Obj} (hr : Start.Room e.lim t) (hh : Start.Refer t hd shm pm cb rpc)
    (hlib : e.lib = some lib) (hf : 10 ≤ fuel) (hstd : ∀ i, i < 3 → t i ≠ none) (hproc : e.proc = false)
    (hpm : ∀ i o, i < 3 → t i = some o → o.id ≠ pm.id) (hlim : 11 ≤ e.lim) (loc : String)
    (hne : shm.id ≠ pm.id ∧ cb.id ≠ pm.id ∧ rpc.id ≠ pm.id ∧ lib.id ≠ pm.id ∧ d0.id ≠ pm.id ∧ d1.id ≠ pm.id ∧
      d2.id ≠ pm.id) :
    ∃ t' hs c', Start.startChild fuel e t hd = (.exec t', hs) ∧
      execve ⟨e.lim, [some d0, some d1, some d2], true, true⟩ ⟨t', fun _ _ => true⟩ loc =
        .exec c' [loc, "LD_LIBRARY_PATH_FDS=8:9:10"] ∧
      c'.fds 3 = some shm ∧ c'.fds 4 = some pm ∧ c'.fds 5 = some cb ∧ c'.fds 6 = some lib ∧ c'.fds 7 = some rpc ∧
      ∀ i o, c'.fds i = some o → o.id = pm.id → ∀ op, May c' i op → op = .read ∨ op = .mapRead := by
  obtain ⟨t', hs, h1, h2⟩ := Start.child_descriptors_partial hr hh hlib hf hstd
  rw [hproc] at h2
  simp only [Bool.false_eq_true, if_false] at h2
  have low : ∀ i, i < 8 → t' i ≠ none := by
    intro i hi
    rw [h2]
    rcases i with _ | _ | _ | _ | _ | _ | _ | _ | i <;> simp [Start.wanted]
    · exact hstd 0 (by omega)
    · exact hstd 1 (by omega)
    · exact hstd 2 (by omega)
    · omega
  have top : ∀ i, 8 ≤ i → t' i = none := by
    intro i hi
    rw [h2]
    rcases i with _ | _ | _ | _ | _ | _ | _ | _ | i <;> simp [Start.wanted] at hi ⊢
  have hex := execve_runs low top hlim d0 d1 d2 loc
  obtain ⟨c', hc'⟩ := hex
  obtain ⟨g1, g2, g3, g4, -⟩ := limited_partial (c := ⟨t', fun _ _ => true⟩) ⟨fun _ _ => rfl, top⟩ rfl hc'
  simp only [List.cons.injEq, and_true] at g2
  have at' : ∀ i, i < 8 → c'.fds i = Start.wanted t shm pm cb lib rpc i := fun i hi => ((g1 i hi).1).trans (h2 i)
  refine ⟨t', hs, c', h1, hc', at' 3 (by omega), at' 4 (by omega), at' 5 (by omega), at' 6 (by omega),
    at' 7 (by omega), ?_⟩
  intro i o ho hid op hop
  have hi11 : i < 11 := by
    by_cases h : 11 ≤ i
    · rw [g3 i h] at ho; cases ho
    · omega
  have hi4 : i = 4 := by
    by_cases h8 : i < 8
    · rw [at' i h8] at ho
      rcases i with _ | _ | _ | _ | _ | _ | _ | _ | i <;> simp [Start.wanted] at ho
      · exact absurd hid (hpm 0 o (by omega) ho)
      · exact absurd hid (hpm 1 o (by omega) ho)
      · exact absurd hid (hpm 2 o (by omega) ho)
      · subst ho; exact absurd hid hne.1
      · rfl
      · subst ho; exact absurd hid hne.2.1
      · subst ho; exact absurd hid hne.2.2.2.1
      · subst ho; exact absurd hid hne.2.2.1
    · have : i = 8 ∨ i = 9 ∨ i = 10 := by omega
      rcases this with rfl | rfl | rfl
      · rw [g2.1] at ho; cases ho; exact absurd hid hne.2.2.2.2.1
      · rw [g2.2.1] at ho; cases ho; exact absurd hid hne.2.2.2.2.2.1
      · rw [g2.2.2] at ho; cases ho; exact absurd hid hne.2.2.2.2.2.2
  subst hi4
  have := (g4 4 op (by omega)).1 hop
  simpa [meant] using this

/-- A parent that was started with its standard output closed; its page map is at 3. -/
def exT1 : Table := fun i => if i ≠ 1 ∧ i < 9 then some ⟨10 + i, true⟩ else none

/-- What the program finds at a descriptor, and whether it may write. -/
def finds : Out → Nat → Option (Option Obj × Bool)
  | .exec c _, i => some (c.fds i, c.rights i .write)
  | _, _ => none

/-- The child of that parent, up to the execution of the program. -/
def exStart : Option (Option Obj × Bool) :=
  match Start.startChild 10 ⟨1024, some ⟨99, false⟩, false⟩ exT1 ⟨8, 3, 5, 6⟩ with
  | (.exec t', _) =>
    finds (execve ⟨1024, [some ⟨50, false⟩, some ⟨51, false⟩, some ⟨52, false⟩], true, true⟩ ⟨t', fun _ _ => true⟩ "l") 1
  | _ => none

/-- **C71 (violation).**  With standard output closed in the parent, the copy of the page map that `move_fd` leaves
at 1 is taken for standard output: the program may write to the page map. -/
theorem pagemap_writable_as_output :
    exT1 1 = none ∧ Start.Refer exT1 ⟨8, 3, 5, 6⟩ ⟨18, true⟩ ⟨13, true⟩ ⟨16, true⟩ ⟨15, true⟩ ∧
      ∃ t' hs c' env, Start.startChild 10 ⟨1024, some ⟨99, false⟩, false⟩ exT1 ⟨8, 3, 5, 6⟩ = (.exec t', hs) ∧
        execve ⟨1024, [some ⟨50, false⟩, some ⟨51, false⟩, some ⟨52, false⟩], true, true⟩ ⟨t', fun _ _ => true⟩ "l" =
          .exec c' env ∧ c'.fds 1 = some ⟨13, true⟩ ∧ May c' 1 .write := by
  refine ⟨rfl, ⟨by decide, by decide, by decide, by decide⟩, ?_⟩
  have h : exStart = some (some ⟨13, true⟩, true) := by decide +kernel
  unfold exStart at h
  split at h
  · rename_i t' hs ht
    cases hx : execve ⟨1024, [some ⟨50, false⟩, some ⟨51, false⟩, some ⟨52, false⟩], true, true⟩ ⟨t', fun _ _ => true⟩ "l" with
    | exec c' env =>
      rw [hx] at h
      simp only [finds, Option.some.injEq, Prod.mk.injEq] at h
      refine ⟨t', hs, c', env, ht, hx, h.1, ?_, ?_⟩
      · simp [h.1]
      · intro r hr
        simp [needs] at hr
        rw [hr]; exact h.2
    | abort => rw [hx] at h; cases h
    | exit => rw [hx] at h; cases h
  · cases h

/-- The hypotheses of `started_limited_partial`, and with it those of `limited_partial` and
`callback_socket_unlimited`, can be met. -/
example : ∃ t' hs c', Start.startChild 10 ⟨1024, some ⟨99, false⟩, false⟩ Start.exT Start.exH = (.exec t', hs) ∧
    execve ⟨1024, [some ⟨50, false⟩, some ⟨51, false⟩, some ⟨52, false⟩], true, true⟩ ⟨t', fun _ _ => true⟩ "l" =
      .exec c' ["l", "LD_LIBRARY_PATH_FDS=8:9:10"] ∧
    c'.fds 3 = some ⟨14, true⟩ ∧ c'.fds 4 = some ⟨13, true⟩ ∧ c'.fds 5 = some ⟨16, true⟩ ∧
    c'.fds 6 = some ⟨99, false⟩ ∧ c'.fds 7 = some ⟨15, true⟩ ∧
    ∀ i o, c'.fds i = some o → o.id = 13 → ∀ op, May c' i op → op = .read ∨ op = .mapRead :=
  started_limited_partial (e := ⟨1024, some ⟨99, false⟩, false⟩) (pm := ⟨13, true⟩) Start.exRoom Start.exRefer rfl
    (by decide) (fun i hi => by simp [Start.exT]; omega) rfl
    (fun i o hi ho => by simp [Start.exT] at ho; rw [← ho.2]; simp; omega) (by decide) "l" (by decide)

/-- `open` gives numbers below the limit only. -/
theorem openDir_below {lim : Nat} {c c' : Child} {d : Option Obj} {n : Nat}
    (h : openDir lim c d = ((n : Int), c')) : n < lim := by
  cases d with
  | none => simp [openDir] at h
  | some o =>
    cases hm : lowest lim c.fds with
    | none => simp [openDir, create, hm] at h
    | some m =>
      simp only [openDir, create, hm, Prod.mk.injEq] at h
      have hmn : m = n := by omega
      subst hmn
      exact (lowest_some.1 hm).1

/-- `limit_fd` sees only whether the rights can be limited. -/
theorem limitAll_congr {a b : Answers} (h : a.limits = b.limits) :
    ∀ (l : List (Nat × List Right)) (c : Child), limitAll a c l = limitAll b c l
  | [], _ => rfl
  | (fd, rs) :: l, c => by
    have e : limitFd a c fd rs = limitFd b c fd rs := by simp only [limitFd, h]
    simp only [limitAll, e]
    cases limitFd b c fd rs with
    | none => rfl
    | some c' => exact limitAll_congr h l c'

/-- The three directories get the numbers that the rest of the function takes for granted. -/
structure Numbered (a : Answers) (c : Child) : Prop where
  low : ∀ i, i < 8 → c.fds i ≠ none
  lim : 11 ≤ a.lim
  dirs : ∀ d ∈ a.dirs, d ≠ none

/-- How the start of a child under Capsicum ends, whatever the parent leaves open and the system answers. The program
is executed exactly when the first eight descriptors are open, three more can be opened, the library directories exist,
and the system limits the rights and switches tracing off. If a directory does not get its number the invariant
fails; otherwise, if the rights cannot be limited, `err` ends the child; otherwise, if tracing stays on, the other
invariant fails. -/
theorem execve_ends {a : Answers} {c : Child} (hf : Fresh c) (hd : a.dirs.length = 3) (loc : String) :
    (¬ Numbered a c → execve a c loc = .abort) ∧
    (Numbered a c → a.limits = false → execve a c loc = .exit) ∧
    (Numbered a c → a.limits = true → a.procctl = false → execve a c loc = .abort) ∧
    (Numbered a c → a.limits = true → a.procctl = true →
      ∃ c', execve a c loc = .exec c' [loc, "LD_LIBRARY_PATH_FDS=8:9:10"]) := by
  have runs : Numbered a c → ∃ c1 c2, openDirs a.lim c 8 a.dirs = some c1 ∧
      limitAll ⟨a.lim, a.dirs, true, true⟩ c1 limits = some c2 := by
    intro hn
    obtain ⟨x0, x1, x2, hx⟩ : ∃ x0 x1 x2, a.dirs = [x0, x1, x2] := by
      match hm : a.dirs, hd with
      | [x0, x1, x2], _ => exact ⟨x0, x1, x2, rfl⟩
    have hdirs := hn.dirs
    rw [hx] at hdirs
    simp only [List.mem_cons, List.not_mem_nil, or_false, forall_eq_or_imp, forall_eq] at hdirs
    obtain ⟨h0, h1, h2⟩ := hdirs
    cases x0 with
    | none => exact absurd rfl h0
    | some d0 =>
    cases x1 with
    | none => exact absurd rfl h1
    | some d1 =>
    cases x2 with
    | none => exact absurd rfl h2
    | some d2 =>
    have hc : c = ⟨c.fds, fun _ _ => true⟩ := by
      cases c with
      | mk f r =>
        have : r = fun _ _ => true := by funext i q; exact hf.1 i q
        rw [this]
    obtain ⟨c', he⟩ := execve_runs hn.low hf.2 hn.lim d0 d1 d2 loc
    rw [← hc] at he
    rw [hx]
    simp only [execve] at he
    cases h1 : openDirs a.lim c 8 [some d0, some d1, some d2] with
    | none => rw [h1] at he; cases he
    | some c1 =>
      rw [h1] at he
      simp only at he
      cases h2 : limitAll ⟨a.lim, [some d0, some d1, some d2], true, true⟩ c1 limits with
      | none => rw [h2] at he; cases he
      | some c2 => exact ⟨c1, c2, rfl, h2⟩
  refine ⟨fun hn => ?_, fun hn hl => ?_, fun hn hl hp => ?_, fun hn hl hp => ?_⟩
  · cases ho : openDirs a.lim c 8 a.dirs with
    | none => simp only [execve, ho]
    | some c1 =>
      refine absurd ?_ hn
      obtain ⟨d0, d1, d2, hx, -, -, -, hlow, -, -⟩ := openDirs_three hd hf.1 ho
      refine ⟨fun i hi => (hlow i hi).2, ?_, ?_⟩
      · rw [hx] at ho
        simp only [openDirs] at ho
        split at ho
        · split at ho
          · split at ho
            · rename_i h10
              have := openDir_below (n := 10) (Prod.ext h10 rfl)
              omega
            · cases ho
          · cases ho
        · cases ho
      · rw [hx]; simp
  · obtain ⟨c1, -, h1, -⟩ := runs hn
    have : limitAll a c1 limits = none := by simp [limits, limitAll, limitFd, hl]
    simp only [execve, h1, this]
  · obtain ⟨c1, c2, h1, h2⟩ := runs hn
    rw [← limitAll_congr (a := a) (by rw [hl])] at h2
    simp only [execve, h1, h2, hp, Bool.false_eq_true, if_false]
  · obtain ⟨c1, c2, h1, h2⟩ := runs hn
    rw [← limitAll_congr (a := a) (by rw [hl])] at h2
    exact ⟨c2, by simp only [execve, h1, h2, hp, if_true]⟩

/-- A child with its first eight descriptors open. -/
def exChild : Child := ⟨fun i => if i < 8 then some ⟨10 + i, true⟩ else none, fun _ _ => true⟩

/-- The hypotheses of `execve_ends` can be met, with each of its ends. -/
example : Fresh exChild ∧
    execve ⟨1024, [some ⟨50, false⟩, some ⟨51, false⟩, some ⟨52, false⟩], true, false⟩ exChild "l" = .abort ∧
    execve ⟨1024, [some ⟨50, false⟩, some ⟨51, false⟩, some ⟨52, false⟩], false, true⟩ exChild "l" = .exit ∧
    execve ⟨1024, [some ⟨50, false⟩, none, some ⟨52, false⟩], true, true⟩ exChild "l" = .abort ∧
    ∃ c', execve ⟨1024, [some ⟨50, false⟩, some ⟨51, false⟩, some ⟨52, false⟩], true, true⟩ exChild "l" =
      .exec c' ["l", "LD_LIBRARY_PATH_FDS=8:9:10"] := by
  have f : Fresh exChild := ⟨fun _ _ => rfl, fun i hi => by simp [exChild]; omega⟩
  have n : ∀ l p, Numbered ⟨1024, [some ⟨50, false⟩, some ⟨51, false⟩, some ⟨52, false⟩], l, p⟩ exChild := fun l p =>
    ⟨fun i hi => by simp [exChild, hi], (by show 11 ≤ 1024; omega), by simp⟩
  exact ⟨f, (execve_ends f rfl "l").2.2.1 (n _ _) rfl rfl, (execve_ends f rfl "l").2.1 (n _ _) rfl,
    (execve_ends f rfl "l").1 (fun h => by simpa using h.dirs), (execve_ends f rfl "l").2.2.2 (n _ _) rfl rfl⟩

end Verif.Capsicum
