import Verif.BsdEnd.Lemmas

/-!
# A system call of the sandboxed program on FreeBSD, end to end: theorems
-/

namespace Verif.BsdEnd

open Verif.Path (txt)
open Verif.FileTree (Export exHist)
open Verif.FileTree.Spec (cut)
open Verif.PathSyscall.Spec (join)
open Verif.Strings (asNat)
open Verif.ChildArgs (Child InHeap bytesAt)
open Verif.Syscall (CInt found)
open Verif.EndToEnd (Want Outside scratch reqOf apart_of_lt apart_of_gt)
open Verif.FreeBsd (Regs Info libc OnlyResult trapCap asks wanted trapped_faithful trapped_faithful_old openat_absolute
  argRegs)

theorem wanted_asksPath {c : FreeBsd.Call} (hl : 5 ≤ c.args.length) {want : Want} {path sb : Word}
    (h : asksPath c = some (want, path, sb)) : wanted c = some (reqOf path sb want) ∧ c.nr ≠ 499 ∧
      ∀ f m, want = .open_ f m → m.toNat < 65536 := by
  obtain ⟨nr, args⟩ := c
  rcases args with _ | ⟨a0, _ | ⟨a1, _ | ⟨a2, _ | ⟨a3, rest⟩⟩⟩⟩
  · simp at hl
  · simp at hl
  · simp at hl
  · simp at hl
  simp only [asksPath] at h
  simp only [wanted]
  by_cases h5 : nr = 5
  · subst h5
    simp at h
    obtain ⟨rfl, rfl, rfl⟩ := h
    simp [reqOf]
    omega
  by_cases h188 : nr = 188
  · subst h188
    simp at h
    obtain ⟨rfl, rfl, rfl⟩ := h
    simp [reqOf]
  by_cases h33 : nr = 33
  · subst h33
    simp at h
    obtain ⟨rfl, rfl, rfl⟩ := h
    simp [reqOf]
  · rw [if_neg h5, if_neg h188, if_neg h33] at h
    cases h

/-- What a call gives on FreeBSD: what it means for the text that the program passed, in the result register and the carry
flag, with everything else in the registers as it was; the host's calls; the child's blocks free again, and its memory as
before apart from them, the frame, and for `stat` the 224 bytes at the buffer. -/
def Works (w : World) (hist : List Export) (c : Child) (n : Nat) (i : Info) (r : Regs) (want : Want) (sb : Word)
    (s : List Byte) : Prop :=
  ∃ r' log c' ans, trap w c s.length i r = .ok (r', log, c') ∧ Meant hist w.bsd w.recv s want ans log ∧
    libc r' = found ans ∧ OnlyResult r r' ∧ c'.live = c.live ∧
    (∀ x, Outside (scratch w.toWorld c n) x → (want = .stat → Outside [(sb, 224)] x) → c'.mem x = c.mem x) ∧
    (want = .stat → Filled w c c' sb ans log)

/-! ## C121 -/

/-- **C121.**  A program in a sandbox on FreeBSD makes the call `open`, `access` or `freebsd11_stat`, directly or through
`syscall` or `__syscall`, and Capsicum refuses it.  Whatever the exports, the memory and the answers of the host's kernel:
the call ends, and the program finds what the call means for the text that it passed (`Works`).

Partial: for `freebsd11_stat` the conditions ask for 224 bytes at the buffer, of which the program's structure has 120, and
the bytes are those of another structure (`BsdPath.stat_overruns`). -/
theorem bsd_end_to_end_partial {w : World} {hist : List Export} {users : List Nat} (hw : Setup w hist users) {c : Child}
    {n : Nat} {i : Info} {r : Regs} {code : CInt} {want : Want} {path sb : Word} {s : List Byte}
    (hcode : i.code = trapCap) (hi : i.syscall = some code) (hcall : asksPath (asks code r) = some (want, path, sb))
    (hr : Ready w c n want path sb s) : Works w hist c n i r want sb s := by
  obtain ⟨hwant, hne, hmode⟩ := wanted_asksPath (FreeBsd.asks_length code r) hcall
  obtain ⟨rep, log, c', ans, h1, h2, h3, h4, h5, h6, h7⟩ := gives hw hr hmode
  have hhost : hostOf w c s.length (reqOf path sb want) = rep := by rw [hostOf, h1]
  obtain ⟨r', e1, e2, e3⟩ := trapped_faithful
    (v := ⟨hostOf w c s.length, w.pid, w.str, fun f => f⟩) hcode hi hwant (fun h => absurd h hne) h3
    (by simp only [hhost]; exact h4)
  exact ⟨r', log, c', ans, by rw [trap, e1]; simp only [h1], h2, e2, e3, h5, h6, h7⟩

/-- **C121, systems without `si_syscall`**: the same for calls made directly. -/
theorem bsd_end_to_end_old_partial {w : World} {hist : List Export} {users : List Nat} (hw : Setup w hist users)
    {c : Child} {n : Nat} {i : Info} {r : Regs} {want : Want} {path sb : Word} {s : List Byte}
    (hcode : i.code = trapCap) (hi : i.syscall = none)
    (hcall : asksPath ⟨r.rax.setWidth 32, [r.rdi, r.rsi, r.rdx, r.r10, r.r8, r.r9]⟩ = some (want, path, sb))
    (hr : Ready w c n want path sb s) : Works w hist c n i r want sb s := by
  obtain ⟨hwant, hne, hmode⟩ := wanted_asksPath (by simp) hcall
  obtain ⟨rep, log, c', ans, h1, h2, h3, h4, h5, h6, h7⟩ := gives hw hr hmode
  have hhost : hostOf w c s.length (reqOf path sb want) = rep := by rw [hostOf, h1]
  obtain ⟨r', e1, e2, e3⟩ := trapped_faithful_old
    (v := ⟨hostOf w c s.length, w.pid, w.str, fun f => f⟩) hcode hi hwant (fun h => absurd h hne) h3
    (by simp only [hhost]; exact h4)
  exact ⟨r', log, c', ans, by rw [trap, e1]; simp only [h1], h2, e2, e3, h5, h6, h7⟩

/-- **C121, `openat`** with an absolute path, which is what the C library calls for `open`: the program finds what `open`
of that path means, whatever the directory it passes. -/
theorem bsd_openat_end_to_end {w : World} {hist : List Export} {users : List Nat} (hw : Setup w hist users) {c : Child}
    {n : Nat} {i : Info} {r : Regs} {code : CInt} {d p f m : Word} {l : List Word} {s : List Byte}
    (hcode : i.code = trapCap) (hi : i.syscall = some code) (hc : asks code r = ⟨499, d :: p :: f :: m :: l⟩)
    (hstr : w.str p = some s) (habs : s.head? = some 47)
    (hr : Ready w c n (.open_ (f.setWidth 32) ((m.setWidth 16).setWidth 32)) p 0 s) :
    Works w hist c n i r (.open_ (f.setWidth 32) ((m.setWidth 16).setWidth 32)) 0 s := by
  obtain ⟨rep, log, c', ans, h1, h2, h3, h4, h5, h6, h7⟩ := gives hw hr (by
    intro _ _ e
    cases e
    simp only [BitVec.toNat_setWidth]
    omega)
  have hz : p ≠ 0 := (hr.objs (p, s.length + 1) (by simp [objects])).1.1
  have hhost : hostOf w c s.length (reqOf p 0 (.open_ (f.setWidth 32) ((m.setWidth 16).setWidth 32))) = rep := by
    rw [hostOf, h1]
  obtain ⟨r', e1, e2, e3⟩ := openat_absolute
    (v := ⟨hostOf w c s.length, w.pid, w.str, fun f => f⟩) hcode hi hc hz hstr habs h3
    (by simp only [reqOf] at hhost; simp only [hhost]; exact h4)
  refine ⟨r', log, c', ans, ?_, h2, e2, e3, h5, h6, h7⟩
  rw [trap, e1]
  simp only [reqOf] at h1
  simp only [h1]

/-- **C121, what cannot be asked.**  `access` of a path at which a file is exported makes the host pass a null path to its
kernel, on which FreeBSD fails whatever the permissions: with a kernel that gives an error `e` for that, the program finds
`e` for every mode, the files that it may open included. -/
theorem access_of_a_file_fails {w : World} {hist : List Export} {users : List Nat} (hw : Setup w hist users) {c : Child}
    {n : Nat} {i : Info} {r : Regs} {code : CInt} {mode : BitVec 32} {path : Word} {s : List Byte}
    (hcode : i.code = trapCap) (hi : i.syscall = some code)
    (hcall : asksPath (asks code r) = some (.access mode, path, 0)) (hr : Ready w c n (.access mode) path 0 s)
    {names : List (List Byte)} {h : Int} (hres : Path.Spec.resolve [] (cut s) = some names)
    (ha : FileTree.Spec.Answers (FileTree.specHistory hist) names h [])
    (e : Nat) (hk : ∀ l fd m fl, w.bsd l (.faccessat fd none m fl) = (-1, (e : Int))) :
    ∃ r' log c', trap w c s.length i r = .ok (r', log, c') ∧ libc r' = (-1, some e) := by
  obtain ⟨r', log, c', ans, h1, h2, h3, _⟩ := bsd_end_to_end_partial hw hcode hi hcall hr
  refine ⟨r', log, c', h1, ?_⟩
  cases h2 with
  | climbs _ hn => rw [hres] at hn; cases hn
  | absent _ names' hn hall => rw [hres] at hn; cases hn; exact absurd ha (hall _ _)
  | access names' h' rest _ op hn ha' hop =>
    rw [hres] at hn; cases hn
    have u1 := (FileTree.lookup_refines hist hw.base.short ⟨false, names⟩ h ⟨false, []⟩).2 ⟨rfl, ha⟩
    have u2 := (FileTree.lookup_refines hist hw.base.short ⟨false, names⟩ h' ⟨false, rest⟩).2 ⟨rfl, ha'⟩
    rw [u1] at u2
    cases u2
    simp only [if_true] at hop
    subst hop
    rw [h3, hk]
    simp [EndToEnd.intAnswer, found]

/-! ### Cases that meet the conditions -/

/-- `/lib` is exported as descriptor 5 of the host; every call of the host's kernel gives 9, except those with a null
path, which give `EFAULT`. -/
def exWorld : World where
  toWorld := EndToEnd.exWorld
  bsd := fun _ op => match op with
    | .faccessat _ none _ _ => (-1, 14)
    | _ => (9, 0)
  bsdStat := fun _ => List.replicate 224 7

/-- As for Linux, with larger blocks. -/
def exChild : Child := EndToEnd.exChild

theorem exSetup : Setup exWorld exHist [3] where
  base := EndToEnd.exSetup
  bsd := by
    intro l op
    simp only [exWorld]
    split <;> simp
  bsdStat := fun _ => List.length_replicate

theorem exReady (want : Want) : Ready exWorld exChild 224 want 0x5000 0x19000 (txt "/lib/x") where
  room := by decide
  string := EndToEnd.exString
  objs := by
    intro o ho
    have hl : (txt "/lib/x").length = 6 := rfl
    have : o = (0x5000, 7) ∨ o = (0x19000, 224) := by
      cases want <;> simp_all [objects]
    rcases this with rfl | rfl
    · exact ⟨⟨by decide, .inr ⟨by decide, by decide⟩⟩, apart_of_lt (by decide) (by decide)⟩
    · exact ⟨⟨by decide, .inl (by simp only [InHeap]; decide)⟩, apart_of_lt (by decide) (by decide)⟩
  stack := ⟨by decide, .inl (by simp only [InHeap]; decide)⟩
  pool := by
    have hm : exChild.mallocs.take 3 = [0x18000, 0x18200, 0x18400] := rfl
    have hl : (txt "/lib/x").length = 6 := rfl
    refine ⟨by decide, ?_, ?_, ?_⟩
    · rw [hm]
      intro p hp
      simp only [List.mem_cons, List.not_mem_nil, or_false] at hp
      rcases hp with rfl | rfl | rfl <;> (simp only [InHeap]; decide)
    · rw [hm]
      intro p hp o ho
      have : o = (0x19800, 16) ∨ o = (0x5000, 7) ∨ o = (0x19000, 224) := by
        cases want <;> simp_all [objects, exWorld, EndToEnd.exWorld] <;> exact Or.imp_right Or.inl ho
      simp only [List.mem_cons, List.not_mem_nil, or_false] at hp
      rcases hp with rfl | rfl | rfl <;> rcases this with rfl | rfl | rfl <;>
        first
        | exact apart_of_lt (by decide) (by decide)
        | exact apart_of_gt (by decide) (by decide)
    · rw [hm]
      simp only [List.pairwise_cons, List.mem_cons, List.not_mem_nil, or_false, forall_eq_or_imp, forall_eq,
        List.Pairwise.nil, and_true, false_implies, implies_true]
      exact ⟨⟨apart_of_gt (by decide) (by decide), apart_of_gt (by decide) (by decide)⟩,
        apart_of_gt (by decide) (by decide)⟩

/-- `freebsd11_stat("/lib/x", buf)`, directly and through `syscall`. -/
example : Works exWorld exHist exChild 224 ⟨5, some 188⟩ ⟨188, 0x5000, 0x19000, 0, 0, 0, 0, 0x700, 1⟩ .stat 0x19000
      (txt "/lib/x") ∧
    Works exWorld exHist exChild 224 ⟨5, some 0⟩ ⟨0, 188, 0x5000, 0x19000, 0, 0, 0, 0x700, 1⟩ .stat 0x19000
      (txt "/lib/x") :=
  ⟨bsd_end_to_end_partial exSetup rfl rfl rfl (exReady .stat), bsd_end_to_end_partial exSetup rfl rfl rfl (exReady .stat)⟩

/-- `access("/lib/x", 4)` on an older system. -/
example : Works exWorld exHist exChild 224 ⟨5, none⟩ ⟨33, 0x5000, 4, 0, 0, 0, 0, 0x700, 1⟩ (.access 4) 0
      (txt "/lib/x") :=
  have h := exReady (.access 4)
  bsd_end_to_end_old_partial exSetup rfl rfl rfl ⟨h.room, h.string, h.objs, h.stack, h.pool⟩

/-- `openat(AT_FDCWD, "/lib/x", 0)`. -/
example : Works exWorld exHist exChild 224 ⟨5, some 499⟩ ⟨499, 0xffffff9c, 0x5000, 0, 0, 0, 0, 0x700, 1⟩ (.open_ 0 0) 0
      (txt "/lib/x") :=
  have h := exReady (.open_ 0 0)
  bsd_openat_end_to_end exSetup (i := ⟨5, some 499⟩) (r := ⟨499, 0xffffff9c, 0x5000, 0, 0, 0, 0, 0x700, 1⟩)
    (d := 0xffffff9c) (p := 0x5000) (f := 0) (m := 0) (l := [0, 0]) rfl rfl rfl (by decide +kernel) (by decide +kernel)
    ⟨h.room, h.string, h.objs, h.stack, h.pool⟩

/-- The file `/lib/x` is exported as descriptor 8. -/
def exFiles : List Export := [⟨false, txt "/lib/x", 8⟩]

/-- The host has exported that file only. -/
def exFileWorld : World := { exWorld with tree := FileTree.runHistory exFiles }

theorem exFileSetup : Setup exFileWorld exFiles [3] where
  base := { EndToEnd.exSetup with
    short := by
      intro e he
      simp only [exFiles, List.mem_cons, List.not_mem_nil, or_false] at he
      subst he
      decide
    tree := rfl }
  bsd := exSetup.bsd
  bsdStat := exSetup.bsdStat

/-- `access("/lib/x", 0)` of the exported file fails with `EFAULT`, though it exists. -/
example : ∃ r' log c', trap exFileWorld exChild 6 ⟨5, some 33⟩ ⟨33, 0x5000, 0, 0, 0, 0, 0, 0x700, 1⟩ = .ok (r', log, c') ∧
    libc r' = (-1, some 14) :=
  have h := exReady (.access 0)
  access_of_a_file_fails exFileSetup (i := ⟨5, some 33⟩) (r := ⟨33, 0x5000, 0, 0, 0, 0, 0, 0x700, 1⟩) (mode := 0)
    (path := 0x5000) (s := txt "/lib/x") rfl rfl rfl
    ⟨h.room, h.string, h.objs, h.stack, ⟨h.pool.enough, h.pool.heap, h.pool.apart, h.pool.pairwise⟩⟩
    (names := [txt "lib", txt "x"]) (h := 8) (by decide) (.file _ (by decide)) 14 (fun _ _ _ _ => rfl)

/-- `open("/lib/x", 0)`: the program gets descriptor 4 and no carry flag, the host opens `x` beneath descriptor 5. -/
example : (match trap exWorld exChild 6 ⟨5, some 5⟩ ⟨5, 0x5000, 0, 0, 0, 0, 0, 0x700, 1⟩ with
    | .ok (r', log, _) => some (r'.rax, r'.rflags, log.map (·.op))
    | _ => none) = some (4, 0, [.openat 5 (some (txt "x")) 0x800000 0]) := by
  decide +kernel

/-! ## C122 -/

/-- The host's only system call is to open what is left of the path beneath an open descriptor of one of the library
directories, staying beneath it, or to duplicate the descriptor of the linker's cache. -/
def NewOpens (disk : List Byte → Option Fd.Obj) (lim : Nat) (t : Fd.Table) (s : List Byte) (flags mode : BitVec 32)
    (log : BsdPath.Log) : Prop :=
  ∃ d ns rest o h, (d, ns) ∈ Defaults.allowedNames ∧ disk (Defaults.text ns) = some o ∧
    (Defaults.construct disk lim t).2.at h = some o ∧ Path.Spec.resolve [] (cut s) = some (ns ++ rest) ∧
    ((d = false ∧ rest = [] ∧ log.map (·.op) = [.dup h]) ∨
     (d = true ∧ rest ≠ [] ∧ log.map (·.op) = [.openat h (some (join rest)) (flags ||| 0x800000) mode]))

/-- What `Meant` leaves for `open` when the host has exported nothing of its own. -/
theorem meant_new {k : BsdPath.Kernel} {recv : Int → BitVec 32} {disk : List Byte → Option Fd.Obj} {lim : Nat}
    {t : Fd.Table} {s : List Byte} {flags mode : BitVec 32} {ans : Syscall.Answer} {log : BsdPath.Log}
    (h : Meant (Defaults.got disk lim Defaults.defaults t).1 k recv s (.open_ flags mode) ans log) :
    (log = [] ∧ (ans = .error 22 ∨ ans = .error 2)) ∨ NewOpens disk lim t s flags mode log := by
  have hcon := Defaults.construct_got disk lim t
  have key : ∀ names h rest, Path.Spec.resolve [] (cut s) = some names →
      FileTree.Spec.Answers (FileTree.specHistory (Defaults.got disk lim Defaults.defaults t).1) names h rest →
      ∃ d ns o, (d, ns) ∈ Defaults.allowedNames ∧ disk (Defaults.text ns) = some o ∧
        (Defaults.construct disk lim t).2.at h = some o ∧ names = ns ++ rest ∧ (d = true ↔ rest ≠ []) := by
    intro names h rest hres ha
    obtain ⟨e, he, e1, e2, e3⟩ := PathSyscall.answers_export _ names h rest ha
    obtain ⟨m1, _, o, m2, m3⟩ := (Defaults.got_mem disk lim Defaults.defaults t).2 e he
    obtain ⟨d1, d2, _⟩ := Defaults.defaults_names _ m1
    simp only at d1 d2
    refine ⟨e.isDir, FileTree.Spec.namesOf e.path, o, d1, by rw [← d2]; exact m2, by rw [← e1, hcon]; exact m3, e2, ?_⟩
    rcases e3 with ⟨k1, k2⟩ | ⟨k1, k2⟩ <;> simp [k1, k2]
  cases h with
  | climbs => exact Or.inl ⟨rfl, Or.inl rfl⟩
  | absent => exact Or.inl ⟨rfl, Or.inr rfl⟩
  | openFile names h _ _ hres ha =>
    obtain ⟨d, ns, o, k1, k2, k3, rfl, k5⟩ := key names h [] hres ha
    refine Or.inr ⟨d, ns, [], o, h, k1, k2, k3, hres, Or.inl ⟨?_, rfl, rfl⟩⟩
    cases d <;> simp_all
  | openBeneath names h rest _ _ op hres ha hne hop =>
    obtain ⟨d, ns, o, k1, k2, k3, rfl, k5⟩ := key names h rest hres ha
    exact Or.inr ⟨d, ns, rest, o, h, k1, k2, k3, hres, Or.inr ⟨k5.2 hne, hne, by rw [hop]; rfl⟩⟩

/-- **C122.**  On FreeBSD a program in a sandbox to which the host has exported nothing of its own opens a path, directly or
through `syscall` or `__syscall`.  Either the host makes no system call and the program finds `EINVAL` or `ENOENT`; or the
path, resolved, lies beneath one of the three library directories or is the linker's cache, and the host's only system call
is to open what is left of the path beneath an open descriptor of that directory, with `O_RESOLVE_BENEATH`, or to duplicate
the descriptor of the cache. -/
theorem bsd_new_sandbox_opens_only_libraries {w : World} {disk : List Byte → Option Fd.Obj} {lim : Nat} {t : Fd.Table}
    {users : List Nat} (hw : Setup w (Defaults.got disk lim Defaults.defaults t).1 users) {c : Child} {n : Nat}
    {i : Info} {r : Regs} {code : CInt} {flags mode : BitVec 32} {path : Word} {s : List Byte}
    (hcode : i.code = trapCap) (hi : i.syscall = some code)
    (hcall : asksPath (asks code r) = some (.open_ flags mode, path, 0)) (hr : Ready w c n (.open_ flags mode) path 0 s) :
    w.tree = (Defaults.construct disk lim t).1 ∧
    ∃ r' log c', trap w c s.length i r = .ok (r', log, c') ∧
      ((log = [] ∧ (libc r' = (-1, some 22) ∨ libc r' = (-1, some 2))) ∨ NewOpens disk lim t s flags mode log) := by
  refine ⟨by rw [hw.base.tree, Defaults.construct_got], ?_⟩
  obtain ⟨r', log, c', ans, h1, h2, h3, _⟩ := bsd_end_to_end_partial hw hcode hi hcall hr
  refine ⟨r', log, c', h1, ?_⟩
  rcases meant_new h2 with ⟨h4, rfl | rfl⟩ | h4
  · exact Or.inl ⟨h4, Or.inl h3⟩
  · exact Or.inl ⟨h4, Or.inr h3⟩
  · exact Or.inr h4

/-- **C122, `openat`** with an absolute path, which is what the C library calls for `open`. -/
theorem bsd_new_sandbox_openat_only_libraries {w : World} {disk : List Byte → Option Fd.Obj} {lim : Nat} {t : Fd.Table}
    {users : List Nat} (hw : Setup w (Defaults.got disk lim Defaults.defaults t).1 users) {c : Child} {n : Nat}
    {i : Info} {r : Regs} {code : CInt} {d p f m : Word} {l : List Word} {s : List Byte}
    (hcode : i.code = trapCap) (hi : i.syscall = some code) (hc : asks code r = ⟨499, d :: p :: f :: m :: l⟩)
    (hstr : w.str p = some s) (habs : s.head? = some 47)
    (hr : Ready w c n (.open_ (f.setWidth 32) ((m.setWidth 16).setWidth 32)) p 0 s) :
    ∃ r' log c', trap w c s.length i r = .ok (r', log, c') ∧
      ((log = [] ∧ (libc r' = (-1, some 22) ∨ libc r' = (-1, some 2))) ∨
        NewOpens disk lim t s (f.setWidth 32) ((m.setWidth 16).setWidth 32) log) := by
  obtain ⟨r', log, c', ans, h1, h2, h3, _⟩ := bsd_openat_end_to_end hw hcode hi hc hstr habs hr
  refine ⟨r', log, c', h1, ?_⟩
  rcases meant_new h2 with ⟨h4, rfl | rfl⟩ | h4
  · exact Or.inl ⟨h4, Or.inl h3⟩
  · exact Or.inl ⟨h4, Or.inr h3⟩
  · exact Or.inr h4

/-- The exports of a sandbox in a host where the four files exist and descriptors 0 to 2 are taken. -/
def exNew : List Export := EndToEnd.exNew

/-- The world of that host. -/
def exNewWorld : World := { exWorld with tree := FileTree.runHistory exNew }

theorem exNewSetup : Setup exNewWorld exNew [3] where
  base := { EndToEnd.exSetup with short := Defaults.got_short _ _ _, tree := rfl }
  bsd := exSetup.bsd
  bsdStat := exSetup.bsdStat

/-- `open("/lib/x", 0)` in it, directly, and `openat(AT_FDCWD, "/lib/x", 0)`: the host opens `x` beneath descriptor 3. -/
example : (∃ r' log c', trap exNewWorld exChild 6 ⟨5, some 5⟩ ⟨5, 0x5000, 0, 0, 0, 0, 0, 0x700, 1⟩ = .ok (r', log, c') ∧
      log.map (·.op) = [.openat 3 (some (txt "x")) 0x800000 0]) ∧
    ∃ r' log c', trap exNewWorld exChild 6 ⟨5, some 499⟩ ⟨499, 0xffffff9c, 0x5000, 0, 0, 0, 0, 0x700, 1⟩ =
      .ok (r', log, c') := by
  have h := exReady (.open_ 0 0)
  have hr : Ready exNewWorld exChild 224 (.open_ 0 0) 0x5000 0 (txt "/lib/x") :=
    ⟨h.room, h.string, h.objs, h.stack, ⟨h.pool.enough, h.pool.heap, h.pool.apart, h.pool.pairwise⟩⟩
  refine ⟨?_, ?_⟩
  · obtain ⟨_, r', log, c', h1, h2⟩ := bsd_new_sandbox_opens_only_libraries (disk := fun _ => some ⟨7, false⟩) (lim := 100)
      (t := fun i => if i < 3 then some ⟨8, false⟩ else none) exNewSetup (i := ⟨5, some 5⟩)
      (r := ⟨5, 0x5000, 0, 0, 0, 0, 0, 0x700, 1⟩) rfl rfl rfl hr
    refine ⟨r', log, c', h1, ?_⟩
    have : (match trap exNewWorld exChild 6 ⟨5, some 5⟩ ⟨5, 0x5000, 0, 0, 0, 0, 0, 0x700, 1⟩ with
      | .ok (_, log, _) => some (log.map (·.op))
      | _ => none) = some [.openat 3 (some (txt "x")) 0x800000 0] := by decide +kernel
    have hl : (txt "/lib/x").length = 6 := rfl
    rw [hl] at h1
    rw [h1] at this
    simpa using this
  · obtain ⟨r', log, c', h1, h2⟩ := bsd_new_sandbox_openat_only_libraries (disk := fun _ => some ⟨7, false⟩) (lim := 100)
      (t := fun i => if i < 3 then some ⟨8, false⟩ else none) exNewSetup (i := ⟨5, some 499⟩)
      (r := ⟨499, 0xffffff9c, 0x5000, 0, 0, 0, 0, 0x700, 1⟩) (d := 0xffffff9c) (p := 0x5000) (f := 0) (m := 0)
      (l := [0, 0]) rfl rfl rfl (by decide +kernel) (by decide +kernel) hr
    exact ⟨r', log, c', h1⟩

end Verif.BsdEnd
