import Verif.OpenMode.Model
import Verif.OpenMode.Spec
import Verif.PathSyscall.Props
import Verif.Syscall.Props

/-!
# The mode argument of `open` and `openat` (properties)
-/

namespace Verif.OpenMode

open Verif.Syscall (CInt Env Request oCreat)

theorem sub_mask (x m : BitVec 32) : x &&& ~~~m = 0 ↔ x &&& m = x := by
  constructor <;> intro h <;> apply BitVec.eq_of_getElem_eq <;> intro i hi <;>
    have := congrArg (·.getLsbD i) h <;> simp [hi] at this ⊢ <;> grind

theorem ext_mask (x m : BitVec 32) (hm : m.getLsbD 31 = false) :
    x.signExtend 64 &&& ~~~(m.setWidth 64) = 0 ↔ x &&& ~~~m = 0 := by
  constructor
  · intro h
    apply BitVec.eq_of_getElem_eq
    intro i hi
    have := congrArg (·.getLsbD i) h
    simp [hi, show i < 64 by omega, BitVec.getElem_signExtend] at this ⊢
    exact this
  · intro h
    apply BitVec.eq_of_getElem_eq
    intro i hi
    have h31 := congrArg (·.getLsbD 31) h
    have := congrArg (·.getLsbD i) h
    simp [BitVec.getElem_signExtend, BitVec.msb_eq_getLsbD_last] at this h31 hm ⊢
    by_cases h32 : i < 32 <;> simp [h32] at this ⊢
    · exact this
    · intro h; simp [h, hm] at h31

theorem ext_width (x : BitVec 32) (h : x.getLsbD 31 = false) : x.signExtend 64 = x.setWidth 64 := by
  apply BitVec.signExtend_eq_setWidth_of_msb_false
  rw [BitVec.msb_eq_getLsbD_last]
  exact h

theorem width_zero (x : BitVec 32) : x.setWidth 64 = (0 : Word) ↔ x = 0 := by
  constructor
  · intro h
    apply BitVec.eq_of_toNat_eq
    have := congrArg BitVec.toNat h
    simp at this ⊢
    omega
  · intro h; subst h; rfl

theorem width_inj {x y : BitVec 32} (h : x.setWidth 64 = (y.setWidth 64 : Word)) : x = y := by
  apply BitVec.eq_of_toNat_eq
  have := congrArg BitVec.toNat h
  simp at this
  omega

theorem width_and (x y : BitVec 32) : (x.setWidth 64 &&& y.setWidth 64 : Word) = (x &&& y).setWidth 64 := by
  rw [BitVec.setWidth_and]

theorem width_mask (x m : BitVec 32) : (x.setWidth 64 &&& ~~~(m.setWidth 64) : Word) = 0 ↔ x &&& ~~~m = 0 := by
  rw [← width_zero]
  constructor <;> intro h <;> apply BitVec.eq_of_getElem_eq <;> intro i hi <;>
    have := congrArg (·.getLsbD i) h <;> simp [hi] at this ⊢ <;> grind

theorem known_low {x : BitVec 32} (h : x &&& known = x) : x.getLsbD 31 = false := by
  rw [← h]; simp [known]

theorem native_known {f m : BitVec 32} (h : native f m = (f, m)) : f &&& known = f := by
  have h1 := congrArg Prod.fst h
  simp only [native] at h1
  split at h1
  · calc f &&& known = (f &&& known &&& withPath) &&& known := by rw [h1]
      _ = f &&& known &&& withPath := by
        apply BitVec.eq_of_getElem_eq; intro i hi; simp; grind
      _ = f := h1
  · exact h1

/-- **C102.** The numbers that `openat_beneath` hands to `openat2` are accepted exactly when `open` would have ignored
nothing in them. -/
theorem admits_iff (f m : BitVec 32) : admits (f.signExtend 64) (m.setWidth 64) ↔ native f m = (f, m) := by
  unfold admits
  rw [ext_mask f known (by decide)]
  constructor
  · rintro ⟨h1, h2, h3, h4⟩
    have e1 : f &&& known = f := (sub_mask _ _).1 h1
    have hf := ext_width f (known_low e1)
    rw [hf, width_and, ne_eq, width_zero, width_mask] at h2
    rw [hf, width_and, ne_eq, width_zero, width_mask] at h3
    rw [hf, width_and, width_zero, width_zero] at h4
    have e2 : (if f &&& path ≠ 0 then f &&& withPath else f) = f := by
      split
      · rename_i h; exact (sub_mask _ _).1 (h2 h)
      · rfl
    simp only [native, e1, e2, Prod.mk.injEq, true_and]
    by_cases hc : f &&& creating = 0
    · rw [if_neg (by simpa using hc)]; exact (h4 hc).symm
    · rw [if_pos hc]; exact (sub_mask _ _).1 (h3 hc)
  · intro h
    have e1 := native_known h
    simp only [native, Prod.mk.injEq] at h
    obtain ⟨h1, h2⟩ := h
    have hf := ext_width f (known_low e1)
    rw [hf, width_and, ne_eq, width_zero, width_mask, width_and, ne_eq, width_zero, width_zero, width_mask]
    rw [e1] at h1 h2
    rw [h1] at h2
    refine ⟨(sub_mask _ _).2 e1, fun hp => ?_, fun hc => ?_, fun hc => ?_⟩
    · rw [if_pos hp] at h1
      exact (sub_mask _ _).2 h1
    · rw [if_pos hc] at h2; exact (sub_mask _ _).2 h2
    · rw [if_neg (by simpa using hc)] at h2; exact h2.symm

theorem sameAs_iff (f m : BitVec 32) : SameAs f m (f.signExtend 64) (m.setWidth 64) ↔ native f m = (f, m) := by
  constructor
  · intro h; exact (admits_iff f m).1 h.1
  · intro h
    refine ⟨(admits_iff f m).2 h, ?_, ?_⟩
    · rw [h]; exact ext_width _ (known_low (native_known h))
    · rw [h]

/-- The kernel refuses with `EINVAL` what `openat2` does not admit. -/
def Strict (k : PathSyscall.Kernel) : Prop :=
  ∀ log fd p f m r, ¬ admits f m → k log (.openat2 fd p f m r) = (-1, 22)

open Verif.FileTree Verif.FileTree.Spec Verif.PathSyscall Verif.PathSyscall.Spec Verif.Strings Verif.Strings.Spec Verif.Path Verif.Path.Spec in
/-- **C102** (partial: for arguments in which `open` ignores nothing).  The host opens a file below an exported directory
with one `openat2` that does what `open` does with the program's flags and mode.  The full claim, for all flags and modes,
is false: see `open_refused`. -/
theorem open_as_native_partial (v : PathSyscall.Env) (hist : List Export) (hs : ShortPaths hist)
    (htree : v.tree = runHistory hist) (a : Word) (flags mode : BitVec 32) (b : Buf)
    (hb : getPath v a = .ok (some b)) (names : Names) (hn : resolve [] (cut (textOf b)) = some names) (h : Int) (rest : Names)
    (ha : Answers (specHistory hist) names h rest) (hr : rest ≠ []) (hc : native flags mode = (flags, mode)) :
    ∃ res f m r e, handleOpen v a flags mode = .ok (res, [⟨.openat2 h (some (join rest)) f m 8, r, e⟩]) ∧
      SameAs flags mode f m := by
  have := open_served v hist hs htree a flags mode b hb names hn h rest ha
  simp only [if_neg hr] at this
  exact ⟨_, _, _, _, _, this, (sameAs_iff flags mode).2 hc⟩

open Verif.FileTree Verif.FileTree.Spec Verif.PathSyscall Verif.PathSyscall.Spec Verif.Strings Verif.Strings.Spec Verif.Path Verif.Path.Spec in
/-- **C102**, the negation.  With anything that `open` would ignore — an unknown flag, a mode although no file is made,
`O_PATH` together with other flags — the request is refused with `EINVAL`. -/
theorem open_refused (v : PathSyscall.Env) (hk : Strict v.kernel) (hist : List Export) (hs : ShortPaths hist)
    (htree : v.tree = runHistory hist) (a : Word) (flags mode : BitVec 32) (b : Buf)
    (hb : getPath v a = .ok (some b)) (names : Names) (hn : resolve [] (cut (textOf b)) = some names) (h : Int) (rest : Names)
    (ha : Answers (specHistory hist) names h rest) (hr : rest ≠ []) (hc : native flags mode ≠ (flags, mode)) :
    ∃ log, handleOpen v a flags mode = .ok (⟨-22, -1⟩, log) := by
  have := open_served v hist hs htree a flags mode b hb names hn h rest ha
  simp only [if_neg hr] at this
  rw [hk _ _ _ _ _ _ (fun h => hc ((admits_iff _ _).1 h))] at this
  exact ⟨_, this⟩

theorem helper_asked (v : Env) (q : Request) : (Syscall.helper v q).asked = [q] := by
  unfold Syscall.helper
  dsimp only
  split
  · split <;> rfl
  · rfl

/-- The request that opens `path`, with text `s`, at the directory `dirfd`: that of `open` if the path is absolute. -/
def atRequest (dirfd : CInt) (path : Word) (s : List Byte) (flags mode : CInt) : Request :=
  if s.head? = some 47 then ⟨0, [.cstr path, .int flags, .int mode], -1⟩
  else ⟨3, [.int dirfd, .cstr path, .int flags, .int mode], dirfd⟩

theorem openat_asked (v : Env) (dirfd flags mode : CInt) (path : Word) (s : List Byte) (hs : v.str path = some s)
    (hown : Syscall.scanProc v.pid s = none) (hz : path ≠ 0) :
    ∃ d, Syscall.openat v dirfd path flags mode = .ok d ∧ d.asked = [atRequest dirfd path s flags mode] := by
  by_cases h : s.head? = some 47
  · exact ⟨_, by simp only [Syscall.openat, hs, hown, if_neg hz, if_pos h]; rfl, by
      simp only [Syscall.«open», helper_asked, atRequest, if_pos h]⟩
  · exact ⟨_, by simp only [Syscall.openat, hs, hown, if_neg hz, if_neg h]; rfl, by
      simp only [helper_asked, atRequest, if_neg h]⟩

/-- **C102.** The trapped system calls `open` and `openat` hand on whatever is in the register of the mode. -/
theorem trapped_mode (v : Env) (r : Verif.Syscall.Regs) :
    (∃ d, Syscall.callEntry v 0 r = .ok d ∧
      d.asked = [⟨0, [.cstr r.rdi, .int (Syscall.toInt r.rsi), .int (Syscall.toInt r.rdx)], -1⟩]) ∧
    ∀ s, v.str r.rsi = some s → Syscall.scanProc v.pid s = none → r.rsi ≠ 0 →
      ∃ d, Syscall.callEntry v 3 r = .ok d ∧
        d.asked = [atRequest (Syscall.toInt r.rdi) r.rsi s (Syscall.toInt r.rdx) (Syscall.toInt r.r10)] :=
  ⟨⟨_, rfl, helper_asked _ _⟩, fun s h1 h2 h3 => openat_asked v _ _ _ _ s h1 h2 h3⟩

/-- **C102** (partial: without `O_TMPFILE`).  The C function `open` sends the mode that the C library would give the
kernel, whatever is in the place of a mode that was not passed.  With `O_TMPFILE` it does not: `tmpfile_mode_lost`. -/
theorem c_open_mode_partial (v : Env) (path : Word) (flags reg : CInt) (given : Option CInt)
    (ht : flags &&& 0x400000 = 0) (hg : flags &&& oCreat = oCreat → given ≠ none) :
    (callOpen v path flags given reg).2 = [⟨0, [.cstr path, .int flags, .int (libcMode flags given)], -1⟩] := by
  have hcr : flags &&& creating = flags &&& oCreat := by
    have : creating = 0x400000 ||| oCreat := by decide
    rw [this, BitVec.and_or_distrib_left, ht]
    simp
  simp only [callOpen, Syscall.cOpen, Syscall.«open», helper_asked, libcMode, hcr, vaArg]
  by_cases hc : flags &&& oCreat = oCreat
  · have : flags &&& oCreat ≠ 0 := by rw [hc]; decide
    rw [if_pos hc, if_pos this]
    cases given with
    | none => exact absurd rfl (hg hc)
    | some m => rfl
  · have : flags &&& oCreat = 0 := by
      apply BitVec.eq_of_getElem_eq
      intro i hi
      by_cases h6 : i = 6
      · subst h6
        rcases hb : flags[6] with _ | _
        · simp [hb]
        · exfalso; apply hc
          apply BitVec.eq_of_getElem_eq
          intro j hj
          have ho : oCreat = BitVec.twoPow 32 6 := by decide
          by_cases hj6 : j = 6
          · subst hj6; simp [hb, ho]
          · simp [ho, BitVec.getElem_twoPow]
            intro h; exact absurd h hj6
      · have ho : oCreat = BitVec.twoPow 32 6 := by decide
        simp [ho, BitVec.getElem_twoPow]
        intro _; exact h6
    rw [if_neg hc, if_neg (by simpa using this)]

/-- **C102**, the negation for `O_TMPFILE`.  The C function `open` sends mode 0 for a temporary file, whatever mode was
passed; the file is made without any permission, where the C library and the kernel give it the permissions asked for. -/
theorem tmpfile_mode_lost (v : Env) (path : Word) (flags reg mode : CInt) (ht : flags &&& 0x400000 ≠ 0)
    (hc : flags &&& oCreat ≠ oCreat) (hm : mode &&& modeBits ≠ 0) (hn : (native flags mode).1 = flags) :
    (callOpen v path flags (some mode) reg).2 = [⟨0, [.cstr path, .int flags, .int 0], -1⟩] ∧
      (native flags (libcMode flags (some mode))).2 = mode &&& modeBits ∧ (native flags 0).2 ≠ mode &&& modeBits := by
  have hcr : flags &&& creating ≠ 0 := by
    intro h
    apply ht
    have : (0x400000 : BitVec 32) = creating &&& 0x400000 := by decide
    rw [this, ← BitVec.and_assoc, h]; simp
  have hn' : ∀ m, (native flags m).2 = m &&& modeBits := by
    intro m
    simp only [native] at hn ⊢
    rw [hn, if_pos hcr]
  refine ⟨?_, ?_, ?_⟩
  · simp only [callOpen, Syscall.cOpen, Syscall.«open», helper_asked, if_neg hc]
  · rw [hn']; simp only [libcMode, if_pos hcr, Option.getD_some]
  · rw [hn' 0]; simpa using fun h => hm h.symm

/-- **C102.**  The C function `open` with `O_CREAT` but without a mode sends what is in the place of the mode, as the C
library does: the file gets whatever permissions that happens to be. -/
theorem c_open_leftover (v : Env) (path : Word) (flags reg : CInt) (hc : flags &&& oCreat = oCreat) :
    (callOpen v path flags none reg).2 = [⟨0, [.cstr path, .int flags, .int reg], -1⟩] := by
  simp only [callOpen, Syscall.cOpen, Syscall.«open», helper_asked, if_pos hc, vaArg, Option.getD_none]

/-- `O_CREAT | O_WRONLY`, with 0644 left in the register. -/
example : (0x41 : CInt) &&& oCreat = oCreat := by decide

/-- **C102** (partial: if the mode was passed, or its place holds 0).  The C function `openat` of a path that is
not one of the process's own descriptors sends a mode that the kernel treats like the C library's. -/
theorem c_openat_mode_partial (v : Env) (dirfd flags reg : CInt) (path : Word) (given : Option CInt) (s : List Byte)
    (hs : v.str path = some s) (hown : Syscall.scanProc v.pid s = none) (hz : path ≠ 0)
    (hg : given ≠ none ∨ reg = 0) :
    ∃ t m, callOpenat v dirfd path flags given reg = .ok (t, [atRequest dirfd path s flags m]) ∧
      native flags m = native flags (libcMode flags given) := by
  obtain ⟨d, hd, hq⟩ := openat_asked v dirfd flags (vaArg given reg) path s hs hown hz
  refine ⟨Syscall.syscallReturn d.result, vaArg given reg, ?_, ?_⟩
  · simp only [callOpenat, Syscall.cOpenat, hd, hq]
  · have hv : vaArg given reg = given.getD 0 := by
      rcases hg with h | h
      · cases given with
        | none => exact absurd rfl h
        | some m => rfl
      · subst h; rfl
    rw [hv]
    simp only [libcMode]
    by_cases hc : flags &&& creating = 0
    · have : ∀ m m', native flags m = native flags m' := by
        intro m m'
        have hz : (if flags &&& known &&& OpenMode.path ≠ 0 then flags &&& known &&& withPath else flags &&& known) &&& creating = 0 := by
          apply BitVec.eq_of_getElem_eq
          intro i hi
          have := congrArg (·.getLsbD i) hc
          simp only [BitVec.getLsbD_and] at this
          split <;> simp [hi] at this ⊢ <;> grind
        simp only [native, hz, ne_eq, not_true, if_false]
      exact this _ _
    · rw [if_pos hc]

/-- **C102**, the negation for `openat`.  A program that opens a file for reading by the C function `openat` passes no
mode; the function reads one nevertheless.  If the place does not happen to hold 0, the request has a mode without a
file being made, which the host's `openat2` refuses, although `openat` itself would have ignored it. -/
theorem c_openat_leftover (v : Env) (dirfd flags reg : CInt) (path : Word) (s : List Byte)
    (hs : v.str path = some s) (hown : Syscall.scanProc v.pid s = none) (hz : path ≠ 0)
    (hc : flags &&& creating = 0) (hr : reg ≠ 0) :
    ∃ t, callOpenat v dirfd path flags none reg = .ok (t, [atRequest dirfd path s flags reg]) ∧
      ¬ admits (flags.signExtend 64) (reg.setWidth 64) ∧
      (native flags 0 = (flags, 0) → SameAs flags reg (flags.signExtend 64) 0) := by
  obtain ⟨d, hd, hq⟩ := openat_asked v dirfd flags reg path s hs hown hz
  refine ⟨Syscall.syscallReturn d.result, ?_, ?_, ?_⟩
  · simp only [callOpenat, Syscall.cOpenat, vaArg, Option.getD_none, hd, hq]
  · rw [admits_iff]
    intro h
    have h2 := congrArg Prod.snd h
    have h1 := congrArg Prod.fst h
    simp only [native] at h1 h2
    rw [h1, if_neg (by simpa using hc)] at h2
    exact hr h2.symm
  · intro h
    have := (sameAs_iff flags 0).2 h
    refine ⟨this.1, ?_, ?_⟩
    · rw [this.2.1]; rfl
    · have h1 := congrArg Prod.fst h
      simp only [native] at h1 ⊢
      rw [h1, if_neg (by simpa using hc)]
      rfl

/-- **C102.** The flags of the host's own `openat2` (for `stat` and `access`) are always accepted. -/
theorem own_open_admitted : admits (PathSyscall.oPath.signExtend 64) ((0 : BitVec 32).setWidth 64) := by decide

open Verif.FileTree Verif.FileTree.Spec Verif.PathSyscall Verif.PathSyscall.Spec Verif.Strings Verif.Strings.Spec Verif.Path Verif.Path.Spec in
/-- The environment of the examples of `Verif.PathSyscall`, with a strict kernel: `"/lib/x"` for reading is opened, and
with a left-over mode refused. -/
example : ∃ v : PathSyscall.Env, Strict v.kernel ∧ v.tree = runHistory exHist ∧
    getPath v 0x1008 = .ok (some (txt "/lib/x" ++ [0])) ∧
    handleOpen v 0x1008 0 0 = .ok (⟨-38, 9⟩, [⟨.openat2 5 (some (txt "x")) 0 0 8, 9, 0⟩]) ∧
    handleOpen v 0x1008 0 0o644 = .ok (⟨-22, -1⟩, [⟨.openat2 5 (some (txt "x")) 0 0o644 8, -1, 22⟩]) := by
  refine ⟨{ exEnv with kernel := fun _ op => match op with
      | .openat2 _ _ f m _ => if admits f m then (9, 0) else (-1, 22)
      | _ => (9, 0) }, ?_, rfl, exEnv_path.2, by decide +kernel, by decide +kernel⟩
  intro log fd p f m r h
  simp only [if_neg h]

/-- A program that calls `openat(AT_FDCWD, "/lib/x", O_RDONLY)` with 0644 left over in the register of the mode, and one
that calls `open("/tmp", O_TMPFILE | O_RDWR, 0600)`. -/
example : ∃ v : Env, v.str 16 = some (Syscall.bytes "/lib/x") ∧ Syscall.scanProc v.pid (Syscall.bytes "/lib/x") = none ∧
    (Syscall.bytes "/lib/x").head? = some 47 ∧
    ((callOpen v 16 0x410002 (some 0o600) 0).2.map (·.args)) = [[.cstr 16, .int 0x410002, .int 0]] ∧
    (native 0x410002 0o600).1 = 0x410002 ∧ (0x410002 : CInt) &&& oCreat ≠ oCreat ∧ (0x410002 : CInt) &&& 0x400000 ≠ 0 := by
  refine ⟨⟨fun _ => ⟨0, none⟩, 7, fun _ => some (Syscall.bytes "/lib/x"), id⟩, rfl, ?_⟩
  decide +kernel

/-- The same for the relative path `"x"`, at descriptor 5. -/
example : ∃ v : Env, v.str 16 = some (Syscall.bytes "x") ∧ Syscall.scanProc v.pid (Syscall.bytes "x") = none ∧
    (match callOpenat v 5 16 0 none 0o644 with | .ok r => r.2.map (·.args) | _ => [])
      = [[.int 5, .cstr 16, .int 0, .int 0o644]] := by
  refine ⟨⟨fun _ => ⟨0, none⟩, 7, fun _ => some (Syscall.bytes "x"), id⟩, rfl, ?_⟩
  decide +kernel

/-- Reading, making a file, a temporary file: nothing is ignored.  With a mode although no file is made, an unknown flag,
or `O_PATH` with `O_RDWR`, something is. -/
example : native 0 0 = (0, 0) ∧ native 0o102 0o644 = (0o102, 0o644) ∧ native 0x410002 0o600 = (0x410002, 0o600) ∧
    native 0 0o644 = (0, 0) ∧ native 0x80000000 0 = (0, 0) ∧ native 0x200002 0 = (0x200000, 0) := by decide

end Verif.OpenMode
