import Verif.PathSyscall.Props
import Verif.ChildArgs.Props
import Verif.BsdPath.Spec

/-!
# Path requests on FreeBSD (properties C98, C99)
-/

namespace Verif.BsdPath

open Verif.Bounds Verif.Strings Verif.Path Verif.Path.Spec Verif.FileTree Verif.FileTree.Spec
open Verif.Callback Spec
open Verif.PathSyscall (Call resolve_parse resolve_safe tailText_eq cText_eq_textOf zero_not_mem_textOf
  answers_export returnInt tailText)
open Verif.PathSyscall.Spec (SafeName join textOf)
open Verif.ChildArgs (Child wrapPtr unwrap blit)

/-! ## C98 -/

/-- The Linux environment with the same inputs. -/
def Env.linux (v : Env) (k : PathSyscall.Kernel) : PathSyscall.Env :=
  ⟨v.hdr, v.region, v.malloc, v.tree, k, v.rd1, v.rd2⟩

/-- The three ways in which a path request is decided. -/
theorem handlePath_eq (v : Env) (hist : List Export) (hs : ShortPaths hist)
    (htree : v.tree = runHistory hist) (a : Word) (b : Buf)
    (hb : getPath v a = .ok (some b)) (handler : Int → Path → Result × Log) :
    (resolve [] (cut (textOf b)) = none →
      handlePath v a handler = .ok (⟨-22, -1⟩, [])) ∧
    (∀ names, resolve [] (cut (textOf b)) = some names →
      ((∀ h rest, ¬ Answers (specHistory hist) names h rest) →
        handlePath v a handler = .ok (⟨-2, -1⟩, [])) ∧
      (∀ h rest, Answers (specHistory hist) names h rest →
        handlePath v a handler = .ok (handler h ⟨false, rest⟩))) := by
  have hview : ofView (some 0) (cText b) = .ok (parse (textOf b)) := by
    rw [cText_eq_textOf]
    unfold ofView
    split
    · rename_i h
      rw [h]; rfl
    · rfl
  have hcan := canonicalise_eq_resolve (parse (textOf b))
  rw [resolve_parse] at hcan
  unfold handlePath
  rw [hb]
  simp only [hview]
  constructor
  · intro hn
    rw [hn] at hcan
    rcases hc : (parse (textOf b)).canonicalise with ⟨ok, q⟩
    rw [hc] at hcan
    simp only at hcan
    subst hcan
    rfl
  · intro names hn
    rw [hn] at hcan
    simp only at hcan
    rw [hcan]
    simp only [htree]
    constructor
    · intro hall
      have := (lookup_none_iff hist hs ⟨(parse (textOf b)).isAbsolute, names⟩).2 hall
      rw [this]
      rfl
    · intro h rest ha
      have := (lookup_refines hist hs ⟨(parse (textOf b)).isAbsolute, names⟩ h ⟨false, rest⟩).2
        ⟨rfl, ha⟩
      rw [this]

/-- The single call that serves a request which the export `h` answers with the names `rest` below it; `none` if
the request is refused first.  (Stated with the words of the specification.) -/
def wantedOp (c : Call) (h : Int) (rest : List (List Byte)) : HostOp :=
  match c with
  | .open_ _ flags mode =>
    if rest = [] then .dup h else .openat h (some (join rest)) (flags ||| 0x800000) mode
  | .access _ mode => .faccessat h (if rest = [] then none else some (join rest)) mode 0x2000
  | .stat _ sb => if rest = [] then .fstat h sb else .fstatat h (some (join rest)) sb 0x2000

/-- The answer to a request, given what the call returned: an `open` that succeeds sends the descriptor, everything
else sends the number, or the negated error. -/
def wantedResult (c : Call) (r : Int × Int) : Result :=
  match c with
  | .open_ _ _ _ => if 0 ≤ r.1 then ⟨-78, r.1⟩ else ⟨-r.2, -1⟩
  | _ => ⟨if 0 ≤ r.1 then r.1 else -r.2, -1⟩

/-- **C98.** A request that the tree answers makes exactly one system call on FreeBSD, this one, and is answered
with its result. -/
theorem bsd_served (v : Env) (hwf : v.region.WF v.hdr) (hist : List Export) (hs : ShortPaths hist)
    (htree : v.tree = runHistory hist) (c : Call) (b : Buf) (hb : getPath v c.path = .ok (some b))
    (names : Names) (hn : resolve [] (cut (textOf b)) = some names) (h : Int) (rest : Names)
    (ha : Answers (specHistory hist) names h rest)
    (hsb : ∀ a sb, c = .stat a sb → v.region.base.toNat + v.hdr.toNat ≤ sb.toNat ∧
      sb.toNat + 224 ≤ v.region.top.toNat) :
    let op := wantedOp c h rest
    let r := v.kernel [] op
    serve v c = .ok (wantedResult c r, [⟨op, r.1, r.2⟩]) := by
  have hsafe := resolve_safe (textOf b) (zero_not_mem_textOf b) names hn
  obtain ⟨e, he, h1, h2, h3⟩ := answers_export hist names h rest ha
  have hrest : ∀ n ∈ rest, SafeName n := fun n hr => hsafe n (by rw [h2]; simp [hr])
  cases c with
  | open_ a flags mode =>
    have hp := ((handlePath_eq v hist hs htree a b hb (openBody v flags mode)).2 names hn).2 h rest ha
    simp only [serve, hp]
    cases rest with
    | nil =>
      simp only [openBody, Path.isEmpty, List.isEmpty_nil, Bool.true_eq_false, if_false, sys, returnFd, wantedOp,
        wantedResult, if_true, List.nil_append, ge_iff_le]
    | cons n ns =>
      simp only [openBody, Path.isEmpty, List.isEmpty_cons, if_true, sys, returnFd, wantedOp, openatBeneath,
        wantedResult, reduceCtorEq, if_false, List.nil_append, ge_iff_le, tailText_eq _ hrest, oResolveBeneath]
  | access a mode =>
    have hp := ((handlePath_eq v hist hs htree a b hb (accessBody v mode)).2 names hn).2 h rest ha
    simp only [serve, hp]
    cases rest with
    | nil =>
      simp only [accessBody, Path.isEmpty, List.isEmpty_nil, if_true, sys, returnInt, wantedOp, faccessatBeneath,
        wantedResult, List.nil_append, ge_iff_le, atResolveBeneath]
      rfl
    | cons n ns =>
      simp only [accessBody, Path.isEmpty, List.isEmpty_cons, Bool.false_eq_true, if_false, sys, returnInt, wantedOp,
        faccessatBeneath, wantedResult, reduceCtorEq, List.nil_append, ge_iff_le, atResolveBeneath,
        tailText_eq _ hrest]
      rfl
  | stat a sb =>
    have hp := ((handlePath_eq v hist hs htree a b hb (statBody v sb)).2 names hn).2 h rest ha
    have hc : contains v.hdr v.region sb (BitVec.ofNat 64 statSize) = true := by
      rw [contains_iff v.hdr v.region hwf]
      have := hsb a sb rfl
      have e : (BitVec.ofNat 64 statSize).toNat = 224 := rfl
      omega
    simp only [serve, hp, statBody, hc, if_true]
    cases rest with
    | nil =>
      simp only [Path.isEmpty, List.isEmpty_nil, if_true, sys, returnInt, wantedOp,
        wantedResult, List.nil_append, ge_iff_le]
    | cons n ns =>
      simp only [Path.isEmpty, List.isEmpty_cons, Bool.false_eq_true, if_false, sys, returnInt, wantedOp,
        fstatatBeneath, wantedResult, reduceCtorEq, List.nil_append, ge_iff_le, atResolveBeneath,
        tailText_eq _ hrest]
      rfl

/-- **C98.** The call that serves a request is permitted, whatever flags the sandbox sends. -/
theorem wantedOp_permitted (hist : List Export) (b : Buf) (lo hi : Nat) (c : Call) (names : Names) (h : Int)
    (rest : Names) (hn : resolve [] (cut (textOf b)) = some names)
    (ha : Answers (specHistory hist) names h rest)
    (hsb : ∀ a sb, c = .stat a sb → lo ≤ sb.toNat ∧ sb.toNat + 224 ≤ hi) :
    Permitted hist (textOf b) lo hi (wantedOp c h rest) := by
  have hsafe := resolve_safe (textOf b) (zero_not_mem_textOf b) names hn
  obtain ⟨e, he, h1, h2, h3⟩ := answers_export hist names h rest ha
  have hrest : ∀ n ∈ rest, SafeName n := fun n hr => hsafe n (by rw [h2]; simp [hr])
  have hfl : ∀ fl : BitVec 32, (fl ||| 0x800000#32).getLsbD 23 = true := by
    intro fl; simp
  have hat : (0x2000#32).getLsbD 13 = true := by decide
  cases rest with
  | nil =>
    have hf : ThatFile hist (textOf b) h := by
      rcases h3 with ⟨h3, _⟩ | ⟨_, h3⟩
      · exact ⟨e, he, h1, h3, by rw [hn, h2]; simp⟩
      · exact absurd rfl h3
    cases c with
    | open_ a flags mode => exact hf
    | access a mode => exact ⟨hat, Or.inr ⟨hf, rfl⟩⟩
    | stat a sb => exact ⟨hf, hsb a sb rfl⟩
  | cons n ns =>
    have hd : BelowDir hist (textOf b) h (n :: ns) := by
      rcases h3 with ⟨_, h3⟩ | ⟨h3, h4⟩
      · cases h3
      · exact ⟨e, he, h1, h3, h4, hrest, by rw [hn, h2]⟩
    cases c with
    | open_ a flags mode => exact ⟨hfl flags, n :: ns, hd, rfl⟩
    | access a mode => exact ⟨hat, Or.inl ⟨n :: ns, hd, rfl⟩⟩
    | stat a sb => exact ⟨hat, ⟨n :: ns, hd, rfl⟩, hsb a sb rfl⟩

/-- **C98.** For every request to open, stat or check a path, whatever the sandbox's memory, the kernel's answers and
the exports made so far: the parent makes at most one system call, on the descriptor of an export that covers the
path asked for, with the flag that keeps the kernel beneath it; results are written only inside the heap; and a
descriptor sent to the sandbox is the one that this call returned. -/
theorem bsd_confined (v : Env) (hwf : v.region.WF v.hdr) (hist : List Export) (hs : ShortPaths hist)
    (htree : v.tree = runHistory hist) (c : Call) (b : Buf) (hb : getPath v c.path = .ok (some b)) :
    ∃ res log, serve v c = .ok (res, log) ∧ log.length ≤ 1 ∧
      (∀ e ∈ log, Permitted hist (textOf b) (v.region.base.toNat + v.hdr.toNat) v.region.top.toNat e.op) ∧
      (res.handle = -1 ∨ ∃ e ∈ log, e.ret = res.handle ∧
        ((∃ d p fl m, e.op = .openat d p fl m) ∨ ∃ d, e.op = .dup d)) := by
  have refuse : ∀ i, serve v c = .ok (⟨i, -1⟩, []) →
      ∃ res log, serve v c = .ok (res, log) ∧ log.length ≤ 1 ∧
      (∀ e ∈ log, Permitted hist (textOf b) (v.region.base.toNat + v.hdr.toNat) v.region.top.toNat e.op) ∧
      (res.handle = -1 ∨ ∃ e ∈ log, e.ret = res.handle ∧
        ((∃ d p fl m, e.op = .openat d p fl m) ∨ ∃ d, e.op = .dup d)) :=
    fun i h => ⟨_, _, h, by simp, by simp, Or.inl rfl⟩
  rcases hn : resolve [] (cut (textOf b)) with _ | names
  · exact refuse (-22) (by cases c <;> exact (handlePath_eq v hist hs htree _ b hb _).1 hn)
  · by_cases hex : ∃ h rest, Answers (specHistory hist) names h rest
    · obtain ⟨h, rest, ha⟩ := hex
      by_cases hsb : ∀ a sb, c = .stat a sb → v.region.base.toNat + v.hdr.toNat ≤ sb.toNat ∧
          sb.toNat + 224 ≤ v.region.top.toNat
      · refine ⟨_, _, bsd_served v hwf hist hs htree c b hb names hn h rest ha hsb, by simp, ?_, ?_⟩
        · intro e he
          rw [List.mem_singleton.1 he]
          exact wantedOp_permitted hist b _ _ c names h rest hn ha hsb
        · cases c with
          | open_ a flags mode =>
            simp only [wantedResult]
            split
            · refine Or.inr ⟨_, List.mem_singleton.2 rfl, rfl, ?_⟩
              simp only [wantedOp]
              split
              · exact Or.inr ⟨_, rfl⟩
              · exact Or.inl ⟨_, _, _, _, rfl⟩
            · exact Or.inl rfl
          | access a mode => exact Or.inl rfl
          | stat a sb => exact Or.inl rfl
      · cases c with
        | open_ a flags mode => exact absurd (fun _ _ h => by cases h) hsb
        | access a mode => exact absurd (fun _ _ h => by cases h) hsb
        | stat a sb =>
          refine refuse (-22) ?_
          have hc : contains v.hdr v.region sb (BitVec.ofNat 64 statSize) = false := by
            rw [Bool.eq_false_iff]
            intro hc
            rw [contains_iff v.hdr v.region hwf] at hc
            have e : (BitVec.ofNat 64 statSize).toNat = 224 := rfl
            refine hsb fun a' sb' he => ?_
            cases he
            omega
          have hp := ((handlePath_eq v hist hs htree a b hb (statBody v sb)).2 names hn).2 h rest ha
          simp only [serve, hp]
          simp [statBody, hc, EINVAL]
    · exact refuse (-2) (by
        cases c <;> exact ((handlePath_eq v hist hs htree _ b hb _).2 names hn).1
          (fun h rest ha => hex ⟨h, rest, ha⟩))

/-- **C98**, when the host has no memory for the copy of a path: whatever is asked, the request is undefined, as it is on
Linux (`include/process_sandbox/sandbox.h:759-766` does not compare the block with null). -/
theorem bsd_no_memory (v : Env) (c : Call) (len : Nat) (hin : Bounds.contains v.hdr v.region c.path 1 = true)
    (hlen : (strnlenFrom v.rd1 c.path 0 (v.region.top - c.path).toNat).1 = len)
    (hend : len ≠ (v.region.top - c.path).toNat) (hm : v.malloc (len + 1) = none) : serve v c = .ub := by
  have hp : getPath v c.path = .ub := by
    simp only [getPath, strdupOut, hin, if_true, hlen, if_neg hend, hm]
  cases c <;> simp only [serve, handlePath, Call.path] at hp ⊢ <;> rw [hp]

/-- **C98**, the same for `openat`: no call is made and the descriptor that came with the request is not closed. -/
theorem bsd_openat_no_memory (v : Env) (h : Int) (a : Word) (flags mode : BitVec 32) (len : Nat)
    (hin : Bounds.contains v.hdr v.region a 1 = true)
    (hlen : (strnlenFrom v.rd1 a 0 (v.region.top - a).toNat).1 = len)
    (hend : len ≠ (v.region.top - a).toNat) (hm : v.malloc (len + 1) = none) : handleOpenat v h a flags mode = .ub := by
  have hp : getPath v a = .ub := by
    simp only [getPath, strdupOut, hin, if_true, hlen, if_neg hend, hm]
  rw [handleOpenat, hp]

/-- **C98.** For every request, content of the memory and allocator, the host on FreeBSD answers a path request, or its
behaviour is undefined because it has no memory for the copy of the path; there is no other outcome.  The same holds for
`openat`. -/
theorem bsd_ends_iff (v : Env) (hwf : v.region.WF v.hdr) (hm : MallocOk v.malloc) :
    (∀ c, (serve v c = .ub ↔ Strings.NoRoom v.hdr v.region v.malloc v.rd1 c.path) ∧
      (¬ Strings.NoRoom v.hdr v.region v.malloc v.rd1 c.path → ∃ x, serve v c = .ok x)) ∧
    (∀ h a flags mode, (handleOpenat v h a flags mode = .ub ↔ Strings.NoRoom v.hdr v.region v.malloc v.rd1 a) ∧
      (¬ Strings.NoRoom v.hdr v.region v.malloc v.rd1 a → ∃ x, handleOpenat v h a flags mode = .ok x)) := by
  have key : ∀ a (x : Outcome (Result × Log)), (getPath v a = .ub → x = .ub) →
      (∀ b, getPath v a = .ok b → ∃ y, x = .ok y) →
      (x = .ub ↔ Strings.NoRoom v.hdr v.region v.malloc v.rd1 a) ∧
        (¬ Strings.NoRoom v.hdr v.region v.malloc v.rd1 a → ∃ y, x = .ok y) := by
    intro a x h1 h2
    have hs := Strings.strdupOut_outcome v.hdr v.region hwf v.malloc hm v.rd1 v.rd2 a
    by_cases hn : Strings.NoRoom v.hdr v.region v.malloc v.rd1 a
    · exact ⟨iff_of_true (h1 (hs.1.2 hn)) hn, fun h => absurd hn h⟩
    · obtain ⟨b, hb⟩ := hs.2 hn
      obtain ⟨y, hy⟩ := h2 b hb
      exact ⟨iff_of_false (by rw [hy]; nofun) hn, fun _ => ⟨y, hy⟩⟩
  have hp : ∀ a handler, (handlePath v a handler = .ub ↔ Strings.NoRoom v.hdr v.region v.malloc v.rd1 a) ∧
      (¬ Strings.NoRoom v.hdr v.region v.malloc v.rd1 a → ∃ y, handlePath v a handler = .ok y) := by
    intro a handler
    refine key a _ (fun h => by simp only [handlePath, h]) ?_
    intro b hb
    simp only [handlePath, hb]
    cases b with
    | none => exact ⟨_, rfl⟩
    | some raw =>
      obtain ⟨p, hp⟩ : ∃ p, Path.ofView (some 0) (Strings.cText raw) = .ok p :=
        (Path.ofView_ok (some 0) (Strings.cText raw)).2 (Or.inr ⟨0, rfl, by decide⟩)
      simp only [hp]
      split
      · exact ⟨_, rfl⟩
      · split
        · exact ⟨_, rfl⟩
        · exact ⟨_, rfl⟩
  refine ⟨fun c => ?_, fun h a flags mode => ?_⟩
  · cases c <;> exact hp _ _
  · refine key a _ (fun h => by simp only [handleOpenat, h]) ?_
    intro b hb
    simp only [handleOpenat, hb]
    exact ⟨_, rfl⟩

/-- An environment that meets the hypotheses: `"/lib/x"` at `0x1008`, `/lib` exported as handle 5, a kernel that
answers 9 to every call. -/
def exEnv : Env :=
  ⟨0, ⟨0x1000, 0x2000⟩, PathSyscall.exEnv.malloc, PathSyscall.exEnv.tree, fun _ _ => (9, 0), PathSyscall.exEnv.rd1,
    PathSyscall.exEnv.rd2⟩

theorem exEnv_path : exEnv.region.WF exEnv.hdr ∧ getPath exEnv 0x1008 = .ok (some (txt "/lib/x" ++ [0])) :=
  PathSyscall.exEnv_path

example : serve exEnv (.open_ 0x1008 0x241 0x1a4) =
    .ok (⟨-78, 9⟩, [⟨.openat 5 (some (txt "x")) 0x800241 0x1a4, 9, 0⟩]) := by
  have := bsd_served exEnv exEnv_path.1 exHist PathSyscall.exHist_short rfl (.open_ 0x1008 0x241 0x1a4) _
    exEnv_path.2 [txt "lib", txt "x"] (by decide) 5 [txt "x"]
    (.dir [txt "lib"] _ 5 (by decide) rfl (by decide)) (fun _ _ h => by cases h)
  exact this

example : serve { exEnv with malloc := fun _ => none } (.access 0x1008 4) = .ub :=
  bsd_no_memory _ _ 6 (by decide +kernel) (by decide +kernel) (by decide +kernel) rfl

example : handleOpenat { exEnv with malloc := fun _ => none } 4 0x1008 0 0 = .ub :=
  bsd_openat_no_memory _ _ _ _ _ 6 (by decide +kernel) (by decide +kernel) (by decide +kernel) rfl

example : ∃ res log, serve exEnv (.stat 0x1008 0x1100) = .ok (res, log) ∧ log.length ≤ 1 := by
  obtain ⟨res, log, h1, h2, _⟩ := bsd_confined exEnv exEnv_path.1 exHist PathSyscall.exHist_short rfl
    (.stat 0x1008 0x1100) _ exEnv_path.2
  exact ⟨res, log, h1, h2⟩

theorem linux_access_calls (k : PathSyscall.Kernel) (fd : Int) (p : Option (List Byte)) (m f : BitVec 32) :
    (PathSyscall.faccessatBeneath k [] fd p m f).2 ≠ [] := by
  unfold PathSyscall.faccessatBeneath PathSyscall.openatBeneath PathSyscall.sys
  simp only [List.nil_append]
  split <;> simp

theorem linux_stat_calls (k : PathSyscall.Kernel) (fd : Int) (p : Option (List Byte)) (sb : Word) (f : BitVec 32) :
    (PathSyscall.fstatatBeneath k [] fd p sb f).2 ≠ [] := by
  unfold PathSyscall.fstatatBeneath PathSyscall.openatBeneath PathSyscall.sys
  simp only [List.nil_append]
  split <;> simp

/-- **C98.** A request is refused on FreeBSD without a system call whenever it is refused on Linux without one, and
with the same answer; and conversely, except that `stat` asks for 224 bytes instead of 144. -/
theorem refused_as_on_linux (v : Env) (hwf : v.region.WF v.hdr) (hist : List Export) (hs : ShortPaths hist)
    (htree : v.tree = runHistory hist) (hm : MallocOk v.malloc) (ht : MallocTotal v.malloc)
    (k : PathSyscall.Kernel) (c : Call) (res : Result) :
    (PathSyscall.serve (v.linux k) c = .ok (res, []) → serve v c = .ok (res, [])) ∧
    (serve v c = .ok (res, []) →
      PathSyscall.serve (v.linux k) c = .ok (res, []) ∨
      (res = ⟨-22, -1⟩ ∧ ∃ a sb, c = .stat a sb ∧ v.region.base.toNat + v.hdr.toNat ≤ sb.toNat ∧
        sb.toNat + 144 ≤ v.region.top.toNat ∧ v.region.top.toNat < sb.toNat + 224)) := by
  have hget : PathSyscall.getPath (v.linux k) c.path = getPath v c.path := rfl
  rcases strdupOut_safe v.hdr v.region v.malloc hm ht v.rd1 v.rd2 c.path with h0 | ⟨b, h0, _⟩
  · -- no string: both refuse with EINVAL
    have hb : getPath v c.path = .ok none := h0
    have hb' : PathSyscall.getPath (v.linux k) c.path = .ok none := h0
    have e1 : serve v c = .ok (⟨-22, -1⟩, []) := by
      cases c <;>
      · simp only [Call.path] at hb
        simp only [serve, handlePath, hb]
        rfl
    have e2 : PathSyscall.serve (v.linux k) c = .ok (⟨-22, -1⟩, []) := by
      cases c <;>
      · simp only [Call.path] at hb'
        simp only [PathSyscall.serve, PathSyscall.handleOpen, PathSyscall.handleAccess, PathSyscall.handleStat,
          PathSyscall.handlePath, hb']
        rfl
    rw [e1, e2]
    exact ⟨fun h => by simpa using h, fun h => Or.inl (by simpa using h)⟩
  · have hb : getPath v c.path = .ok (some b) := h0
    have hb' : PathSyscall.getPath (v.linux k) c.path = .ok (some b) := h0
    have hr := PathSyscall.serve_refused (v.linux k) hwf hist hs htree hm ht c
    have hr := hr.2 b hb'
    rcases hn : resolve [] (cut (textOf b)) with _ | names
    · have e1 : serve v c = .ok (⟨-22, -1⟩, []) := by
        cases c <;> exact (handlePath_eq v hist hs htree _ b hb _).1 hn
      rw [e1, hr.1 hn]
      exact ⟨fun h => by simpa using h, fun h => Or.inl (by simpa using h)⟩
    · by_cases hex : ∃ h rest, Answers (specHistory hist) names h rest
      · obtain ⟨h, rest, ha⟩ := hex
        by_cases hsb : ∀ a sb, c = .stat a sb → v.region.base.toNat + v.hdr.toNat ≤ sb.toNat ∧
            sb.toNat + 224 ≤ v.region.top.toNat
        · have e1 := bsd_served v hwf hist hs htree c b hb names hn h rest ha hsb
          simp only at e1
          constructor
          · intro hl
            exfalso
            -- Linux makes a call
            have hpl := ((PathSyscall.handlePath_eq (v.linux k) hist hs htree c.path b hb'
              (match c with
                | .open_ _ flags mode => PathSyscall.openBody (v.linux k) flags mode
                | .access _ mode => PathSyscall.accessBody (v.linux k) mode
                | .stat _ sb => PathSyscall.statBody (v.linux k) sb)).2 names hn).2 h rest ha
            cases c with
            | open_ a flags mode =>
              simp only [PathSyscall.serve, PathSyscall.handleOpen, Call.path] at hl hpl
              rw [hpl] at hl
              simp only [PathSyscall.openBody, Outcome.ok.injEq, Prod.mk.injEq] at hl
              replace hl := hl.2
              split at hl <;> simp [PathSyscall.openatBeneath, PathSyscall.sys] at hl
            | access a mode =>
              simp only [PathSyscall.serve, PathSyscall.handleAccess, Call.path] at hl hpl
              rw [hpl] at hl
              simp only [PathSyscall.accessBody, Outcome.ok.injEq, Prod.mk.injEq] at hl
              exact linux_access_calls _ _ _ _ _ hl.2
            | stat a sb =>
              have hsb' := hsb a sb rfl
              have hc : contains v.hdr v.region sb PathSyscall.statSize = true := by
                rw [contains_iff v.hdr v.region hwf]
                have e : PathSyscall.statSize.toNat = 144 := rfl
                omega
              simp only [PathSyscall.serve, PathSyscall.handleStat, Call.path] at hl hpl
              rw [hpl] at hl
              have hc' : contains (v.linux k).hdr (v.linux k).region sb PathSyscall.statSize = true := hc
              simp only [PathSyscall.statBody, hc', if_true, Outcome.ok.injEq, Prod.mk.injEq] at hl
              replace hl := hl.2
              split at hl
              · simp [PathSyscall.sys] at hl
              · exact linux_stat_calls _ _ _ _ _ hl
          · intro hl
            rw [e1] at hl
            simp at hl
        · cases c with
          | open_ a flags mode => exact absurd (fun _ _ h => by cases h) hsb
          | access a mode => exact absurd (fun _ _ h => by cases h) hsb
          | stat a sb =>
            have hc : contains v.hdr v.region sb (BitVec.ofNat 64 statSize) = false := by
              rw [Bool.eq_false_iff]
              intro hc
              rw [contains_iff v.hdr v.region hwf] at hc
              have e : (BitVec.ofNat 64 statSize).toNat = 224 := rfl
              refine hsb fun a' sb' he => ?_
              cases he
              omega
            have hp := ((handlePath_eq v hist hs htree a b hb (statBody v sb)).2 names hn).2 h rest ha
            have e1 : serve v (.stat a sb) = .ok (⟨-22, -1⟩, []) := by
              simp only [serve, hp]
              simp [statBody, hc, EINVAL]
            rw [e1]
            by_cases h144 : v.region.base.toNat + v.hdr.toNat ≤ sb.toNat ∧ sb.toNat + 144 ≤ v.region.top.toNat
            · constructor
              · intro hl
                exfalso
                have hc' : contains (v.linux k).hdr (v.linux k).region sb PathSyscall.statSize = true := by
                  show contains v.hdr v.region sb PathSyscall.statSize = true
                  rw [contains_iff v.hdr v.region hwf]
                  have e : PathSyscall.statSize.toNat = 144 := rfl
                  omega
                have hpl := ((PathSyscall.handlePath_eq (v.linux k) hist hs htree a b hb'
                  (PathSyscall.statBody (v.linux k) sb)).2 names hn).2 h rest ha
                simp only [PathSyscall.serve, PathSyscall.handleStat] at hl
                rw [hpl] at hl
                simp only [PathSyscall.statBody, hc', if_true, Outcome.ok.injEq, Prod.mk.injEq] at hl
                replace hl := hl.2
                split at hl
                · simp [PathSyscall.sys] at hl
                · exact linux_stat_calls _ _ _ _ _ hl
              · intro hl
                right
                simp only [Outcome.ok.injEq, Prod.mk.injEq, and_true] at hl
                refine ⟨hl.symm, a, sb, rfl, h144.1, h144.2, ?_⟩
                refine Nat.lt_of_not_le fun hle => hsb fun a' sb' he => ?_
                cases he
                exact ⟨h144.1, hle⟩
            · have e2 := hr.2.2 a sb names h rest rfl hn ha h144
              rw [e2]
              exact ⟨fun h => by simpa using h, fun h => Or.inl (by simpa using h)⟩
      · have hall : ∀ h rest, ¬ Answers (specHistory hist) names h rest := fun h rest ha => hex ⟨h, rest, ha⟩
        have e1 : serve v c = .ok (⟨-2, -1⟩, []) := by
          cases c <;> exact ((handlePath_eq v hist hs htree _ b hb _).2 names hn).1 hall
        rw [e1, hr.2.1 names hn hall]
        exact ⟨fun h => by simpa using h, fun h => Or.inl (by simpa using h)⟩

/-- The hypotheses can be met, and the exception occurs: a `struct stat` at `0x1f40` has room for 144 bytes but not
for 224. -/
example : MallocOk exEnv.malloc ∧ MallocTotal exEnv.malloc ∧ serve exEnv (.stat 0x1008 0x1f40) = .ok (⟨-22, -1⟩, []) ∧
    PathSyscall.serve (exEnv.linux fun _ _ => (9, 0)) (.stat 0x1008 0x1f40) ≠ .ok (⟨-22, -1⟩, []) := by
  refine ⟨?_, ?_, by decide +kernel, by decide +kernel⟩
  · intro n b h
    simp only [exEnv, PathSyscall.exEnv, Option.some.injEq] at h
    subst h; simp
  · intro n; simp [exEnv, PathSyscall.exEnv]

/-- **C98.** An `openat` request makes one opening call relative to the descriptor that the sandbox sent (or `-1`),
with the flag that keeps the kernel beneath it, and closes that descriptor. -/
theorem bsd_openat_own (v : Env) (h : Int) (a : Word) (flags mode : BitVec 32) (res : Result) (log : Log)
    (hok : handleOpenat v h a flags mode = .ok (res, log)) :
    (∃ p fl e, log.take 1 = [⟨.openat h p fl mode, res.integer, e⟩] ∧ fl.getLsbD 23 = true ∧
      ∀ i, i ≠ 23 → fl.getLsbD i = flags.getLsbD i) ∧
      (∀ x ∈ log.drop 1, x.op = .close h) ∧ (0 ≤ h ↔ log.length = 2) ∧ res.handle = -1 := by
  have hb23 : (flags ||| oResolveBeneath).getLsbD 23 = true := by
    simp [oResolveBeneath]
  have hoth : ∀ i, i ≠ 23 → (flags ||| oResolveBeneath).getLsbD i = flags.getLsbD i := by
    intro i hi
    rw [BitVec.getLsbD_or]
    have : oResolveBeneath.getLsbD i = false := by
      have e : oResolveBeneath = BitVec.twoPow 32 23 := by decide
      rw [e, BitVec.getLsbD_twoPow]
      simp; omega
    rw [this, Bool.or_false]
  unfold handleOpenat at hok
  split at hok
  · simp only [Outcome.ok.injEq, Prod.mk.injEq, openatBeneath, sys] at hok
    obtain ⟨rfl, rfl⟩ := hok
    split
    · rename_i hh
      simp only [List.nil_append, List.singleton_append, List.take_succ_cons, List.take_zero,
        List.drop_succ_cons, List.drop_zero, List.mem_singleton, forall_eq, List.length_cons,
        List.length_nil]
      exact ⟨⟨_, _, _, rfl, hb23, hoth⟩, trivial, by simpa using hh, trivial⟩
    · rename_i hh
      simp only [List.nil_append, List.take_succ_cons, List.take_zero, List.drop_succ_cons,
        List.drop_nil, List.not_mem_nil, false_imp_iff, implies_true, List.length_cons,
        List.length_nil]
      exact ⟨⟨_, _, _, rfl, hb23, hoth⟩, trivial, by omega, trivial⟩
  · simp at hok
  · simp at hok
  · simp at hok

example : ∃ res log, handleOpenat exEnv 4 0x1008 0 0 = .ok (res, log) ∧ log.length = 2 := ⟨_, _, rfl, rfl⟩

/-! ## C99 -/

theorem le_length (n v : Nat) : (le n v).length = n := by simp [le]

theorem le_get (n v i : Nat) (hi : i < n) : (le n v)[i]? = some (UInt8.ofNat (v / 256 ^ i % 256)) := by
  simp [le, hi]

theorem layout_length (l : List (Nat × Nat)) : (layout l).length = (l.map (·.1)).sum := by
  induction l with
  | nil => rfl
  | cons f l ih => simp [layout, le_length, ih]

/-- The bytes of one member, after the members `pre`. -/
theorem layout_get (pre : List (Nat × Nat)) (n v : Nat) (post : List (Nat × Nat)) (i : Nat) (hi : i < n) :
    (layout (pre ++ (n, v) :: post))[(pre.map (·.1)).sum + i]? = some (UInt8.ofNat (v / 256 ^ i % 256)) := by
  induction pre with
  | nil =>
    simp only [List.nil_append, layout, List.map_nil, List.sum_nil, Nat.zero_add]
    rw [List.getElem?_append_left (by rw [le_length]; exact hi), le_get n v i hi]
  | cons f pre ih =>
    simp only [List.cons_append, layout, List.map_cons, List.sum_cons]
    rw [List.getElem?_append_right (by rw [le_length]; omega), le_length,
      show f.1 + (pre.map (·.1)).sum + i - f.1 = (pre.map (·.1)).sum + i by omega, ih]

theorem stat_length (s : Stat) : s.bytes.length = 224 := by
  rw [Stat.bytes, layout_length]
  simp only [Stat.members, List.map_cons, List.map_nil, List.sum_cons, List.sum_nil]; omega

theorem write_in (m : Mem) (a : Word) (bs : List Byte) (x : Word) (h : (x - a).toNat < bs.length) :
    write m a bs x = (bs[(x - a).toNat]?).getD 0 := by
  simp only [write, h, dite_true, List.getElem?_eq_getElem, Option.getD_some]

theorem write_else (m : Mem) (a : Word) (bs : List Byte) (x : Word) (h : ¬ (x - a).toNat < bs.length) :
    write m a bs x = m x := by
  simp only [write, h, dite_false]

/-- What the child can rely on: the object is not at address 0, and `malloc` has a block ready that does not overlap
the 224 bytes at it. -/
def Ready (c : Child) (buf : Word) : Prop :=
  buf ≠ 0 ∧ ∃ p rest, c.mallocs = p :: rest ∧ ∀ i j, i < 224 → j < 224 →
    p + BitVec.ofNat 64 i ≠ buf + BitVec.ofNat 64 j

/-- The block that a call may use for its copy. -/
def scratch (c : Child) (x : Word) : Prop := ∃ p rest, c.mallocs = p :: rest ∧ (x - p).toNat < 224

theorem apart_of_ready {c : Child} {buf p : Word} {rest : List Word} (hr : Ready c buf) (hm : c.mallocs = p :: rest)
    (x : Word) (hx : (x - buf).toNat < 224) : ¬ (x - p).toNat < 224 := by
  intro h
  obtain ⟨_, q, rest', h1, h2⟩ := hr
  rw [hm] at h1
  cases h1
  refine h2 _ _ h hx ?_
  bv_omega

/-- **C99.** The exact effect of a trapped `stat` on FreeBSD: the 224 bytes at the caller's address become the
kernel's structure, or stay as they are if the call failed. -/
theorem stat_effect (b : ChildArgs.Bounds) (c : Child) (buf : Word) (hr : Ready c buf) (found : Option Stat) :
    ∃ c', statCall b c buf found = .ok c' ∧
      (∀ x, (x - buf).toNat < 224 → c'.mem x = match found with
        | some s => (s.bytes[(x - buf).toNat]?).getD 0
        | none => c.mem x) ∧
      (∀ x, ¬ (x - buf).toNat < 224 → ¬ scratch c x → c'.mem x = c.mem x) := by
  unfold statCall wrapPtr
  by_cases hin : ChildArgs.inside b buf 1
  · rw [if_pos hin]
    refine ⟨_, rfl, ?_, ?_⟩
    · intro x hx
      cases found with
      | none => rfl
      | some s =>
        simp only [unwrap, ChildArgs.Wrapped.arg, Option.getD_none]
        exact write_in _ _ _ _ (by rw [stat_length]; exact hx)
    · intro x hx _
      cases found with
      | none => rfl
      | some s =>
        simp only [unwrap, ChildArgs.Wrapped.arg, Option.getD_none]
        exact write_else _ _ _ _ (by rw [stat_length]; exact hx)
  · obtain ⟨h0, p, rest, hm, hap⟩ := hr
    have hap' := fun x hx => apart_of_ready (c := c) (buf := buf) ⟨h0, p, rest, hm, hap⟩ hm x hx
    rw [if_neg hin, ChildArgs.dupBytes, if_neg h0, hm]
    refine ⟨_, rfl, ?_, ?_⟩
    · intro x hx
      have e : p + (x - buf) - p = x - buf := by bv_omega
      cases found with
      | none =>
        simp only [unwrap, blit, statSize, hx, if_true, e]
        congr 1; bv_omega
      | some s =>
        simp only [unwrap, blit, statSize, hx, if_true, ChildArgs.Wrapped.arg, Option.getD_some]
        rw [write_in _ _ _ _ (by rw [e, stat_length]; exact hx), e]
    · intro x hx hs
      have hxp : ¬ (x - p).toNat < 224 := fun h => hs ⟨p, rest, hm, h⟩
      cases found with
      | none => simp only [unwrap, blit, statSize, hx, hxp, if_false, if_true]
      | some s =>
        simp only [unwrap, blit, statSize, hx, if_false, if_true, ChildArgs.Wrapped.arg, Option.getD_some]
        rw [write_else _ _ _ _ (by rw [stat_length]; exact hxp)]
        exact if_neg hxp

/-- **C99, what holds.** No byte outside the 224 bytes at the caller's address changes (apart from the block that the
child allocated for its copy), and a call that fails changes nothing. -/
theorem stat_writes_partial (b : ChildArgs.Bounds) (c : Child) (buf : Word) (hr : Ready c buf) (found : Option Stat) :
    ∃ c', statCall b c buf found = .ok c' ∧
      (∀ x, ¬ (x - buf).toNat < 224 → ¬ scratch c x → c'.mem x = c.mem x) ∧
      (found = none → ∀ x, ¬ scratch c x → c'.mem x = c.mem x) := by
  obtain ⟨c', h1, h2, h3⟩ := stat_effect b c buf hr found
  refine ⟨c', h1, h3, ?_⟩
  intro hf x hs
  by_cases hx : (x - buf).toNat < 224
  · rw [h2 x hx, hf]
  · exact h3 x hx hs

theorem spare_zero (s : Stat) (i : Nat) (h1 : 144 ≤ i) (h2 : i < 224) : s.bytes[i]? = some 0 := by
  have h := layout_get (s.members.take 22) 80 0 [] (i - 144) (by omega)
  have e : (List.map (·.1) (s.members.take 22)).sum + (i - 144) = i := by
    have : (List.map (·.1) (s.members.take 22)).sum = 144 := by
      simp only [Stat.members, List.take, List.map_cons, List.map_nil, List.sum_cons, List.sum_nil]; omega
    omega
  rw [e] at h
  rw [Stat.bytes, show s.members = s.members.take 22 ++ (80, 0) :: [] from rfl, h]
  simp

/-- **C99 fails.** Every successful `stat` that a program makes on FreeBSD sets 80 bytes after its structure to zero:
the structure has 120 bytes, the host writes 224, and the last 80 of them are the spare words.  If any of those bytes
was not zero, memory outside the structure has changed. -/
theorem stat_overruns (b : ChildArgs.Bounds) (c : Child) (buf : Word) (hr : Ready c buf) (s : Stat) :
    ∃ c', statCall b c buf (some s) = .ok c' ∧
      (∀ i, 144 ≤ i → i < 224 → c'.mem (buf + BitVec.ofNat 64 i) = 0) ∧
      ((∃ i, 144 ≤ i ∧ i < 224 ∧ c.mem (buf + BitVec.ofNat 64 i) ≠ 0) → ¬ OnlyStruct c.mem c'.mem buf) := by
  obtain ⟨c', h1, h2, _⟩ := stat_effect b c buf hr (some s)
  have hz : ∀ i, 144 ≤ i → i < 224 → c'.mem (buf + BitVec.ofNat 64 i) = 0 := by
    intro i hi1 hi2
    have e : (buf + BitVec.ofNat 64 i - buf).toNat = i := by bv_omega
    rw [h2 _ (by rw [e]; exact hi2)]
    simp only [e, spare_zero s i hi1 hi2, Option.getD_some]
  refine ⟨c', h1, hz, ?_⟩
  rintro ⟨i, hi1, hi2, hne⟩ ho
  have e : (buf + BitVec.ofNat 64 i - buf).toNat = i := by bv_omega
  have := ho (buf + BitVec.ofNat 64 i) (by rw [e, oldSize]; omega)
  rw [hz i hi1 hi2] at this
  exact hne this.symm

theorem num_le (m : Mem) (v : Nat) (n : Nat) (a : Word) (hn : n < 2 ^ 64)
    (h : ∀ i, i < n → m (a + BitVec.ofNat 64 i) = UInt8.ofNat (v / 256 ^ i % 256)) :
    num m a n = v % 256 ^ n := by
  induction n generalizing a v with
  | zero => simp [num, Nat.mod_one]
  | succ n ih =>
    have h0 := h 0 (by omega)
    have e0 : a + BitVec.ofNat 64 0 = a := by simp
    rw [e0] at h0
    have hrec := ih (v / 256) (a + 1) (by omega) (by
      intro i hi
      have := h (i + 1) (by omega)
      have e : a + 1 + BitVec.ofNat 64 i = a + BitVec.ofNat 64 (i + 1) := by bv_omega
      rw [e, this, Nat.div_div_eq_div_mul, Nat.pow_succ, Nat.mul_comm (256 ^ i)])
    rw [num, hrec, h0]
    simp only [Nat.pow_zero, Nat.div_one, UInt8.toNat_ofNat']
    have e8 : v % 256 % 2 ^ 8 = v % 256 := by omega
    rw [e8, Nat.pow_add_one', Nat.mod_mul]

theorem mtimNsec_at (s : Stat) (i : Nat) (hi : i < 8) :
    s.bytes[72 + i]? = some (UInt8.ofNat (s.mtimNsec.toNat / 256 ^ i % 256)) :=
  layout_get (s.members.take 12) 8 s.mtimNsec.toNat (s.members.drop 13) i hi

theorem ino_at (s : Stat) (i : Nat) (hi : i < 2) :
    s.bytes[8 + i]? = some (UInt8.ofNat (s.ino.toNat / 256 ^ i % 256)) :=
  layout_get (s.members.take 1) 8 s.ino.toNat (s.members.drop 2) i (by omega)

/-- **C99 fails.** And the program reads other fields than it means to: what it takes for the size of the file is the
nanoseconds of its modification time, and what it takes for the mode is the low half-word of the inode number. -/
theorem stat_misread (b : ChildArgs.Bounds) (c : Child) (buf : Word) (hr : Ready c buf) (s : Stat) :
    ∃ c', statCall b c buf (some s) = .ok c' ∧
      num c'.mem (buf + oldSizeAt) 8 = s.mtimNsec.toNat ∧
      num c'.mem (buf + oldModeAt) 2 = s.ino.toNat % 2 ^ 16 := by
  obtain ⟨c', h1, h2, _⟩ := stat_effect b c buf hr (some s)
  refine ⟨c', h1, ?_, ?_⟩
  · rw [num_le c'.mem s.mtimNsec.toNat 8 _ (by decide) ?_]
    · have := s.mtimNsec.isLt
      omega
    · intro i hi
      have e : (buf + oldSizeAt + BitVec.ofNat 64 i - buf).toNat = 72 + i := by
        simp only [oldSizeAt]; bv_omega
      rw [h2 _ (by rw [e]; omega)]
      simp only [e, mtimNsec_at s i hi, Option.getD_some]
  · rw [num_le c'.mem s.ino.toNat 2 _ (by decide) ?_]
    intro i hi
    have e : (buf + oldModeAt + BitVec.ofNat 64 i - buf).toNat = 8 + i := by
      simp only [oldModeAt]; bv_omega
    rw [h2 _ (by rw [e]; omega)]
    simp only [e, ino_at s i hi, Option.getD_some]

/-- A child with a structure of 120 bytes on a page of ones: it meets the hypotheses, and memory after the structure
is overwritten. -/
def exChild : Child := ⟨fun _ => 1, [], [0x9000]⟩

theorem exChild_ready : Ready exChild 0x5000 :=
  ⟨by decide, 0x9000, [], rfl, fun i j hi hj h => by bv_omega⟩

example (s : Stat) : ∃ c', statCall ⟨0x8000, 0x10000⟩ exChild 0x5000 (some s) = .ok c' ∧
    ¬ OnlyStruct exChild.mem c'.mem 0x5000 := by
  obtain ⟨c', h1, _, h3⟩ := stat_overruns ⟨0x8000, 0x10000⟩ exChild 0x5000 exChild_ready s
  exact ⟨c', h1, h3 ⟨150, by decide, by decide, by decide⟩⟩

example (s : Stat) (h : s.size ≠ s.mtimNsec) : ∃ c', statCall ⟨0x8000, 0x10000⟩ exChild 0x5000 (some s) = .ok c' ∧
    num c'.mem (0x5000 + oldSizeAt) 8 ≠ s.size.toNat := by
  obtain ⟨c', h1, h2, _⟩ := stat_misread ⟨0x8000, 0x10000⟩ exChild 0x5000 exChild_ready s
  exact ⟨c', h1, fun e => h (BitVec.eq_of_toNat_eq (by rw [← e, h2]))⟩

/-- **C99, how the call ends.**  It never throws.  It is undefined exactly for a null pointer that does not lie in the shared
memory, and ends the child exactly if a copy is needed and `malloc` has no block; otherwise the child's blocks are as they
were before. -/
theorem stat_ends (b : ChildArgs.Bounds) (c : Child) (buf : Word) (found : Option Stat) :
    (statCall b c buf found = .ub ↔ ¬ (b.start ≤ buf ∧ buf + 1 < b.end) ∧ buf = 0) ∧
    (statCall b c buf found = .abort ↔ ¬ (b.start ≤ buf ∧ buf + 1 < b.end) ∧ buf ≠ 0 ∧ c.mallocs = []) ∧
    statCall b c buf found ≠ .throws ∧ ∀ c', statCall b c buf found = .ok c' → c'.live = c.live := by
  have hiff : ChildArgs.inside b buf 1 = true ↔ (b.start ≤ buf ∧ buf + 1 < b.end) := by
    simp [ChildArgs.inside]
  rw [← hiff]
  unfold statCall wrapPtr
  by_cases hin : ChildArgs.inside b buf 1
  · rw [if_pos hin]
    refine ⟨⟨(nomatch ·), fun h => absurd hin h.1⟩, ⟨(nomatch ·), fun h => absurd hin h.1⟩, (nomatch ·), ?_⟩
    intro c' h
    cases h
    cases found <;> rfl
  · rw [if_neg hin, ChildArgs.dupBytes]
    by_cases h0 : buf = 0
    · rw [if_pos h0]
      exact ⟨⟨fun _ => ⟨hin, h0⟩, fun _ => rfl⟩, ⟨(nomatch ·), fun h => absurd h0 h.2.1⟩, (nomatch ·), fun _ h => nomatch h⟩
    · rw [if_neg h0]
      cases hm : c.mallocs with
      | nil =>
        exact ⟨⟨(nomatch ·), fun h => absurd h.2 h0⟩, ⟨fun _ => ⟨hin, h0, rfl⟩, fun _ => rfl⟩, (nomatch ·), fun _ h => nomatch h⟩
      | cons p rest =>
        refine ⟨⟨(nomatch ·), fun h => absurd h.2 h0⟩, ⟨(nomatch ·), fun h => nomatch h.2.2⟩, (nomatch ·), ?_⟩
        intro c' h
        cases h
        cases found <;> simp [unwrap]

/-- Each of the ends occurs. -/
example : statCall ⟨0x8000, 0x10000⟩ exChild 0 none = .ub ∧
    statCall ⟨0x8000, 0x10000⟩ { exChild with mallocs := [] } 0x5000 none = .abort :=
  ⟨(stat_ends _ _ _ _).1.2 (by decide), (stat_ends _ _ _ _).2.1.2 ⟨by decide, by decide, rfl⟩⟩

end Verif.BsdPath
