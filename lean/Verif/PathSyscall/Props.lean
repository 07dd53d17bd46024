import Verif.PathSyscall.Lemmas

/-!
# Path requests (properties C14, C15)
-/

namespace Verif.PathSyscall

open Verif.Bounds Verif.Strings Verif.Path Verif.Path.Spec Verif.FileTree Verif.FileTree.Spec
open Verif.Callback Spec

theorem confined_nil (hist : List Export) (text : List Byte) (lo hi : Nat) :
    Confined hist text lo hi [] := by
  intro i h; simp at h

theorem confined_snoc (hist : List Export) (text : List Byte) (lo hi : Nat) (log : Log)
    (e : Entry) (h : Confined hist text lo hi log) (hp : Permitted hist text lo hi log e.op) :
    Confined hist text lo hi (log ++ [e]) := by
  intro i hi
  by_cases hlt : i < log.length
  · have := h i hlt
    rw [List.getElem_append_left hlt, List.take_append_of_le_length (by omega)]
    exact this
  · have : i = log.length := by simp at hi; omega
    subst this
    simpa using hp

theorem confined_sys (hist : List Export) (text : List Byte) (lo hi : Nat) (k : Kernel) (log : Log)
    (op : HostOp) (h : Confined hist text lo hi log) (hp : Permitted hist text lo hi log op) :
    Confined hist text lo hi (sys k log op).2 := by
  simp only [sys]
  exact confined_snoc _ _ _ _ _ _ h hp

theorem confined_open_then (hist : List Export) (text : List Byte) (lo hi : Nat) (k : Kernel)
    (fd : Int) (path : Option (List Byte)) (flags mode : BitVec 32)
    (hp : ∀ fl m, Permitted hist text lo hi [] (.openat2 fd path fl m 8)) :
    Confined hist text lo hi (openatBeneath k [] fd path flags mode).2 ∧
    (0 ≤ (openatBeneath k [] fd path flags mode).1.1 →
      OpenedHere (openatBeneath k [] fd path flags mode).2
        (openatBeneath k [] fd path flags mode).1.1) := by
  constructor
  · exact confined_sys _ _ _ _ _ _ _ (confined_nil _ _ _ _) (hp _ _)
  · intro h
    exact ⟨h, ⟨_, _, _⟩, List.mem_singleton.2 rfl, rfl, _, _, _, _, _, rfl⟩

theorem openedHere_mono (a b : Log) (fd : Int) (h : OpenedHere a fd) : OpenedHere (a ++ b) fd := by
  obtain ⟨h1, e, he, h2⟩ := h
  exact ⟨h1, e, by simp [he], h2⟩

theorem openedHere_sys (k : Kernel) (log : Log) (op : HostOp) (fd : Int) (h : OpenedHere log fd) :
    OpenedHere (sys k log op).2 fd := openedHere_mono _ _ _ h

theorem returnFd_handle (r : Int × Int) :
    (returnFd r).handle = -1 ∨ (returnFd r).handle = r.1 := by
  unfold returnFd
  split
  · exact Or.inr rfl
  · exact Or.inl rfl

/-- The opening call made for an answer of the tree is permitted. -/
theorem permitted_open (hist : List Export) (b : Buf) (lo hi : Nat) (names : Names) (h : Int)
    (rest : Names) (hn : resolve [] (cut (textOf b)) = some names)
    (ha : Answers (specHistory hist) names h rest) (fl m : Word) :
    Permitted hist (textOf b) lo hi []
      (.openat2 h (if rest = [] then none else some (tailText ⟨false, rest⟩)) fl m 8) := by
  obtain ⟨e, he, h1, h2, h3⟩ := answers_export hist names h rest ha
  have hsafe := resolve_safe (textOf b) (zero_not_mem_textOf b) names hn
  have hrest : ∀ n ∈ rest, SafeName n := fun n hr => hsafe n (by rw [h2]; simp [hr])
  refine ⟨rfl, e, he, h1, rest, by rw [hn, h2], hrest, ?_⟩
  rcases h3 with ⟨h3, h4⟩ | ⟨h3, h4⟩
  · exact Or.inr ⟨h3, h4, by simp [h4]⟩
  · exact Or.inl ⟨h3, h4, by rw [if_neg h4, tailText_eq rest hrest]⟩

/-- **C14.** For every request to open, stat or check a path, whatever the sandbox's memory, the
kernel's answers and the exports made so far: every system call the parent makes is on the
descriptor of an export covering the requested path or on one it opened for this request; opens
are relative to an exported directory, with names none of which can climb and with
`RESOLVE_BENEATH`; and a result is written only inside the sandbox heap.  `b` is the private copy
of the path. -/
theorem serve_confined (v : Env) (hwf : v.region.WF v.hdr) (hist : List Export)
    (hs : ShortPaths hist) (htree : v.tree = runHistory hist) (c : Call) (b : Buf)
    (hb : getPath v c.path = .ok (some b)) :
    ∃ res log, serve v c = .ok (res, log) ∧
      Confined hist (textOf b) (v.region.base.toNat + v.hdr.toNat) v.region.top.toNat log ∧
      (res.handle = -1 ∨ ∃ e ∈ log, e.ret = res.handle ∧
        ((∃ d p fl m rs, e.op = .openat2 d p fl m rs) ∨ ∃ d, e.op = .dup d)) := by
  -- the general shape: refusal, or the handler is run on an answer of the tree
  have gen : ∀ handler : Int → Path → Result × Log,
      (∃ i, handlePath v c.path handler = .ok (⟨i, -1⟩, [])) ∨
      (∃ names h rest, resolve [] (cut (textOf b)) = some names ∧
        Answers (specHistory hist) names h rest ∧
        handlePath v c.path handler = .ok (handler h ⟨false, rest⟩)) := by
    intro handler
    have hp := handlePath_eq v hist hs htree c.path b hb handler
    rcases hn : resolve [] (cut (textOf b)) with _ | names
    · exact Or.inl ⟨_, hp.1 hn⟩
    · have hp := hp.2 names hn
      by_cases hex : ∃ h rest, Answers (specHistory hist) names h rest
      · obtain ⟨h, rest, ha⟩ := hex
        exact Or.inr ⟨names, h, rest, rfl, ha, hp.2 h rest ha⟩
      · exact Or.inl ⟨_, hp.1 (fun h rest ha => hex ⟨h, rest, ha⟩)⟩
  have fileOf : ∀ names h, resolve [] (cut (textOf b)) = some names →
      Answers (specHistory hist) names h [] →
      ∃ e ∈ hist, e.handle = h ∧ e.isDir = false ∧
        resolve [] (cut (textOf b)) = some (namesOf e.path) := by
    intro names h hn ha
    obtain ⟨e, he, h1, h2, h3⟩ := answers_export hist names h [] ha
    rcases h3 with ⟨h3, _⟩ | ⟨_, h3⟩
    · exact ⟨e, he, h1, h3, by rw [hn, h2]; simp⟩
    · exact absurd rfl h3
  cases c with
  | open_ a flags mode =>
    simp only [serve, Call.path] at *
    rcases gen (openBody v flags mode) with ⟨i, hi⟩ | ⟨names, h, rest, hn, ha, hi⟩
    · exact ⟨_, _, hi, confined_nil _ _ _ _, Or.inl rfl⟩
    · refine ⟨(openBody v flags mode h ⟨false, rest⟩).1, (openBody v flags mode h ⟨false, rest⟩).2,
        hi, ?_⟩
      unfold openBody
      cases rest with
      | nil =>
        have hf := fileOf names h hn ha
        simp only [Path.isEmpty, List.isEmpty_nil, Bool.true_eq_false, if_false]
        constructor
        · exact confined_sys _ _ _ _ _ _ _ (confined_nil _ _ _ _) hf
        · rcases returnFd_handle (sys v.kernel [] (.dup h)).1 with hr | hr
          · exact Or.inl hr
          · exact Or.inr ⟨⟨_, _, _⟩, List.mem_singleton.2 rfl, hr.symm, Or.inr ⟨_, rfl⟩⟩
      | cons n ns =>
        have hp := fun fl m => permitted_open hist b
          (v.region.base.toNat + v.hdr.toNat) v.region.top.toNat names h (n :: ns) hn ha fl m
        simp only [Path.isEmpty, List.isEmpty_cons, if_true]
        simp only [reduceCtorEq, if_false] at hp
        constructor
        · exact (confined_open_then _ _ _ _ v.kernel h _ flags mode hp).1
        · rcases returnFd_handle (openatBeneath v.kernel [] h
            (some (tailText ⟨false, n :: ns⟩)) flags mode).1 with hr | hr
          · exact Or.inl hr
          · exact Or.inr ⟨⟨_, _, _⟩, List.mem_singleton.2 rfl, hr.symm,
              Or.inl ⟨_, _, _, _, _, rfl⟩⟩
  | access a mode =>
    simp only [serve, Call.path] at *
    rcases gen (accessBody v mode) with ⟨i, hi⟩ | ⟨names, h, rest, hn, ha, hi⟩
    · exact ⟨_, _, hi, confined_nil _ _ _ _, Or.inl rfl⟩
    · refine ⟨(accessBody v mode h ⟨false, rest⟩).1, (accessBody v mode h ⟨false, rest⟩).2,
        hi, ?_, Or.inl rfl⟩
      unfold accessBody
      have hp := fun fl m => permitted_open hist b
        (v.region.base.toNat + v.hdr.toNat) v.region.top.toNat names h rest hn ha fl m
      have he : (if (⟨false, rest⟩ : Path).isEmpty then none else some (tailText ⟨false, rest⟩)) =
          (if rest = [] then none else some (tailText ⟨false, rest⟩)) := by
        cases rest <;> simp [Path.isEmpty]
      simp only [he]
      have ho := confined_open_then _ _ _ _ v.kernel h _ oPath 0 hp
      unfold faccessatBeneath
      rcases hr : openatBeneath v.kernel [] h
        (if rest = [] then none else some (tailText ⟨false, rest⟩)) oPath 0 with ⟨⟨p, e⟩, log1⟩
      rw [hr] at ho
      simp only at ho ⊢
      split
      · exact ho.1
      · have hop := ho.2 (by omega)
        have c1 := confined_sys _ _ _ _ v.kernel _
          (.faccessat2 p [] mode (0 ||| atEmptyPath)) ho.1 ⟨rfl, hop⟩
        exact confined_sys _ _ _ _ v.kernel _ (.close p) c1
          (openedHere_sys v.kernel _ _ p hop)
  | stat a sb =>
    simp only [serve, Call.path] at *
    rcases gen (statBody v sb) with ⟨i, hi⟩ | ⟨names, h, rest, hn, ha, hi⟩
    · exact ⟨_, _, hi, confined_nil _ _ _ _, Or.inl rfl⟩
    · refine ⟨(statBody v sb h ⟨false, rest⟩).1, (statBody v sb h ⟨false, rest⟩).2, hi, ?_, ?_⟩
      all_goals unfold statBody
      · split
        · rename_i hc
          rw [contains_iff v.hdr v.region hwf] at hc
          have hsb : v.region.base.toNat + v.hdr.toNat ≤ sb.toNat ∧
              sb.toNat + 144 ≤ v.region.top.toNat := by
            have : statSize.toNat = 144 := rfl
            omega
          cases rest with
          | nil =>
            have hf := fileOf names h hn ha
            simp only [Path.isEmpty, List.isEmpty_nil, if_true]
            exact confined_sys _ _ _ _ _ _ _ (confined_nil _ _ _ _) ⟨hf, hsb⟩
          | cons n ns =>
            have hp := fun fl m => permitted_open hist b
              (v.region.base.toNat + v.hdr.toNat) v.region.top.toNat names h (n :: ns) hn ha fl m
            simp only [Path.isEmpty, List.isEmpty_cons, Bool.false_eq_true, if_false]
            simp only [reduceCtorEq, if_false] at hp
            have ho := confined_open_then _ _ _ _ v.kernel h _ oPath 0 hp
            unfold fstatatBeneath
            rcases hr : openatBeneath v.kernel [] h
              (some (tailText ⟨false, n :: ns⟩)) oPath 0 with ⟨⟨p, e⟩, log1⟩
            rw [hr] at ho
            simp only at ho ⊢
            split
            · exact ho.1
            · have hop := ho.2 (by omega)
              have c1 := confined_sys _ _ _ _ v.kernel _
                (.fstatat p [] sb (0 ||| atEmptyPath)) ho.1 ⟨rfl, hop, hsb⟩
              exact confined_sys _ _ _ _ v.kernel _ (.close p) c1
                (openedHere_sys v.kernel _ _ p hop)
        · exact confined_nil _ _ _ _
      · split
        · exact Or.inl rfl
        · exact Or.inl rfl

/-- Environment used in the examples: `"/lib/x"` at `0x1008`, `/lib` exported as handle 5, a
kernel that answers 9 to every call. -/
def exEnv : Env where
  hdr := 0
  region := ⟨0x1000, 0x2000⟩
  malloc := fun n => some (List.replicate n 0xAA)
  tree := runHistory exHist
  kernel := fun _ _ => (9, 0)
  rd1 := fun a => ((txt "/lib/x")[(a - 0x1008).toNat]?).getD 0
  rd2 := fun a => ((txt "/lib/x")[(a - 0x1008).toNat]?).getD 0

/-- The example environment meets the hypotheses of `serve_confined`. -/
theorem exEnv_path : exEnv.region.WF exEnv.hdr ∧
    getPath exEnv 0x1008 = .ok (some (txt "/lib/x" ++ [0])) := by
  decide +kernel

theorem exHist_short : ShortPaths exHist := by
  intro e he
  simp only [exHist, List.mem_cons, List.not_mem_nil, or_false] at he
  rcases he with rfl | rfl | rfl | rfl <;> decide

example : ∃ res log, serve exEnv (.open_ 0x1008 0 0) = .ok (res, log) ∧
    Confined exHist (textOf (txt "/lib/x" ++ [0])) 0x1000 0x2000 log := by
  obtain ⟨r, l, h1, h2, _⟩ := serve_confined exEnv exEnv_path.1 exHist exHist_short rfl
    (.open_ 0x1008 0 0) _ exEnv_path.2
  exact ⟨r, l, h1, h2⟩

/-- **C14.** The exact effect of an `open` that is answered by an exported directory or file. -/
theorem open_served (v : Env) (hist : List Export) (hs : ShortPaths hist)
    (htree : v.tree = runHistory hist) (a : Word) (flags mode : BitVec 32) (b : Buf)
    (hb : getPath v a = .ok (some b)) (names : Names)
    (hn : resolve [] (cut (textOf b)) = some names) (h : Int) (rest : Names)
    (ha : Answers (specHistory hist) names h rest) :
    let op : HostOp := if rest = [] then .dup h
      else .openat2 h (some (join rest)) (flags.signExtend 64) (mode.setWidth 64) 8
    let r := v.kernel [] op
    handleOpen v a flags mode =
      .ok (if 0 ≤ r.1 then ⟨-38, r.1⟩ else ⟨-r.2, -1⟩, [⟨op, r.1, r.2⟩]) := by
  obtain ⟨e, he, h1, h2, h3⟩ := answers_export hist names h rest ha
  have hsafe := resolve_safe (textOf b) (zero_not_mem_textOf b) names hn
  have hrest : ∀ n ∈ rest, SafeName n := fun n hr => hsafe n (by rw [h2]; simp [hr])
  unfold handleOpen
  rw [((handlePath_eq v hist hs htree a b hb _).2 names hn).2 h rest ha]
  unfold openBody
  cases rest with
  | nil =>
    simp only [Path.isEmpty, List.isEmpty_nil, Bool.true_eq_false, if_false, if_true, returnFd, sys,
      List.nil_append, ge_iff_le]
    split <;> rfl
  | cons n ns =>
    simp only [Path.isEmpty, List.isEmpty_cons, if_true, returnFd, openatBeneath, sys,
      List.nil_append, reduceCtorEq, if_false, tailText_eq _ hrest, ge_iff_le,
      resolveBeneath]
    split <;> rfl

/-- The hypotheses can be met. -/
example : resolve [] (cut (textOf (txt "/lib/x" ++ [0]))) = some [txt "lib", txt "x"] ∧
    Answers (specHistory exHist) [txt "lib", txt "x"] 5 [txt "x"] :=
  ⟨by decide, .dir [txt "lib"] _ 5 (by decide) rfl (by decide)⟩

/-- **C15.** A path that is not a terminated string inside the heap is refused with `-EINVAL`;
one that climbs is refused with `-EINVAL`; one that no export covers is refused with `-ENOENT`;
`stat` into memory that is not wholly inside the heap is refused with `-EINVAL` or `-ENOENT`.
In none of these cases is any system call made. -/
theorem serve_refused (v : Env) (hwf : v.region.WF v.hdr) (hist : List Export)
    (hs : ShortPaths hist) (htree : v.tree = runHistory hist)
    (hm : MallocOk v.malloc) (ht : MallocTotal v.malloc) (c : Call) :
    ((¬ (v.region.base.toNat + v.hdr.toNat ≤ c.path.toNat ∧
        c.path.toNat < v.region.top.toNat) ∨
      ∀ x, c.path.toNat ≤ x → x < v.region.top.toNat → asNat v.rd1 x ≠ 0) →
      serve v c = .ok (⟨-22, -1⟩, [])) ∧
    (∀ b, getPath v c.path = .ok (some b) →
      (resolve [] (cut (textOf b)) = none → serve v c = .ok (⟨-22, -1⟩, [])) ∧
      (∀ names, resolve [] (cut (textOf b)) = some names →
        (∀ h rest, ¬ Answers (specHistory hist) names h rest) →
        serve v c = .ok (⟨-2, -1⟩, [])) ∧
      (∀ a sb names h rest, c = .stat a sb → resolve [] (cut (textOf b)) = some names →
        Answers (specHistory hist) names h rest →
        ¬ (v.region.base.toNat + v.hdr.toNat ≤ sb.toNat ∧
          sb.toNat + 144 ≤ v.region.top.toNat) →
        serve v c = .ok (⟨-22, -1⟩, []))) := by
  refine ⟨?_, ?_⟩
  · intro hbad
    have hnull := (strdupOut_null_iff v.hdr v.region hwf v.malloc hm ht v.rd1 v.rd2 c.path).2 hbad
    have : ∀ handler, handlePath v c.path handler = .ok (⟨-22, -1⟩, []) := by
      intro handler
      unfold handlePath getPath
      rw [hnull]
      rfl
    cases c <;> exact this _
  · intro b hb
    refine ⟨?_, ?_, ?_⟩
    · intro hn
      cases c <;> exact (handlePath_eq v hist hs htree _ b hb _).1 hn
    · intro names hn hall
      cases c <;> exact ((handlePath_eq v hist hs htree _ b hb _).2 names hn).1 hall
    · intro a sb names h rest hc hn ha hsb
      subst hc
      simp only [serve, handleStat]
      rw [((handlePath_eq v hist hs htree a b hb _).2 names hn).2 h rest ha]
      have : contains v.hdr v.region sb statSize = false := by
        rw [Bool.eq_false_iff]
        intro hc
        rw [contains_iff v.hdr v.region hwf] at hc
        have : statSize.toNat = 144 := rfl
        omega
      simp [statBody, this, EINVAL]

/-- Each of the four cases occurs: an address outside, an unterminated string, a climbing path,
a path not exported, a bad `struct stat`. -/
example : MallocOk exEnv.malloc ∧ MallocTotal exEnv.malloc ∧
    resolve [] (cut (txt "/../x")) = none ∧
    (∀ h rest, ¬ Answers (specHistory exHist) [txt "lib"] h rest) := by
  refine ⟨?_, ?_, by decide, ?_⟩
  · intro n b h
    simp only [exEnv, Option.some.injEq] at h
    subst h; simp
  · intro n; simp [exEnv]
  · have hl : specHistory exHist = [⟨[txt "etc"], true, 7⟩, ⟨[txt "lib"], true, 5⟩] := by decide
    intro h rest ha
    rw [hl] at ha
    generalize hp : [txt "lib"] = p at ha
    cases ha with
    | file _ hm => subst hp; simp at hm
    | dir q _ _ hm hq hr =>
      simp only [List.mem_cons, Item.mk.injEq, List.not_mem_nil, or_false] at hm
      subst hp
      rcases hm with ⟨rfl, _, rfl⟩ | ⟨rfl, _, rfl⟩
      · simp [txt] at hq
      · simp at hq; exact hr hq

/-- **C14.** An `openat` request makes exactly one opening call, relative to the descriptor that the
sandbox itself sent (or `-1`), with `RESOLVE_BENEATH`, and closes that descriptor: no descriptor
of the host is involved. -/
theorem openat_own_descriptor (v : Env) (h : Int) (a : Word) (flags mode : BitVec 32) (res : Result)
    (log : Log) (hok : handleOpenat v h a flags mode = .ok (res, log)) :
    (∃ p r e, log.take 1 = [⟨.openat2 h p (flags.signExtend 64) (mode.setWidth 64) 8, r, e⟩]) ∧
      (∀ x ∈ log.drop 1, x.op = .close h) ∧ (0 ≤ h ↔ log.length = 2) := by
  unfold handleOpenat at hok
  split at hok
  · simp only [Outcome.ok.injEq, Prod.mk.injEq, openatBeneath, sys] at hok
    obtain ⟨-, rfl⟩ := hok
    split
    · rename_i hh
      simp only [List.nil_append, List.singleton_append, List.take_succ_cons, List.take_zero,
        List.drop_succ_cons, List.drop_zero, List.mem_singleton, forall_eq, List.length_cons,
        List.length_nil]
      exact ⟨⟨_, _, _, rfl⟩, by trivial, by simpa using hh⟩
    · rename_i hh
      simp only [List.nil_append, List.take_succ_cons, List.take_zero, List.drop_succ_cons,
        List.drop_nil, List.not_mem_nil, false_imp_iff, implies_true, List.length_cons,
        List.length_nil]
      exact ⟨⟨_, _, _, rfl⟩, by trivial, by omega⟩
  · simp at hok
  · simp at hok
  · simp at hok

/-- The hypothesis can be met. -/
example : ∃ res log, handleOpenat exEnv 4 0x1008 0 0 = .ok (res, log) ∧ log.length = 2 :=
  ⟨_, _, rfl, rfl⟩

/-- **C15, finding.** `openat` reports in the parent's numbering: a successful open returns the
parent's descriptor number as an integer and sends no descriptor (the descriptor stays open in
the parent), and a failed one returns `-1` whatever the reason was. -/
theorem openat_result (v : Env) (h : Int) (a : Word) (flags mode : BitVec 32) (p : Option Buf)
    (hp : getPath v a = .ok p) :
    let r := v.kernel [] (.openat2 h (p.map cText) (flags.signExtend 64) (mode.setWidth 64) 8)
    ∃ log, handleOpenat v h a flags mode = .ok (⟨r.1, -1⟩, log) ∧
      ∀ e ∈ log, e.op ≠ .close r.1 ∨ r.1 = h := by
  unfold handleOpenat
  rw [hp]
  refine ⟨_, rfl, ?_⟩
  intro e he
  split at he
  · simp only [sys, List.nil_append, List.singleton_append, List.mem_cons,
      List.not_mem_nil, or_false] at he
    rcases he with rfl | rfl
    · simp
    · simp only [ne_eq, HostOp.close.injEq]
      rcases Int.decEq h (v.kernel [] (.openat2 h (p.map cText) (flags.signExtend 64)
        (mode.setWidth 64) 8)).1 with hne | heq
      · exact Or.inl hne
      · exact Or.inr heq.symm
  · simp only [List.nil_append, List.mem_cons, List.not_mem_nil, or_false] at he
    subst he
    simp

example : ∃ p, getPath exEnv 0x1008 = .ok p := ⟨_, exEnv_path.2⟩

/-- **C15, finding.** Checking access to an exported *file* passes a null path to the kernel, so on
a kernel that answers a null path with `EFAULT` the check always fails. -/
theorem access_file_fails (v : Env) (hist : List Export) (hs : ShortPaths hist)
    (htree : v.tree = runHistory hist) (a : Word) (mode : BitVec 32) (b : Buf)
    (hb : getPath v a = .ok (some b)) (names : Names)
    (hn : resolve [] (cut (textOf b)) = some names) (h : Int)
    (ha : Answers (specHistory hist) names h [])
    (hk : ∀ log fd fl m rs, v.kernel log (.openat2 fd none fl m rs) = (-1, 14)) :
    ∃ log, handleAccess v a mode = .ok (⟨-14, -1⟩, log) := by
  unfold handleAccess
  rw [((handlePath_eq v hist hs htree a b hb _).2 names hn).2 h [] ha]
  simp [accessBody, Path.isEmpty, faccessatBeneath, openatBeneath, sys, hk, returnInt]

/-- The hypotheses can be met: an exported file. -/
example : Answers (specHistory [⟨false, txt "/etc/a", 6⟩]) [txt "etc", txt "a"] 6 [] ∧
    resolve [] (cut (txt "/etc/a")) = some [txt "etc", txt "a"] :=
  ⟨.file _ (by decide), by decide⟩

/-- **C14/C15.** `open`, `access` and `stat` requests end normally for every input: no undefined
behaviour, no abort. -/
theorem serve_total (v : Env) (hm : MallocOk v.malloc) (ht : MallocTotal v.malloc)
    (c : Call) : ∃ r, serve v c = .ok r := by
  have hp : ∀ a handler, ∃ r, handlePath v a handler = .ok r := by
    intro a handler
    unfold handlePath getPath
    rcases strdupOut_safe v.hdr v.region v.malloc hm ht v.rd1 v.rd2 a with h | ⟨b, h, _⟩
    · rw [h]; exact ⟨_, rfl⟩
    · rw [h]
      have hview : ∃ p, ofView (some 0) (cText b) = .ok p :=
        (ofView_ok (some 0) (cText b)).2 (Or.inr ⟨0, rfl, by decide⟩)
      obtain ⟨p, hp⟩ := hview
      simp only [hp]
      split
      · exact ⟨_, rfl⟩
      · split
        · exact ⟨_, rfl⟩
        · exact ⟨_, rfl⟩
  cases c <;> exact hp _ _

end Verif.PathSyscall
