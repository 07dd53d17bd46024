import Verif.Seccomp.Model
import Verif.Seccomp.Spec

/-!
# The system-call filter: theorems
-/

namespace Verif.Seccomp

/-! ### The filter as a function of the four tables -/

/-- Is a number in a table? -/
def has (l : List (String × Nat)) (n : Nat) : Bool := l.any (fun p => p.2 == n)

theorem find_always (l : List (String × Nat)) (act : Action) (c : Call) :
    (l.map (always act)).find? (Rule.hits c) =
      if has l c.nr then some ⟨c.nr, act, .always⟩ else none := by
  induction l with
  | nil => rfl
  | cons p l ih =>
    rw [List.map_cons, List.find?_cons, ih]
    by_cases h : p.2 = c.nr
    · have h1 : (always act p).hits c = true := by simp [Rule.hits, always, Cond.holds, h]
      have h2 : has (p :: l) c.nr = true := by simp [has, h]
      rw [h1, h2]
      simp [always, h]
    · have h1 : (always act p).hits c = false := by simp [Rule.hits, always, h]
      have h2 : has (p :: l) c.nr = has l c.nr := by simp [has, h]
      rw [h1, h2]

theorem find_self (l : List (String × Nat)) (self : Word) (c : Call) :
    ((l.flatMap (allowOnSelf self)).find? (Rule.hits c)).map Rule.act =
      if has l c.nr && (c.arg0 == self || c.arg0 == 0) then some .allow else none := by
  induction l with
  | nil => rfl
  | cons p l ih =>
    rw [List.flatMap_cons]
    simp only [allowOnSelf, List.cons_append, List.nil_append, List.find?_cons]
    have e1 : Rule.hits c ⟨p.2, .allow, .eq self⟩ = (p.2 == c.nr && c.arg0 == self) := rfl
    have e2 : Rule.hits c ⟨p.2, .allow, .eq 0⟩ = (p.2 == c.nr && c.arg0 == 0) := rfl
    rw [e1, e2]
    have h2 : has (p :: l) c.nr = (p.2 == c.nr || has l c.nr) := by simp [has]
    rw [h2]
    cases h : (p.2 == c.nr)
    · exact ih
    · cases h3 : (c.arg0 == self)
      · cases h4 : (c.arg0 == 0)
        · simp only [Bool.and_false, Bool.or_self, Bool.and_false, h3, h4] at ih ⊢
          exact ih
        · rfl
      · rfl

/-- The filter in terms of the four tables. -/
theorem policy_eq (dbg : Bool) (self : Word) (c : Call) : policy dbg self c =
    if c.native then
      if has allowed c.nr then .allow
      else if has onSelf c.nr && (c.arg0 == self || c.arg0 == 0) then .allow
      else if c.nr == 56 && (c.arg0 &&& cloneThread == cloneThread) then .allow
      else if has trapped c.nr then .trap
      else dflt dbg
    else .kill := by
  unfold policy filter
  by_cases hn : c.native
  · simp only [hn, if_true]
    rw [rules, List.find?_append, List.find?_append, List.find?_append, find_always, find_always]
    have h2 := find_self onSelf self c
    have e3 : Rule.hits c ⟨56, .allow, .masked cloneThread cloneThread⟩ =
        (c.nr == 56 && (c.arg0 &&& cloneThread == cloneThread)) := by
      rw [Rule.hits, Cond.holds]
      congr 1
      exact BEq.comm
    rw [List.find?_cons, List.find?_nil, e3]
    cases has allowed c.nr
    · simp only [Bool.false_eq_true, if_false, Option.none_or]
      cases h : (has onSelf c.nr && (c.arg0 == self || c.arg0 == 0))
      · rw [h] at h2
        simp only [Bool.false_eq_true, if_false, Option.map_eq_none_iff] at h2
        rw [h2]
        simp only [Bool.false_eq_true, if_false, Option.none_or]
        cases (c.nr == 56 && (c.arg0 &&& cloneThread == cloneThread))
        · cases has trapped c.nr <;> rfl
        · rfl
      · rw [h] at h2
        rcases hf : (onSelf.flatMap (allowOnSelf self)).find? (Rule.hits c) with _ | r
        · rw [hf] at h2; simp at h2
        · rw [hf] at h2
          simp only [Option.map_some, if_true, Option.some.injEq] at h2
          simp [h2]
    · rfl
  · simp [hn]

/-! ## C41 -/

/-- The tables of the policy use the right numbers: every pair is in the numbering of the architecture, whose
numbers are strictly increasing. -/
theorem numbers_right :
    (allowed ++ onSelf ++ denied ++ trapped).all (fun p => numbering.contains p) = true ∧
      (pathCalls ++ addressCalls ++ pidCalls ++ emulated ++ creators).all
        (fun p => numbering.contains p) = true ∧
      (numbering.zip numbering.tail).all (fun (a, b) => decide (a.2 < b.2)) = true := by
  refine ⟨?_, ?_, ?_⟩
  · decide +kernel
  · decide +kernel
  · decide +kernel

/-- No number has rules with different actions, so libseccomp's arrangement of the rules cannot matter. -/
theorem rules_agree (self : Word) (r s : Rule) (hr : r ∈ rules self) (hs : s ∈ rules self)
    (h : r.nr = s.nr) : r.act = s.act := by
  have hd : (allowed ++ onSelf).all (fun p => !has trapped p.2 && p.2 != 56) = true ∧
      trapped.all (fun p => p.2 != 56) = true := by
    constructor <;> decide +kernel
  have ht : ∀ s n, (s, n) ∈ trapped → has trapped n = true := by
    intro s n h
    exact List.any_eq_true.2 ⟨(s, n), h, by simp⟩
  have key : ∀ r ∈ rules self,
      (r.act = .trap ∧ has trapped r.nr = true ∧ r.nr ≠ 56) ∨
      (r.act = .allow ∧ (has trapped r.nr = false ∨ r.nr = 56)) := by
    intro r hr
    simp only [rules, List.mem_append, List.mem_map, List.mem_flatMap, List.mem_cons, List.not_mem_nil,
      or_false] at hr
    rcases hr with ((⟨⟨s, n⟩, hm, rfl⟩ | ⟨⟨s, n⟩, hm, h⟩) | rfl) | ⟨⟨s, n⟩, hm, rfl⟩
    · have := List.all_eq_true.1 hd.1 (s, n) (List.mem_append.2 (.inl hm))
      simp at this
      exact .inr ⟨rfl, .inl this.1⟩
    · have := List.all_eq_true.1 hd.1 (s, n) (List.mem_append.2 (.inr hm))
      simp at this
      simp only [allowOnSelf, List.mem_cons, List.not_mem_nil, or_false] at h
      rcases h with rfl | rfl <;> exact .inr ⟨rfl, .inl this.1⟩
    · exact .inr ⟨rfl, .inr rfl⟩
    · have := List.all_eq_true.1 hd.2 (s, n) hm
      simp at this
      exact .inl ⟨rfl, ht _ _ hm, this⟩
  have h56 : has trapped 56 = false := by decide +kernel
  rcases key r hr with ⟨a, b, c⟩ | ⟨a, b⟩ <;> rcases key s hs with ⟨a', b', c'⟩ | ⟨a', b'⟩
  · rw [a, a']
  · rw [h] at b c
    rcases b' with b' | b'
    · rw [b] at b'; exact absurd b' (by simp)
    · exact absurd b' c
  · rw [← h] at b' c'
    rcases b with b | b
    · rw [b'] at b; exact absurd b (by simp)
    · exact absurd b c'
  · rw [a, a']

/-- **C41, default deny.**  A call that is in none of the tables kills the process, for every number and
argument; and so does every call through a foreign entry point. -/
theorem default_deny {self : Word} {c : Call}
    (h : c.native = false ∨ ∀ p ∈ allowed ++ onSelf ++ trapped ++ [("clone", 56)], p.2 ≠ c.nr) :
    policy false self c = .kill := by
  rw [policy_eq]
  by_cases hn : c.native
  · rcases h with h | h
    · rw [hn] at h; exact absurd h (by simp)
    have hh : ∀ l, (∀ p ∈ l, p.2 ≠ c.nr) → has l c.nr = false := by
      intro l hl
      simp only [has, List.any_eq_false, beq_iff_eq]
      exact hl
    have h1 := hh allowed (fun p hp => h p (by simp [hp]))
    have h2 := hh onSelf (fun p hp => h p (by simp [hp]))
    have h3 := hh trapped (fun p hp => h p (by simp [hp]))
    have h4 : c.nr ≠ 56 := fun e => h ("clone", 56) (by simp) e.symm
    simp [hn, h1, h2, h3, h4, dflt]
  · simp [hn]

example : policy false 77 ⟨true, 437, 5⟩ = .kill :=
  default_deny (.inr (by decide +kernel))

/-- Every call the source says is denied is killed, whatever its argument. -/
theorem denied_killed (self : Word) (p : String × Nat) (hp : p ∈ denied) (native : Bool) (a : Word) :
    policy false self ⟨native, p.2, a⟩ = .kill := by
  have h : denied.all (fun p => !has allowed p.2 && !has onSelf p.2 && p.2 != 56 && !has trapped p.2) =
      true := by decide +kernel
  have := List.all_eq_true.1 h p hp
  simp at this
  rw [policy_eq]
  by_cases hn : native <;> simp [hn, this, dflt]

/-- The source's classification is complete up to its own time: every call of x86-64 numbered below 436 has
been classified, except two that are killed. -/
theorem classified : numbering.filter (fun p => decide (p.2 < 436) && !(has allowed p.2 || has onSelf p.2 ||
    has denied p.2 || has trapped p.2 || p.2 == 56)) = [("kcmp", 312), ("finit_module", 313)] := by
  decide +kernel

/-- **C41, emulated calls trap**, whatever their arguments. -/
theorem emulated_trapped (dbg : Bool) (self : Word) (p : String × Nat) (hp : p ∈ emulated) (a : Word) :
    policy dbg self ⟨true, p.2, a⟩ = .trap := by
  have h : emulated.all (fun p => !has allowed p.2 && !has onSelf p.2 && p.2 != 56 && has trapped p.2) =
      true := by decide +kernel
  have := List.all_eq_true.1 h p hp
  simp at this
  rw [policy_eq]
  simp [this]

/-- **C41, processes.**  Calls of `onSelf` are allowed on the process itself and kill it otherwise. -/
theorem self_only (self : Word) (p : String × Nat) (hp : p ∈ onSelf) (a : Word) :
    (policy false self ⟨true, p.2, a⟩ = .allow ↔ a = self ∨ a = 0) ∧
      (¬(a = self ∨ a = 0) → policy false self ⟨true, p.2, a⟩ = .kill) := by
  have h : onSelf.all (fun p => !has allowed p.2 && has onSelf p.2 && p.2 != 56 && !has trapped p.2) =
      true := by decide +kernel
  have := List.all_eq_true.1 h p hp
  simp at this
  rw [policy_eq]
  by_cases h1 : a = self <;> by_cases h2 : a = 0 <;> simp [this, h1, h2, dflt]

/-- The calls directed at a process that the filter lets through to any process. -/
def anyProcess : List (String × Nat) :=
  [("rt_sigqueueinfo", 129), ("rt_tgsigqueueinfo", 297), ("setpgid", 109), ("sched_setparam", 142),
   ("sched_setscheduler", 144), ("sched_setaffinity", 203), ("sched_setattr", 314)]

/-- **C41, processes (partial).**  Every call that acts on a process given by number, other than the seven
of `anyProcess`, is executed only if the number designates the calling process. -/
theorem pid_calls_self_partial (self : Word) (p : String × Nat) (hp : p ∈ pidCalls) (hx : p ∉ anyProcess)
    (a : Word) (h : policy false self ⟨true, p.2, a⟩ = .allow) : designatesSelf self a := by
  have hd : pidCalls.all (fun p => anyProcess.contains p ||
      (!has allowed p.2 && p.2 != 56)) = true := by decide +kernel
  have := List.all_eq_true.1 hd p hp
  simp only [Bool.or_eq_true, List.contains_iff_mem] at this
  rcases this with hc | hc
  · exact absurd hc hx
  · simp at hc
    rw [policy_eq] at h
    by_cases h1 : a = self
    · left; rw [h1]
    · by_cases h2 : a = 0
      · right; rw [h2]; rfl
      · by_cases ht : has trapped p.2
        · simp [hc, h1, ht] at h
          exact absurd h.2 h2
        · simp [hc, h1, ht, dflt] at h
          exact absurd h.2 h2

/-- Seven of them are let through for the process itself, the other three are not executed at all. -/
example : (pidCalls.filter (fun p => has onSelf p.2)).length = 7 ∧
    (pidCalls.filter (fun p => !has onSelf p.2 && !anyProcess.contains p)) =
      [("kill", 62), ("tkill", 200), ("kcmp", 312)] := by decide +kernel

/-- **C41 fails**: the sandbox may send a signal to any process, its host included, by `rt_sigqueueinfo`
(which `kill` and `tkill` are kept from doing). -/
theorem may_signal_anyone (dbg : Bool) (self : Word) (p : String × Nat) (hp : p ∈ anyProcess) (a : Word) :
    policy dbg self ⟨true, p.2, a⟩ = .allow := by
  have h : anyProcess.all (fun p => has allowed p.2) = true := by decide +kernel
  have := List.all_eq_true.1 h p hp
  rw [policy_eq]
  simp [this]

/-- **C41, no new processes.**  Of the calls that create processes or threads only `clone` is ever executed, and
only with `CLONE_THREAD`, which makes a thread of the calling process. -/
theorem no_new_process (self : Word) (p : String × Nat) (hp : p ∈ creators) (native : Bool) (a : Word)
    (h : policy false self ⟨native, p.2, a⟩ ≠ .kill) : p = ("clone", 56) ∧ a.getLsbD 16 = true := by
  have hd : creators.all (fun p => !has allowed p.2 && !has onSelf p.2 && !has trapped p.2) = true := by
    decide +kernel
  have := List.all_eq_true.1 hd p hp
  simp at this
  rw [policy_eq] at h
  by_cases hn : native
  · by_cases h56 : p.2 = 56
    · simp only [creators, List.mem_cons, List.not_mem_nil, or_false] at hp
      have hp' : p = ("clone", 56) := by
        rcases hp with rfl | rfl | rfl | rfl <;> simp at h56 ⊢
      refine ⟨hp', ?_⟩
      by_cases hm : a &&& cloneThread = cloneThread
      · have := congrArg (fun x => BitVec.getLsbD x 16) hm
        simp only [BitVec.getLsbD_and] at this
        have hc : cloneThread.getLsbD 16 = true := by decide
        rw [hc] at this
        simpa using this
      · simp [hn, this, hm, dflt] at h
    · simp [hn, this, h56, dflt] at h
  · simp [hn] at h

/-- Threads can be made: the flags glibc passes. -/
theorem threads_allowed : policy false 77 ⟨true, 56, 0x3d0f00⟩ = .allow := by
  rw [policy_eq]
  have h1 : has allowed 56 = false := by decide +kernel
  have h2 : has onSelf 56 = false := by decide +kernel
  simp [h1, h2, cloneThread]

/-- **C41, paths (partial).**  Every call that takes a path, other than `execve`, `execveat` and `utimensat`,
is trapped or kills the process. -/
theorem paths_mediated_partial (self : Word) (p : String × Nat) (hp : p ∈ pathCalls)
    (hx : p ∉ [("execve", 59), ("utimensat", 280), ("execveat", 322)]) (native : Bool) (a : Word) :
    policy false self ⟨native, p.2, a⟩ = .trap ∨ policy false self ⟨native, p.2, a⟩ = .kill := by
  have hd : pathCalls.all (fun p => [("execve", 59), ("utimensat", 280), ("execveat", 322)].contains p ||
      (!has allowed p.2 && !has onSelf p.2 && p.2 != 56)) = true := by decide +kernel
  have := List.all_eq_true.1 hd p hp
  simp only [Bool.or_eq_true, List.contains_iff_mem] at this
  rcases this with hc | hc
  · exact absurd hc hx
  · simp at hc
    rw [policy_eq]
    by_cases hn : native
    · by_cases ht : has trapped p.2 <;> simp [hn, hc, ht, dflt]
    · simp [hn]

/-- **C41 fails**: exactly these calls that take a path are executed by the kernel, with any argument. -/
theorem paths_allowed (self : Word) (a : Word) :
    pathCalls.filter (fun p => policy false self ⟨true, p.2, a⟩ == .allow) =
      [("execve", 59), ("utimensat", 280), ("execveat", 322)] := by
  have hd : pathCalls.all (fun p => !has onSelf p.2 && p.2 != 56) = true := by decide +kernel
  have he : ∀ p ∈ pathCalls, (policy false self ⟨true, p.2, a⟩ == .allow) = has allowed p.2 := by
    intro p hp
    have := List.all_eq_true.1 hd p hp
    simp at this
    rw [policy_eq]
    by_cases h1 : has allowed p.2
    · simp [h1]
    · by_cases ht : has trapped p.2 <;> simp [this, h1, ht, dflt]
  rw [List.filter_congr he]
  decide +kernel

/-- **C41 fails** for addresses: of the calls that take a socket address the two that are mediated trap, but
datagrams may be sent to any address. -/
theorem addresses_allowed (self : Word) (a : Word) :
    addressCalls.filter (fun p => policy false self ⟨true, p.2, a⟩ == .allow) =
      [("sendto", 44), ("sendmsg", 46), ("sendmmsg", 307)] := by
  have hd : addressCalls.all (fun p => !has onSelf p.2 && p.2 != 56) = true := by decide +kernel
  have he : ∀ p ∈ addressCalls, (policy false self ⟨true, p.2, a⟩ == .allow) = has allowed p.2 := by
    intro p hp
    have := List.all_eq_true.1 hd p hp
    simp at this
    rw [policy_eq]
    by_cases h1 : has allowed p.2
    · simp [h1]
    · by_cases ht : has trapped p.2 <;> simp [this, h1, ht, dflt]
  rw [List.filter_congr he]
  decide +kernel

/-- **C41 fails** altogether for `io_uring`, by which a process has the kernel open, rename or connect without
a system call that the filter sees: its three calls are allowed. -/
theorem uring_allowed (dbg : Bool) (self a : Word) :
    ∀ p ∈ [("io_uring_setup", 425), ("io_uring_enter", 426), ("io_uring_register", 427)],
      policy dbg self ⟨true, p.2, a⟩ = .allow := by
  have h : [("io_uring_setup", 425), ("io_uring_enter", 426), ("io_uring_register", 427)].all
      (fun p : String × Nat => has allowed p.2) = true := by decide +kernel
  intro p hp
  have := List.all_eq_true.1 h p hp
  rw [policy_eq]
  simp [this]

/-- With `DEBUG_SANDBOX` nothing that comes through the native entry point is ever killed: what is not
trapped is executed. -/
theorem debug_sandbox_permits (self : Word) (c : Call) (h : c.native = true) :
    policy true self c = .allow ∨ policy true self c = .trap ∨ policy true self c = .log := by
  rw [policy_eq]
  simp only [h, if_true, dflt]
  repeat' split
  all_goals simp

/-- What `DEBUG_SANDBOX` changes, exactly: a call through the native entry point that would be killed is logged and executed, and
every other call has the same fate. -/
theorem debug_sandbox_exact (self : Word) (c : Call) :
    policy true self c = if c.native = true ∧ policy false self c = .kill then .log else policy false self c := by
  rw [policy_eq, policy_eq]
  by_cases h : c.native = true
  · simp only [h, if_true, dflt, true_and]
    repeat' split
    all_goals simp_all
  · simp [h]

/-- `ptrace`. -/
example (self a : Word) : policy true self ⟨true, 101, a⟩ = .log ∧ policy false self ⟨true, 101, a⟩ = .kill := by
  have h : policy false self ⟨true, 101, a⟩ = .kill := by
    rw [policy_eq]
    have : has allowed 101 = false ∧ has onSelf 101 = false ∧ has trapped 101 = false := by decide +kernel
    simp [this, dflt]
  exact ⟨by rw [debug_sandbox_exact, h]; simp, h⟩

/-! ## C51: the filter is active before untrusted code runs -/

theorem keep_all (add : Nat → Bool) : ∀ (rs : List Rule) (i : Nat),
    (∀ j, i ≤ j → j < i + rs.length → add j = true) → keep add rs i = rs := by
  intro rs
  induction rs with
  | nil => intros; rfl
  | cons r rs ih =>
    intro i h
    rw [keep, if_pos (h i (by omega) (by simp)), ih (i + 1) (by
      intro j h1 h2
      exact h j (by omega) (by simp; omega))]

/-- Exactly the rules whose addition failed are missing, by their positions. -/
theorem rules_kept (add : Nat → Bool) (rs : List Rule) :
    keep add rs 0 = (rs.zipIdx.filter (fun x => add x.2)).map (·.1) := by
  have h : ∀ (rs : List Rule) (i : Nat), keep add rs i = ((rs.zipIdx i).filter (fun x => add x.2)).map (·.1) := by
    intro rs
    induction rs with
    | nil => intro i; rfl
    | cons r rs ih =>
      intro i
      rw [keep, List.zipIdx_cons, List.filter_cons, ih]
      by_cases ha : add i <;> simp [ha]
  exact h rs 0

theorem allAdded_iff (add : Nat → Bool) (n : Nat) : allAdded add n = true ↔ ∀ j, j < n → add j = true := by
  induction n with
  | zero => simp [allAdded]
  | succ n ih =>
    simp only [allAdded, Bool.and_eq_true, ih]
    constructor
    · intro ⟨h1, h2⟩ j hj
      by_cases e : j = n
      · rw [e]; exact h2
      · exact h1 j (by omega)
    · exact fun h => ⟨fun j hj => h j (by omega), h n (by omega)⟩

/-- **C51 (partial).**  In a debug build the function returns only with the whole policy active; in a release
build it does so if libseccomp reports no failure. -/
theorem installed_partial {ndebug : Bool} {a : Answers} {self : Word}
    (h : ndebug = true → a.init = true ∧ a.load = true ∧ ∀ j, a.add j = true) :
    install ndebug a self = .stopped ∨ install ndebug a self = .active (rules self) := by
  unfold install
  cases ndebug with
  | true =>
    obtain ⟨h1, h2, h3⟩ := h rfl
    right
    simp only [Bool.true_eq_false, false_and, if_false, h1, h2, and_self, if_true]
    rw [keep_all _ _ _ (fun j _ _ => h3 j)]
  | false =>
    by_cases hs : a.init = false ∨ allAdded a.add (rules self).length = false ∨ a.load = false
    · left; rw [if_pos ⟨rfl, hs⟩]
    · right
      rw [if_neg (by simp [hs])]
      simp only [not_or, Bool.not_eq_false] at hs
      rw [if_pos ⟨hs.1, hs.2.2⟩, keep_all]
      intro j _ hj
      exact (allAdded_iff _ _).1 hs.2.1 j (by omega)

example : install true ⟨true, fun _ => true, true⟩ 77 = .active (rules 77) := by
  rcases installed_partial (ndebug := true) (a := ⟨true, fun _ => true, true⟩) (self := 77)
    (fun _ => ⟨rfl, rfl, fun _ => rfl⟩) with h | h
  · simp [install] at h
  · exact h

/-- **C51 fails** in a release build: if the kernel refuses the filter the function returns all the same, and
the library is loaded and run without any filter. -/
theorem load_failure_unprotected (add : Nat → Bool) (self : Word) :
    install true ⟨true, add, false⟩ self = .unprotected := rfl

theorem keep_length (add : Nat → Bool) : ∀ (rs : List Rule) (i : Nat), (keep add rs i).length ≤ rs.length ∧
    ((keep add rs i).length = rs.length → ∀ j, j < rs.length → add (i + j) = true) := by
  intro rs
  induction rs with
  | nil => intro i; exact ⟨Nat.le_refl _, fun _ j hj => absurd hj (Nat.not_lt_zero _)⟩
  | cons r rs ih =>
    intro i
    have := ih (i + 1)
    simp only [keep]
    split
    · rename_i ha
      refine ⟨Nat.succ_le_succ this.1, fun h j hj => ?_⟩
      simp only [List.length_cons, Nat.add_right_cancel_iff] at h hj
      cases j with
      | zero => exact ha
      | succ j => have := this.2 h j (by omega); rwa [show i + (j + 1) = i + 1 + j by omega]
    · refine ⟨Nat.le_succ_of_le this.1, fun h => ?_⟩
      simp only [List.length_cons] at h
      omega

/-- **C51, exactly.**  The function returns without any filter exactly in a release build in which libseccomp could not begin or
the kernel refused the filter; it returns with the whole policy active exactly if everything succeeded; it stops exactly in a debug
build in which something failed; what remains is a release build in which a rule is missing. -/
theorem install_iff (ndebug : Bool) (a : Answers) (self : Word) :
    (install ndebug a self = .unprotected ↔ ndebug = true ∧ (a.init = false ∨ a.load = false)) ∧
    (install ndebug a self = .active (rules self) ↔
      a.init = true ∧ a.load = true ∧ ∀ j, j < (rules self).length → a.add j = true) ∧
    (install ndebug a self = .stopped ↔ ndebug = false ∧
      ¬ (a.init = true ∧ a.load = true ∧ ∀ j, j < (rules self).length → a.add j = true)) := by
  have hk : keep a.add (rules self) 0 = rules self ↔ ∀ j, j < (rules self).length → a.add j = true := by
    constructor
    · intro h j hj
      have := (keep_length a.add (rules self) 0).2 (by rw [h]) j hj
      rwa [Nat.zero_add] at this
    · intro h
      exact keep_all _ _ _ fun j _ hj => h j (by omega)
  rw [← hk]
  have hall : allAdded a.add (rules self).length = true ↔ keep a.add (rules self) 0 = rules self := by
    rw [hk, allAdded_iff]
  have hall' : allAdded a.add (rules self).length = false ↔ keep a.add (rules self) 0 ≠ rules self := by
    rw [Ne, ← hall, Bool.not_eq_true]
  clear hk
  simp only [install, hall']
  cases ndebug <;> cases a.init <;> cases a.load <;>
    by_cases hr : keep a.add (rules self) 0 = rules self <;> simp [hr]

/-- In a release build in which the first rule could not be added the filter is there, and is not the whole policy. -/
example : install true ⟨true, fun j => j != 0, true⟩ 77 ≠ .active (rules 77) ∧
    install true ⟨true, fun j => j != 0, true⟩ 77 ≠ .unprotected ∧
    install false ⟨true, fun j => j != 0, true⟩ 77 = .stopped := by
  have h0 : ¬ ∀ j, j < (rules 77).length → (j != 0) = true := fun h => absurd (h 0 (by decide +kernel)) (by decide)
  refine ⟨fun h => h0 ((install_iff _ _ _).2.1.1 h).2.2, fun h => ?_, (install_iff _ _ _).2.2.2 ⟨rfl, fun h => h0 h.2.2⟩⟩
  rcases ((install_iff _ _ _).1.1 h).2 with h | h <;> exact absurd h (by decide)

/-- A rule that could not be added makes the filter stricter, never more permissive. -/
theorem missing_rule_stricter (add : Nat → Bool) (self : Word) (c : Call) :
    filter .kill (keep add (rules self) 0) c = .kill ∨
      filter .kill (keep add (rules self) 0) c = policy false self c := by
  have hsub : ∀ (rs : List Rule) (i : Nat), ∀ r ∈ keep add rs i, r ∈ rs := by
    intro rs
    induction rs with
    | nil => intro i r h; exact h
    | cons q rs ih =>
      intro i r h
      rw [keep] at h
      split at h
      · rcases List.mem_cons.1 h with rfl | h
        · exact List.mem_cons_self
        · exact List.mem_cons_of_mem _ (ih _ _ h)
      · exact List.mem_cons_of_mem _ (ih _ _ h)
  unfold policy filter
  by_cases hn : c.native
  · simp only [hn, if_true]
    rcases h1 : (keep add (rules self) 0).find? (Rule.hits c) with _ | r
    · left; rfl
    · right
      have hr := List.mem_of_find?_eq_some h1
      have hp := List.find?_some h1
      have hr' := hsub _ _ r hr
      rcases h2 : (rules self).find? (Rule.hits c) with _ | s
      · rw [List.find?_eq_none] at h2
        exact absurd hp (h2 r hr')
      · have hs := List.mem_of_find?_eq_some h2
        have hps := List.find?_some h2
        simp only [Rule.hits, Bool.and_eq_true, beq_iff_eq] at hp hps
        exact rules_agree self r s hr' hs (by rw [hp.1, hps.1])
  · left; simp [hn]

end Verif.Seccomp
