import Verif.Main.Model
import Verif.Start.Props
import Verif.Seccomp.Props
import Verif.Syscall.Props

/-!
# The main function of the library runner: properties C58 and C59
-/

namespace Verif.Main

open Verif.Fd

/-! ### Specification -/

/-- The descriptors that code of the library may find open: the standard streams, the callback socket, the
library and the socket for memory requests. -/
def permitted (std : Nat → Option Obj) (cb lib rpc : Obj) : Nat → Option Obj
  | 0 => std 0
  | 1 => std 1
  | 2 => std 2
  | 5 => some cb
  | 6 => some lib
  | 7 => some rpc
  | _ => none

/-! ### C58 -/

/-- At every moment at which code of the library begins to run. -/
theorem at_point {ndebug : Bool} {self : Word} {a : Answers} {p q : Proc} {x : Point}
    (h : (x, q) ∈ (main ndebug self a p).1) :
    q.filter = Seccomp.install ndebug a.seccomp self ∧ q.filter ≠ .stopped ∧ q.handler = true ∧
    q.table = close (close p.table 3) 4 ∧ q.cb = 5 := by
  unfold main at h
  split at h
  · simp at h
  · rename_i f hf
    dsimp only at h
    have hne : Seccomp.install ndebug a.seccomp self ≠ .stopped := by
      intro hc; exact hf hc
    split at h
    · simp only [List.mem_singleton, Prod.mk.injEq] at h
      obtain ⟨-, rfl⟩ := h
      exact ⟨rfl, hne, rfl, rfl, rfl⟩
    · split at h
      · simp only [List.mem_singleton, Prod.mk.injEq] at h
        obtain ⟨-, rfl⟩ := h
        exact ⟨rfl, hne, rfl, rfl, rfl⟩
      · split at h
        · simp only [List.mem_cons, Prod.mk.injEq, List.not_mem_nil, or_false] at h
          rcases h with ⟨-, rfl⟩ | ⟨-, rfl⟩ <;> exact ⟨rfl, hne, rfl, rfl, rfl⟩
        · simp only [List.mem_cons, Prod.mk.injEq, List.not_mem_nil, or_false] at h
          rcases h with ⟨-, rfl⟩ | ⟨-, rfl⟩ | ⟨-, rfl⟩ <;> exact ⟨rfl, hne, rfl, rfl, rfl⟩

/-- **C58 (partial).**  A child started by a host whose standard streams are open: at every moment at which code of the
library begins to run, the handler is installed, the whole filter is in force if libseccomp reported no failure, and the
open descriptors are exactly the permitted ones; in particular the shared memory and the page map cannot be mapped
again.  What is missing: a host with a closed standard stream, see `library_finds_pagemap`; and a failure of libseccomp in
a release build, see `Verif.Seccomp.load_failure_unprotected`. -/
theorem library_confined_partial {fuel : Nat} {e : Start.Env} {t : Table} {hd : Start.Handles} {shm pm cb rpc lib : Obj}
    (hr : Start.Room e.lim t) (hh : Start.Refer t hd shm pm cb rpc) (hlib : e.lib = some lib) (hf : 10 ≤ fuel)
    (hstd : ∀ i, i < 3 → t i ≠ none) {ndebug : Bool} {self : Word} {a : Answers}
    (hsec : ndebug = true → a.seccomp.init = true ∧ a.seccomp.load = true ∧ ∀ j, a.seccomp.add j = true) :
    ∃ t' hs, Start.startChild fuel e t hd = (.exec t', hs) ∧
      ∀ (p : Proc), p.table = t' → ∀ x q, (x, q) ∈ (main ndebug self a p).1 →
        q.filter = .active (Seccomp.rules self) ∧ q.handler = true ∧ q.cb = 5 ∧
        ∀ i, q.table i = permitted t cb lib rpc i := by
  obtain ⟨t', hs, h1, h2⟩ := Start.child_descriptors_partial hr hh hlib hf hstd
  refine ⟨t', hs, h1, fun p hp x q hq => ?_⟩
  obtain ⟨g1, g2, g3, g4, g5⟩ := at_point hq
  refine ⟨?_, g3, g5, fun i => ?_⟩
  · rcases Seccomp.installed_partial (self := self) hsec with h | h
    · exact absurd (g1.trans h) g2
    · exact g1.trans h
  · rw [g4, hp]
    rcases i with _ | _ | _ | _ | _ | _ | _ | _ | i <;> simp [close, Table.put, permitted, h2, Start.wanted]

/-- **C58, any host, exactly.**  Whatever is open in the host: when code of the library begins to run the handler is installed and the
open descriptors are the permitted ones, except that a standard stream that is closed in the host is a copy of the first of the
shared memory, the page map, the two sockets and the library that has a number below 8 in the host. -/
theorem library_descriptors_exact {fuel : Nat} {e : Start.Env} {t : Table} {hd : Start.Handles} {shm pm cb rpc lib : Obj}
    (hr : Start.Room e.lim t) (hh : Start.Refer t hd shm pm cb rpc) (hlib : e.lib = some lib) (hf : 10 ≤ fuel)
    (ndebug : Bool) (self : Word) (a : Answers) :
    ∃ t' hs, Start.startChild fuel e t hd = (.exec t', hs) ∧
      ∀ (p : Proc), p.table = t' → ∀ x q, (x, q) ∈ (main ndebug self a p).1 →
        q.handler = true ∧ q.cb = 5 ∧
        ∀ i, q.table i = permitted (fun j => (t j).or (some (Start.stray hd shm pm cb rpc lib))) cb lib rpc i := by
  obtain ⟨t', hs, h1, h2⟩ := Start.child_descriptors_exact hr hh hlib hf
  refine ⟨t', hs, h1, fun p hp x q hq => ?_⟩
  obtain ⟨g1, g2, g3, g4, g5⟩ := at_point hq
  refine ⟨g3, g5, fun i => ?_⟩
  rw [g4, hp]
  rcases i with _ | _ | _ | _ | _ | _ | _ | _ | i <;> simp [close, Table.put, permitted, h2, Start.wanted]

/-- **C58 fails when a standard stream is closed.**  A host without standard input starts a child whose library finds the
page map, open for writing, as its descriptor 0. -/
theorem library_finds_pagemap :
    Start.Room Start.exE.lim Start.exT0 ∧
      Start.Refer Start.exT0 ⟨8, 3, 5, 6⟩ ⟨18, true⟩ ⟨13, true⟩ ⟨16, true⟩ ⟨15, true⟩ ∧
      ∃ t' hs, Start.startChild 10 Start.exE Start.exT0 ⟨8, 3, 5, 6⟩ = (.exec t', hs) ∧
        ∀ (ndebug : Bool) (self : Word) (a : Answers) (p : Proc), p.table = t' →
          ∀ x q, (x, q) ∈ (main ndebug self a p).1 → q.table 0 = some ⟨13, true⟩ := by
  obtain ⟨-, h1, h2, t', hs, h3, h4⟩ := Start.child_stray_descriptor
  refine ⟨h1, h2, t', hs, h3, fun ndebug self a p hp x q hq => ?_⟩
  rw [(at_point hq).2.2.2.1, hp]
  simp [close, Table.put, h4]

/-- **C58, the order.**  Calls are only run, and the library is only reported as loaded, after the library was opened, its
initialisation run and its call function found; otherwise the child ends, in one of two ways, without
having reported it. -/
theorem calls_after_init {ndebug : Bool} {self : Word} {a : Answers} {p : Proc}
    (hs : Seccomp.install ndebug a.seccomp self ≠ .stopped) :
    ((a.dlopen = true ∧ a.init = true ∧ a.call = true) ∧ (main ndebug self a p).2 = .runloop ∧
      (main ndebug self a p).1.map (·.1) = [.load, .init, .calls] ∧
      ∀ q, (Point.calls, q) ∈ (main ndebug self a p).1 → q.invoke = true ∧ q.loaded = true ∧ q.executing = false) ∨
    (¬ (a.dlopen = true ∧ a.init = true ∧ a.call = true) ∧
      ((main ndebug self a p).2 = .ret1 ∨ (main ndebug self a p).2 = .abort) ∧
      ∀ x q, (x, q) ∈ (main ndebug self a p).1 → x ≠ .calls ∧ q.loaded = p.loaded) := by
  unfold main
  split
  · rename_i h; exact absurd h hs
  · dsimp only
    cases a.dlopen with
    | false => right; simp
    | true =>
      cases a.init with
      | false => right; simp
      | true =>
        cases a.call with
        | false => right; simp; rintro x q (⟨rfl, rfl⟩ | ⟨rfl, rfl⟩) <;> simp
        | true => left; simp

/-- A child of a host with open streams: its library runs with the permitted descriptors. -/
example : ∃ t' hs, Start.startChild 10 Start.exE Start.exT Start.exH = (.exec t', hs) ∧
    ∀ (p : Proc), p.table = t' → ∀ x q, (x, q) ∈ (main true 42 ⟨⟨true, fun _ => true, true⟩, true, true, true⟩ p).1 →
      q.filter = .active (Seccomp.rules 42) ∧ q.handler = true ∧ q.cb = 5 ∧
      ∀ i, q.table i = permitted Start.exT ⟨16, true⟩ ⟨99, false⟩ ⟨15, true⟩ i :=
  library_confined_partial Start.exRoom Start.exRefer rfl (by decide) (fun i hi => by simp [Start.exT]; omega)
    (fun _ => ⟨rfl, rfl, fun _ => rfl⟩)

/-! ### C59 -/

section
open Syscall

theorem charByte {c : Char} (h : c.isDigit) : (String.utf8EncodeChar c) = [c.val.toUInt8] ∧ 48 ≤ c.val.toUInt8.toNat ∧ c.val.toUInt8.toNat ≤ 57
   ∧ c.val.toUInt8.toNat = c.toNat := by
  have h1 : 48 ≤ c.val.toNat ∧ c.val.toNat ≤ 57 := by
    simp only [Char.isDigit, Bool.and_eq_true, decide_eq_true_eq] at h
    exact ⟨h.1, h.2⟩
  have h2 : c.val.toUInt8.toNat = c.val.toNat := by
    rw [UInt32.toNat_toUInt8]; omega
  refine ⟨String.utf8EncodeChar_eq_singleton ?_, by omega, by omega, h2⟩
  rw [Char.utf8Size_eq_one_iff]
  show c.val.toNat ≤ 127
  omega

theorem bytes_ofList : ∀ (l : List Char), (∀ c ∈ l, c.isDigit) → bytes (String.ofList l) = l.map (fun c => c.val.toUInt8) := by
  intro l
  induction l with
  | nil => intro _; simp [bytes]
  | cons c l ih =>
    intro h
    have h1 := ih (fun c hc => h c (List.mem_cons_of_mem _ hc))
    simp only [bytes, String.toUTF8_eq_toByteArray, String.toByteArray_ofList] at h1 ⊢
    rw [List.utf8Encode_cons]
    simp [List.utf8Encode_singleton, (charByte (h c (by simp))).1, h1]

theorem decimal_ofDigitChars : ∀ (l : List Char) , (∀ c ∈ l, c.isDigit) →  decimal (l.map (fun c => c.val.toUInt8)) = Nat.ofDigitChars 10 l 0 := by
  intro l
  induction l with
  | nil => simp [decimal]
  | cons c l ih =>
    intro h
    have h1 := ih (fun c hc => h c (List.mem_cons_of_mem _ hc))
    obtain ⟨-, h2, h3, h4⟩ := charByte (h c (by simp))
    rw [Nat.ofDigitChars_cons, Nat.ofDigitChars_eq_ofDigitChars_zero]
    simp only [List.map_cons, decimal, h1, List.length_map, h4]
    simp
    rw [Nat.mul_comm]

/-- The path that `fdlopen` uses names the descriptor. -/
theorem own_path (pid n : Nat) : NamesOwn pid n (fdlopenPath pid n) := by
  have hd : ∀ c ∈ Nat.toDigits 10 n, c.isDigit := fun c hc => Nat.isDigit_of_mem_toDigits (by decide) (by decide) hc
  refine ⟨(Nat.toDigits 10 n).map (fun c => c.val.toUInt8), [], ?_, ?_, ?_, by simp, ?_⟩
  · rw [← bytes_ofList _ hd, ← Nat.toString_eq_ofList_toDigits]
    simp [fdlopenPath, bytes, fdDir]
  · simp [Nat.toDigits_ne_nil]
  · intro d hdm
    rw [List.mem_map] at hdm
    obtain ⟨c, hc, rfl⟩ := hdm
    obtain ⟨-, h2, h3, -⟩ := charByte (hd c hc)
    exact ⟨h2, h3⟩
  · rw [decimal_ofDigitChars _ hd, Nat.ofDigitChars_ten_toDigits]

/-- **C59.**  When the dynamic linker opens the path that `fdlopen` gave it, in a process with the permitted descriptors,
the trapped call is answered without the host, with descriptor 3, and that is the library. -/
theorem fdlopen_finds_library {std : Nat → Option Obj} {cb lib rpc : Obj} {tab : Table} {lim : Nat} {v : Env} {i : Info}
    {r : Regs} (ht : ∀ n, tab n = permitted std cb lib rpc n) (hstd : ∀ n, n < 3 → std n ≠ none) (hlim : 3 < lim)
    (hcode : i.code = 1) (hn : i.syscall = 257) (hs : v.str r.rsi = some (fdlopenPath v.pid 6))
    (hdup : ∀ x, v.dup x = BitVec.ofInt 32 (Fd.dup lim tab x.toInt).1) :
    ∃ r', emulate v i r = .ok (r', []) ∧ libc r'.rax = (3, none) ∧ r'.rip = i.callAddr ∧ abi r' = abi r ∧
      (Fd.dup lim tab 6).2 3 = some lib := by
  have h3 : lowest lim tab = some 3 := by
    rw [lowest_some]
    refine ⟨hlim, by rw [ht]; rfl, fun m hm => ?_⟩
    rw [ht]
    have := hstd m hm
    rcases m with _ | _ | _ | m
    · exact this
    · exact this
    · exact this
    · omega
  have hd : Fd.dup lim tab 6 = (3, tab.put 3 (some lib)) := by
    have h6 : tab.at 6 = some lib := by
      simp only [Table.at]
      rw [if_pos (by decide)]
      exact ht 6
    simp only [Fd.dup, h6, create, h3]
    rfl
  obtain ⟨r', g1, g2, g3, g4⟩ := openat_own (n := 6) (f := 3) hcode hn hs (own_path v.pid 6) (by decide)
    (by rw [hdup]; show BitVec.ofInt 32 (Fd.dup lim tab 6).1 = _; rw [hd]; rfl)
  refine ⟨r', g1, g2, g3, g4, ?_⟩
  rw [hd]
  simp

/-- The hypotheses can be met: a process whose memory holds that path. -/
example : ∃ (v : Env) (i : Info) (r : Regs) (tab : Table), (∀ n, tab n = permitted Start.exT ⟨16, true⟩ ⟨99, false⟩ ⟨15, true⟩ n) ∧
    i.code = 1 ∧ i.syscall = 257 ∧ v.str r.rsi = some (fdlopenPath v.pid 6) ∧
    ∀ x, v.dup x = BitVec.ofInt 32 (Fd.dup 1024 tab x.toInt).1 :=
  ⟨⟨fun _ => ⟨0, none⟩, 77, fun _ => some (fdlopenPath 77 6),
      fun x => BitVec.ofInt 32 (Fd.dup 1024 (permitted Start.exT ⟨16, true⟩ ⟨99, false⟩ ⟨15, true⟩) x.toInt).1⟩,
    ⟨1, 257, 0x1000⟩, ⟨257, 0, 0x2000, 0, 0, 0, 0, 0⟩, _, fun _ => rfl, rfl, rfl, rfl, fun _ => rfl⟩

end

end Verif.Main
