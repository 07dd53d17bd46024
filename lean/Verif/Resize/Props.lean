import Verif.Main.Props
import Verif.Reach.Props
import Verif.Resize.Spec

/-!
# The size of the shared memory (property C109)
-/

namespace Verif.Resize

open Verif.Authority (Action Host act)
open Verif.Fd (Obj Table)
open Verif.Reach (Src World Ev Step)
open Verif.Reach.Spec (Gives origin namers)
open Verif.Rpc (Cfg Range Mapping)
open Spec

section runs

variable {σ : Type} {c : Cfg} {R : Range σ} {maps : Nat → Mapping} {i : Nat} {self : Word}

/-- What the host sends is never a descriptor of the start, nor one by name. -/
private theorem arrives_other {a : Action} {h : Host σ} {s : Src} (hs : s ∈ Reach.arrives i a (act c R maps h a).1) :
    origin s = s ∧ (∀ n, s ≠ .start n) ∧ ∀ nr, s ≠ .named nr := by
  unfold Reach.arrives at hs
  split at hs
  · split at hs
    · obtain ⟨e, -, he⟩ := List.mem_flatMap.1 hs
      unfold Reach.sent at he
      split at he
      · split at he
        · rcases Reach.mem_sources he with ⟨rfl, -, -⟩ | ⟨u, -, rfl⟩ | ⟨x, -, hx⟩
          · exact ⟨rfl, by simp, by simp⟩
          · exact ⟨rfl, by simp, by simp⟩
          · unfold Reach.opened at hx
            split at hx
            · split at hx
              · cases hx; exact ⟨rfl, by simp, by simp⟩
              · cases hx; exact ⟨rfl, by simp, by simp⟩
              · contradiction
            · contradiction
        · cases he
      · cases he
    · cases hs
  · cases hs

/-- A process that makes no call of `io_uring` never holds another descriptor of the start than at first, and nothing that it
named. -/
private theorem held_step {w w' : World σ} {ev : Ev} {held : List Src}
    (ih : ∀ s ∈ w.held, (∀ n, origin s = .start n → .start n ∈ held) ∧ ∀ nr, origin s ≠ .named nr)
    (hn : NoUring [ev]) (h : Step c R maps false i self (Gives self) w ev w') :
    ∀ s ∈ w'.held, (∀ n, origin s = .start n → .start n ∈ held) ∧ ∀ nr, origin s ≠ .named nr := by
  cases h with
  | act a got hg =>
    intro s hs
    rcases List.mem_append.1 hs with hs | hs
    · obtain ⟨h1, h2, h3⟩ := arrives_other (hg s hs)
      rw [h1]
      exact ⟨fun n hn => absurd hn (h2 n), h3⟩
    · exact ih s hs
  | exec call got hex hg =>
    intro s hs
    rcases List.mem_append.1 hs with hs | hs
    · cases hg s hs with
      | make p hp hn => exact ⟨by simp [origin], by simp [origin]⟩
      | pass p s' hp hn hs' => exact ih s' hs'
      | name p hp hnr =>
        have := hn call (by simp)
        rcases Reach.namer_executed hp hnr hex with h | h
        · exact absurd h this.1
        · exact absurd h this.2
      | itself hn hd => exact ⟨by simp [origin], by simp [origin]⟩
      | other hn hd => exact absurd (Reach.pidfd_executed hn hex) hd
    · exact ih s hs
  | trap call htrap => exact ih

private theorem run_held {resizes} {s₀ s : Sizes σ} {evs : List Ev} {held : List Src}
    (h : SRun c R maps i self (Gives self) resizes s₀ evs s) (hn : NoUring evs)
    (h0 : ∀ s ∈ s₀.world.held, (∀ n, origin s = .start n → .start n ∈ held) ∧ ∀ nr, origin s ≠ .named nr) :
    ∀ x ∈ s.world.held, (∀ n, origin x = .start n → .start n ∈ held) ∧ ∀ nr, origin x ≠ .named nr := by
  induction h with
  | nil => exact h0
  | snoc evs s ev s' _ hs ih =>
    have ih := ih (fun call hc => hn call (List.mem_append_left _ hc))
    have hn' : NoUring [ev] := fun call hc => hn call (List.mem_append_right _ hc)
    cases hs with
    | act w w' z a hst => exact held_step ih hn' hst
    | call w w' z z' call hst hz => exact held_step ih hn' hst

private theorem mem_heldOf {t : Table} {s : Src} : s ∈ heldOf t ↔ ∃ n, n < 8 ∧ t n ≠ none ∧ s = .start n := by
  unfold heldOf
  simp only [List.mem_map, List.mem_filter, List.mem_range]
  constructor
  · rintro ⟨n, ⟨h1, h2⟩, rfl⟩
    exact ⟨n, h1, by intro h; simp [h] at h2, rfl⟩
  · rintro ⟨n, h1, h2, rfl⟩
    exact ⟨n, ⟨h1, by cases h : t n <;> simp_all⟩, rfl⟩

private theorem heldOf_start (t : Table) :
    ∀ s ∈ heldOf t, (∀ n, origin s = .start n → .start n ∈ heldOf t) ∧ ∀ nr, origin s ≠ .named nr := by
  intro s hs
  obtain ⟨m, h1, h2, rfl⟩ := mem_heldOf.1 hs
  exact ⟨fun n hn => by cases hn; exact hs, by simp [origin]⟩

/-- If no descriptor of a process is for an object, open for writing, then without `io_uring` its size stays. -/
private theorem size_kept {den : Src → Option Obj} {t : Table} {o : Nat} (hd : Starts den t) (hu : Unexported den o)
    (ht : ∀ n, n < 8 → t n ≠ some ⟨o, true⟩) {h : Host σ} {z : Nat → Nat} {evs : List Ev} {s : Sizes σ} (hn : NoUring evs)
    (hrun : SRun c R maps i self (Gives self) (Resizes den) ⟨⟨h, heldOf t⟩, z⟩ evs s) : s.size o = z o := by
  generalize hs0 : (⟨⟨h, heldOf t⟩, z⟩ : Sizes σ) = s₀ at hrun
  have hz : z = s₀.size := by rw [← hs0]
  have hh : s₀.world.held = heldOf t := by rw [← hs0]
  rw [hz]
  clear hs0 hz
  induction hrun with
  | nil => rfl
  | snoc evs s ev s' hr hs ih =>
    have hn' : NoUring evs := fun call hc => hn call (List.mem_append_left _ hc)
    have ih := ih hn'
    have hheld := run_held (held := heldOf t) hr hn' (by rw [hh]; exact heldOf_start t)
    cases hs with
    | act w w' z a hst => exact ih
    | call w w' z z' call hst hz =>
      rw [← ih]
      apply Classical.byContradiction
      intro hne
      obtain ⟨-, -, x, hx, hdx⟩ := hz o hne
      rcases hu _ _ hdx with ⟨n, hs⟩ | ⟨nr, hs⟩
      · have hm := (hheld x hx).1 n hs
        obtain ⟨m, h8, _, he⟩ := mem_heldOf.1 hm
        cases he
        rw [hs, hd] at hdx
        exact ht n h8 hdx
      · exact (hheld x hx).2 nr hs

/-- With a descriptor for an object that is open for writing one call suffices to give it any size. -/
private theorem can_resize {den : Src → Option Obj} {h : Host σ} {held : List Src} {z : Nat → Nat} {o : Nat} {s : Src}
    (hs : s ∈ held) (hd : den (origin s) = some ⟨o, true⟩) (n : Nat) (a : Word) :
    SStep c R maps i self (Gives self) (Resizes den) ⟨⟨h, held⟩, z⟩ (.call ⟨true, 77, a⟩)
      ⟨⟨h, held⟩, fun x => if x = o then n else z x⟩ := by
  have hp : Seccomp.policy false self ⟨true, 77, a⟩ = .allow := by
    have h77 : Seccomp.has Seccomp.allowed 77 = true := by decide +kernel
    rw [Seccomp.policy_eq]
    simp [h77]
  refine .call _ _ _ _ _ ?_ ?_
  · have := Step.exec (c := c) (R := R) (maps := maps) (debugSandbox := false) (i := i) (self := self) (gives := Gives self)
      ⟨h, held⟩ ⟨true, 77, a⟩ [] (.inl hp) nofun
    exact this
  · intro x hx
    by_cases he : x = o
    · subst he
      exact ⟨hp, .inl rfl, s, hs, hd⟩
    · simp [he] at hx

/-- What the library finds open is another object than `o`, open for writing, unless a stream is closed in the host. -/
private theorem table_other {t : Table} {hd : Start.Handles} {shm pm cb rpc lib o : Obj} {n : Nat}
    (hstd : ∀ i, i < 3 → ∀ x, t i = some x → x.id ≠ o.id) (hcb : cb.id ≠ o.id) (hrpc : rpc.id ≠ o.id) (hlibo : lib.id ≠ o.id)
    (h : Main.permitted (fun j => (t j).or (some (Start.stray hd shm pm cb rpc lib))) cb lib rpc n = some ⟨o.id, true⟩) :
    n < 3 ∧ t n = none ∧ Start.stray hd shm pm cb rpc lib = ⟨o.id, true⟩ := by
  have key : ∀ i, i < 3 → (t i).or (some (Start.stray hd shm pm cb rpc lib)) = some ⟨o.id, true⟩ →
      i < 3 ∧ t i = none ∧ Start.stray hd shm pm cb rpc lib = ⟨o.id, true⟩ := by
    intro i hi h
    cases ht : t i with
    | none => rw [ht] at h; exact ⟨hi, rfl, by simpa using h⟩
    | some x =>
      rw [ht] at h
      have h : some x = some (⟨o.id, true⟩ : Obj) := h
      simp only [Option.some.injEq] at h
      exact absurd (by rw [h]) (hstd i hi x ht)
  unfold Main.permitted at h
  split at h
  · exact key 0 (by omega) h
  · exact key 1 (by omega) h
  · exact key 2 (by omega) h
  · simp only [Option.some.injEq] at h; exact absurd (by rw [h]) hcb
  · simp only [Option.some.injEq] at h; exact absurd (by rw [h]) hlibo
  · simp only [Option.some.injEq] at h; exact absurd (by rw [h]) hrpc
  · cases h

/-- **C109, exactly when it holds without rings.**  A child is started and the library is loaded into it.  Let `o` be the
shared memory or the page map (or anything else that is neither exported to the sandbox nor one of the host's streams, the
two sockets or the library).  The code of the library can, by system calls other than those of `io_uring` and by messages,
change the size of `o` exactly if one of the host's standard streams is closed and `o` is what the child finds in its
place. -/
theorem size_changes_iff {fuel : Nat} {e : Start.Env} {t : Table} {hd : Start.Handles} {shm pm cb rpc lib o : Obj}
    (hr : Start.Room e.lim t) (hh : Start.Refer t hd shm pm cb rpc) (hlib : e.lib = some lib) (hf : 10 ≤ fuel)
    (hstd : ∀ i, i < 3 → ∀ x, t i = some x → x.id ≠ o.id) (hcb : cb.id ≠ o.id) (hrpc : rpc.id ≠ o.id) (hlibo : lib.id ≠ o.id)
    (hw : o.wr = true) (ndebug : Bool) (a : Main.Answers) :
    ∃ t' hs, Start.startChild fuel e t hd = (.exec t', hs) ∧
      ∀ p : Main.Proc, p.table = t' → ∀ x q, (x, q) ∈ (Main.main ndebug self a p).1 →
        ∀ (den : Src → Option Obj) (h : Host σ) (z : Nat → Nat), Starts den q.table → Unexported den o.id →
          ((∃ evs s, NoUring evs ∧ s.size o.id ≠ z o.id ∧
              SRun c R maps i self (Gives self) (Resizes den) ⟨⟨h, heldOf q.table⟩, z⟩ evs s) ↔
            (∃ n, n < 3 ∧ t n = none) ∧ Start.stray hd shm pm cb rpc lib = o) := by
  obtain ⟨t', hs, h1, h2⟩ := Main.library_descriptors_exact hr hh hlib hf ndebug self a
  refine ⟨t', hs, h1, fun p hp x q hq den h z hden hu => ?_⟩
  have htab := (h2 p hp x q hq).2.2
  obtain ⟨oid, owr⟩ := o
  simp only at hstd hcb hrpc hlibo hw hu
  subst hw
  constructor
  · rintro ⟨evs, s, hn, hne, hrun⟩
    apply Classical.byContradiction
    intro hno
    apply hne
    refine size_kept hden hu (fun n _ hc => hno ?_) hn hrun
    rw [htab n] at hc
    obtain ⟨g1, g2, g3⟩ := table_other (o := ⟨oid, true⟩) hstd hcb hrpc hlibo hc
    exact ⟨⟨n, g1, g2⟩, g3⟩
  · rintro ⟨⟨n, hn, htn⟩, hst⟩
    have hq : q.table n = some ⟨oid, true⟩ := by
      rw [htab n]
      rcases (by omega : n = 0 ∨ n = 1 ∨ n = 2) with rfl | rfl | rfl <;> simp [Main.permitted, htn, hst]
    have hm : Src.start n ∈ heldOf q.table := mem_heldOf.2 ⟨n, by omega, by rw [hq]; simp, rfl⟩
    refine ⟨[] ++ [.call ⟨true, 77, 0⟩], _, ?_, ?_, .snoc _ _ _ _ .nil
      (can_resize (n := z oid + 1) (o := oid) hm (show den (.start n) = _ by rw [hden, hq]) 0)⟩
    · intro call hc
      simp only [List.nil_append, List.mem_singleton, Ev.call.injEq] at hc
      subst hc
      decide
    · simp

/-- **C109 (partial).**  If the host's three standard streams are open, then whatever system calls other than those of
`io_uring` the code of the library makes, and whatever messages it sends, interleaved in any way with the host and other
sandboxes, the shared memory and the page map keep their sizes, so that no access of the host to them fails.  What is
missing: hosts with a closed stream (`closed_stream_truncates`) and `io_uring` (`uring_truncates`). -/
theorem shared_size_kept_partial {fuel : Nat} {e : Start.Env} {t : Table} {hd : Start.Handles} {shm pm cb rpc lib : Obj}
    (hr : Start.Room e.lim t) (hh : Start.Refer t hd shm pm cb rpc) (hlib : e.lib = some lib) (hf : 10 ≤ fuel)
    (hopen : ∀ i, i < 3 → ∃ x, t i = some x ∧ x.id ≠ shm.id ∧ x.id ≠ pm.id)
    (hoth : ∀ x ∈ [cb, rpc, lib], x.id ≠ shm.id ∧ x.id ≠ pm.id) (ndebug : Bool) (a : Main.Answers) :
    ∃ t' hs, Start.startChild fuel e t hd = (.exec t', hs) ∧
      ∀ p : Main.Proc, p.table = t' → ∀ x q, (x, q) ∈ (Main.main ndebug self a p).1 →
        ∀ (den : Src → Option Obj) (h : Host σ) (z : Nat → Nat), Starts den q.table → Unexported den shm.id →
          Unexported den pm.id → ∀ evs s, NoUring evs →
            SRun c R maps i self (Gives self) (Resizes den) ⟨⟨h, heldOf q.table⟩, z⟩ evs s →
            s.size shm.id = z shm.id ∧ s.size pm.id = z pm.id := by
  obtain ⟨t', hs, h1, h2⟩ := Main.library_descriptors_exact hr hh hlib hf ndebug self a
  refine ⟨t', hs, h1, fun p hp x q hq den h z hden hus hup evs s hn hrun => ?_⟩
  have htab := (h2 p hp x q hq).2.2
  simp only [List.mem_cons, List.not_mem_nil, or_false, forall_eq_or_imp, forall_eq] at hoth
  have key : ∀ o : Obj, (∀ i, i < 3 → ∃ x, t i = some x ∧ x.id ≠ o.id) → cb.id ≠ o.id → rpc.id ≠ o.id → lib.id ≠ o.id →
      ∀ n, n < 8 → q.table n ≠ some ⟨o.id, true⟩ := by
    intro o ho g1 g2 g3 n _ hc
    rw [htab n] at hc
    obtain ⟨k1, k2, -⟩ := table_other (o := o) (fun i hi x hx => by
      obtain ⟨y, hy, hne⟩ := ho i hi
      rw [hx] at hy
      cases hy
      exact hne) g1 g2 g3 hc
    obtain ⟨y, hy, -⟩ := ho n k1
    rw [k2] at hy
    cases hy
  constructor
  · exact size_kept hden hus (key shm (fun i hi => by obtain ⟨x, h1, h2, _⟩ := hopen i hi; exact ⟨x, h1, h2⟩)
      hoth.1.1 hoth.2.1.1 hoth.2.2.1) hn hrun
  · exact size_kept hden hup (key pm (fun i hi => by obtain ⟨x, h1, _, h2⟩ := hopen i hi; exact ⟨x, h1, h2⟩)
      hoth.1.2 hoth.2.1.2 hoth.2.2.2) hn hrun

/-- **C109 fails with `io_uring`.**  If there is a name by which the kernel gives the process a descriptor for the object (say
the one in `/proc` for a descriptor or mapping of the host), two calls make the object as small as the library likes, whatever it
held before. -/
theorem uring_truncates (den : Src → Option Obj) (o : Nat) (hd : den (.named 426) = some ⟨o, true⟩) (h : Host σ)
    (held : List Src) (z : Nat → Nat) (n : Nat) :
    ∃ s, SRun c R maps i self (Gives self) (Resizes den) ⟨⟨h, held⟩, z⟩ [.call ⟨true, 426, 0⟩, .call ⟨true, 77, 0⟩] s ∧
      s.size o = n ∧ ∀ x, x ≠ o → s.size x = z x := by
  have hp : Seccomp.policy false self ⟨true, 426, 0⟩ = .allow :=
    Seccomp.uring_allowed false self 0 ("io_uring_enter", 426) (by simp)
  have h1 : SStep c R maps i self (Gives self) (Resizes den) ⟨⟨h, held⟩, z⟩ (.call ⟨true, 426, 0⟩)
      ⟨⟨h, [.named 426] ++ held⟩, z⟩ := by
    refine .call _ _ _ _ _ (.exec _ _ _ (.inl hp) ?_) (fun o ho => absurd rfl ho)
    intro s hs
    simp only [List.mem_singleton] at hs
    subst hs
    exact .name ("io_uring_enter", 426) (by decide +kernel) rfl
  refine ⟨⟨⟨h, [.named 426] ++ held⟩, fun x => if x = o then n else z x⟩,
    .snoc [.call ⟨true, 426, 0⟩] _ _ _ (.snoc [] _ _ _ .nil h1)
      (can_resize (s := .named 426) (by simp) (show den (.named 426) = _ from hd) n 0), by simp, fun x hx => by simp [hx]⟩

end runs

/-! ## Examples -/

/-- What the descriptors stand for in the examples: those of the start only. -/
private def exDen (t : Table) : Src → Option Obj
  | .start n => t n
  | _ => none

private theorem exDen_un (t : Table) (o : Nat) : Unexported (exDen t) o := by
  intro s w h
  cases s with
  | start n => exact .inl ⟨n, rfl⟩
  | _ => cases h

/-- The hypotheses of `shared_size_kept_partial`, with a run in which the sizes of other things may change. -/
example : ∃ t' hs, Start.startChild 10 Start.exE Start.exT Start.exH = (.exec t', hs) ∧
    (∀ i, i < 3 → ∃ x, Start.exT i = some x ∧ x.id ≠ 14 ∧ x.id ≠ 13) := by
  obtain ⟨t', hs, h, -⟩ := Start.child_descriptors_partial (fuel := 10) Start.exRoom Start.exRefer rfl (Nat.le_refl _)
    (fun i hi => by simp [Start.exT]; omega)
  refine ⟨t', hs, h, fun i hi => ⟨⟨10 + i, true⟩, by simp [Start.exT]; omega, by simp; omega, by simp; omega⟩⟩

/-- The hypothesis of `uring_truncates`. -/
example : (fun s => if s = Src.named 426 then some ⟨14, true⟩ else exDen Start.exT s) (.named 426) = some (⟨14, true⟩ : Obj) := rfl

/-- There are runs that change sizes: the library may truncate the file that is its standard output. -/
example {σ : Type} {c : Cfg} {R : Range σ} {maps : Nat → Mapping} {i : Nat} {self : Word} (h : Host σ) :
    ∃ s, NoUring [.call ⟨true, 77, 1⟩] ∧ s.size 11 = 0 ∧ s.size 14 = 4096 ∧
      SRun c R maps i self (Gives self) (Resizes (exDen (Main.permitted Start.exT ⟨16, true⟩ ⟨99, false⟩ ⟨15, true⟩)))
        ⟨⟨h, heldOf (Main.permitted Start.exT ⟨16, true⟩ ⟨99, false⟩ ⟨15, true⟩)⟩, fun _ => 4096⟩ [.call ⟨true, 77, 1⟩] s :=
  ⟨_, by intro call hc; simp at hc; subst hc; decide, rfl, rfl, .snoc [] _ _ _ .nil
    (can_resize (s := .start 1) (o := 11) (mem_heldOf.2 ⟨1, by omega, by decide, rfl⟩) rfl 0 1)⟩

/-- **C109 fails if a stream of the host is closed.**  A host without standard input: the library finds the page map in its
place and takes it away. -/
theorem closed_stream_truncates {σ : Type} {c : Cfg} {R : Range σ} {maps : Nat → Mapping} {i : Nat} {self : Word}
    (a : Main.Answers) (h : Host σ) (z : Nat → Nat) (ndebug : Bool) :
    ∃ t' hs, Start.startChild 10 Start.exE Start.exT0 ⟨8, 3, 5, 6⟩ = (.exec t', hs) ∧
      ∀ p : Main.Proc, p.table = t' → ∀ x q, (x, q) ∈ (Main.main ndebug self a p).1 →
        ∃ den, Starts den q.table ∧ Unexported den 13 ∧ ∃ evs s, NoUring evs ∧ s.size 13 ≠ z 13 ∧
          SRun c R maps i self (Gives self) (Resizes den) ⟨⟨h, heldOf q.table⟩, z⟩ evs s := by
  obtain ⟨-, hroom, hrefer, -⟩ := Start.child_stray_descriptor
  obtain ⟨t', hs, h1, h2⟩ := size_changes_iff (c := c) (R := R) (maps := maps) (i := i) (self := self) (o := ⟨13, true⟩)
    (fuel := 10) hroom hrefer rfl (Nat.le_refl _)
    (fun j hj x hx => by
      simp only [Start.exT0] at hx
      split at hx
      · cases hx; simp; omega
      · cases hx) (by decide) (by decide) (by decide) rfl ndebug a
  refine ⟨t', hs, h1, fun p hp x q hq => ⟨exDen q.table, fun _ => rfl, exDen_un _ _, ?_⟩⟩
  exact (h2 p hp x q hq (exDen q.table) h z (fun _ => rfl) (exDen_un _ _)).2 ⟨⟨0, by omega, rfl⟩, rfl⟩

end Verif.Resize
