import Verif.Balance.Thrown
import Verif.BsdBalance.UserProps

/-!
# The host's descriptors when a handler throws on FreeBSD: model and theorems (C130)

As `Verif.Balance.Thrown`.
-/

namespace Verif.BsdBalance

open Verif.Fd
open Verif.Bounds (Region)
open Verif.Callback (Request Result)
open Verif.Authority (Lib)
open Verif.BsdAuthority (Outside run builtin)
open Verif.Socket (opened)
open Verif.Balance (decode Polite)
open Verif.Balance.Spec (Decent asksFor)
open Spec

/-- One call of `handle`, `src/libsandbox.cc:661-681`, also if it is left by an exception: then the `Handle` that holds the
descriptor of the message is destroyed on the way (`include/process_sandbox/platform/platform.h:65-72`).  The first part says
whether it returned; `none` if the host came to an end. -/
def turnX (lim : Nat) (obj : Obj) (hdr : Word) (r : Region) (l : Lib) (m : (Table → Outside) × Socket.Packet)
    (t : Table) : Option (Bool × Table) :=
  match receive lim t m.2 with
  | (true, bs, fd, t1) =>
    match finish obj hdr r l (m.1 t1) (decode bs) fd t1 with
    | .ok t' => some (true, t')
    | .throws => some (false, close (replay obj t1 (answer hdr r l (m.1 t1) (decode bs) fd).2.log) fd)
    | .abort => none
    | .ub => none
  | (false, _, _, t1) => some (true, t1)

/-- Several messages, the host program catching every exception and going on (`src/libsandbox.cc:661-681`). -/
def turnsX (lim : Nat) (obj : Obj) (hdr : Word) (r : Region) (l : Lib) :
    List ((Table → Outside) × Socket.Packet) → Table → Option Table
  | [], t => some t
  | m :: ms, t =>
    match turnX lim obj hdr r l m t with
    | some (_, t') => turnsX lim obj hdr r l ms t'
    | none => none

/-- How many messages of a sequence are granted relative `openat`s (`src/libsandbox.cc:661-681`). -/
def grantsX (lim : Nat) (obj : Obj) (hdr : Word) (r : Region) (l : Lib) :
    List ((Table → Outside) × Socket.Packet) → Table → Nat
  | [], _ => 0
  | m :: ms, t =>
    (if Granted lim hdr r l m t then 1 else 0) +
      match turnX lim obj hdr r l m t with
      | some (_, t') => grantsX lim obj hdr r l ms t'
      | none => 0

section message
variable {lim : Nat} {obj : Obj} {hdr : Word} {r : Region} {l : Lib} {users : List Nat}

theorem builtin_throws_log {o : Outside} {k : Nat} {bs : List Byte} {fd : Int}
    (h : (builtin hdr r l o k bs fd).1 = .throws) : (builtin hdr r l o k bs fd).2.log = [] := by
  have key : ∀ y : Outcome (Result × BsdPath.Log), (BsdAuthority.logged y).1 = .throws → (BsdAuthority.logged y).2.log = [] := by
    intro y hy
    cases y with
    | ok x => cases hy
    | abort => cases hy
    | throws => rfl
    | ub => cases hy
  unfold builtin at h ⊢
  split at h
  · exact key _ h
  · split at h
    · exact key _ h
    · rfl
    · rfl
    · rfl
    · cases h

/-- A handler that throws has made no call before. -/
theorem throws_log {o : Outside} (hl : l.table = Callback.tableOf users) (q : Request) (fd : Int)
    (h : (answer hdr r l o q fd).1 = .throws) : (answer hdr r l o q fd).2.log = [] := by
  by_cases hu : 7 ≤ q.kind.toNat ∧ q.kind.toNat < 7 + users.length
  · exact (user_answer hl q fd hu.1 hu.2).1
  · rcases entry_cases (hdr := hdr) (r := r) (o := o) hl q fd (by omega) with ⟨i, ha, -⟩ | ⟨bs, h7, ha⟩
    · rw [ha]
    · rw [ha] at h ⊢
      exact builtin_throws_log h

/-- **C130, exceptions.**  If an exception leaves `handle`, whatever the message was, the host's descriptors are as they were. -/
theorem bsd_thrown_keeps_descriptors (hl : l.table = Callback.tableOf users) {w : Table → Outside} {p : Socket.Packet}
    {t t' : Table} (hp : Decent p) (h : turnX lim obj hdr r l (w, p) t = some (false, t')) : t' = t := by
  obtain ⟨ok, bs, fd, t1, hr, hc, hf, hb, -⟩ := received (lim := lim) (t := t) hp
  simp only [turnX, hr] at h
  cases ok with
  | false => cases h
  | true =>
    simp only at h
    rcases hx : finish obj hdr r l (w t1) (decode bs) fd t1 with _ | _ | _ | _ <;> rw [hx] at h
    · cases h
    · cases h
    · have ha : (answer hdr r l (w t1) (decode bs) fd).1 = .throws := by
        unfold finish at hx
        rcases ha : answer hdr r l (w t1) (decode bs) fd with ⟨_ | _ | _ | _, e⟩ <;> rw [ha] at hx <;> first | rfl | cases hx
      simp only [throws_log hl _ _ ha] at h
      cases h
      exact hc
    · cases h

/-- What returns is what `turn` says. -/
theorem turnX_ok {m : (Table → Outside) × Socket.Packet} {t t' : Table} :
    turnX lim obj hdr r l m t = some (true, t') ↔ turn lim obj hdr r l m t = .ok t' := by
  unfold turnX turn
  rcases receive lim t m.2 with ⟨ok, bs, fd, t1⟩
  cases ok with
  | false => simp
  | true =>
    simp only
    rcases finish obj hdr r l (m.1 t1) (decode bs) fd t1 with _ | _ | _ | _ <;> simp

theorem granted_returns {m : (Table → Outside) × Socket.Packet} {t t' : Table}
    (h : turnX lim obj hdr r l m t = some (false, t')) : ¬ Granted lim hdr r l m t := by
  rintro ⟨-, i, hi, -⟩
  unfold turnX at h
  unfold number at hi
  rcases hr : receive lim t m.2 with ⟨ok, bs, fd, t1⟩
  rw [hr] at h hi
  cases ok with
  | false => cases hi
  | true =>
    simp only [finish] at h hi
    rcases ha : answer hdr r l (m.1 t1) (decode bs) fd with ⟨_ | _ | _ | _, e⟩ <;> rw [ha] at h hi
    · cases h
    · cases hi
    · cases hi
    · cases hi

/-- **C130, any number of messages of every kind, exceptions included, exactly.**  As long as the host lives, it has as many
descriptors more as it has granted relative `openat`s. -/
theorem bsd_every_message_leaks_exactly (hl : l.table = Callback.tableOf users)
    {ms : List ((Table → Outside) × Socket.Packet)} {t t' : Table}
    (hm : ∀ m ∈ ms, Decent m.2 ∧ (∀ t1, Fresh lim obj t1 (m.1 t1).bsd) ∧ ∀ t1 fd, Polite (m.1 t1).toLinux t1 fd)
    (h : turnsX lim obj hdr r l ms t = some t') : opened lim t' = opened lim t + grantsX lim obj hdr r l ms t := by
  induction ms generalizing t with
  | nil => cases h; rfl
  | cons m ms ih =>
    simp only [turnsX] at h
    have hm1 := hm m (by simp)
    rcases ht : turnX lim obj hdr r l m t with _ | ⟨b, t1⟩ <;> rw [ht] at h
    · cases h
    · have hi := ih (fun m hm' => hm m (by simp [hm'])) h
      simp only [grantsX, ht]
      cases b with
      | false =>
        have e := bsd_thrown_keeps_descriptors (w := m.1) (p := m.2) hl hm1.1 ht
        rw [if_neg (granted_returns ht)]
        rw [e] at hi ⊢
        omega
      | true =>
        have ht' := turnX_ok.1 ht
        have := bsd_all_messages_leak_exactly (hdr := hdr) (r := r) (ms := [m]) (t := t) (t' := t1) (users := users) hl
          (fun x hx => by rw [List.mem_singleton.1 hx]; exact hm1) (by simp only [turns, ht'])
        simp only [grants, ht'] at this
        omega

end message

/-! ### Examples -/

/-- A function of the user that throws (`src/libsandbox.cc:675`). -/
def exThrow (t : Table) : Outside := { exOutside t with user := fun _ => (8, fun _ _ => .throws) }

/-- The messages of the example: the second is left by an exception (`src/libsandbox.cc:661-681`). -/
def exThrown : List ((Table → Outside) × Socket.Packet) :=
  [(exThrow, Balance.exPacket 3 24), (exThrow, Balance.exPacket 7 8), (exThrow, Balance.exPacket 0 16), (exThrow, Balance.exPacket 3 24)]

example : ((turnX 64 ⟨77, false⟩ 0x400 ⟨0x10400, 0x20000⟩ Balance.exLib1 (exThrow, Balance.exPacket 7 8) Socket.exT).map
    (fun x => (x.1, opened 64 x.2))) = some (false, opened 64 Socket.exT) := by decide +kernel

example : ((turnsX 64 ⟨77, false⟩ 0x400 ⟨0x10400, 0x20000⟩ Balance.exLib1 exThrown Socket.exT).map (opened 64)) =
    some (opened 64 Socket.exT + 2) := by decide +kernel

example (t' : Table) (h : turnsX 64 ⟨77, false⟩ 0x400 ⟨0x10400, 0x20000⟩ Balance.exLib1 exThrown Socket.exT = some t') :
    opened 64 t' = opened 64 Socket.exT + grantsX 64 ⟨77, false⟩ 0x400 ⟨0x10400, 0x20000⟩ Balance.exLib1 exThrown Socket.exT := by
  refine bsd_every_message_leaks_exactly (users := [33]) rfl ?_ h
  intro m hm
  simp only [exThrown, List.mem_cons, List.not_mem_nil, or_false] at hm
  rcases hm with rfl | rfl | rfl | rfl <;>
    exact ⟨.inr ⟨rfl, by decide⟩, fun t1 => exKernel_fresh _ _ _, fun t1 fd h bs res hr => by cases hr⟩

end Verif.BsdBalance
