import Verif.Balance.Thrown
import Verif.Authority.Props

/-!
# The host's descriptors with any number of sandboxes: model and theorems (C86)

The host exports files, configures networks and registers functions, opens and closes descriptors of its own, and handles the
messages of all its sandboxes, in any order.  All libraries share one table of descriptors, that of the process.
-/

namespace Verif.Balance

open Verif.Fd
open Verif.Bounds (Region)
open Verif.FileTree (Export)
open Verif.Net (Config)
open Verif.Authority (Lib Outside fresh)
open Verif.Socket (opened)
open Spec

/-- What happens (`include/process_sandbox/filetree.h:301-317`, `include/process_sandbox/netpolicy.h:188-213`,
`src/libsandbox.cc:691-697`, `:661-681`); `own` is whatever the host program does with its descriptors in between. -/
inductive Deed where
  | exports (i : Nat) (e : Export)
  | config (i : Nat) (c : Config)
  | register (i : Nat) (h : Nat)
  | packet (i : Nat) (w : Table → Outside) (p : Socket.Packet)
  | own (f : Table → Table)

/-- The libraries of the host and its table (`src/libsandbox.cc:300-330`). -/
structure Host where
  libs : Nat → Lib
  table : Table

/-- The library of one sandbox is replaced (bookkeeping; each is an object of its own, `src/libsandbox.cc:700-738`). -/
def Host.put (s : Host) (i : Nat) (l : Lib) : Host := { s with libs := fun j => if j = i then l else s.libs j }

/-- One of these things happens (`src/libsandbox.cc:661-697`); `none` if the host comes to an end.  `region i` is the memory
of sandbox `i`. -/
def deed (lim : Nat) (obj : Obj) (hdr : Word) (region : Nat → Region) (s : Host) : Deed → Option Host
  | .exports i e => some (s.put i { s.libs i with tree := (e.run (s.libs i).tree).2.1 })
  | .config i c => some (s.put i { s.libs i with policies := c.run (s.libs i).policies })
  | .register i h =>
    match Callback.registerCallback (s.libs i).table h with
    | .ok (_, t) => some (s.put i { s.libs i with table := t })
    | _ => none
  | .packet i w p =>
    match turnX lim obj hdr (region i) (s.libs i) (w, p) s.table with
    | some (_, t) => some { s with table := t }
    | none => none
  | .own f => some { s with table := f s.table }

/-- Several of them, one after the other (`src/libsandbox.cc:661-697`). -/
def deeds (lim : Nat) (obj : Obj) (hdr : Word) (region : Nat → Region) : List Deed → Host → Option Host
  | [], s => some s
  | d :: ds, s =>
    match deed lim obj hdr region s d with
    | some s' => deeds lim obj hdr region ds s'
    | none => none

/-- The sandboxes whose relative `openat`s have been granted, once for each (`src/libsandbox.cc:411-431`). -/
def grantedTo (lim : Nat) (obj : Obj) (hdr : Word) (region : Nat → Region) : List Deed → Host → List Nat
  | [], _ => []
  | d :: ds, s =>
    (match d with
      | .packet i w p => if Granted lim hdr (region i) (s.libs i) (w, p) s.table then [i] else []
      | _ => []) ++
    match deed lim obj hdr region s d with
    | some s' => grantedTo lim obj hdr region ds s'
    | none => []

/-- How many descriptors more the host program has opened than closed by itself (the program that uses
`src/libsandbox.cc:661-697`). -/
def ownChange (lim : Nat) (obj : Obj) (hdr : Word) (region : Nat → Region) : List Deed → Host → Int
  | [], _ => 0
  | d :: ds, s =>
    (match d with
      | .own f => (opened lim (f s.table) : Int) - opened lim s.table
      | _ => 0) +
    match deed lim obj hdr region s d with
    | some s' => ownChange lim obj hdr region ds s'
    | none => 0

/-- The handlers of every library are the seven built-in ones and some of the user's (`src/libsandbox.cc:721-737`, `:691-697`). -/
def Regular (s : Host) : Prop := ∀ i, ∃ users, (s.libs i).table = Callback.tableOf users

/-- A message as the theorems of C86 suppose it (`src/libsandbox.cc:661-681`). -/
def Fair (lim : Nat) (obj : Obj) : Deed → Prop
  | .packet _ w p => Decent p ∧ (∀ t1, Fresh lim obj t1 (w t1).kernel) ∧ ∀ t1 fd, Polite (w t1) t1 fd
  | _ => True

section several
variable {lim : Nat} {obj : Obj} {hdr : Word} {region : Nat → Region}

theorem fresh_regular (t : Table) : Regular ⟨fun _ => fresh, t⟩ := fun i => ⟨_, (Authority.fresh_holds i).table⟩

theorem put_regular {s : Host} {i : Nat} {l : Lib} (hs : Regular s) (hl : ∃ users, l.table = Callback.tableOf users) :
    Regular (s.put i l) := by
  intro j
  simp only [Host.put]
  split
  · exact hl
  · exact hs j

theorem deed_regular {s s' : Host} {d : Deed} (hs : Regular s) (h : deed lim obj hdr region s d = some s') :
    Regular s' := by
  cases d with
  | exports i e => cases h; exact put_regular hs (hs i)
  | config i c => cases h; exact put_regular hs (hs i)
  | register i x =>
    obtain ⟨users, hu⟩ := hs i
    simp only [deed, hu, Callback.registerCallback_tableOf] at h
    split at h
    · rename_i t ht
      cases h
      split at ht
      · cases ht
        exact put_regular hs ⟨_, rfl⟩
      · cases ht
    · cases h
  | packet i w p =>
    simp only [deed] at h
    split at h
    · cases h; exact hs
    · cases h
  | own f => cases h; exact hs

/-- **C86, any number of sandboxes, exactly.**  Whatever the host exports, configures and registers for its sandboxes, and
whatever they send, in any order: the host has as many descriptors more as it has granted relative `openat`s, and opened
itself without closing. -/
theorem sandboxes_leak_exactly {ds : List Deed} {s s' : Host} (hs : Regular s) (hd : ∀ d ∈ ds, Fair lim obj d)
    (h : deeds lim obj hdr region ds s = some s') :
    (opened lim s'.table : Int) =
      opened lim s.table + (grantedTo lim obj hdr region ds s).length + ownChange lim obj hdr region ds s := by
  induction ds generalizing s with
  | nil => cases h; simp [grantedTo, ownChange]
  | cons d ds ih =>
    simp only [deeds] at h
    rcases he : deed lim obj hdr region s d with _ | s1 <;> rw [he] at h
    · cases h
    · have hi := ih (deed_regular hs he) (fun d' hd' => hd d' (by simp [hd'])) h
      have hf := hd d (by simp)
      simp only [grantedTo, ownChange, he, List.length_append]
      cases d with
      | exports i e => cases he; simp only [Host.put] at hi ⊢; simp only [List.length_nil]; omega
      | config i c => cases he; simp only [Host.put] at hi ⊢; simp only [List.length_nil]; omega
      | register i x =>
        simp only [deed] at he
        split at he
        · cases he; simp only [Host.put] at hi ⊢; simp only [List.length_nil]; omega
        · cases he
      | own f => cases he; simp only [List.length_nil] at hi ⊢; omega
      | packet i w p =>
        simp only [deed] at he
        obtain ⟨users, hu⟩ := hs i
        rcases ht : turnX lim obj hdr (region i) (s.libs i) (w, p) s.table with _ | ⟨b, t1⟩ <;> rw [ht] at he
        · cases he
        · cases he
          have hm := every_message_leaks_exactly (obj := obj) (hdr := hdr) (r := region i) (ms := [(w, p)]) (t := s.table) (t' := t1) hu
            (fun x hx => by rw [List.mem_singleton.1 hx]; exact hf) (by simp only [turnsX, ht])
          simp only [grantsX, ht] at hm
          simp only at hi ⊢
          split <;> rename_i hg
          · rw [if_pos hg] at hm
            simp only [List.length_cons, List.length_nil]
            omega
          · rw [if_neg hg] at hm
            simp only [List.length_nil]
            omega

/-- **C86, one sandbox among others.**  A sandbox that asks for no `openat` costs the host nothing, whatever it and the other
sandboxes do otherwise. -/
theorem other_requests_cost_nothing {ds : List Deed} {s : Host} {i : Nat}
    (hi : ∀ w p, Deed.packet i w p ∈ ds → asksFor p ≠ 3) : i ∉ grantedTo lim obj hdr region ds s := by
  induction ds generalizing s with
  | nil => simp [grantedTo]
  | cons d ds ih =>
    have hrest : ∀ s : Host, i ∉ grantedTo lim obj hdr region ds s := fun s => ih fun w p h => hi w p (by simp [h])
    simp only [grantedTo, List.mem_append, not_or]
    constructor
    · cases d with
      | packet j w p =>
        simp only
        split
        · rename_i hg
          rw [List.mem_singleton]
          rintro rfl
          exact hi w p (by simp) hg.1
        · simp
      | exports => simp
      | config => simp
      | register => simp
      | own => simp
    · split
      · exact hrest _
      · simp

/-- What the host grants by this, as `Verif.Authority` records it (`src/libsandbox.cc:691-697`,
`include/process_sandbox/filetree.h:301-317`, `include/process_sandbox/netpolicy.h:188-213`). -/
def grant : Deed → List Authority.Action
  | .exports i e => [.exports i e]
  | .config i c => [.config i c]
  | .register i h => [.register i h]
  | _ => []

/-- **C86, whose rights count.**  The library of each sandbox holds exactly what the host has granted to that sandbox so far:
by this its requests are judged, whatever was granted to the others and whatever any of them has sent. -/
theorem libs_hold_grants {ds : List Deed} {s s' : Host} {i : Nat} {as : List Authority.Action}
    (hs : Authority.Holds (s.libs i) i as) (h : deeds lim obj hdr region ds s = some s') :
    Authority.Holds (s'.libs i) i (as ++ ds.flatMap grant) := by
  induction ds generalizing s as with
  | nil => cases h; simpa using hs
  | cons d ds ih =>
    simp only [deeds] at h
    rcases he : deed lim obj hdr region s d with _ | s1 <;> rw [he] at h
    · cases h
    · have key : Authority.Holds (s1.libs i) i (as ++ grant d) := by
        clear ih h
        obtain ⟨h1, h2, h3⟩ := hs
        cases d with
        | exports j e =>
          cases he
          simp only [Host.put, grant]
          by_cases hj : i = j
          · subst hj
            refine ⟨?_, ?_, ?_⟩ <;>
              simp_all [Authority.Spec.exportsTo, Authority.Spec.configsFor, Authority.Spec.handlersFor, FileTree.runHistory]
          · have hj' : ¬ j = i := fun e => hj e.symm
            refine ⟨?_, ?_, ?_⟩ <;>
              simp_all [Authority.Spec.exportsTo, Authority.Spec.configsFor, Authority.Spec.handlersFor]
        | config j c =>
          cases he
          simp only [Host.put, grant]
          by_cases hj : i = j
          · subst hj
            refine ⟨?_, ?_, ?_⟩ <;>
              simp_all [Authority.Spec.exportsTo, Authority.Spec.configsFor, Authority.Spec.handlersFor, Net.configure]
          · have hj' : ¬ j = i := fun e => hj e.symm
            refine ⟨?_, ?_, ?_⟩ <;>
              simp_all [Authority.Spec.exportsTo, Authority.Spec.configsFor, Authority.Spec.handlersFor]
        | register j x =>
          simp only [deed] at he
          by_cases hj : i = j
          · subst hj
            rw [h3, Callback.registerCallback_tableOf] at he
            split at he
            · rename_i t ht
              split at ht
              · cases ht
                cases he
                refine ⟨?_, ?_, ?_⟩ <;>
                  simp_all [Host.put, grant, Authority.Spec.exportsTo, Authority.Spec.configsFor, Authority.Spec.handlersFor]
              · cases ht
            · cases he
          · have hj' : ¬ j = i := fun e => hj e.symm
            split at he
            · cases he
              refine ⟨?_, ?_, ?_⟩ <;>
                simp_all [Host.put, grant, Authority.Spec.exportsTo, Authority.Spec.configsFor, Authority.Spec.handlersFor]
            · cases he
        | packet j w p =>
          simp only [deed] at he
          split at he
          · cases he; simpa [grant] using ⟨h1, h2, h3⟩
          · cases he
        | own f => cases he; simpa [grant] using ⟨h1, h2, h3⟩
      have := ih key h
      rwa [List.append_assoc] at this

end several

/-! ### Examples -/

/-- Two sandboxes: the host registers a function for sandbox 1 after sandbox 0 has sent an `openat`, opens a file of its own
and handles further messages of both, one of which ends with an exception (`src/libsandbox.cc:661-697`). -/
def exDeeds : List Deed :=
  [.packet 0 exThrow (exPacket 3 24), .register 1 33, .packet 1 exThrow (exPacket 7 8), .own (·.put 40 (some ⟨5, false⟩)),
    .packet 0 exThrow (exPacket 0 16), .packet 0 exThrow (exPacket 3 24)]

/-- The host of the example (`src/libsandbox.cc:300-330`). -/
def exHost : Host := ⟨fun _ => { exLib with table := Callback.tableOf [] }, Socket.exT⟩

example : ((deeds 64 ⟨77, false⟩ 0x400 (fun _ => ⟨0x10400, 0x20000⟩) exDeeds exHost).map fun s => opened 64 s.table) =
    some (opened 64 Socket.exT + 3) := by decide +kernel

example (s' : Host) (h : deeds 64 ⟨77, false⟩ 0x400 (fun _ => ⟨0x10400, 0x20000⟩) exDeeds exHost = some s') :
    (opened 64 s'.table : Int) = opened 64 exHost.table +
      (grantedTo 64 ⟨77, false⟩ 0x400 (fun _ => ⟨0x10400, 0x20000⟩) exDeeds exHost).length +
      ownChange 64 ⟨77, false⟩ 0x400 (fun _ => ⟨0x10400, 0x20000⟩) exDeeds exHost := by
  refine sandboxes_leak_exactly (fun _ => ⟨[], rfl⟩) ?_ h
  intro d hd
  simp only [exDeeds, List.mem_cons, List.not_mem_nil, or_false] at hd
  rcases hd with rfl | rfl | rfl | rfl | rfl | rfl <;> first
    | trivial
    | exact ⟨.inr ⟨rfl, by decide⟩, fun t1 => exKernel_fresh _ _ _, fun t1 fd h bs res hr => by cases hr⟩

/-- Sandbox 1 costs nothing. -/
example : 1 ∉ grantedTo 64 ⟨77, false⟩ 0x400 (fun _ => ⟨0x10400, 0x20000⟩) exDeeds exHost := by
  refine other_requests_cost_nothing fun w p h => ?_
  simp only [exDeeds, List.mem_cons, List.not_mem_nil, or_false, Deed.packet.injEq, reduceCtorEq, false_or] at h
  rcases h with ⟨h, _⟩ | ⟨_, _, rfl⟩ | ⟨h, _⟩ | ⟨h, _⟩
  · cases h
  · decide
  · cases h
  · cases h

/-- Sandbox 1 of a host that starts with new libraries has the function registered for it, and sandbox 0 has not. -/
example (t : Table) (s' : Host) (h : deeds 64 ⟨77, false⟩ 0x400 (fun _ => ⟨0x10400, 0x20000⟩) exDeeds ⟨fun _ => fresh, t⟩ = some s') :
    (s'.libs 1).table = Callback.tableOf [33] ∧ (s'.libs 0).table = Callback.tableOf [] :=
  ⟨(libs_hold_grants (Authority.fresh_holds 1) h).table, (libs_hold_grants (Authority.fresh_holds 0) h).table⟩

/-- And there is such a run. -/
example : (deeds 64 ⟨77, false⟩ 0x400 (fun _ => ⟨0x10400, 0x20000⟩) exDeeds ⟨fun _ => fresh, Socket.exT⟩).isSome = true := by
  decide +kernel

end Verif.Balance
