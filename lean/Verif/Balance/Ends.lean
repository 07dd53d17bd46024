import Verif.Balance.Props
import Verif.Authority.Ends

/-!
# When the host stops handling messages: theorems (C86, C87)
-/

namespace Verif.Balance

open Verif.Fd
open Verif.Bounds (Region)
open Verif.Strings (MallocOk)
open Verif.Callback (Request Result)
open Verif.Authority (Lib Outside Action Holds run exPoor)
open Verif.Authority.Spec (Aborts Throws Undefined handlersFor configsFor)

section
variable {lim : Nat} {obj : Obj} {hdr : Word} {r : Region} {l : Lib} {i : Nat} {as : List Action}

theorem handle_answer (o : Outside) (q : Request) (fd : Int) :
    let ev := Callback.handle l.table.handlers (run hdr r l o) (some ⟨24, q, fd⟩) o.sendOk
    (ev = .abort ↔ answer hdr r l o q fd = .abort) ∧ (ev = .throws ↔ answer hdr r l o q fd = .throws) ∧
      (ev = .ub ↔ answer hdr r l o q fd = .ub) := by
  intro ev
  have he : ev = (match answer hdr r l o q fd with
      | .ok res =>
        if o.sendOk then .ok [.received q fd, .replied res.integer res.handle]
        else .ok [.received q fd, .killed]
      | .abort => .abort
      | .throws => .throws
      | .ub => .ub) := rfl
  rw [he]
  cases answer hdr r l o q fd <;> cases o.sendOk <;> simp

theorem finish_ends {o : Outside} (hwf : r.WF hdr) (hm : MallocOk o.malloc) (hsz : ∀ u, (o.user u).1 < 2 ^ 64)
    (hl : Holds l i as) (q : Request) (fd : Int) (t : Table) :
    (finish obj hdr r l o q fd t = .abort ↔ Aborts (handlersFor i as) hdr r o ⟨24, q, fd⟩) ∧
    (finish obj hdr r l o q fd t = .throws ↔ Throws (handlersFor i as) (configsFor i as) hdr r o ⟨24, q, fd⟩) ∧
    (finish obj hdr r l o q fd t = .ub ↔ Undefined (handlersFor i as) hdr r o ⟨24, q, fd⟩) := by
  have h1 := Authority.handle_exactly hwf hm hsz hl ⟨24, q, fd⟩
  have h2 := handle_answer (hdr := hdr) (r := r) (l := l) o q fd
  simp only at h1 h2
  rw [← h1.1, ← h1.2.1, ← h1.2.2, h2.1, h2.2.1, h2.2.2]
  unfold finish
  cases answer hdr r l o q fd <;> simp

/-- The first of the messages whose handling ends as `bad` says, where `t1` are the descriptors of the host before it,
`t2` those after it has been received, and `bs` and `fd` what has been received. -/
def Stops (lim : Nat) (obj : Obj) (hdr : Word) (r : Region) (l : Lib) (bad : Outside → Callback.Packet → Prop)
    (ms : List ((Table → Outside) × Socket.Packet)) (t : Table) : Prop :=
  ∃ ms1 m ms2 t1 bs fd t2, ms = ms1 ++ m :: ms2 ∧ turns lim obj hdr r l ms1 t = .ok t1 ∧
    Socket.receive lim t1 24 (-1) [.packet m.2] = (true, bs, fd, t2) ∧ bad (m.1 t2) ⟨24, decode bs, fd⟩

theorem stops_cons (bad : Outside → Callback.Packet → Prop) (m : (Table → Outside) × Socket.Packet)
    (ms : List ((Table → Outside) × Socket.Packet)) (t : Table) :
    Stops lim obj hdr r l bad (m :: ms) t ↔
      (∃ bs fd t2, Socket.receive lim t 24 (-1) [.packet m.2] = (true, bs, fd, t2) ∧ bad (m.1 t2) ⟨24, decode bs, fd⟩) ∨
      ∃ t', turn lim obj hdr r l m t = .ok t' ∧ Stops lim obj hdr r l bad ms t' := by
  constructor
  · rintro ⟨ms1, m', ms2, t1, bs, fd, t2, he, ht, hr, hb⟩
    cases ms1 with
    | nil =>
      cases he
      cases ht
      exact .inl ⟨bs, fd, t2, hr, hb⟩
    | cons x xs =>
      cases he
      simp only [turns] at ht
      rcases hx : turn lim obj hdr r l m t with t' | _ | _ | _ <;> rw [hx] at ht <;> try (cases ht; done)
      exact .inr ⟨t', rfl, xs, m', ms2, t1, bs, fd, t2, rfl, ht, hr, hb⟩
  · rintro (⟨bs, fd, t2, hr, hb⟩ | ⟨t', hx, ms1, m', ms2, t1, bs, fd, t2, he, ht, hr, hb⟩)
    · exact ⟨[], m, ms, t, bs, fd, t2, rfl, rfl, hr, hb⟩
    · refine ⟨m :: ms1, m', ms2, t1, bs, fd, t2, by rw [he]; rfl, ?_, hr, hb⟩
      simp only [turns, hx]
      exact ht

/-- **C87**, with the descriptors of the host, and what `messages_keep_descriptors_partial` takes for granted: a host
that handles any number of messages one after the other stops doing so exactly at the first message whose handling
aborts, throws or is undefined, as the specification says from what was received.  A packet that is not received
completely does not stop it. -/
theorem messages_stop_iff (hwf : r.WF hdr) (hl : Holds l i as) (ms : List ((Table → Outside) × Socket.Packet))
    (hm : ∀ m ∈ ms, ∀ t, MallocOk (m.1 t).malloc ∧ ∀ u, ((m.1 t).user u).1 < 2 ^ 64) (t : Table) :
    (turns lim obj hdr r l ms t = .abort ↔ Stops lim obj hdr r l (Aborts (handlersFor i as) hdr r) ms t) ∧
    (turns lim obj hdr r l ms t = .throws ↔
      Stops lim obj hdr r l (Throws (handlersFor i as) (configsFor i as) hdr r) ms t) ∧
    (turns lim obj hdr r l ms t = .ub ↔ Stops lim obj hdr r l (Undefined (handlersFor i as) hdr r) ms t) := by
  induction ms generalizing t with
  | nil =>
    have hno : ∀ bad, ¬ Stops lim obj hdr r l bad [] t := by
      rintro bad ⟨ms1, m, ms2, _, _, _, _, he, -⟩
      cases ms1 <;> cases he
    exact ⟨iff_of_false nofun (hno _), iff_of_false nofun (hno _), iff_of_false nofun (hno _)⟩
  | cons m ms ih =>
    simp only [stops_cons]
    have ih' := ih (fun m hm' => hm m (by simp [hm']))
    rcases hr : Socket.receive lim t 24 (-1) [.packet m.2] with ⟨ok, bs, fd, t2⟩
    have hturn : turn lim obj hdr r l m t =
        if ok then finish obj hdr r l (m.1 t2) (decode bs) fd t2 else .ok t2 := by
      unfold turn
      rw [show Callback.requestSize = 24 from rfl, hr]
      cases ok <;> rfl
    cases ok with
    | false =>
      simp only [turns, hturn, Bool.false_eq_true, if_false]
      have hno : ∀ bad : Outside → Callback.Packet → Prop, ¬ ∃ bs' fd' t2',
          (false, bs, fd, t2) = (true, bs', fd', t2') ∧ bad (m.1 t2') ⟨24, decode bs', fd'⟩ := by
        rintro bad ⟨_, _, _, h, -⟩
        cases h
      simp only [hno, false_or]
      have key : ∀ P : Table → Prop, (∃ t', (.ok t2 : Outcome Table) = .ok t' ∧ P t') ↔ P t2 := by
        intro P
        constructor
        · rintro ⟨t', h, hp⟩; cases h; exact hp
        · exact fun hp => ⟨t2, rfl, hp⟩
      simp only [key]
      exact ih' t2
    | true =>
      obtain ⟨h1, h2, h3⟩ := finish_ends (obj := obj) hwf (hm m (by simp) t2).1 (hm m (by simp) t2).2 hl (decode bs) fd t2
      have hone : ∀ bad : Outside → Callback.Packet → Prop, (∃ bs' fd' t2',
          (true, bs, fd, t2) = (true, bs', fd', t2') ∧ bad (m.1 t2') ⟨24, decode bs', fd'⟩) ↔
          bad (m.1 t2) ⟨24, decode bs, fd⟩ := by
        intro bad
        constructor
        · rintro ⟨_, _, _, h, hb⟩; cases h; exact hb
        · exact fun hb => ⟨_, _, _, rfl, hb⟩
      simp only [hone, ← h1, ← h2, ← h3, turns, hturn, if_true]
      cases finish obj hdr r l (m.1 t2) (decode bs) fd t2 with
      | ok t' =>
        have hi := ih' t'
        refine ⟨?_, ?_, ?_⟩
        · rw [hi.1]
          exact ⟨fun h => .inr ⟨t', rfl, h⟩, fun h => h.elim nofun (fun ⟨_, e, h⟩ => by cases e; exact h)⟩
        · rw [hi.2.1]
          exact ⟨fun h => .inr ⟨t', rfl, h⟩, fun h => h.elim nofun (fun ⟨_, e, h⟩ => by cases e; exact h)⟩
        · rw [hi.2.2]
          exact ⟨fun h => .inr ⟨t', rfl, h⟩, fun h => h.elim nofun (fun ⟨_, e, h⟩ => by cases e; exact h)⟩
      | abort => simp
      | throws => simp
      | ub => simp

/-- The hypotheses can be met by a host without memory: it answers a first message, whose frame is not accepted, and
stops at the second. -/
example : Region.WF 0x10 ⟨0x10000, 0x20000⟩ ∧ Holds exLib 0 [.exports 0 ⟨true, [47, 97], 5⟩] ∧
    MallocOk (exPoor 0x10000).malloc ∧ (∀ u, ((exPoor 0x10000).user u).1 < 2 ^ 64) ∧
    (match turn 64 ⟨77, false⟩ 0x10 ⟨0x10000, 0x20000⟩ exLib (fun _ => exPoor 0x10000, exPacket 0 8) (fun _ => none) with
      | .ok _ => true | _ => false) = true ∧
    (match turns 64 ⟨77, false⟩ 0x10 ⟨0x10000, 0x20000⟩ exLib
      [(fun _ => exPoor 0x10000, exPacket 0 8), (fun _ => exPoor 0x10000, exPacket 0 16)] (fun _ => none) with
      | .ub => true | _ => false) = true := by
  refine ⟨by decide, ⟨rfl, rfl, exLib_table⟩, nofun, fun _ => (by show 8 < 2 ^ 64; decide), by decide +kernel, by decide +kernel⟩

end

end Verif.Balance
