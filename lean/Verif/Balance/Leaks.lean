import Verif.Balance.Props

/-!
# How many descriptors the host loses, exactly: theorems (C86)
-/

namespace Verif.Balance

open Verif.Fd
open Verif.Bounds (Region)
open Verif.Callback (Request Result)
open Verif.Authority (Lib Outside effects)
open Verif.Socket (opened)
open Spec

section
variable (lim : Nat) (obj : Obj) (hdr : Word) (r : Region) (l : Lib)

/-! ### Specification -/

/-- The number in the reply to a message, if it is received and answered (`src/libsandbox.cc:661-681`). -/
def number (m : (Table → Outside) × Socket.Packet) (t : Table) : Option Int :=
  match Socket.receive lim t Callback.requestSize (-1) [.packet m.2] with
  | (true, bs, fd, t1) =>
    match answer hdr r l (m.1 t1) (decode bs) fd with
    | .ok res => some res.integer
    | _ => none
  | (false, _, _, _) => none

/-- The message is a relative `openat`, and the host says that it has opened the file
(`src/libsandbox.cc:437-446`). -/
def Granted (m : (Table → Outside) × Socket.Packet) (t : Table) : Prop :=
  asksFor m.2 = 3 ∧ ∃ i, number lim hdr r l m t = some i ∧ 0 ≤ i

instance (m : (Table → Outside) × Socket.Packet) (t : Table) : Decidable (Granted lim hdr r l m t) :=
  if h3 : asksFor m.2 = 3 then
    match h : number lim hdr r l m t with
    | some i => if h0 : 0 ≤ i then isTrue ⟨h3, i, h, h0⟩ else isFalse fun ⟨_, j, hj, hj0⟩ => by rw [h] at hj; cases hj; exact h0 hj0
    | none => isFalse fun ⟨_, j, hj, _⟩ => by rw [h] at hj; cases hj
  else isFalse fun h => h3 h.1

/-- How many messages of a sequence are granted relative `openat`s (`src/libsandbox.cc:661-681`). -/
def grants : List ((Table → Outside) × Socket.Packet) → Table → Nat
  | [], _ => 0
  | m :: ms, t =>
    (if Granted lim hdr r l m t then 1 else 0) +
      match turn lim obj hdr r l m t with
      | .ok t' => grants ms t'
      | _ => 0

end

/-! ## C86 -/

section message
variable {lim : Nat} {obj : Obj} {hdr : Word} {r : Region} {l : Lib} {users : List Nat}

/-- **C86, exactly.**  A packet that can be received without loss, and does not ask for a callback of the user, leaves
another table of descriptors exactly if it is a relative `openat` and the host says that it has opened the file; and then
there is one descriptor more, under the very number that the sandbox is told. -/
theorem message_leaks_iff (hl : l.table = Callback.tableOf users) {w : Table → Outside} {p : Socket.Packet} {t t' : Table}
    (hp : Decent p) (hq : asksFor p < 7 + users.length → asksFor p < 7) (hk : ∀ t1, Fresh lim obj t1 (w t1).kernel)
    (h : turn lim obj hdr r l (w, p) t = .ok t') :
    (t' ≠ t ↔ Granted lim hdr r l (w, p) t) ∧
    ∀ i, asksFor p = 3 → number lim hdr r l (w, p) t = some i → 0 ≤ i →
      i.toNat < lim ∧ t i.toNat = none ∧ t' = t.put i.toNat (some obj) := by
  obtain ⟨ok, bs, fd, t1, hr, hc, hf, hb, hfd⟩ := received (lim := lim) (t := t) hp
  simp only [turn, hr] at h
  have no : t' = t → (∀ i, number lim hdr r l (w, p) t = some i → asksFor p = 3 → ¬ 0 ≤ i) →
      (t' ≠ t ↔ Granted lim hdr r l (w, p) t) ∧
      ∀ i, asksFor p = 3 → number lim hdr r l (w, p) t = some i → 0 ≤ i →
        i.toNat < lim ∧ t i.toNat = none ∧ t' = t.put i.toNat (some obj) := by
    intro e hn
    exact ⟨⟨fun h => absurd e h, fun ⟨h1, i, h2, h3⟩ => absurd h3 (hn i h2 h1)⟩, fun i h1 h2 h3 => absurd h3 (hn i h2 h1)⟩
  cases ok with
  | false =>
    cases h
    refine no (hf rfl) ?_
    intro i hi
    simp only [number, hr] at hi
    cases hi
  | true =>
    simp only at h
    obtain rfl := hb rfl
    have hnum : number lim hdr r l (w, p) t = match answer hdr r l (w t1) (decode (p.data.take 24)) fd with
        | .ok res => some res.integer
        | _ => none := by simp only [number, hr]
    have hkind : (decode (p.data.take 24)).kind.toNat = asksFor p := by
      have hlt := ofLe_lt (p.data.take 8)
      have hle : (p.data.take 8).length ≤ 8 := by rw [List.length_take]; omega
      have : 256 ^ (p.data.take 8).length ≤ 256 ^ 8 := Nat.pow_le_pow_right (by decide) hle
      simp only [decode, asksFor, List.take_take, BitVec.toNat_ofNat]
      rw [show min 8 24 = 8 from rfl]
      exact Nat.mod_eq_of_lt (by omega)
    rw [← hkind] at hq
    have hgr : Granted lim hdr r l (w, p) t ↔
        (decode (p.data.take 24)).kind.toNat = 3 ∧ ∃ i, number lim hdr r l (w, p) t = some i ∧ 0 ≤ i := by
      rw [hkind]; rfl
    rw [hgr, ← hkind]
    rw [← hkind] at no
    rw [hgr] at no
    generalize decode (p.data.take 24) = q at h hq hnum no ⊢
    unfold finish at h
    have hfr := hk t1
    generalize w t1 = o at h hfr hnum
    rcases entry_cases (hdr := hdr) (r := r) (o := o) hl q fd hq with ⟨ha, hlg⟩ | ⟨bs, h7, ha, hlg⟩
    · rw [ha] at h hnum
      simp only [hlg, ne_eq, not_true, and_false, if_false] at h
      cases h
      refine no ?_ ?_
      · show close (close t1 fd) (-1) = t
        rw [close_m1, hc]
      · intro i hi _
        rw [hnum] at hi
        cases hi
        decide
    · rw [ha, hlg] at h
      rw [ha] at hnum
      rcases hans : (Authority.builtin hdr r l o q.kind.toNat bs fd).1 with res | _ | _ | _ <;> rw [hans] at h hnum
      · simp only at h hnum
        by_cases h3 : q.kind.toNat = 3
        · have hq3 : q.kind = 3 := BitVec.eq_of_toNat_eq (by rw [h3]; rfl)
          rw [h3] at h hans
          obtain ⟨g1, g2, g3, g4⟩ := openat_table hfr hc hfd hans
          rw [if_pos ⟨hq3, g2⟩, g3, g1, close_m1] at h
          by_cases h0 : 0 ≤ res.integer
          · rw [if_pos h0] at h
            cases h
            refine ⟨⟨fun _ => ⟨h3, _, hnum, h0⟩, fun _ e => ?_⟩, ?_⟩
            · have := congrFun e res.integer.toNat
              rw [(g4 h0).2] at this
              simp [Table.put] at this
            · intro i _ hi _
              rw [hnum] at hi
              cases hi
              exact ⟨(g4 h0).1, (g4 h0).2, rfl⟩
          · rw [if_neg h0] at h
            cases h
            refine no rfl ?_
            intro i hi _
            rw [hnum] at hi
            cases hi
            exact h0
        · have hev := even_builtin hfr h3 hans
          have hq3 : ¬ (q.kind = 3) := fun e => h3 (by rw [e]; rfl)
          simp only [hq3, false_and, if_false] at h
          cases h
          refine no ?_ (fun i _ h => absurd h h3)
          rw [close_comm]
          unfold Even at hev
          rw [hev, hc]
      · cases h
      · cases h
      · cases h

/-- **C86, any number of messages, exactly.**  The host has afterwards as many descriptors more as it has granted relative
`openat`s, and no other request makes a difference. -/
theorem messages_leak_exactly (hl : l.table = Callback.tableOf users)
    {ms : List ((Table → Outside) × Socket.Packet)} {t t' : Table}
    (hm : ∀ m ∈ ms, Decent m.2 ∧ (asksFor m.2 < 7 ∨ 7 + users.length ≤ asksFor m.2) ∧
      ∀ t1, Fresh lim obj t1 (m.1 t1).kernel)
    (h : turns lim obj hdr r l ms t = .ok t') : opened lim t' = opened lim t + grants lim obj hdr r l ms t := by
  induction ms generalizing t with
  | nil => cases h; rfl
  | cons m ms ih =>
    simp only [turns] at h
    obtain ⟨h1, h2, h4⟩ := hm m (by simp)
    rcases ht : turn lim obj hdr r l m t with t1 | _ | _ | _ <;> rw [ht] at h
    · have hi := ih (fun m hm' => hm m (by simp [hm'])) h
      obtain ⟨g1, g2⟩ := message_leaks_iff (w := m.1) (p := m.2) hl h1 (by omega) h4 ht
      simp only [grants, ht]
      by_cases hg : Granted lim hdr r l m t
      · obtain ⟨h3, i, hn, h0⟩ := id hg
        obtain ⟨k1, k2, k3⟩ := g2 i h3 hn h0
        have ho := Socket.opened_put (o := obj) k2 lim
        rw [if_pos k1, ← k3] at ho
        rw [if_pos hg]
        omega
      · rw [if_neg hg]
        have e : t1 = t := Classical.not_not.1 (mt g1.1 hg)
        rw [e] at hi ⊢
        omega
    · cases h
    · cases h
    · cases h

end message

/-- A relative `openat`, an `open`, and another relative `openat`: two descriptors are lost. -/
example : grants 64 ⟨77, false⟩ 0x400 ⟨0x10400, 0x20000⟩ exLib
    [(exOutside, exPacket 3 24), (exOutside, exPacket 0 16), (exOutside, exPacket 3 24)] Socket.exT = 2 := by
  decide +kernel

example (t' : Table) (h : turns 64 ⟨77, false⟩ 0x400 ⟨0x10400, 0x20000⟩ exLib
    [(exOutside, exPacket 3 24), (exOutside, exPacket 0 16), (exOutside, exPacket 3 24)] Socket.exT = .ok t') :
    opened 64 t' = opened 64 Socket.exT + grants 64 ⟨77, false⟩ 0x400 ⟨0x10400, 0x20000⟩ exLib
      [(exOutside, exPacket 3 24), (exOutside, exPacket 0 16), (exOutside, exPacket 3 24)] Socket.exT := by
  refine messages_leak_exactly (users := []) exLib_table ?_ h
  intro m hm
  simp only [List.mem_cons, List.not_mem_nil, or_false] at hm
  rcases hm with rfl | rfl | rfl <;>
    exact ⟨.inr ⟨rfl, by decide⟩, by decide +kernel, fun t1 => exKernel_fresh _ _ _⟩

end Verif.Balance
