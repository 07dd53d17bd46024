import Verif.Balance.UserProps
import Verif.BsdBalance.Props

/-!
# The host's descriptors and the callbacks of the user on FreeBSD: theorems (C130)

As `Verif.Balance.UserProps`.
-/

namespace Verif.BsdBalance

open Verif.Fd
open Verif.Bounds (Region)
open Verif.Callback (Request Result)
open Verif.Authority (Lib)
open Verif.BsdAuthority (Outside run)
open Verif.Socket (opened)
open Verif.Balance (close_m1 decode Polite)
open Verif.Balance.Spec (Decent asksFor)
open Spec

section message
variable {lim : Nat} {obj : Obj} {hdr : Word} {r : Region} {l : Lib} {users : List Nat}

/-- An entry of the user has no calls of the library to its account, and its result is the function's. -/
theorem user_answer {o : Outside} (hl : l.table = Callback.tableOf users) (q : Request) (fd : Int)
    (h7 : 7 ≤ q.kind.toNat) (hlt : q.kind.toNat < 7 + users.length) :
    (answer hdr r l o q fd).2.log = [] ∧
    ((answer hdr r l o q fd).1 = .ok ⟨-78, -1⟩ ∨ ∃ h bs, (answer hdr r l o q fd).1 = (o.user h).2 bs fd) := by
  unfold answer
  rw [hl, Callback.dispatch_tableOf, Callback.Spec.handlerFor, if_neg (by omega),
    List.getElem?_eq_getElem (by omega)]
  simp only [Option.map_some, run, BsdAuthority.behind]
  unfold Callback.invoke
  split
  · exact ⟨rfl, .inl rfl⟩
  · split
    · exact ⟨rfl, .inl rfl⟩
    · have hne : ∀ n, Callback.copyAddrs q.data (max 1 n) ≠ [] := by
        intro n h
        have := Callback.copyAddrs_length q.data (max 1 n)
        rw [h, List.length_nil] at this
        omega
      simp only [if_neg (hne _)]
      exact ⟨trivial, .inr ⟨_, _, rfl⟩⟩

/-- **C130, callbacks of the user.**  A message for a callback of the user leaves the host's descriptors as they were, but
for the one that the function returned, which is closed once the reply has been sent: the one that came with the message is
always closed. -/
theorem bsd_user_message_exact (hl : l.table = Callback.tableOf users) {w : Table → Outside} {p : Socket.Packet}
    {t t' : Table} (hp : Decent p) (h7 : 7 ≤ asksFor p) (hlt : asksFor p < 7 + users.length)
    (h : turn lim obj hdr r l (w, p) t = .ok t') :
    t' = t ∨ ∃ t1 fd u bs res, close t1 fd = t ∧ ((w t1).user u).2 bs fd = .ok res ∧ t' = close t res.handle := by
  obtain ⟨ok, bs, fd, t1, hr, hc, hf, hb, -⟩ := received (lim := lim) (t := t) hp
  simp only [turn, hr] at h
  cases ok with
  | false => cases h; exact .inl (hf rfl)
  | true =>
    simp only at h
    obtain rfl := hb rfl
    rw [← kind_asks] at h7 hlt
    generalize decode (p.data.take 24) = q at h h7 hlt
    obtain ⟨hlog, ha⟩ := user_answer (hdr := hdr) (r := r) (o := w t1) hl q fd h7 hlt
    unfold finish at h
    generalize answer hdr r l (w t1) q fd = x at h hlog ha
    obtain ⟨x, e⟩ := x
    simp only at hlog ha
    rcases ha with rfl | ⟨u, bs, ha⟩
    · simp only [hlog, ne_eq, not_true, and_false, if_false] at h
      cases h
      left
      show close (close t1 fd) (-1) = t
      rw [close_m1, hc]
    · right
      rcases x with res | _ | _ | _
      · simp only [hlog, ne_eq, not_true, and_false, if_false] at h
        cases h
        refine ⟨t1, fd, u, bs, res, hc, ha.symm, ?_⟩
        show close (close t1 fd) _ = _
        rw [hc]
      · cases h
      · cases h
      · cases h

/-- **C130, callbacks of the user.**  If its functions give away no descriptor of the host, nothing changes. -/
theorem bsd_user_message_keeps (hl : l.table = Callback.tableOf users) {w : Table → Outside} {p : Socket.Packet}
    {t t' : Table} (hp : Decent p) (h7 : 7 ≤ asksFor p) (hlt : asksFor p < 7 + users.length)
    (hpol : ∀ t1 fd, Polite (w t1).toLinux t1 fd) (h : turn lim obj hdr r l (w, p) t = .ok t') : t' = t := by
  rcases bsd_user_message_exact hl hp h7 hlt h with h | ⟨t1, fd, u, bs, res, hc, hu, rfl⟩
  · exact h
  · by_cases h0 : 0 ≤ res.handle
    · have hn : t res.handle.toNat = none := by
        rw [← hc]
        rcases hpol t1 fd u bs res hu h0 with e | e
        · rw [← e]; simp [close, h0, Table.put]
        · unfold close
          split
          · simp only [Table.put]; split
            · rfl
            · exact e
          · exact e
      funext i
      simp only [close, if_pos h0, Table.put]
      split
      · rename_i e; rw [e, hn]
      · rfl
    · simp [close, h0]

/-- **C130, any number of messages of every kind, exactly.**  The host has afterwards as many descriptors more as it has
granted relative `openat`s; no other request makes a difference, callbacks of the user included. -/
theorem bsd_all_messages_leak_exactly (hl : l.table = Callback.tableOf users)
    {ms : List ((Table → Outside) × Socket.Packet)} {t t' : Table}
    (hm : ∀ m ∈ ms, Decent m.2 ∧ (∀ t1, Fresh lim obj t1 (m.1 t1).bsd) ∧ ∀ t1 fd, Polite (m.1 t1).toLinux t1 fd)
    (h : turns lim obj hdr r l ms t = .ok t') : opened lim t' = opened lim t + grants lim obj hdr r l ms t := by
  induction ms generalizing t with
  | nil => cases h; rfl
  | cons m ms ih =>
    simp only [turns] at h
    obtain ⟨h1, h2, h3⟩ := hm m (by simp)
    rcases ht : turn lim obj hdr r l m t with t1 | _ | _ | _ <;> rw [ht] at h
    · have hi := ih (fun m hm' => hm m (by simp [hm'])) h
      simp only [grants, ht]
      by_cases hu : 7 ≤ asksFor m.2 ∧ asksFor m.2 < 7 + users.length
      · have e := bsd_user_message_keeps (w := m.1) (p := m.2) hl h1 hu.1 hu.2 h3 ht
        rw [if_neg (by intro g; have := g.1; omega)]
        rw [e] at hi ⊢
        omega
      · obtain ⟨g1, g2⟩ := bsd_message_leaks_iff (w := m.1) (p := m.2) hl h1 (by omega) h2 ht
        by_cases hg : Granted lim hdr r l m t
        · obtain ⟨h3, i, hn, h0⟩ := id hg
          obtain ⟨k1, k2, k3⟩ := g2 i h3 hn h0
          have ho := Socket.opened_put (o := obj) k2 lim
          rw [if_pos k1, ← k3] at ho
          rw [if_pos hg]
          omega
        · rw [if_neg hg]
          have e : t1 = t := Classical.not_not.1 (mt g1.1 hg)
          rw [e] at hi ⊢
          omega
    · cases h
    · cases h
    · cases h

end message

/-! ### Examples -/

/-- A function that sends back what it was sent. -/
def exEcho (t : Table) : Outside := { exOutside t with user := fun _ => (8, fun _ fd => .ok ⟨1, fd⟩) }

example (t' : Table) (h : turns 64 ⟨77, false⟩ 0x400 ⟨0x10400, 0x20000⟩ Balance.exLib1
    [(exEcho, Balance.exPacket 7 8), (exEcho, Balance.exPacket 3 24), (exEcho, Balance.exPacket 7 9)] Socket.exT = .ok t') :
    opened 64 t' = opened 64 Socket.exT + 1 := by
  have hm : ∀ m ∈ [(exEcho, Balance.exPacket 7 8), (exEcho, Balance.exPacket 3 24), (exEcho, Balance.exPacket 7 9)],
      Decent m.2 ∧ (∀ t1, Fresh 64 ⟨77, false⟩ t1 (m.1 t1).bsd) ∧ ∀ t1 fd, Polite (m.1 t1).toLinux t1 fd := by
    intro m hm
    simp only [List.mem_cons, List.not_mem_nil, or_false] at hm
    rcases hm with rfl | rfl | rfl <;>
      exact ⟨.inr ⟨rfl, by decide⟩, fun t1 => exKernel_fresh _ _ _,
        fun t1 fd h bs res hr _ => .inl (by cases hr; rfl)⟩
  rw [bsd_all_messages_leak_exactly (users := [33]) rfl hm h]
  have : grants 64 ⟨77, false⟩ 0x400 ⟨0x10400, 0x20000⟩ Balance.exLib1
      [(exEcho, Balance.exPacket 7 8), (exEcho, Balance.exPacket 3 24), (exEcho, Balance.exPacket 7 9)] Socket.exT = 1 := by
    decide +kernel
  rw [this]

/-- The outcome is a table. -/
example : (match turns 64 ⟨77, false⟩ 0x400 ⟨0x10400, 0x20000⟩ Balance.exLib1
    [(exEcho, Balance.exPacket 7 8), (exEcho, Balance.exPacket 3 24), (exEcho, Balance.exPacket 7 9)] Socket.exT with
    | .ok _ => true | _ => false) = true := by decide +kernel

end Verif.BsdBalance
