import Verif.Socket.Spec

/-!
# Messages with descriptors: theorems
-/

namespace Verif.Socket

open Verif.Fd

theorem put_fun (t : Table) (n : Nat) (o : Option Obj) : t.put n o = fun i => if i = n then o else t i := rfl

theorem close_neg (t : Table) : close t (-1) = t := by simp [close]

theorem opened_put {t : Table} {n : Nat} {o : Obj} (hn : t n = none) : ∀ lim,
    opened lim (t.put n (some o)) = opened lim t + if n < lim then 1 else 0
  | 0 => by simp [opened]
  | lim + 1 => by
    have ih := opened_put (o := o) hn lim
    unfold opened at ih ⊢
    rw [List.range_succ]
    simp only [List.filter_append, List.length_append]
    rw [ih]
    by_cases h : lim = n
    · subst h; simp [hn]
    · have hiff : n < lim + 1 ↔ n < lim := by omega
      simp only [List.filter_cons, put_ne _ _ h, hiff, List.filter_nil]
      omega

/-- Interrupted calls do not matter. -/
theorem receiveMsg_eintr (lim t len want) (k : Nat) (as) :
    receiveMsg lim t len want (List.replicate k .eintr ++ as) = receiveMsg lim t len want as := by
  induction k with
  | zero => rfl
  | succ k ih => simp only [List.replicate_succ, List.cons_append, receiveMsg, ih]

theorem install_keeps (lim) : ∀ room t os, Keeps t (install lim room t os).2
  | 0, t, os => by intro i _; simp [install]
  | room + 1, t, [] => by intro i _; simp [install]
  | room + 1, t, o :: os => by
    intro i hi
    unfold install
    cases h : lowest lim t with
    | none => rfl
    | some n =>
      have hn := (lowest_some.1 h).2.1
      have hne : i ≠ n := by rintro rfl; exact hi hn
      simp only
      rw [install_keeps lim room (t.put n (some o)) os i (by rw [put_ne _ _ hne]; exact hi),
        put_ne _ _ hne]

/-! ## C40 -/

/-- **C40 (partial), honest messages.**  A packet of the expected size with one descriptor attached is
delivered whole, and the handle gets a new descriptor for exactly the attached description;
nothing else changes.  Interrupts in between do not matter.  What is missing: packets of another
shape, see the theorems below. -/
theorem receive_one_partial {lim t data o} (k : Nat) (rest : List Ans) (hroom : ∃ m, m < lim ∧ t m = none) :
    ∃ (n : Nat) (t' : Table), receive lim t data.length (-1) (List.replicate k .eintr ++ .packet ⟨data, [o]⟩ :: rest) =
        (true, data, (n : Int), t') ∧ Plus t t' n o := by
  obtain ⟨m, hm, hf⟩ := hroom
  obtain ⟨n, hn, -⟩ := lowest_le hm hf
  refine ⟨n, t.put n (some o), ?_, (lowest_some.1 hn).2.1, rfl⟩
  unfold receive
  rw [receiveMsg_eintr]
  simp [receiveMsg, cmsgSpace, install, hn, cmsgLen, close_neg]

/-- **C40, no descriptor.**  A packet of the expected size without descriptors is delivered, the handle is
left invalid, and the table does not change. -/
theorem receive_none {lim t data} (k : Nat) (rest : List Ans) :
    receive lim t data.length (-1) (List.replicate k .eintr ++ .packet ⟨data, []⟩ :: rest) =
      (true, data, -1, t) := by
  unfold receive
  rw [receiveMsg_eintr]
  simp [receiveMsg, cmsgSpace, install, cmsgLen, close_neg]

/-- **C40, bytes.**  Whatever arrives, with or without a handle: at most `len` bytes are stored; success
means that exactly `len` were, namely the first `len` of a packet that was sent, and a receive without a
handle does not touch the table. -/
theorem receive_bytes (lim : Nat) (t : Table) (len : Nat) (want : Bool) (as : List Ans) :
    (receiveMsg lim t len want as).1.data.length ≤ len ∧
    ((receiveMsg lim t len want as).1.ok = true →
      ∃ p, .packet p ∈ as ∧ len ≤ p.data.length ∧
        (receiveMsg lim t len want as).1.data = p.data.take len) ∧
    (want = false → (receiveMsg lim t len want as).2 = t ∧ (receiveMsg lim t len want as).1.fd = -1) := by
  induction as with
  | nil => simp [receiveMsg]
  | cons a as ih =>
    cases a with
    | eintr =>
      rw [receiveMsg]
      obtain ⟨h1, h2, h3⟩ := ih
      refine ⟨h1, fun h => ?_, h3⟩
      obtain ⟨p, hp, r⟩ := h2 h
      exact ⟨p, by simp [hp], r⟩
    | failed => simp [receiveMsg]
    | packet p =>
      rw [receiveMsg]
      cases want with
      | true =>
        simp only [if_true, decide_eq_true_eq, List.length_take]
        refine ⟨by omega, fun h => ⟨p, by simp, by omega, rfl⟩, by simp⟩
      | false =>
        simp only [Bool.false_eq_true, if_false, decide_eq_true_eq, List.length_take]
        refine ⟨by omega, fun h => ⟨p, by simp, by omega, rfl⟩, by simp⟩

/-- A packet that is too long is cut, and taken for a success. -/
example : receivePlain 16 (fun _ => none) 2 [.eintr, .packet ⟨[1, 2, 3], []⟩] =
    (true, [1, 2], fun _ => none) := rfl

/-- **C40, round trip.**  What `send` sends, `receive` delivers: the same bytes and a descriptor for the
same description. -/
theorem send_receive {lim ts tr data fd p} (hs : sendMsg ts data fd = some p)
    (hroom : ∃ m, m < lim ∧ tr m = none) :
    ∃ r, receive lim tr data.length (-1) [.packet p] = r ∧ r.1 = true ∧ r.2.1 = data ∧
      (fd < 0 → r.2.2.1 = -1 ∧ r.2.2.2 = tr) ∧
      (0 ≤ fd → ∃ (n : Nat) (o : Obj), r.2.2.1 = (n : Int) ∧ ts.at fd = some o ∧ Plus tr r.2.2.2 n o) := by
  refine ⟨_, rfl, ?_⟩
  unfold sendMsg at hs
  by_cases h : 0 ≤ fd
  · rw [if_pos h] at hs
    cases ho : ts.at fd with
    | none => simp [ho] at hs
    | some o =>
      simp only [ho, Option.map_some, Option.some.injEq] at hs
      subst hs
      obtain ⟨n, t', h1, h2⟩ := receive_one_partial (lim := lim) (t := tr) (data := data) (o := o) 0 [] hroom
      simp only [List.replicate_zero, List.nil_append] at h1
      rw [h1]
      exact ⟨rfl, rfl, fun hlt => by omega, fun _ => ⟨n, o, rfl, rfl, h2⟩⟩
  · rw [if_neg h] at hs
    simp only [Option.some.injEq] at hs
    subst hs
    have h1 := receive_none (lim := lim) (t := tr) (data := data) 0 []
    simp only [List.replicate_zero, List.nil_append] at h1
    rw [h1]
    exact ⟨rfl, rfl, fun _ => ⟨rfl, rfl⟩, fun hge => absurd hge h⟩

/-- **C40, no invention.**  For every answer of the system, whatever the sender chose: no descriptor that
was open changes, and a handle that is valid afterwards refers to a description the sender attached. -/
theorem receive_invents_nothing {lim t len as} {ok data h' t'}
    (hr : receive lim t len (-1) as = (ok, data, h', t')) :
    Keeps t t' ∧ (0 ≤ h' → ∃ p ∈ as, ∃ q o, p = .packet q ∧ o ∈ q.fds ∧ t'.at h' = some o) := by
  induction as with
  | nil =>
    simp [receive, receiveMsg] at hr
    obtain ⟨-, -, rfl, rfl⟩ := hr
    exact ⟨fun _ _ => rfl, fun h => by omega⟩
  | cons a as ih =>
    cases a with
    | eintr =>
      have : receive lim t len (-1) (.eintr :: as) = receive lim t len (-1) as := by
        unfold receive
        rw [receiveMsg]
      rw [this] at hr
      obtain ⟨h1, h2⟩ := ih hr
      refine ⟨h1, fun h => ?_⟩
      obtain ⟨p, hp, r⟩ := h2 h
      exact ⟨p, by simp [hp], r⟩
    | failed =>
      simp [receive, receiveMsg] at hr
      obtain ⟨-, -, rfl, rfl⟩ := hr
      exact ⟨fun _ _ => rfl, fun h => by omega⟩
    | packet p =>
      simp only [receive, receiveMsg, if_true] at hr
      have hk := install_keeps lim ((cmsgSpace - 16) / 4) t p.fds
      have h24 : (cmsgSpace - 16) / 4 = 2 := rfl
      rw [h24] at hr hk
      split at hr
      · simp only [Prod.mk.injEq] at hr
        obtain ⟨-, -, rfl, rfl⟩ := hr
        rw [close_neg]
        refine ⟨hk, fun h => ⟨.packet p, by simp, p, ?_⟩⟩
        revert h
        cases hfds : p.fds with
        | nil => simp [install, cmsgLen]
        | cons o os =>
          cases hl : lowest lim t with
          | none => simp [install, hl, cmsgLen]
          | some n =>
            have hkk := install_keeps lim 1 (t.put n (some o)) os n (by simp)
            rw [put_same] at hkk
            simp only [install, hl, List.headD_cons, List.length_cons, List.mem_cons]
            intro h
            split
            · refine ⟨o, trivial, by simp, ?_⟩
              simp only [Table.at]
              rw [if_pos (by omega)]
              simpa using hkk
            · rename_i hc
              rw [if_neg hc] at h
              omega
      · simp only [Prod.mk.injEq] at hr
        obtain ⟨-, -, rfl, rfl⟩ := hr
        exact ⟨hk, fun h => by omega⟩

/-- **C40, without a handle.**  A receive that takes no descriptor never installs one. -/
theorem receivePlain_table (lim t len) : ∀ as, (receivePlain lim t len as).2.2 = t
  | [] => rfl
  | .eintr :: as => by
    have := receivePlain_table lim t len as
    simpa [receivePlain, receiveMsg] using this
  | .failed :: as => rfl
  | .packet p :: as => by simp [receivePlain, receiveMsg]

/-- **C40 fails for a message that is too short.**  For every table with room and every packet shorter than
expected with a descriptor attached: the receive reports failure, the handle is unchanged, and the
received descriptor stays open with no owner. -/
theorem short_message_leaks {lim t len data o} (rest : List Ans) (h : Int)
    (hshort : data.length < len) (hroom : ∃ m, m < lim ∧ t m = none) :
    ∃ (n : Nat) (t' : Table), receive lim t len h (.packet ⟨data, [o]⟩ :: rest) = (false, data, h, t') ∧ Plus t t' n o := by
  obtain ⟨m, hm, hf⟩ := hroom
  obtain ⟨n, hn, -⟩ := lowest_le hm hf
  refine ⟨n, t.put n (some o), ?_, (lowest_some.1 hn).2.1, rfl⟩
  have h1 : data.take len = data := List.take_of_length_le (by omega)
  have h2 : decide (data.length = len) = false := by simp; omega
  unfold receive
  simp only [receiveMsg, if_true, h1, h2]
  simp [cmsgSpace, install, hn]

/-- **C40 fails for a message with two descriptors.**  The control buffer has room for two because of
padding: both are installed, the receive succeeds, the handle is left invalid, and both stay open with no
owner. -/
theorem two_descriptors_leak {lim t data o₁ o₂} (os : List Obj) (rest : List Ans)
    (hroom : 2 ≤ lim - opened lim t) :
    ∃ n₁ n₂ t₁ t', receive lim t data.length (-1) (.packet ⟨data, o₁ :: o₂ :: os⟩ :: rest) =
        (true, data, -1, t') ∧ Plus t t₁ n₁ o₁ ∧ Plus t₁ t' n₂ o₂ ∧ n₁ < lim ∧ n₂ < lim := by
  have hfind : ∀ t : Table, opened lim t < lim → ∃ m, m < lim ∧ t m = none := by
    intro t ht
    cases hl : lowest lim t with
    | some n => exact ⟨n, (lowest_some.1 hl).1, (lowest_some.1 hl).2.1⟩
    | none =>
      exfalso
      have : opened lim t = lim := by
        unfold opened
        rw [List.filter_eq_self.2]
        · simp
        · intro i hi
          have := lowest_none.1 hl i (by simpa using hi)
          simpa [Option.isSome_iff_ne_none] using this
      omega
  obtain ⟨m₁, hm₁, hf₁⟩ := hfind t (by omega)
  obtain ⟨n₁, hn₁, -⟩ := lowest_le hm₁ hf₁
  have hs₁ := lowest_some.1 hn₁
  have hop := opened_put (o := o₁) hs₁.2.1 lim
  rw [if_pos hs₁.1] at hop
  obtain ⟨m₂, hm₂, hf₂⟩ := hfind (t.put n₁ (some o₁)) (by omega)
  obtain ⟨n₂, hn₂, -⟩ := lowest_le hm₂ hf₂
  have hs₂ := lowest_some.1 hn₂
  refine ⟨n₁, n₂, t.put n₁ (some o₁), (t.put n₁ (some o₁)).put n₂ (some o₂), ?_, ⟨hs₁.2.1, rfl⟩,
    ⟨hs₂.2.1, rfl⟩, hs₁.1, hs₂.1⟩
  unfold receive
  simp [receiveMsg, cmsgSpace, install, hn₁, hn₂, cmsgLen, close_neg]

/-- **C40 fails without limit.**  A hostile sandbox that sends `n` requests with two descriptors each makes
the host lose `2 n` descriptors, for every `n` up to the limit on open files. -/
theorem hostile_exhausts_descriptors {lim len} (data : List Byte) (hlen : data.length = len) (o : Obj) :
    ∀ (n : Nat) (t : Table), opened lim t + 2 * n ≤ lim →
      opened lim (handleAll lim len t (List.replicate n [.packet ⟨data, [o, o]⟩])) = opened lim t + 2 * n
  | 0, t, _ => rfl
  | n + 1, t, h => by
    subst hlen
    obtain ⟨n₁, n₂, t₁, t', h1, ⟨h2, h2'⟩, ⟨h3, h3'⟩, l1, l2⟩ :=
      two_descriptors_leak (lim := lim) (t := t) (data := data) (o₁ := o) (o₂ := o) [] [] (by omega)
    have ha := opened_put (o := o) h2 lim
    rw [put_fun, ← h2', if_pos l1] at ha
    have hb := opened_put (o := o) h3 lim
    rw [put_fun, ← h3', if_pos l2] at hb
    rw [List.replicate_succ]
    have hh : handleReceive lim t data.length [.packet ⟨data, [o, o]⟩] = t' := by
      unfold handleReceive; rw [h1]; exact close_neg t'
    unfold handleAll
    rw [hh, hostile_exhausts_descriptors data rfl o n t' (by omega)]
    omega

/-- An honest request leaves the host's descriptors as they were, once it has been handled: the
received descriptor is closed again. -/
theorem honest_request_balanced {lim t data o} (hroom : ∃ m, m < lim ∧ t m = none) :
    handleReceive lim t data.length [.packet ⟨data, [o]⟩] = t := by
  obtain ⟨n, t', h1, h2, h3⟩ := receive_one_partial (lim := lim) (t := t) (data := data) (o := o) 0 [] hroom
  simp only [List.replicate_zero, List.nil_append] at h1
  unfold handleReceive
  rw [h1]
  subst h3
  funext i
  simp only [close]
  by_cases hi : i = n
  · subst hi; simp [h2]
  · simp [hi, put_ne _ _ hi]

/-- Bytes beyond the expected size are dropped and the message is accepted. -/
theorem oversize_accepted {lim t len data} (h : len ≤ data.length) :
    receive lim t len (-1) [.packet ⟨data, []⟩] = (true, data.take len, -1, t) := by
  have : min len data.length = len := by omega
  simp [receive, receiveMsg, cmsgSpace, install, cmsgLen, close_neg, this]

/-! ### The hypotheses can be met -/

/-- Three open descriptors. -/
def exT : Table := fun i => if i < 3 then some ⟨i, true⟩ else none

example : ∃ (n : Nat) (t' : Table), receive 64 exT 2 (-1) [.eintr, .packet ⟨[1, 2], [⟨9, false⟩]⟩] =
    (true, [1, 2], (n : Int), t') ∧ Plus exT t' n ⟨9, false⟩ :=
  receive_one_partial (lim := 64) (data := [1, 2]) 1 [] ⟨3, by decide, rfl⟩

example : ∃ (n : Nat) (t' : Table), receive 64 exT 40 (-1) [.packet ⟨[1, 2], [⟨9, false⟩]⟩] =
    (false, [1, 2], -1, t') ∧ Plus exT t' n ⟨9, false⟩ :=
  short_message_leaks (lim := 64) [] (-1) (by decide) ⟨3, by decide, rfl⟩

example : opened 64 (handleAll 64 2 exT (List.replicate 30 [.packet ⟨[1, 2], [⟨9, false⟩, ⟨9, false⟩]⟩])) = 63 :=
  hostile_exhausts_descriptors [1, 2] rfl ⟨9, false⟩ 30 exT (by decide)

example : sendMsg exT [1, 2] 1 = some ⟨[1, 2], [⟨1, true⟩]⟩ := by decide

end Verif.Socket
