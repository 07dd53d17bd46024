import Verif.Bounds.Props
import Verif.Callback.Spec

/-!
# Callback dispatch (properties C02, C16, C17)
-/

namespace Verif.Callback

open Verif.Bounds Spec

theorem copyAddrs_length (a : Word) (n : Nat) : (copyAddrs a n).length = n := by
  induction n generalizing a with
  | zero => rfl
  | succ n ih => simp [copyAddrs, ih]

theorem copyAddrs_get (a : Word) (n i : Nat) (h : i < (copyAddrs a n).length) :
    (copyAddrs a n)[i] = a + BitVec.ofNat 64 i := by
  induction n generalizing a i with
  | zero => simp [copyAddrs] at h
  | succ n ih =>
    cases i with
    | zero => simp [copyAddrs]
    | succ i =>
      simp only [copyAddrs, List.getElem_cons_succ]
      rw [ih]
      bv_omega

/-- Region and frame used in the examples. -/
def exReg : Region := ⟨0x10000, 0x20000⟩
/-- A request used in the examples: kind 7, 16 bytes at `0x18000`. -/
def exReq : Request := ⟨7, 16, 0x18000⟩

/-- **C02.** The wrapped function runs only if the request names exactly `sizeof(T)` bytes that lie
inside the heap; otherwise the answer is the default one and nothing is read. -/
theorem invoke_refuses (hdr : Word) (r : Region) (h : r.WF hdr) (sizeT : Nat)
    (hT : sizeT < 2 ^ 64) (fn : List Byte → Int → Outcome Result) (rd : Mem) (req : Request)
    (fd : Int)
    (hbad : ¬ (req.size.toNat = sizeT ∧ r.base.toNat + hdr.toNat ≤ req.data.toNat ∧
      req.data.toNat + sizeT ≤ r.top.toNat)) :
    invoke hdr r sizeT fn rd req fd = (.ok ⟨-38, -1⟩, []) := by
  unfold invoke
  split
  · rfl
  · rename_i hs
    have hs : req.size = BitVec.ofNat 64 sizeT := by simpa using hs
    have hsz : req.size.toNat = sizeT := by rw [hs]; simp; omega
    split
    · rfl
    · rename_i hc
      have hc : contains hdr r req.data req.size = true := by simpa using hc
      rw [contains_iff hdr r h] at hc
      omega

/-- **C02.** When it does run, it runs once, on a copy of exactly the `sizeof(T)` bytes at the
address given, and every one of the bytes is read exactly once (so that no later write by the
sandbox can change what the function sees), all inside the heap. -/
theorem invoke_copies (hdr : Word) (r : Region) (h : r.WF hdr) (sizeT : Nat)
    (hT : sizeT < 2 ^ 64) (fn : List Byte → Int → Outcome Result) (rd : Mem) (req : Request)
    (fd : Int) (hpos : 0 < sizeT) (hsz : req.size.toNat = sizeT)
    (hlo : r.base.toNat + hdr.toNat ≤ req.data.toNat)
    (hhi : req.data.toNat + sizeT ≤ r.top.toNat) :
    ∃ bytes addrs, invoke hdr r sizeT fn rd req fd = (fn bytes fd, addrs) ∧
      bytes.length = sizeT ∧ addrs.length = sizeT ∧ addrs.Nodup ∧
      (∀ i (hi : i < bytes.length), bytes[i] = rd (BitVec.ofNat 64 (req.data.toNat + i))) ∧
      (∀ a ∈ addrs, req.data.toNat ≤ a.toNat ∧ a.toNat < req.data.toNat + sizeT) := by
  have hs : req.size = BitVec.ofNat 64 sizeT := by
    apply BitVec.eq_of_toNat_eq; rw [hsz]; simp; omega
  have hc : contains hdr r req.data req.size = true := by
    rw [contains_iff hdr r h]; omega
  have htop := r.top.isLt
  have hget : ∀ i (hi : i < (copyAddrs req.data sizeT).length),
      ((copyAddrs req.data sizeT)[i]).toNat = req.data.toNat + i := by
    intro i hi
    rw [copyAddrs_get]
    rw [copyAddrs_length] at hi
    simp only [BitVec.toNat_add, BitVec.toNat_ofNat]
    omega
  refine ⟨(copyAddrs req.data sizeT).map rd, copyAddrs req.data sizeT, ?_, ?_, ?_, ?_, ?_, ?_⟩
  · rw [hs] at hc
    simp [invoke, hs, hc]
  · simp [copyAddrs_length]
  · exact copyAddrs_length _ _
  · rw [List.nodup_iff_pairwise_ne, List.pairwise_iff_getElem]
    intro i j hi hj hij he
    have h1 := hget i hi
    have h2 := hget j hj
    rw [he] at h1
    omega
  · intro i hi
    simp only [List.length_map] at hi
    simp only [List.getElem_map]
    congr 1
    apply BitVec.eq_of_toNat_eq
    rw [hget i hi]
    rw [copyAddrs_length] at hi
    simp only [BitVec.toNat_ofNat]
    omega
  · intro a ha
    obtain ⟨i, hi, rfl⟩ := List.getElem_of_mem ha
    rw [hget i hi]
    rw [copyAddrs_length] at hi
    omega

/-- The hypotheses of `invoke_copies` can be met, and those of `invoke_refuses` too. -/
example : exReg.WF 0x100 ∧ exReq.size.toNat = 16 ∧
    exReg.base.toNat + (0x100 : Word).toNat ≤ exReq.data.toNat ∧
    exReq.data.toNat + 16 ≤ exReg.top.toNat ∧ exReq.size.toNat ≠ 24 := by decide

/-- **C16.** The constructor fills numbers 0 to 6 with the built-in handlers, whatever the
order of the registrations. -/
theorem construct_table :
    construct = .ok ⟨(List.range 7).map .builtin, 7⟩ := by decide

/-- The table after registrations, in closed form. -/
def tableOf (users : List Nat) : Table :=
  ⟨(List.range 7).map .builtin ++ users.map .user, 7 + users.length⟩

theorem dispatch_tableOf (users : List Nat) (k : Word) :
    dispatch (tableOf users).handlers k = handlerFor users k.toNat := by
  unfold dispatch handlerFor tableOf
  simp only [List.length_append, List.length_map, List.length_range]
  by_cases h7 : k.toNat < 7
  · rw [dif_pos (by omega), if_pos h7, List.getElem_append_left (by simpa using h7)]
    simp
  · rw [if_neg h7]
    by_cases hu : k.toNat < 7 + users.length
    · rw [dif_pos hu, List.getElem_append_right (by simpa using h7)]
      simp only [List.length_map, List.length_range, List.getElem_map]
      rw [List.getElem?_eq_getElem (by omega)]
      rfl
    · rw [dif_neg hu, List.getElem?_eq_none (by omega)]
      rfl

theorem registerCallback_tableOf (users : List Nat) (h : Nat) :
    registerCallback (tableOf users) h =
      if users.length + 7 < 2 ^ 31 - 1 then
        .ok (7 + users.length, tableOf (users ++ [h])) else .ub := by
  have hl : ((List.range 7).map Handler.builtin ++ users.map Handler.user).length =
      7 + users.length := by simp
  have hr : tableOf (users ++ [h]) =
      ⟨((List.range 7).map Handler.builtin ++ users.map Handler.user) ++ [.user h],
        7 + users.length + 1⟩ := by
    simp [tableOf]; omega
  rw [hr]
  unfold registerCallback tableOf
  generalize (List.range 7).map Handler.builtin ++ users.map Handler.user = l at hl
  have he : enlarge l (7 + users.length + 1) = l ++ [.base] := by
    unfold enlarge
    rw [if_pos (by omega), hl]
    congr 1
    rw [show 7 + users.length + 1 - (7 + users.length) = 1 by omega]
    rfl
  have hset : (l ++ [Handler.base]).set (7 + users.length) (.user h) = l ++ [.user h] := by
    rw [List.set_append, if_neg (by omega), hl]
    simp
  by_cases hlt : users.length + 7 < 2 ^ 31 - 1
  · rw [if_pos hlt]
    simp only [he, assign, List.length_append, List.length_singleton, hl, hset]
    rw [if_neg (by omega), if_pos (by omega)]
  · rw [if_neg hlt]
    simp only []
    rw [if_pos (by omega)]

theorem registerAll_tableOf (hs : List Nat) : ∀ users : List Nat,
    users.length + hs.length + 7 ≤ 2 ^ 31 - 1 →
    registerAll (tableOf users) hs =
      .ok ((List.range hs.length).map (· + (7 + users.length)), tableOf (users ++ hs)) := by
  induction hs with
  | nil => intro users _; simp [registerAll]
  | cons h hs ih =>
    intro users hlen
    simp only [List.length_cons] at hlen
    unfold registerAll
    rw [registerCallback_tableOf, if_pos (by omega)]
    simp only []
    rw [ih (users ++ [h]) (by simp; omega)]
    simp only [List.append_assoc, List.singleton_append, List.length_append, List.length_cons,
      List.length_nil, List.range_succ_eq_map, List.map_cons, List.map_map]
    congr 3
    · omega
    · apply List.map_congr_left
      intro a _
      simp; omega

/-- **C16.** Registering any number of user callbacks (fewer than `2^31 - 7`) returns the fresh
numbers `7, 8, 9, ...` in order: all different and none of them a built-in number. -/
theorem register_fresh (users : List Nat) (h : users.length + 7 ≤ 2 ^ 31 - 1) :
    ∃ t0 t ns, construct = .ok t0 ∧ registerAll t0 users = .ok (ns, t) ∧
      ns.length = users.length ∧ ns.Nodup ∧
      (∀ i (hi : i < ns.length), ns[i] = 7 + i) ∧
      (∀ k : Word, dispatch t.handlers k = handlerFor users k.toNat) := by
  have hr := registerAll_tableOf users [] (by simpa using h)
  simp only [List.length_nil, List.nil_append, Nat.add_zero] at hr
  refine ⟨tableOf [], _, _, construct_table, hr, by simp, ?_, ?_, ?_⟩
  · rw [List.nodup_iff_pairwise_ne, List.pairwise_iff_getElem]
    intro i j hi hj hij
    simp; omega
  · intro i hi
    simp; omega
  · intro k
    exact dispatch_tableOf users k

/-- The hypothesis can be met by a non-trivial list of handlers, and `handlerFor` tells them
apart. -/
example : [41, 42].length + 7 ≤ 2 ^ 31 - 1 ∧ handlerFor [41, 42] 8 = some (.user 42) ∧
    handlerFor [41, 42] 9 = none := by decide

/-- **C16, limit.** The registration after `2^31 - 8` others overflows the `int` counter. -/
theorem register_overflow (users : List Nat) (h : users.length + 7 = 2 ^ 31 - 1) (x : Nat) :
    registerCallback (tableOf users) x = .ub := by
  rw [registerCallback_tableOf, if_neg (by omega)]

/-- The hypothesis can be met. -/
example : (List.replicate (2 ^ 31 - 8) 0).length + 7 = 2 ^ 31 - 1 := by
  rw [List.length_replicate]

/-- **C16.** Registering never disturbs a number already handed out: a request of any kind that
reached a handler before still reaches the same handler afterwards. -/
theorem register_preserves (users more : List Nat)
    (k : Word) (x : Handler) (hx : dispatch (tableOf users).handlers k = some x) :
    dispatch (tableOf (users ++ more)).handlers k = some x := by
  unfold dispatch tableOf at *
  simp only [List.length_append, List.length_map, List.length_range, List.map_append] at *
  split at hx
  · rename_i hk
    rw [dif_pos (by omega)]
    rw [← hx]
    congr 1
    simp only [← List.append_assoc]
    rw [List.getElem_append_left]
  · simp at hx

/-- The hypothesis can be met. -/
example : dispatch (tableOf [41]).handlers 7 = some (.user 41) := by decide

/-- What the code answers to a request, as a function of the table and the handlers. -/
def answerOf (users : List Nat) (run : Handler → Request → Int → Result) (req : Request)
    (fd : Int) : Result :=
  match handlerFor users req.kind.toNat with
  | none => ⟨-38, -1⟩
  | some h => run h req fd

/-- **C17.** With any number of user callbacks registered, for every schedule of messages in the
socket (including missing and malformed ones) and every pattern of send failures: if the
handlers return, every accepted request is followed at once by exactly one reply, carrying what
the handler for its number returned (or the error `-ENOSYS` if there is no such number), or by
the child being killed; and nothing else is ever sent. -/
theorem handle_answers (users : List Nat) (run : Handler → Request → Int → Result)
    (sched : List (Option Packet × Bool)) :
    ∃ tr, handleAll (tableOf users).handlers (fun h q fd => .ok (run h q fd)) sched = .ok tr ∧
      Answered (answerOf users run) tr := by
  have hd := dispatch_tableOf users
  have hnb : ∀ n, handlerFor users n ≠ some .base := by
    intro n
    unfold handlerFor
    split
    · simp
    · simp
  induction sched with
  | nil => exact ⟨[], rfl, .nil⟩
  | cons x sched ih =>
    obtain ⟨p, ok⟩ := x
    obtain ⟨tr, htr, ha⟩ := ih
    unfold handleAll
    rw [htr]
    cases p with
    | none => exact ⟨tr, by simp [handle], ha⟩
    | some p =>
      by_cases hlen : p.len < requestSize
      · exact ⟨tr, by simp [handle, hlen], ha⟩
      · have key : handle (tableOf users).handlers (fun h q fd => .ok (run h q fd)) (some p) ok =
            .ok (if ok then [.received p.req p.fd,
                .replied (answerOf users run p.req p.fd).integer
                  (answerOf users run p.req p.fd).handle]
              else [.received p.req p.fd, .killed]) := by
          unfold handle answerOf
          simp only [hlen, if_false, hd]
          have := hnb p.req.kind.toNat
          generalize handlerFor users p.req.kind.toNat = x at this
          cases x with
          | none => cases ok <;> rfl
          | some y =>
            cases y with
            | base => exact absurd rfl this
            | builtin n => cases ok <;> rfl
            | user n => cases ok <;> rfl
        rw [key]
        cases ok with
        | true => exact ⟨_, rfl, .replied _ _ _ ha⟩
        | false => exact ⟨_, rfl, .killed _ _ _ ha⟩

/-- **C17, any table.** A number outside the table, or whose entry is the default handler, is answered with
`-ENOSYS` and no descriptor; no handler runs. -/
theorem default_entry_refused (hs : List Handler) (run : Handler → Request → Int → Outcome Result) (p : Packet)
    (hlen : 24 ≤ p.len) (h : dispatch hs p.req.kind = none ∨ dispatch hs p.req.kind = some .base) :
    handle hs run (some p) true = .ok [.received p.req p.fd, .replied (-38) (-1)] := by
  have hl : ¬ p.len < requestSize := by simp only [requestSize]; omega
  rcases h with h | h <;> simp only [handle, hl, if_false, h] <;> rfl

example : dispatch [.base, .user 3] 0 = some .base ∧ dispatch [.base, .user 3] 2 = none := by decide

/-- **C17.** So in every such trace the numbers of accepted requests and of answers agree. -/
theorem answered_counts (answer : Request → Int → Result) (tr : List Event)
    (h : Answered answer tr) : receivedCount tr = answeredCount tr := by
  induction h with
  | nil => rfl
  | replied req fd tr _ ih => simp [receivedCount, answeredCount] at *; omega
  | killed req fd tr _ ih => simp [receivedCount, answeredCount] at *; omega

/-- A schedule with an unknown kind, a short message and a failing send: one reply with
`-ENOSYS`, nothing, one kill. -/
example : handleAll (tableOf [5]).handlers (fun _ _ _ => .ok ⟨3, -1⟩)
    [(some ⟨24, ⟨99, 0, 0⟩, -1⟩, true), (some ⟨8, ⟨7, 0, 0⟩, -1⟩, true),
      (some ⟨24, ⟨7, 0, 0⟩, -1⟩, false)] =
    .ok [.received ⟨99, 0, 0⟩ (-1), .replied (-38) (-1), .received ⟨7, 0, 0⟩ (-1), .killed] := by
  decide

/-- **C17, finding.** A turn of the dispatcher ends with an exception exactly if a complete request arrived, a user's
handler was chosen for it, and that handler threw: the request is then unanswered and the child is alive, whether or not a
reply could have been sent. -/
theorem handler_throws_unanswered (hs : List Handler) (run : Handler → Request → Int → Outcome Result) (pkt : Option Packet)
    (ok : Bool) :
    handle hs run pkt ok = .throws ↔
      ∃ p h, pkt = some p ∧ 24 ≤ p.len ∧ dispatch hs p.req.kind = some h ∧ h ≠ .base ∧
        run h p.req p.fd = .throws := by
  cases pkt with
  | none => simp [handle]
  | some p =>
    have hrs : requestSize = 24 := rfl
    by_cases hl : p.len < requestSize
    · simp only [handle, if_pos hl]
      constructor
      · intro h; cases h
      · rintro ⟨q, h, hq, hle, -⟩; cases hq; omega
    · simp only [handle, if_neg hl]
      rcases hd : dispatch hs p.req.kind with _ | h
      · cases ok <;> simp [hd]
      · cases h with
        | base => cases ok <;> simp [hd]
        | _ =>
          simp only []
          rcases hr : run _ p.req p.fd with r | _ | _ | _ <;> cases ok <;> simp [hd, hr] <;> omega

/-- The hypotheses can be met: the handler registered as number 5 answers kind 7, and throws. -/
example : handle (tableOf [5]).handlers (fun _ _ _ => .throws) (some ⟨24, ⟨7, 0, 0⟩, -1⟩) true = .throws :=
  (handler_throws_unanswered _ _ _ _).2 ⟨⟨24, ⟨7, 0, 0⟩, -1⟩, .user 5, rfl, by decide, by decide, by decide, rfl⟩

end Verif.Callback
