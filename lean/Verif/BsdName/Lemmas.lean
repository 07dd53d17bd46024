import Verif.BsdName.Lists

/-!
# Name lookups on FreeBSD, end to end: lemmas
-/

namespace Verif.BsdName

open Verif.Bounds (Region contains contains_iff)
open Verif.Strings Verif.Strings.Spec
open Verif.FileTree (Export)
open Verif.Callback (Handler Packet Event Result tableOf dispatch_tableOf copyAddrs copyAddrs_length)
open Verif.Net (Op Config Callee configure)
open Verif.NetEnd (Chosen)
open Verif.AddrInfo (Query Info Out Env Store leBytes applyStores infoSize extraOf blockSize copyHints AllocOk needed ListsFit
  allocInSandbox_one calleeOf read32 read32_num strdupOut_nameSeen)
open Verif.AddrInfo.Spec (numAt Seen)
open Verif.ChildArgs (Bounds Child Wrapped wrapPtr wrapCStr wrapGetAddrInfo andThen unwrap bytesAt Apart InHeap Object
  blit blit_bytes blit_else)
open Verif.Syscall (CInt Reply)
open Verif.EndToEnd (le ofLe le_length ofLe_le64 copy_bytes Pool Outside wrap_spec wrap_pool pool_last bytesAt_write
  bytesAt_congr bytesAt_get bytesAt_length bytesAt_eq_get answerOf inHeap_mono apart_mono apart_symm outside_mono
  outside_of_apart asNat_add cstring_moved cstring_unique)
open Verif.NameEnd (World Calls frameSize release Setup wrapAll wrapAll_pool wrapGetAddrInfo_all copies objects scratch kept Ready
  asked goods_after goods_four unwrap_live unwrap_in_mem unwrap_out_mem response_low kept_scratch numAt_bytes name_seen
  numAt_congr applyStores_out apart_nat callee_chosen)
open Verif.BsdNet (noSys)
open Spec (Chain)

theorem encode_length (host serv hints res : Word) : (encode host serv hints res).length = 32 := by
  simp [encode, le_length]

theorem arg_encode (host serv hints res : Word) :
    arg (encode host serv hints res) 0 = host ∧ arg (encode host serv hints res) 1 = serv ∧
    arg (encode host serv hints res) 2 = hints ∧ arg (encode host serv hints res) 3 = res := by
  have h8 : ∀ v, (le 8 v).length = 8 := le_length 8
  refine ⟨?_, ?_, ?_, ?_⟩
  · have e : (encode host serv hints res).take 8 = le 8 host.toNat := by
      rw [encode, List.append_assoc, List.append_assoc, List.take_left' (h8 _)]
    show BitVec.ofNat 64 (ofLe (((encode host serv hints res).drop 0).take 8)) = host
    rw [List.drop_zero, e, ofLe_le64]
  · have e : ((encode host serv hints res).drop 8).take 8 = le 8 serv.toNat := by
      rw [encode, List.append_assoc, List.append_assoc, List.drop_left' (h8 _), List.take_left' (h8 _)]
    show BitVec.ofNat 64 (ofLe (((encode host serv hints res).drop 8).take 8)) = serv
    rw [e, ofLe_le64]
  · have e : ((encode host serv hints res).drop 16).take 8 = le 8 hints.toNat := by
      rw [encode, List.append_assoc, List.drop_left' (by simp [h8]), List.take_left' (h8 _)]
    show BitVec.ofNat 64 (ofLe (((encode host serv hints res).drop 16).take 8)) = hints
    rw [e, ofLe_le64]
  · have e : ((encode host serv hints res).drop 24).take 8 = le 8 res.toNat := by
      rw [encode, List.drop_left' (by simp [h8])]
      exact List.take_of_length_le (by simp [h8])
    show BitVec.ofNat 64 (ofLe (((encode host serv hints res).drop 24).take 8)) = res
    rw [e, ofLe_le64]

/-- The host's turn: a well-formed frame in the heap is served. -/
theorem turn_spec {w : World} {hist : List Export} {users : List Nat} {conf : List Config}
    (hw : Setup w hist users conf) (m : Mem) (data : Word) (hin : InHeap w.hdr w.region data 32)
    {host serv hints res : Word} (hb : bytesAt m data 32 = encode host serv hints res) (fd : Int) {r : Result}
    {calls : Calls} {stores : List Store} {freed : Bool}
    (hs : handleGetaddrinfo (w.env m) host serv hints res = ⟨.ok r, calls, stores, freed⟩) :
    ∃ q, turn w m ⟨Callback.requestSize, ⟨6, .ofNat 64 frameSize, data⟩, fd⟩ =
      (.ok [.received q fd, .replied r.integer r.handle], calls, applyStores m stores) := by
  have hd : Callback.dispatch w.table (6 : Word) = some (.builtin 6) := by
    rw [hw.base.base.table, dispatch_tableOf]
    rfl
  have hsv : served w m 6 (bytesAt m data 32) = ⟨.ok r, calls, stores, freed⟩ := by
    obtain ⟨d0, d1, d2, d3⟩ := arg_encode host serv hints res
    rw [hb, served, if_pos rfl, d0, d1, d2, d3, hs]
  have hrun : run w m (.builtin 6) ⟨6, .ofNat 64 frameSize, data⟩ fd = (.ok r, copyAddrs data 32) := by
    have hc : contains w.hdr w.region data (BitVec.ofNat 64 frameSize) = true := hin
    have hc' : ¬ contains w.hdr w.region data (BitVec.ofNat 64 frameSize) = false := by rw [hc]; simp
    have hz : ¬ (BitVec.ofNat 64 frameSize ≠ BitVec.ofNat 64 frameSize) := fun h => h rfl
    have hne : copyAddrs data frameSize ≠ [] := by
      intro e
      have := copyAddrs_length data frameSize
      rw [e] at this
      simp [frameSize] at this
    simp only [run, Callback.invoke, if_neg hz, if_neg hc']
    have : (copyAddrs data frameSize).map m = bytesAt m data 32 := copy_bytes _ _ _
    rw [this, hsv]
    simp only [if_neg hne]
    rfl
  have hlen : ¬ (Callback.requestSize < Callback.requestSize) := by omega
  have hne : copyAddrs data 32 ≠ [] := by
    intro e
    have := copyAddrs_length data 32
    rw [e] at this
    simp at this
  refine ⟨⟨6, .ofNat 64 frameSize, data⟩, ?_⟩
  simp only [turn, effects, Callback.handle, if_neg hlen, hd, hrun, if_neg hne, copy_bytes, hsv, if_true]

/-- Sending a request: the frame arrives, the host serves it; apart from the host's stores only the frame and its copy
are written. -/
theorem send_spec {w : World} {hist : List Export} {users : List Nat} {conf : List Config}
    (hw : Setup w hist users conf) (c : Child) (host serv hints res : Word)
    (ho : Object w.hdr w.region w.bounds w.sp 32) (p : Word) (ps : List Word)
    (hm : c.mallocs = p :: ps) (hp : InHeap w.hdr w.region p 32) :
    ∃ m1, (∀ x, Outside [(w.sp, 32), (p, 32)] x → m1 x = c.mem x) ∧
      ∀ r calls stores freed,
        handleGetaddrinfo (w.env m1) host serv hints res = ⟨.ok r, calls, stores, freed⟩ →
        ∃ c', send w c host serv hints res = .ok (EndToEnd.reply w.toNet.toWorld r.integer r.handle, calls, c') ∧
          c'.live = c.live ∧ c'.mem = applyStores m1 stores := by
  have hlen := encode_length host serv hints res
  obtain ⟨a, c1, hwr, hin, hbytes, hcase⟩ :=
    wrap_spec (c := { c with mem := writeBytes c.mem w.sp (encode host serv hints res) }) (n := 32) (by omega) (by omega)
      ho hm hp
  have hb : bytesAt c1.mem a.arg 32 = encode host serv hints res := by
    rw [hbytes]
    have := bytesAt_write c.mem w.sp (encode host serv hints res) (by omega)
    rw [hlen] at this
    exact this
  refine ⟨c1.mem, ?_, ?_⟩
  · intro x hx
    have hw1 : writeBytes c.mem w.sp (encode host serv hints res) x = c.mem x :=
      writeBytes_out _ _ _ _ fun i hi => hx (w.sp, 32) (by simp) i (by omega)
    rcases hcase with ⟨_, rfl⟩ | ⟨_, rfl⟩
    · exact hw1
    · simp only
      rw [blit_else, hw1]
      intro i hi
      exact hx (p, 32) (by simp) i hi
  · intro r calls stores freed hs
    obtain ⟨q, hcb⟩ := turn_spec hw c1.mem a.arg hin hb (-1) hs
    have hfs : frameSize = 32 := rfl
    simp only [hfs] at hcb
    simp only [send, hfs, hwr, callback, hcb, answerOf]
    rcases hcase with ⟨rfl, rfl⟩ | ⟨rfl, rfl⟩
    · exact ⟨_, rfl, rfl, rfl⟩
    · exact ⟨_, rfl, by simp [unwrap], by simp [unwrap]⟩

/-- A lookup in terms of the host's handler. -/
theorem lookup_spec {w : World} {hist : List Export} {users : List Nat} {conf : List Config}
    (hw : Setup w hist users conf) {c : Child} {n : Nat} {host serv hints res : Word} {hs ss : List Byte}
    (hr : Ready w c n host serv hints res hs ss) :
    ∃ a1 a2 a3 a4 m1,
      (InHeap w.hdr w.region a1 (hs.length + 1) ∧ bytesAt m1 a1 (hs.length + 1) = bytesAt c.mem host (hs.length + 1)) ∧
      (InHeap w.hdr w.region a2 (ss.length + 1) ∧ bytesAt m1 a2 (ss.length + 1) = bytesAt c.mem serv (ss.length + 1)) ∧
      (InHeap w.hdr w.region a3 48 ∧ bytesAt m1 a3 48 = bytesAt c.mem hints 48) ∧
      (InHeap w.hdr w.region a4 8 ∧ bytesAt m1 a4 8 = bytesAt c.mem w.localRes 8) ∧
      (∃ o ∈ scratch w c n, a4 = o.1 ∧ 8 ≤ o.2) ∧
      (∀ x, Outside (kept w c n) x → m1 x = c.mem x) ∧
      ∀ r calls stores freed, handleGetaddrinfo (w.env m1) a1 a2 a3 a4 = ⟨.ok r, calls, stores, freed⟩ →
        ∃ c', getaddrinfo w c host serv hints res hs.length ss.length = .ok (BitVec.ofInt 32 r.integer, calls, c') ∧
          c'.live = c.live ∧ bytesAt c'.mem res 8 = bytesAt (applyStores m1 stores) a4 8 ∧
          (Apart w.localRes 8 res 8 → bytesAt c'.mem w.localRes 8 = bytesAt (applyStores m1 stores) a4 8) ∧
          ∀ x, Outside [(w.localRes, 8), (res, 8)] x → c'.mem x = applyStores m1 stores x := by
  obtain ⟨⟨n1, n2, n3, n4⟩, _, _, hobjs, hstack, hres, hpool, _⟩ := hr
  have hsz : ∀ o ∈ objects w host serv hints hs ss, 0 < o.2 ∧ o.2 ≤ n := by
    intro o ho
    simp only [objects, List.mem_cons, List.not_mem_nil, or_false] at ho
    rcases ho with rfl | rfl | rfl | rfl <;> simp only <;> omega
  obtain ⟨ws, c1, e1, e2, e3, e4, e5, e6, e7⟩ := wrapAll_pool hw.base.base n4 (objects w host serv hints hs ss) 1 c _
    hpool (fun o ho => List.mem_cons_of_mem _ ho) hsz (fun o ho => (hobjs o ho).1)
  obtain ⟨p, ps, hm, hp, hpa, hpin⟩ := pool_last e4
  obtain ⟨a1, a2, a3, a4, rfl, -, -, -, -⟩ := goods_four e2
  obtain ⟨m1, hm1, hsend⟩ := send_spec hw c1 a1.arg a2.arg a3.arg a4.arg hstack p ps hm
    (inHeap_mono hw.base.base hp n4 (by omega))
  have g := goods_after e2 (by omega) (fun o ho => (hsz o ho).2) hm1 (fun o ho => (hobjs o ho).2) List.mem_cons_self
    (fun o ho => List.mem_cons_of_mem _ ho) hpa
  obtain ⟨_, _, _, _, heq, g1, g2, g3, g4⟩ := goods_four g
  cases heq
  refine ⟨a1.arg, a2.arg, a3.arg, a4.arg, m1, ⟨g1.1, g1.2.1⟩, ⟨g2.1, g2.2.1⟩, ⟨g3.1, g3.2.1⟩, ⟨g4.1, g4.2.1⟩, ?_, ?_, ?_⟩
  · rcases hc : a4.copy with _ | q
    · exact ⟨(w.localRes, 8), by simp [scratch], by simp [Wrapped.arg, hc, g4.2.2.1], Nat.le_refl _⟩
    · refine ⟨(q, n), ?_, by simp [Wrapped.arg, hc], by simp only; omega⟩
      have := (e6 q (by simp [copies, hc])).1
      simp only [scratch, List.mem_cons, List.mem_map]
      exact .inr (.inr ⟨q, this, rfl⟩)
  · intro x hx
    rw [hm1, e7]
    · intro y hy
      obtain ⟨q, hq, rfl⟩ := List.mem_map.1 hy
      refine hx (q, n) ?_
      simp only [kept, List.mem_cons, List.mem_map]
      exact .inr ⟨q, (e6 q hq).1, rfl⟩
    · apply outside_mono hx
      intro y hy
      simp only [List.mem_cons, List.not_mem_nil, or_false] at hy
      rcases hy with rfl | rfl
      · exact ⟨(w.sp, 32), by simp [kept], rfl, Nat.le_refl _⟩
      · refine ⟨(p, n), ?_, rfl, by simp only; omega⟩
        simp only [kept, List.mem_cons, List.mem_map]
        exact .inr ⟨p, e5 p hpin, rfl⟩
  · intro r calls stores freed hh
    obtain ⟨c2, hs2, hlive2, hmem2⟩ := hsend r calls stores freed hh
    have hwrap : wrapGetAddrInfo w.bounds c host serv hints w.localRes hs.length ss.length infoSize =
        .ok ([a1, a2, a3, a4], c1) := by
      rw [wrapGetAddrInfo_all]
      exact e1
    have hlive : c2.live = a4.copy.toList ++ (a3.copy.toList ++ (a2.copy.toList ++ (a1.copy.toList ++ c.live))) := by
      rw [hlive2, e3]
      have hrev : ∀ o : Option Word, o.toList.reverse = o.toList := by intro o; cases o <;> rfl
      simp [copies, hrev]
    have l1 := unwrap_live (out := true) (n := 8) hlive
    have l2 := unwrap_live (out := false) (n := infoSize) l1
    have l3 := unwrap_live (out := false) (n := ss.length + 1) l2
    have l4 := unwrap_live (out := false) (n := hs.length + 1) l3
    obtain ⟨u1, u2⟩ := unwrap_out_mem (c := c2) (a := a4) (n := 8) (by omega)
    have hmem : (release c2 a1 a2 a3 a4 hs.length ss.length).mem = (unwrap true c2 a4 8).mem := by
      simp only [release, unwrap_in_mem]
    have horig : a4.original = w.localRes := g4.2.2.1
    rw [horig] at u1 u2
    refine ⟨{ release c2 a1 a2 a3 a4 hs.length ss.length with
      mem := blit (release c2 a1 a2 a3 a4 hs.length ss.length).mem res w.localRes 8 }, ?_, l4, ?_, ?_, ?_⟩
    · simp only [getaddrinfo, hwrap, hs2, if_neg hres, response_low]
    · simp only
      rw [blit_bytes _ _ _ _ (by omega), hmem, u1, hmem2]
    · intro hap
      simp only
      have : bytesAt (blit (release c2 a1 a2 a3 a4 hs.length ss.length).mem res w.localRes 8) w.localRes 8 =
          bytesAt (release c2 a1 a2 a3 a4 hs.length ss.length).mem w.localRes 8 :=
        bytesAt_congr fun i hi => blit_else _ _ _ _ _ fun j hj e => hap i j hi hj e
      rw [this, hmem, u1, hmem2]
    · intro x hx
      simp only
      rw [blit_else _ _ _ _ _ fun i hi => hx (res, 8) (by simp) i hi, hmem,
        u2 x fun y hy => hx y (by simp only [List.mem_singleton] at hy; simp [hy]), hmem2]

theorem calleeOf_chosen {conf : List Config} {f : Option Callee} (h : Chosen conf .getAddrInfo f) (v : Env)
    (hv : v.policies = configure conf) (slot : Word) (q : Query) :
    ask v slot q = match f with
      | none => ⟨.ok ⟨-78, -1⟩, [], [], false⟩
      | some f => finish v slot (v.call f q).1 (v.call f q).2 [(f, q)] := by
  unfold ask
  rw [hv]
  cases h with
  | untouched h => rw [Net.invoke_default_deny conf _ h]; rfl
  | denied h => rw [(Net.invoke_last Query conf _ _ h _ q).1 rfl]; rfl
  | allowed h => rw [(Net.invoke_last Query conf _ _ h _ q).2.1 rfl]
  | handled f h => rw [(Net.invoke_last Query conf _ _ h _ q).2.2.1 f rfl]

/-- What the host's handler does with a proper request. -/
theorem handler_asks {w : World} {hist : List Export} {users : List Nat} {conf : List Config}
    (hw : Setup w hist users conf) {m m1 : Mem} {host serv hints : Word} {hs ss : List Byte}
    (h1 : CStringAt (asNat m) host.toNat hs) (h2 : CStringAt (asNat m) serv.toNat ss)
    (hn1 : hs.length + 1 < 2 ^ 64) (hn2 : ss.length + 1 < 2 ^ 64) {a1 a2 a3 a4 : Word}
    (g1 : InHeap w.hdr w.region a1 (hs.length + 1) ∧ bytesAt m1 a1 (hs.length + 1) = bytesAt m host (hs.length + 1))
    (g2 : InHeap w.hdr w.region a2 (ss.length + 1) ∧ bytesAt m1 a2 (ss.length + 1) = bytesAt m serv (ss.length + 1))
    (g3 : InHeap w.hdr w.region a3 48 ∧ bytesAt m1 a3 48 = bytesAt m hints 48) (g4 : InHeap w.hdr w.region a4 8) :
    handleGetaddrinfo (w.env m1) a1 a2 a3 a4 = ask (w.env m1) a4 (asked m hints hs ss) := by
  have hwf := hw.base.base.wf
  have e : ∀ k, k < 2 ^ 64 → (BitVec.ofNat 64 k).toNat = k := by intro k hk; simp; omega
  have b1 := (contains_iff w.hdr w.region hwf a1 _).1 g1.1
  have b2 := (contains_iff w.hdr w.region hwf a2 _).1 g2.1
  have b3 := (contains_iff w.hdr w.region hwf a3 _).1 g3.1
  rw [e _ hn1] at b1
  rw [e _ hn2] at b2
  obtain ⟨o1, k1, s1⟩ := strdupOut_nameSeen (w.env m1) hwf hw.base.base.mallocOk hw.base.base.mallocTotal m1 a1
  obtain ⟨o2, k2, s2⟩ := strdupOut_nameSeen (w.env m1) hwf hw.base.base.mallocOk hw.base.base.mallocTotal m1 a2
  have q1 := name_seen s1 (cstring_moved h1 g1.2) b1.1 (by show _ < w.region.top.toNat; omega)
  have q2 := name_seen s2 (cstring_moved h2 g2.2) b2.1 (by show _ < w.region.top.toNat; omega)
  have hnz : a3 ≠ 0 := by
    intro h
    have hb := hw.mapped
    rw [h] at b3
    have : (0 : Word).toNat = 0 := rfl
    omega
  have hh : copyHints (w.env m1) a3 = (asked m hints hs ss).hints := by
    have r : ∀ k : Nat, k + 4 ≤ 48 → read32 m1 (a3 + BitVec.ofNat 64 k) = .ofNat 32 (numAt (asNat m) (hints.toNat + k) 4) := by
      intro k hk
      have := read32_num m1 a3 k
      rw [numAt_bytes g3.2 k 4 hk] at this
      rw [← this]
      simp
    have r0 := r 0 (by omega)
    simp only [BitVec.add_zero, Nat.add_zero] at r0
    simp only [copyHints, if_neg hnz, asked, World.env]
    rw [r0, ← r 4 (by omega), ← r 8 (by omega), ← r 12 (by omega)]
    rfl
  unfold handleGetaddrinfo
  rw [if_neg, if_neg]
  · have k1' : (strdupOut (w.env m1).hdr (w.env m1).region (w.env m1).malloc (w.env m1).rdHost.1 (w.env m1).rdHost.2
        a1).result = .ok o1 := k1
    have k2' : (strdupOut (w.env m1).hdr (w.env m1).region (w.env m1).malloc (w.env m1).rdService.1
        (w.env m1).rdService.2 a2).result = .ok o2 := k2
    simp only [k1', k2', q1, q2, hh]
    rfl
  · rintro ⟨-, hc⟩
    have : contains w.hdr w.region a3 (BitVec.ofNat 64 infoSize) = true := g3.1
    rw [show contains (w.env m1).hdr (w.env m1).region a3 (BitVec.ofNat 64 infoSize) =
      contains w.hdr w.region a3 (BitVec.ofNat 64 infoSize) from rfl, this] at hc
    cases hc
  · have : contains w.hdr w.region a4 8 = true := g4
    rw [show contains (w.env m1).hdr (w.env m1).region a4 8 = contains w.hdr w.region a4 8 from rfl, this]
    simp

theorem chain_congr {m m' : Nat → Byte} {lo hi p : Nat} {es : List Seen} (h : ∀ x, lo ≤ x → x < hi → m' x = m x)
    (hc : Chain m lo hi p es) : Chain m' lo hi p es := by
  induction hc with
  | nil => exact .nil
  | cons p e es h0 h1 h2 f1 f2 f3 f4 f5 f6 f7 f8 f9 _ ih =>
    have n : ∀ i k, i + k ≤ 48 → numAt m' (p + i) k = numAt m (p + i) k := fun i k hik =>
      numAt_congr h (by omega) (by omega)
    refine .cons p e es h0 h1 h2 (by rw [← f1]; exact n 0 4 (by omega)) (by rw [n 4 4 (by omega), f2])
      (by rw [n 8 4 (by omega), f3]) (by rw [n 12 4 (by omega), f4]) (by rw [n 16 4 (by omega), f5]) ?_ ?_ ?_
      (by rw [n 24 8 (by omega), f9]) ?_
    · rw [n 32 8 (by omega)]; exact f6
    · rw [n 32 8 (by omega)]; exact f7
    · rw [n 32 8 (by omega), ← f8]
      rw [f8]
      conv => rhs; rw [← f8]
      apply List.map_congr_left
      intro i hi'
      have := List.mem_range.1 hi'
      exact h _ (by omega) (by omega)
    · rw [n 40 8 (by omega)]; exact ih

theorem finish_calls (v : Env) (slot : Word) (r : Int × Int) (es : List Info) (calls : List (Callee × Query)) :
    (finish v slot r es calls).calls = calls := by
  unfold finish
  split
  · split
    · split <;> rfl
    · rfl
  · rfl

end Verif.BsdName
