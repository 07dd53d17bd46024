import Verif.NameEnd.Model
import Verif.NetEnd.Props
import Verif.AddrInfo.Props

/-!
# Name lookups, end to end: lemmas
-/

namespace Verif.NameEnd

open Verif.Bounds (Region contains contains_iff)
open Verif.Strings Verif.Strings.Spec
open Verif.FileTree (Export)
open Verif.Callback (Handler Packet Event Result tableOf dispatch_tableOf copyAddrs copyAddrs_length)
open Verif.Net (Op Config Callee configure)
open Verif.AddrInfo
open Verif.ChildArgs (Bounds Child Wrapped wrapPtr wrapCStr wrapGetAddrInfo andThen unwrap bytesAt Apart InHeap Object
  blit blit_bytes blit_else)
open Verif.Syscall (CInt Reply)
open Verif.EndToEnd (le ofLe le_length ofLe_le64 copy_bytes Pool Outside wrap_spec wrap_pool pool_last bytesAt_write
  bytesAt_congr bytesAt_get bytesAt_length bytesAt_eq_get answerOf inHeap_mono apart_mono apart_symm outside_mono
  outside_of_apart asNat_add cstring_moved cstring_unique)

/-! ### Several arguments -/

/-- Convert arguments one after another. -/
def wrapAll (b : Bounds) : Child → List (Word × Nat) → Outcome (List Wrapped × Child)
  | c, [] => .ok ([], c)
  | c, (o, n) :: l =>
    match wrapPtr b c o n with
    | .ok (w, c') =>
      match wrapAll b c' l with
      | .ok (ws, c'') => .ok (w :: ws, c'')
      | .abort => .abort
      | .throws => .throws
      | .ub => .ub
    | .abort => .abort
    | .throws => .throws
    | .ub => .ub

theorem wrapGetAddrInfo_all (b : Bounds) (c : Child) (host serv hints res : Word) (hl sl n : Nat) :
    wrapGetAddrInfo b c host serv hints res hl sl n =
      wrapAll b c [(host, hl + 1), (serv, sl + 1), (hints, n), (res, 8)] := by
  simp only [wrapGetAddrInfo, wrapAll, wrapCStr]
  rcases h1 : wrapPtr b c host (hl + 1) with ⟨a, c1⟩ | _ | _ | _ <;> simp only [andThen, h1]
  rcases h2 : wrapPtr b c1 serv (sl + 1) with ⟨a2, c2⟩ | _ | _ | _ <;> simp only
  rcases h3 : wrapPtr b c2 hints n with ⟨a3, c3⟩ | _ | _ | _ <;> simp only
  rcases h4 : wrapPtr b c3 res 8 with ⟨a4, c4⟩ | _ | _ | _ <;> simp

/-- The copies that were made. -/
def copies (ws : List Wrapped) : List Word := ws.flatMap (·.copy.toList)

/-- What an argument has become: an object that the host accepts, with the caller's bytes; the caller's own object, or a
copy that is apart from all the caller's objects. -/
def Good (w : EndToEnd.World) (n : Nat) (objs : List (Word × Nat)) (m m' : Mem) (o : Word × Nat) (a : Wrapped) : Prop :=
  InHeap w.hdr w.region a.arg o.2 ∧ bytesAt m' a.arg o.2 = bytesAt m o.1 o.2 ∧ a.original = o.1 ∧
    ∀ q, a.copy = some q → ∀ x ∈ objs, Apart q n x.1 x.2

/-- Arguments and what they have become. -/
inductive Goods (w : EndToEnd.World) (n : Nat) (objs : List (Word × Nat)) (m m' : Mem) :
    List (Word × Nat) → List Wrapped → Prop where
  | nil : Goods w n objs m m' [] []
  | cons (o a l ws) : Good w n objs m m' o a → Goods w n objs m m' l ws → Goods w n objs m m' (o :: l) (a :: ws)

theorem Goods.mono {w : EndToEnd.World} {n : Nat} {objs objs' : List (Word × Nat)} {m m0 m' : Mem}
    {l : List (Word × Nat)} {ws : List Wrapped} (h : Goods w n objs m m' l ws) (hs : ∀ o ∈ objs', o ∈ objs)
    (hb : ∀ o ∈ l, bytesAt m o.1 o.2 = bytesAt m0 o.1 o.2) : Goods w n objs' m0 m' l ws := by
  induction h with
  | nil => exact .nil
  | cons o a l ws hg _ ih =>
    refine .cons _ _ _ _ ⟨hg.1, ?_, hg.2.2.1, fun q hq x hx => hg.2.2.2 q hq x (hs x hx)⟩
      (ih fun o ho => hb o (List.mem_cons_of_mem _ ho))
    rw [hg.2.1, hb o List.mem_cons_self]

/-- Converting arguments, in terms of what it gives. -/
theorem wrapAll_pool {w : EndToEnd.World} {hist : List Export} {users : List Nat} (hw : EndToEnd.Setup w hist users)
    {n : Nat} (hn : n < 2 ^ 64) (l : List (Word × Nat)) : ∀ (k : Nat) (c : Child) (objs : List (Word × Nat)),
    Pool w n c objs (l.length + k) → (∀ o ∈ l, o ∈ objs) → (∀ o ∈ l, 0 < o.2 ∧ o.2 ≤ n) →
    (∀ o ∈ l, Object w.hdr w.region w.bounds o.1 o.2) →
    ∃ ws c1, wrapAll w.bounds c l = .ok (ws, c1) ∧ Goods w n objs c.mem c1.mem l ws ∧
      c1.live = (copies ws).reverse ++ c.live ∧ Pool w n c1 ((copies ws).map (·, n) ++ objs) k ∧
      (∀ q ∈ c1.mallocs.take k, q ∈ c.mallocs.take (l.length + k)) ∧
      (∀ q ∈ copies ws, q ∈ c.mallocs.take (l.length + k) ∧ ∀ o ∈ objs, Apart q n o.1 o.2) ∧
      (∀ x, Outside ((copies ws).map (·, n)) x → c1.mem x = c.mem x) := by
  induction l with
  | nil =>
    intro k c objs hp _ _ _
    exact ⟨[], c, rfl, .nil, rfl, by simpa [copies] using hp, by simp, by simp [copies], fun _ _ => rfl⟩
  | cons o l ih =>
    intro k c objs hp hsub hsz hobj
    obtain ⟨o, len⟩ := o
    have hlen := hsz (o, len) List.mem_cons_self
    have hp' : Pool w n c objs ((l.length + k) + 1) := by
      rw [show (l.length + k) + 1 = ((o, len) :: l).length + k by simp; omega]
      exact hp
    obtain ⟨a, c1, e1, e2, e3, e4, e5, e6, e7, e8, e9⟩ :=
      wrap_pool hw hp' hn hlen.1 hlen.2 (hobj _ List.mem_cons_self)
    have hin : ∀ x ∈ objs, x ∈ (if a.copy = none then objs else (a.arg, n) :: objs) := by
      intro x hx
      split
      · exact hx
      · exact List.mem_cons_of_mem _ hx
    obtain ⟨ws, c2, f1, f2, f3, f4, f5, f6, f7⟩ := ih k c1 _ e5
      (fun x hx => hin x (hsub x (List.mem_cons_of_mem _ hx))) (fun x hx => hsz x (List.mem_cons_of_mem _ hx))
      (fun x hx => hobj x (List.mem_cons_of_mem _ hx))
    have hcop : copies (a :: ws) = a.copy.toList ++ copies ws := by simp [copies]
    have hsame : ∀ x ∈ objs, bytesAt c1.mem x.1 x.2 = bytesAt c.mem x.1 x.2 := by
      intro x hx
      apply bytesAt_congr
      intro i hi
      apply e9
      intro q hq
      refine outside_of_apart (n := x.2) ?_ hi
      intro y hy
      simp only [List.mem_singleton] at hy
      subst hy
      exact apart_mono ((e8 q hq).2 x hx) hlen.2 (Nat.le_refl _)
    have hargs : bytesAt c2.mem a.arg len = bytesAt c1.mem a.arg len := by
      apply bytesAt_congr
      intro i hi
      apply f7
      intro y hy j hj
      obtain ⟨q, hq, rfl⟩ := List.mem_map.1 hy
      simp only at hj ⊢
      intro e
      rcases hc : a.copy with _ | p
      · have harg : a.arg = o := by simp [Wrapped.arg, hc, e4]
        rw [harg] at e
        exact (f6 q hq).2 (o, len) (by rw [if_pos hc]; exact hsub _ List.mem_cons_self) j i hj hi e.symm
      · exact (f6 q hq).2 (a.arg, n) (by rw [if_neg (by simp [hc])]; exact List.mem_cons_self) j i hj
          (by simp only; omega) e.symm
    refine ⟨a :: ws, c2, ?_, ?_, ?_, ?_, ?_, ?_, ?_⟩
    · simp only [wrapAll, e1, f1]
    · refine .cons _ _ _ _ ⟨e2, ?_, e4, fun q hq => (e8 q hq).2⟩ (f2.mono hin fun x hx => ?_)
      · rw [hargs, e3]
      · exact hsame x (hsub x (List.mem_cons_of_mem _ hx))
    · rw [f3, e6, hcop, List.reverse_append, List.append_assoc]
      cases a.copy <;> rfl
    · refine ⟨f4.enough, f4.heap, ?_, f4.pairwise⟩
      intro p hpm x hx
      rw [hcop, List.map_append, List.append_assoc] at hx
      rcases List.mem_append.1 hx with hx | hx
      · rcases hc : a.copy with _ | q
        · rw [hc] at hx; simp at hx
        · rw [hc] at hx
          simp only [Option.toList_some, List.map_cons, List.map_nil, List.mem_singleton] at hx
          subst hx
          have harg : a.arg = q := by simp [Wrapped.arg, hc]
          exact f4.apart p hpm (q, n) (by
            rw [if_neg (by simp [hc]), harg]
            exact List.mem_append_right _ List.mem_cons_self)
      · apply f4.apart p hpm
        rcases List.mem_append.1 hx with hx | hx
        · exact List.mem_append_left _ hx
        · exact List.mem_append_right _ (hin x hx)
    · intro q hq
      have := e7 q (f5 q hq)
      rw [show ((o, len) :: l).length + k = (l.length + k) + 1 by simp; omega]
      exact this
    · intro q hq
      rw [show ((o, len) :: l).length + k = (l.length + k) + 1 by simp; omega]
      rw [hcop] at hq
      rcases List.mem_append.1 hq with hq | hq
      · exact e8 q (by simpa using hq)
      · exact ⟨e7 q (f6 q hq).1, fun x hx => (f6 q hq).2 x (hin x hx)⟩
    · intro x hx
      rw [hcop, List.map_append] at hx
      rw [f7 x fun y hy => hx y (List.mem_append_right _ hy)]
      apply e9
      intro q hq
      apply outside_mono hx
      intro y hy
      simp only [List.mem_singleton] at hy
      subst hy
      exact ⟨(q, n), List.mem_append_left _ (by simp [hq]), rfl, hlen.2⟩

/-! ### The host's side -/

/-- What is fixed: the two processes as in `Verif.NetEnd`; the lists that lookups give fit into memory; the sandbox's
allocator gives blocks of the heap; the heap is not mapped at address zero. -/
structure Setup (w : World) (hist : List Export) (users : List Nat) (conf : List Config) : Prop where
  base : NetEnd.Setup w.toNet hist users conf
  fits : ListsFit w.look
  alloc : AllocOk w.region w.alloc
  mapped : 0 < w.region.base.toNat

theorem encode_length (host serv hints res : Word) : (encode host serv hints res).length = 32 := by
  simp [encode, le_length]

theorem arg_encode (host serv hints res : Word) :
    arg (encode host serv hints res) 0 = host ∧ arg (encode host serv hints res) 1 = serv ∧
    arg (encode host serv hints res) 2 = hints ∧ arg (encode host serv hints res) 3 = res := by
  have h8 : ∀ v, (le 8 v).length = 8 := le_length 8
  refine ⟨?_, ?_, ?_, ?_⟩
  · have e : ((encode host serv hints res).drop 24).take 8 = le 8 host.toNat := by
      rw [encode, List.drop_left' (by simp [h8])]
      exact List.take_of_length_le (by simp [h8])
    show BitVec.ofNat 64 (ofLe (((encode host serv hints res).drop 24).take 8)) = host
    rw [e, ofLe_le64]
  · have e : ((encode host serv hints res).drop 16).take 8 = le 8 serv.toNat := by
      rw [encode, List.append_assoc, List.drop_left' (by simp [h8]), List.take_left' (h8 _)]
    show BitVec.ofNat 64 (ofLe (((encode host serv hints res).drop 16).take 8)) = serv
    rw [e, ofLe_le64]
  · have e : ((encode host serv hints res).drop 8).take 8 = le 8 hints.toNat := by
      rw [encode, List.append_assoc, List.append_assoc, List.drop_left' (h8 _), List.take_left' (h8 _)]
    show BitVec.ofNat 64 (ofLe (((encode host serv hints res).drop 8).take 8)) = hints
    rw [e, ofLe_le64]
  · have e : (encode host serv hints res).take 8 = le 8 res.toNat := by
      rw [encode, List.append_assoc, List.append_assoc, List.take_left' (h8 _)]
    show BitVec.ofNat 64 (ofLe (((encode host serv hints res).drop 0).take 8)) = res
    rw [List.drop_zero, e, ofLe_le64]

/-- The host's turn: a well-formed frame in the heap is served. -/
theorem turn_spec {w : World} {hist : List Export} {users : List Nat} {conf : List Config}
    (hw : Setup w hist users conf) (m : Mem) (data : Word) (hin : InHeap w.hdr w.region data 32)
    {host serv hints res : Word} (hb : bytesAt m data 32 = encode host serv hints res) (fd : Int) {r : Result}
    {calls : Calls} {stores : List Store} {freed : Bool}
    (hs : handleGetaddrinfo (w.env m) host serv hints res = ⟨.ok r, calls, stores, freed⟩) :
    ∃ q, turn w m ⟨Callback.requestSize, ⟨6, .ofNat 64 frameSize, data⟩, fd⟩ =
      (.ok [.received q fd, .replied r.integer r.handle], calls, applyStores m stores) := by
  have hd : Callback.dispatch w.table (6 : Word) = some (.builtin 6) := by
    rw [hw.base.base.table, dispatch_tableOf]
    rfl
  have hsv : served w m 6 (bytesAt m data 32) = ⟨.ok r, calls, stores, freed⟩ := by
    obtain ⟨d0, d1, d2, d3⟩ := arg_encode host serv hints res
    rw [hb, served, if_pos rfl, d0, d1, d2, d3, hs]
  have hrun : run w m (.builtin 6) ⟨6, .ofNat 64 frameSize, data⟩ fd = (.ok r, copyAddrs data 32) := by
    have hc : contains w.hdr w.region data (BitVec.ofNat 64 frameSize) = true := hin
    have hc' : ¬ contains w.hdr w.region data (BitVec.ofNat 64 frameSize) = false := by rw [hc]; simp
    have hz : ¬ (BitVec.ofNat 64 frameSize ≠ BitVec.ofNat 64 frameSize) := fun h => h rfl
    simp only [run, Callback.invoke, if_neg hz, if_neg hc']
    have : (copyAddrs data frameSize).map m = bytesAt m data 32 := copy_bytes _ _ _
    rw [this, hsv]
    rfl
  have hlen : ¬ (Callback.requestSize < Callback.requestSize) := by omega
  have hne : copyAddrs data 32 ≠ [] := by
    intro e
    have := copyAddrs_length data 32
    rw [e] at this
    simp at this
  refine ⟨⟨6, .ofNat 64 frameSize, data⟩, ?_⟩
  simp only [turn, effects, Callback.handle, if_neg hlen, hd, hrun, if_neg hne, copy_bytes, hsv, if_true]

/-- Sending a request: the frame arrives, the host serves it; apart from the host's stores only the frame and its copy
are written. -/
theorem send_spec {w : World} {hist : List Export} {users : List Nat} {conf : List Config}
    (hw : Setup w hist users conf) (c : Child) (host serv hints res : Word)
    (ho : Object w.hdr w.region w.bounds w.sp 32) (p : Word) (ps : List Word)
    (hm : c.mallocs = p :: ps) (hp : InHeap w.hdr w.region p 32) :
    ∃ m1, (∀ x, Outside [(w.sp, 32), (p, 32)] x → m1 x = c.mem x) ∧
      ∀ r calls stores freed,
        handleGetaddrinfo (w.env m1) host serv hints res = ⟨.ok r, calls, stores, freed⟩ →
        ∃ c', send w c host serv hints res = .ok (EndToEnd.reply w.toNet.toWorld r.integer r.handle, calls, c') ∧
          c'.live = c.live ∧ c'.mem = applyStores m1 stores := by
  have hlen := encode_length host serv hints res
  obtain ⟨a, c1, hwr, hin, hbytes, hcase⟩ :=
    wrap_spec (c := { c with mem := writeBytes c.mem w.sp (encode host serv hints res) }) (n := 32) (by omega) (by omega)
      ho hm hp
  have hb : bytesAt c1.mem a.arg 32 = encode host serv hints res := by
    rw [hbytes]
    have := bytesAt_write c.mem w.sp (encode host serv hints res) (by omega)
    rw [hlen] at this
    exact this
  refine ⟨c1.mem, ?_, ?_⟩
  · intro x hx
    have hw1 : writeBytes c.mem w.sp (encode host serv hints res) x = c.mem x :=
      writeBytes_out _ _ _ _ fun i hi => hx (w.sp, 32) (by simp) i (by omega)
    rcases hcase with ⟨_, rfl⟩ | ⟨_, rfl⟩
    · exact hw1
    · simp only
      rw [blit_else, hw1]
      intro i hi
      exact hx (p, 32) (by simp) i hi
  · intro r calls stores freed hs
    obtain ⟨q, hcb⟩ := turn_spec hw c1.mem a.arg hin hb (-1) hs
    have hfs : frameSize = 32 := rfl
    simp only [hfs] at hcb
    simp only [send, hfs, hwr, callback, hcb, answerOf]
    rcases hcase with ⟨rfl, rfl⟩ | ⟨rfl, rfl⟩
    · exact ⟨_, rfl, rfl, rfl⟩
    · exact ⟨_, rfl, by simp [unwrap], by simp [unwrap]⟩

end Verif.NameEnd
