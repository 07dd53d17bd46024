import Verif.NameEnd.Lemmas

/-!
# Name lookups of the sandboxed program, end to end: theorems
-/

namespace Verif.NameEnd

open Verif.Bounds (Region contains contains_iff)
open Verif.Strings Verif.Strings.Spec
open Verif.FileTree (Export)
open Verif.Callback (Handler Packet Event Result tableOf dispatch_tableOf copyAddrs copyAddrs_length)
open Verif.Net (Op Config Callee configure)
open Verif.NetEnd (Chosen)
open Verif.AddrInfo
open Verif.AddrInfo.Spec (numAt Chain Seen leNat)
open Verif.ChildArgs (Bounds Child Wrapped wrapPtr wrapCStr wrapGetAddrInfo andThen unwrap bytesAt Apart InHeap Object
  blit blit_bytes blit_else)
open Verif.Syscall (CInt Reply)
open Verif.EndToEnd (le ofLe le_length ofLe_le64 copy_bytes Pool Outside wrap_spec wrap_pool pool_last bytesAt_write
  bytesAt_congr bytesAt_get bytesAt_length bytesAt_eq_get answerOf inHeap_mono apart_mono apart_symm outside_mono
  outside_of_apart asNat_add cstring_moved cstring_unique)

/-! ### Specification -/

/-- The objects that take part: the two names, the hints, and `localRes`. -/
def objects (w : World) (host serv hints : Word) (hs ss : List Byte) : List (Word × Nat) :=
  [(host, hs.length + 1), (serv, ss.length + 1), (hints, 48), (w.localRes, 8)]

/-- The places that the child uses for itself: the frame and `localRes` on its stack, and the blocks for copies. -/
def scratch (w : World) (c : Child) (n : Nat) : List (Word × Nat) :=
  (w.sp, 32) :: (w.localRes, 8) :: (c.mallocs.take 5).map (·, n)

/-- The same without `localRes`. -/
def kept (w : World) (c : Child) (n : Nat) : List (Word × Nat) := (w.sp, 32) :: (c.mallocs.take 5).map (·, n)

/-- The program makes the call properly, and the child has the memory for it: there are strings at `host` and `serv`,
a structure at `hints`, each wholly in the shared heap or wholly outside, and a place for the result; the frame on the
stack overlaps none of them; `malloc` has five more blocks that overlap nothing (`n` bytes is enough for each); and the
host gets from the allocator only blocks that are not in use. -/
structure Ready (w : World) (c : Child) (n : Nat) (host serv hints res : Word) (hs ss : List Byte) : Prop where
  room : hs.length + 1 ≤ n ∧ ss.length + 1 ≤ n ∧ 48 ≤ n ∧ n < 2 ^ 64
  hostText : CStringAt (asNat c.mem) host.toNat hs
  servText : CStringAt (asNat c.mem) serv.toNat ss
  objs : ∀ o ∈ objects w host serv hints hs ss, Object w.hdr w.region w.bounds o.1 o.2 ∧ Apart o.1 o.2 w.sp 32
  stack : Object w.hdr w.region w.bounds w.sp 32
  place : res ≠ 0
  pool : Pool w.toNet.toWorld n c ((w.sp, 32) :: objects w host serv hints hs ss) 5
  fresh : ∀ k p, w.alloc k = some p → ∀ o ∈ (res, 8) :: scratch w c n, Apart p k.toNat o.1 o.2

/-- What the host's function should be asked: the two names, and the four numbers at the beginning of the hints. -/
def asked (m : Mem) (hints : Word) (hs ss : List Byte) : Query :=
  ⟨some hs, some ss, some (.ofNat 32 (numAt (asNat m) hints.toNat 4), .ofNat 32 (numAt (asNat m) (hints.toNat + 4) 4),
    .ofNat 32 (numAt (asNat m) (hints.toNat + 8) 4), .ofNat 32 (numAt (asNat m) (hints.toNat + 12) 4))⟩

/-! ### Lemmas -/

theorem goods_after {w : EndToEnd.World} {n : Nat} {objs : List (Word × Nat)} {m m' m'' : Mem} {sp p : Word}
    {l : List (Word × Nat)} {ws : List Wrapped} (h : Goods w n objs m m' l ws) (hn : 32 ≤ n)
    (hsz : ∀ o ∈ l, o.2 ≤ n)
    (hm : ∀ x, Outside [(sp, 32), (p, 32)] x → m'' x = m' x)
    (hsp : ∀ o ∈ l, Apart o.1 o.2 sp 32) (hin : (sp, 32) ∈ objs) (hlo : ∀ o ∈ l, o ∈ objs)
    (hp : ∀ o ∈ (copies ws).map (·, n) ++ objs, Apart p n o.1 o.2) : Goods w n objs m m'' l ws := by
  induction h with
  | nil => exact .nil
  | cons o a l ws hg _ ih =>
    have hcop : copies (a :: ws) = a.copy.toList ++ copies ws := by simp [copies]
    refine .cons _ _ _ _ ⟨hg.1, ?_, hg.2.2.1, hg.2.2.2⟩ (ih (fun o ho => hsz o (List.mem_cons_of_mem _ ho))
      (fun o ho => hsp o (List.mem_cons_of_mem _ ho)) (fun o ho => hlo o (List.mem_cons_of_mem _ ho)) ?_)
    · rw [← hg.2.1]
      apply bytesAt_congr
      intro i hi
      apply hm
      refine outside_of_apart (n := o.2) ?_ hi
      have ho := hsz o List.mem_cons_self
      intro y hy
      simp only [List.mem_cons, List.not_mem_nil, or_false] at hy
      rcases hc : a.copy with _ | q
      · have harg : a.arg = o.1 := by simp [Wrapped.arg, hc, hg.2.2.1]
        rw [harg]
        rcases hy with rfl | rfl
        · exact apart_symm (hsp o List.mem_cons_self)
        · exact apart_mono (hp o (List.mem_append_right _ (hlo o List.mem_cons_self))) hn (Nat.le_refl _)
      · have harg : a.arg = q := by simp [Wrapped.arg, hc]
        rw [harg]
        rcases hy with rfl | rfl
        · exact apart_symm (apart_mono (hg.2.2.2 q hc _ hin) ho (Nat.le_refl _))
        · exact apart_mono (hp (q, n) (List.mem_append_left _ (by rw [hcop, hc]; simp))) hn ho
    · intro x hx
      apply hp
      rcases List.mem_append.1 hx with hx | hx
      · refine List.mem_append_left _ ?_
        rw [hcop, List.map_append]
        exact List.mem_append_right _ hx
      · exact List.mem_append_right _ hx

theorem unwrap_live {out : Bool} {c : Child} {a : Wrapped} {n : Nat} {l : List Word} (h : c.live = a.copy.toList ++ l) :
    (unwrap out c a n).live = l := by
  cases hc : a.copy with
  | none => simp [unwrap, hc, h]
  | some q => simp [unwrap, hc, h]

theorem unwrap_in_mem {c : Child} {a : Wrapped} {n : Nat} : (unwrap false c a n).mem = c.mem := by
  cases hc : a.copy <;> simp [unwrap, hc]

theorem unwrap_out_mem {c : Child} {a : Wrapped} {n : Nat} (hn : n < 2 ^ 64) :
    bytesAt (unwrap true c a n).mem a.original n = bytesAt c.mem a.arg n ∧
      ∀ x, Outside [(a.original, n)] x → (unwrap true c a n).mem x = c.mem x := by
  cases hc : a.copy with
  | none => simp [unwrap, hc, Wrapped.arg]
  | some q =>
    simp only [unwrap, hc, if_true, Wrapped.arg, Option.getD_some]
    exact ⟨blit_bytes _ _ _ _ hn, fun x hx => blit_else _ _ _ _ _ fun i hi => hx (a.original, n) (by simp) i hi⟩

theorem goods_four {w : EndToEnd.World} {n : Nat} {objs : List (Word × Nat)} {m m' : Mem} {o1 o2 o3 o4 : Word × Nat}
    {ws : List Wrapped} (h : Goods w n objs m m' [o1, o2, o3, o4] ws) :
    ∃ a1 a2 a3 a4, ws = [a1, a2, a3, a4] ∧ Good w n objs m m' o1 a1 ∧ Good w n objs m m' o2 a2 ∧
      Good w n objs m m' o3 a3 ∧ Good w n objs m m' o4 a4 := by
  cases h with
  | cons _ a1 _ _ g1 h =>
    cases h with
    | cons _ a2 _ _ g2 h =>
      cases h with
      | cons _ a3 _ _ g3 h =>
        cases h with
        | cons _ a4 _ _ g4 h =>
          cases h
          exact ⟨a1, a2, a3, a4, rfl, g1, g2, g3, g4⟩

theorem response_low (w : EndToEnd.World) (i h : Int) :
    (EndToEnd.reply w i h).response.setWidth 32 = BitVec.ofInt 32 i := by
  apply BitVec.eq_of_toNat_eq
  simp only [EndToEnd.reply, BitVec.toNat_setWidth, BitVec.toNat_ofInt]
  omega

theorem kept_scratch {w : World} {c : Child} {n : Nat} {o : Word × Nat} (h : o ∈ kept w c n) : o ∈ scratch w c n := by
  rcases List.mem_cons.1 h with rfl | h
  · exact List.mem_cons_self
  · exact List.mem_cons_of_mem _ (List.mem_cons_of_mem _ h)

/-- A lookup in terms of the host's handler. -/
theorem lookup_spec {w : World} {hist : List Export} {users : List Nat} {conf : List Config}
    (hw : Setup w hist users conf) {c : Child} {n : Nat} {host serv hints res : Word} {hs ss : List Byte}
    (hr : Ready w c n host serv hints res hs ss) :
    ∃ a1 a2 a3 a4 m1,
      (InHeap w.hdr w.region a1 (hs.length + 1) ∧ bytesAt m1 a1 (hs.length + 1) = bytesAt c.mem host (hs.length + 1)) ∧
      (InHeap w.hdr w.region a2 (ss.length + 1) ∧ bytesAt m1 a2 (ss.length + 1) = bytesAt c.mem serv (ss.length + 1)) ∧
      (InHeap w.hdr w.region a3 48 ∧ bytesAt m1 a3 48 = bytesAt c.mem hints 48) ∧
      (InHeap w.hdr w.region a4 8 ∧ bytesAt m1 a4 8 = bytesAt c.mem w.localRes 8) ∧
      (∃ o ∈ scratch w c n, a4 = o.1 ∧ 8 ≤ o.2) ∧
      (∀ x, Outside (kept w c n) x → m1 x = c.mem x) ∧
      ∀ r calls stores freed, handleGetaddrinfo (w.env m1) a1 a2 a3 a4 = ⟨.ok r, calls, stores, freed⟩ →
        ∃ c', getaddrinfo w c host serv hints res hs.length ss.length = .ok (BitVec.ofInt 32 r.integer, calls, c') ∧
          c'.live = c.live ∧ bytesAt c'.mem res 8 = bytesAt (applyStores m1 stores) a4 8 ∧
          (Apart w.localRes 8 res 8 → bytesAt c'.mem w.localRes 8 = bytesAt (applyStores m1 stores) a4 8) ∧
          ∀ x, Outside [(w.localRes, 8), (res, 8)] x → c'.mem x = applyStores m1 stores x := by
  obtain ⟨⟨n1, n2, n3, n4⟩, _, _, hobjs, hstack, hres, hpool, _⟩ := hr
  have hsz : ∀ o ∈ objects w host serv hints hs ss, 0 < o.2 ∧ o.2 ≤ n := by
    intro o ho
    simp only [objects, List.mem_cons, List.not_mem_nil, or_false] at ho
    rcases ho with rfl | rfl | rfl | rfl <;> simp only <;> omega
  obtain ⟨ws, c1, e1, e2, e3, e4, e5, e6, e7⟩ := wrapAll_pool hw.base.base n4 (objects w host serv hints hs ss) 1 c _
    hpool (fun o ho => List.mem_cons_of_mem _ ho) hsz (fun o ho => (hobjs o ho).1)
  obtain ⟨p, ps, hm, hp, hpa, hpin⟩ := pool_last e4
  obtain ⟨a1, a2, a3, a4, rfl, -, -, -, -⟩ := goods_four e2
  obtain ⟨m1, hm1, hsend⟩ := send_spec hw c1 a1.arg a2.arg a3.arg a4.arg hstack p ps hm
    (inHeap_mono hw.base.base hp n4 (by omega))
  have g := goods_after e2 (by omega) (fun o ho => (hsz o ho).2) hm1 (fun o ho => (hobjs o ho).2) List.mem_cons_self
    (fun o ho => List.mem_cons_of_mem _ ho) hpa
  obtain ⟨_, _, _, _, heq, g1, g2, g3, g4⟩ := goods_four g
  cases heq
  refine ⟨a1.arg, a2.arg, a3.arg, a4.arg, m1, ⟨g1.1, g1.2.1⟩, ⟨g2.1, g2.2.1⟩, ⟨g3.1, g3.2.1⟩, ⟨g4.1, g4.2.1⟩, ?_, ?_, ?_⟩
  · rcases hc : a4.copy with _ | q
    · exact ⟨(w.localRes, 8), by simp [scratch], by simp [Wrapped.arg, hc, g4.2.2.1], Nat.le_refl _⟩
    · refine ⟨(q, n), ?_, by simp [Wrapped.arg, hc], by simp only; omega⟩
      have := (e6 q (by simp [copies, hc])).1
      simp only [scratch, List.mem_cons, List.mem_map]
      exact .inr (.inr ⟨q, this, rfl⟩)
  · intro x hx
    rw [hm1, e7]
    · intro y hy
      obtain ⟨q, hq, rfl⟩ := List.mem_map.1 hy
      refine hx (q, n) ?_
      simp only [kept, List.mem_cons, List.mem_map]
      exact .inr ⟨q, (e6 q hq).1, rfl⟩
    · apply outside_mono hx
      intro y hy
      simp only [List.mem_cons, List.not_mem_nil, or_false] at hy
      rcases hy with rfl | rfl
      · exact ⟨(w.sp, 32), by simp [kept], rfl, Nat.le_refl _⟩
      · refine ⟨(p, n), ?_, rfl, by simp only; omega⟩
        simp only [kept, List.mem_cons, List.mem_map]
        exact .inr ⟨p, e5 p hpin, rfl⟩
  · intro r calls stores freed hh
    obtain ⟨c2, hs2, hlive2, hmem2⟩ := hsend r calls stores freed hh
    have hwrap : wrapGetAddrInfo w.bounds c host serv hints w.localRes hs.length ss.length infoSize =
        .ok ([a1, a2, a3, a4], c1) := by
      rw [wrapGetAddrInfo_all]
      exact e1
    have hlive : c2.live = a4.copy.toList ++ (a3.copy.toList ++ (a2.copy.toList ++ (a1.copy.toList ++ c.live))) := by
      rw [hlive2, e3]
      have hrev : ∀ o : Option Word, o.toList.reverse = o.toList := by intro o; cases o <;> rfl
      simp [copies, hrev]
    have l1 := unwrap_live (out := true) (n := 8) hlive
    have l2 := unwrap_live (out := false) (n := infoSize) l1
    have l3 := unwrap_live (out := false) (n := ss.length + 1) l2
    have l4 := unwrap_live (out := false) (n := hs.length + 1) l3
    obtain ⟨u1, u2⟩ := unwrap_out_mem (c := c2) (a := a4) (n := 8) (by omega)
    have hmem : (release c2 a1 a2 a3 a4 hs.length ss.length).mem = (unwrap true c2 a4 8).mem := by
      simp only [release, unwrap_in_mem]
    have horig : a4.original = w.localRes := g4.2.2.1
    rw [horig] at u1 u2
    refine ⟨{ release c2 a1 a2 a3 a4 hs.length ss.length with
      mem := blit (release c2 a1 a2 a3 a4 hs.length ss.length).mem res w.localRes 8 }, ?_, l4, ?_, ?_, ?_⟩
    · simp only [getaddrinfo, hwrap, hs2, if_neg hres, response_low]
    · simp only
      rw [blit_bytes _ _ _ _ (by omega), hmem, u1, hmem2]
    · intro hap
      simp only
      have : bytesAt (blit (release c2 a1 a2 a3 a4 hs.length ss.length).mem res w.localRes 8) w.localRes 8 =
          bytesAt (release c2 a1 a2 a3 a4 hs.length ss.length).mem w.localRes 8 :=
        bytesAt_congr fun i hi => blit_else _ _ _ _ _ fun j hj e => hap i j hi hj e
      rw [this, hmem, u1, hmem2]
    · intro x hx
      simp only
      rw [blit_else _ _ _ _ _ fun i hi => hx (res, 8) (by simp) i hi, hmem,
        u2 x fun y hy => hx y (by simp only [List.mem_singleton] at hy; simp [hy]), hmem2]

theorem numAt_bytes {m m' : Mem} {a b : Word} {k : Nat} (h : bytesAt m' a k = bytesAt m b k) (i j : Nat) (hij : i + j ≤ k) :
    numAt (asNat m') (a.toNat + i) j = numAt (asNat m) (b.toNat + i) j := by
  unfold numAt
  congr 1
  apply List.map_congr_left
  intro x hx
  have hx := List.mem_range.1 hx
  rw [Nat.add_assoc, Nat.add_assoc, asNat_add, asNat_add]
  exact bytesAt_eq_get h (i + x) (by omega)

theorem name_seen {m : Mem} {lo hi a : Nat} {s : List Byte} {o : Option (List Byte)} (h : NameSeen (asNat m) lo hi a o)
    (hs : CStringAt (asNat m) a s) (h1 : lo ≤ a) (h2 : a + s.length < hi) : o = some s := by
  cases o with
  | none =>
    rcases h with h | h
    · omega
    · exact absurd hs.2 (h _ (by omega) (by omega))
  | some t => rw [cstring_unique hs h.2.2]

theorem calleeOf_chosen {conf : List Config} {f : Option Callee} (h : Chosen conf .getAddrInfo f) (v : Env)
    (hv : v.policies = configure conf) (slot : Word) (q : Query) :
    ask v slot q = match f with
      | none => ⟨.ok ⟨-38, -1⟩, [], [], false⟩
      | some f => finish v slot (v.call f q).1 (v.call f q).2 [(f, q)] := by
  unfold ask
  rw [hv]
  cases h with
  | untouched h => rw [Net.invoke_default_deny conf _ h]; rfl
  | denied h => rw [(Net.invoke_last Query conf _ _ h _ q).1 rfl]; rfl
  | allowed h => rw [(Net.invoke_last Query conf _ _ h _ q).2.1 rfl]
  | handled f h => rw [(Net.invoke_last Query conf _ _ h _ q).2.2.1 f rfl]

/-- What the host's handler does with a proper request. -/
theorem handler_asks {w : World} {hist : List Export} {users : List Nat} {conf : List Config}
    (hw : Setup w hist users conf) {m m1 : Mem} {host serv hints : Word} {hs ss : List Byte}
    (h1 : CStringAt (asNat m) host.toNat hs) (h2 : CStringAt (asNat m) serv.toNat ss)
    (hn1 : hs.length + 1 < 2 ^ 64) (hn2 : ss.length + 1 < 2 ^ 64) {a1 a2 a3 a4 : Word}
    (g1 : InHeap w.hdr w.region a1 (hs.length + 1) ∧ bytesAt m1 a1 (hs.length + 1) = bytesAt m host (hs.length + 1))
    (g2 : InHeap w.hdr w.region a2 (ss.length + 1) ∧ bytesAt m1 a2 (ss.length + 1) = bytesAt m serv (ss.length + 1))
    (g3 : InHeap w.hdr w.region a3 48 ∧ bytesAt m1 a3 48 = bytesAt m hints 48) (g4 : InHeap w.hdr w.region a4 8) :
    handleGetaddrinfo (w.env m1) a1 a2 a3 a4 = ask (w.env m1) a4 (asked m hints hs ss) := by
  have hwf := hw.base.base.wf
  have e : ∀ k, k < 2 ^ 64 → (BitVec.ofNat 64 k).toNat = k := by intro k hk; simp; omega
  have b1 := (contains_iff w.hdr w.region hwf a1 _).1 g1.1
  have b2 := (contains_iff w.hdr w.region hwf a2 _).1 g2.1
  have b3 := (contains_iff w.hdr w.region hwf a3 _).1 g3.1
  rw [e _ hn1] at b1
  rw [e _ hn2] at b2
  obtain ⟨o1, k1, s1⟩ := strdupOut_nameSeen (w.env m1) hwf hw.base.base.mallocOk hw.base.base.mallocTotal m1 a1
  obtain ⟨o2, k2, s2⟩ := strdupOut_nameSeen (w.env m1) hwf hw.base.base.mallocOk hw.base.base.mallocTotal m1 a2
  have q1 := name_seen s1 (cstring_moved h1 g1.2) b1.1 (by show _ < w.region.top.toNat; omega)
  have q2 := name_seen s2 (cstring_moved h2 g2.2) b2.1 (by show _ < w.region.top.toNat; omega)
  have hnz : a3 ≠ 0 := by
    intro h
    have hb := hw.mapped
    rw [h] at b3
    have : (0 : Word).toNat = 0 := rfl
    omega
  have hh : copyHints (w.env m1) a3 = (asked m hints hs ss).hints := by
    have r : ∀ k : Nat, k + 4 ≤ 48 → read32 m1 (a3 + BitVec.ofNat 64 k) = .ofNat 32 (numAt (asNat m) (hints.toNat + k) 4) := by
      intro k hk
      have := read32_num m1 a3 k
      rw [numAt_bytes g3.2 k 4 hk] at this
      rw [← this]
      simp
    have r0 := r 0 (by omega)
    simp only [BitVec.add_zero, Nat.add_zero] at r0
    simp only [copyHints, if_neg hnz, asked, World.env]
    rw [r0, ← r 4 (by omega), ← r 8 (by omega), ← r 12 (by omega)]
    rfl
  unfold handleGetaddrinfo
  rw [if_neg, if_neg]
  · have k1' : (strdupOut (w.env m1).hdr (w.env m1).region (w.env m1).malloc (w.env m1).rdHost.1 (w.env m1).rdHost.2
        a1).result = .ok o1 := k1
    have k2' : (strdupOut (w.env m1).hdr (w.env m1).region (w.env m1).malloc (w.env m1).rdService.1
        (w.env m1).rdService.2 a2).result = .ok o2 := k2
    simp only [k1', k2', q1, q2, hh]
    rfl
  · rintro ⟨-, hc⟩
    have : contains w.hdr w.region a3 (BitVec.ofNat 64 infoSize) = true := g3.1
    rw [show contains (w.env m1).hdr (w.env m1).region a3 (BitVec.ofNat 64 infoSize) =
      contains w.hdr w.region a3 (BitVec.ofNat 64 infoSize) from rfl, this] at hc
    cases hc
  · have : contains w.hdr w.region a4 8 = true := g4
    rw [show contains (w.env m1).hdr (w.env m1).region a4 8 = contains w.hdr w.region a4 8 from rfl, this]
    simp

theorem numAt_congr {m m' : Nat → Byte} {lo hi : Nat} (h : ∀ x, lo ≤ x → x < hi → m' x = m x) {a k : Nat} (h1 : lo ≤ a)
    (h2 : a + k ≤ hi) : numAt m' a k = numAt m a k := by
  unfold numAt
  congr 1
  apply List.map_congr_left
  intro i hi'
  have := List.mem_range.1 hi'
  exact h _ (by omega) (by omega)

theorem chain_congr {m m' : Nat → Byte} {lo hi p : Nat} {es : List Seen} (h : ∀ x, lo ≤ x → x < hi → m' x = m x)
    (hc : Chain m lo hi p es) : Chain m' lo hi p es := by
  induction hc with
  | nil => exact .nil
  | cons p e es h0 h1 h2 f1 f2 f3 f4 f5 f6 f7 f8 f9 _ ih =>
    have n : ∀ i k, i + k ≤ 48 → numAt m' (p + i) k = numAt m (p + i) k := fun i k hik =>
      numAt_congr h (by omega) (by omega)
    refine .cons p e es h0 h1 h2 (by rw [← f1]; exact n 0 4 (by omega)) (by rw [n 4 4 (by omega), f2])
      (by rw [n 8 4 (by omega), f3]) (by rw [n 12 4 (by omega), f4]) (by rw [n 16 4 (by omega), f5]) ?_ ?_ ?_
      (by rw [n 32 8 (by omega), f9]) ?_
    · rw [n 24 8 (by omega)]; exact f6
    · rw [n 24 8 (by omega)]; exact f7
    · rw [n 24 8 (by omega), ← f8]
      rw [f8]
      conv => rhs; rw [← f8]
      apply List.map_congr_left
      intro i hi'
      have := List.mem_range.1 hi'
      exact h _ (by omega) (by omega)
    · rw [n 40 8 (by omega)]; exact ih

theorem applyStores_out {stores : List Store} : ∀ {m : Mem} {x : Word},
    (∀ s ∈ stores, ∀ i : Nat, i < s.bytes.length → x ≠ s.addr + BitVec.ofNat 64 i) → applyStores m stores x = m x := by
  induction stores with
  | nil => intro m x _; rfl
  | cons s ss ih =>
    intro m x h
    rw [applyStores, ih fun t ht => h t (List.mem_cons_of_mem _ ht)]
    exact writeBytes_out _ _ _ _ (h s List.mem_cons_self)

theorem apart_nat {p a : Word} {k j : Nat} (h : Apart p k a j) (hk : 0 < k) (hj : 0 < j) (_hp : p.toNat + k < 2 ^ 64)
    (_ha : a.toNat + j < 2 ^ 64) : a.toNat + j ≤ p.toNat ∨ p.toNat + k ≤ a.toNat := by
  rcases Nat.lt_or_ge p.toNat (a.toNat + j) with h1 | h1
  · right
    rcases Nat.lt_or_ge a.toNat (p.toNat + k) with h2 | h2
    · exfalso
      rcases Nat.le_total p.toNat a.toNat with h3 | h3
      · exact h (a.toNat - p.toNat) 0 (by omega) hj (by
          apply BitVec.eq_of_toNat_eq
          simp only [BitVec.toNat_add, BitVec.toNat_ofNat]
          omega)
      · exact h 0 (p.toNat - a.toNat) hk (by omega) (by
          apply BitVec.eq_of_toNat_eq
          simp only [BitVec.toNat_add, BitVec.toNat_ofNat]
          omega)
    · exact h2
  · exact .inl h1

theorem finish_calls (v : Env) (slot : Word) (r : Int × Int) (es : List Info) (calls : List (Callee × Query)) :
    (finish v slot r es calls).calls = calls := by
  unfold finish
  split
  · split
    · split <;> rfl
    · rfl
  · rfl

theorem callee_chosen {conf : List Config} {f : Callee} (h : calleeOf (configure conf) = some f) :
    Chosen conf .getAddrInfo (some f) := by
  have : Net.invoke (configure conf) .getAddrInfo (fun _ () => (0, 0)) () = .ok ((0, 0), [(f, ())]) := by
    unfold calleeOf at h
    unfold Net.invoke
    split at h
    · simp at h
    · rename_i hp; simp only [Option.some.injEq] at h; subst h; rw [hp]
    · rename_i g hp
      rw [hp]
      cases g with
      | none => simp at h
      | some g => simp only [Option.map_some, Option.some.injEq] at h; subst h; rfl
  exact NetEnd.invoke_calls this _ List.mem_cons_self

/-! ## C90 -/

/-- **C90, lookups that succeed.**  A sandboxed program looks a name up; the two names, the hints and the place for the
result may be anywhere in its memory.  The function that the host has chosen is called once, with exactly the two names
and the four numbers of the hints.  If it succeeds with the list `es` and the sandbox has memory for it, the program is
told 0 and finds at `*res` the address of a block in its own heap, in which there is the list `es`; apart from that
block and the result, only the child's own scratch memory has changed, and the copies are free again. -/
theorem lookup_end_to_end {w : World} {hist : List Export} {users : List Nat} {conf : List Config}
    (hw : Setup w hist users conf) {c : Child} {n : Nat} {host serv hints res : Word} {hs ss : List Byte}
    (hr : Ready w c n host serv hints res hs ss) {f : Callee} (hf : Chosen conf .getAddrInfo (some f))
    {errno : Int} {es : List Info} (hlook : w.look f (asked c.mem hints hs ss) = ((0, errno), es)) (hne : es ≠ [])
    {p : Word} (hp : w.alloc (BitVec.ofNat 64 (needed es)) = some p) :
    ∃ c', getaddrinfo w c host serv hints res hs.length ss.length = .ok (0, [(f, asked c.mem hints hs ss)], c') ∧
      numAt (asNat c'.mem) res.toNat 8 = p.toNat ∧
      Chain (asNat c'.mem) p.toNat (p.toNat + needed es) p.toNat (es.map Info.seen) ∧
      w.region.base.toNat ≤ p.toNat ∧ p.toNat + needed es ≤ w.region.top.toNat ∧ c'.live = c.live ∧
      ∀ x, Outside ((p, needed es) :: (res, 8) :: scratch w c n) x → c'.mem x = c.mem x := by
  obtain ⟨a1, a2, a3, a4, m1, g1, g2, g3, g4, ⟨o, ho, ho1, ho2⟩, hm1, hall⟩ := lookup_spec hw hr
  have hroom := hr.room
  have hask := handler_asks hw hr.hostText hr.servText (by omega) (by omega) g1 g2 g3 g4.1
  rw [calleeOf_chosen hf (w.env m1) hw.base.policies] at hask
  simp only at hask
  have hl : (w.env m1).call f (asked c.mem hints hs ss) = ((0, errno), es) := hlook
  have hneed : blockSize es = needed es := rfl
  have hal : (Bounds.allocInSandbox (w.env m1).alloc 1 (BitVec.ofNat 64 (blockSize es))).1 = some p := by
    rw [hneed, allocInSandbox_one]; exact hp
  rw [hl] at hask
  simp only [finish, if_true, if_pos hne, hal] at hask
  obtain ⟨c', k1, k2, k3, -, k4⟩ := hall _ _ _ _ hask
  have hst : (handleGetaddrinfo (w.env m1) a1 a2 a3 a4).stores ≠ [] := by
    rw [hask]; simp [fillBlock]
  have hfit := hw.fits f (asked c.mem hints hs ss)
  rw [hlook] at hfit
  simp only at hfit
  have hpos : 48 ≤ needed es := by
    cases es with
    | nil => exact absurd rfl hne
    | cons e es => simp only [needed, List.length_cons]; omega
  have hn64 : (BitVec.ofNat 64 (needed es)).toNat = needed es := by simp; omega
  obtain ⟨b1, b2, b3⟩ := hw.alloc _ _ hp
  rw [hn64] at b2
  have htop := w.region.top.isLt
  have hslot := (contains_iff w.hdr w.region hw.base.base.wf a4 _).1 g4.1
  have h8 : (BitVec.ofNat 64 8 : Word).toNat = 8 := rfl
  rw [h8] at hslot
  have hfresh := hr.fresh _ _ hp
  rw [hn64] at hfresh
  have hapart : Apart p (needed es) a4 8 := by
    rw [ho1]
    exact apart_mono (hfresh o (List.mem_cons_of_mem _ ho)) (Nat.le_refl _) ho2
  have hdis := apart_nat hapart (by omega) (by omega) (by omega) (by omega)
  -- what the list is
  obtain ⟨cc, q, p', n', j1, j2, j3, j4, j5⟩ :=
    gai_list_partial (w.env m1) hw.fits hw.alloc a1 a2 a3 a4 m1 hst
  have hcq : (cc, q) = (f, asked c.mem hints hs ss) := by
    have : [(f, asked c.mem hints hs ss)] = [(cc, q)] := by rw [← j1, hask]
    simpa using this.symm
  obtain ⟨rfl, rfl⟩ := Prod.mk.inj hcq
  rw [hl] at j4 j5
  simp only at j4 j5
  have hn' : n' = BitVec.ofNat 64 (needed es) := by
    apply BitVec.eq_of_toNat_eq
    rw [j4, hn64]
  have hpp : p' = p := by
    have h1 : w.alloc n' = some p' := j3
    rw [hn', hp] at h1
    exact (Option.some.inj h1).symm
  subst hpp
  rw [j4] at j5
  obtain ⟨j6, j7⟩ := j5 (by omega)
  rw [hask] at j6 j7
  simp only at j6 j7
  -- where the stores are
  have hout : ∀ x, Outside [(p', needed es), (a4, 8)] x → applyStores m1 (fillBlock p' a4 es) x = m1 x := by
    intro x hx
    obtain ⟨c2, q2, p2, n2, i1, i2, i3, i4, i5, i6, i7, i8, i9⟩ :=
      gai_stores_inside (w.env m1) hw.base.base.wf hw.fits hw.alloc a1 a2 a3 a4 hst
    have hcq : (c2, q2) = (cc, asked c.mem hints hs ss) := by
      have : [(cc, asked c.mem hints hs ss)] = [(c2, q2)] := by rw [← i1, hask]
      simpa using this.symm
    obtain ⟨rfl, rfl⟩ := Prod.mk.inj hcq
    rw [hl] at i4
    simp only at i4
    have hn2 : n2 = BitVec.ofNat 64 (needed es) := by
      apply BitVec.eq_of_toNat_eq
      rw [i4, hn64]
    have hpp : p2 = p' := by
      have h1 : w.alloc n2 = some p2 := i3
      rw [hn2, hp] at h1
      exact (Option.some.inj h1).symm
    rw [hask] at i9
    simp only at i9
    apply applyStores_out
    intro s hs i hi e
    rcases i9 s hs with ⟨t1, t2⟩ | ⟨t1, t2⟩
    · rw [hpp] at t1
      rw [i4, hpp] at t2
      refine hx (p', needed es) (by simp) (s.addr.toNat - p'.toNat + i) (by simp only; omega) ?_
      rw [e]
      apply BitVec.eq_of_toNat_eq
      simp only [BitVec.toNat_add, BitVec.toNat_ofNat]
      omega
    · rw [t1] at e
      exact hx (a4, 8) (by simp) i (by simp only; omega) e
  refine ⟨c', ?_, ?_, ?_, b1, b2, k2, ?_⟩
  · rw [k1]; rfl
  · have := numAt_bytes k3 0 8 (by omega)
    simp only [Nat.add_zero] at this
    rw [this]
    exact j6
  · refine chain_congr ?_ j7
    intro x hx1 hx2
    show c'.mem _ = applyStores m1 _ _
    apply k4
    have key : ∀ o ∈ (res, 8) :: scratch w c n, Outside [o] (BitVec.ofNat 64 x) := by
      intro o ho y hy i hi e
      simp only [List.mem_singleton] at hy
      subst hy
      refine hfresh y ho (x - p'.toNat) i (by omega) hi ?_
      rw [← e]
      apply BitVec.eq_of_toNat_eq
      simp only [BitVec.toNat_add, BitVec.toNat_ofNat]
      omega
    intro y hy
    simp only [List.mem_cons, List.not_mem_nil, or_false] at hy
    rcases hy with rfl | rfl
    · exact key (w.localRes, 8) (by simp [scratch]) _ (by simp)
    · exact key (res, 8) (by simp) _ (by simp)
  · intro x hx
    rw [k4 x, hout x, hm1 x]
    · exact fun y hy => hx y (List.mem_cons_of_mem _ (List.mem_cons_of_mem _ (kept_scratch hy)))
    · apply outside_mono hx
      intro y hy
      simp only [List.mem_cons, List.not_mem_nil, or_false] at hy
      rcases hy with rfl | rfl
      · exact ⟨_, List.mem_cons_self, rfl, Nat.le_refl _⟩
      · exact ⟨o, List.mem_cons_of_mem _ (List.mem_cons_of_mem _ ho), ho1, ho2⟩
    · apply outside_mono hx
      intro y hy
      simp only [List.mem_cons, List.not_mem_nil, or_false] at hy
      rcases hy with rfl | rfl
      · exact ⟨(w.localRes, 8), by simp [scratch], rfl, Nat.le_refl _⟩
      · exact ⟨(res, 8), by simp, rfl, Nat.le_refl _⟩

/-- What the caller is told when there is no list: the function's result if it is positive; 0 if the function succeeded
with an empty list; and otherwise, instead of the function's result or `EAI_MEMORY`, the negated `errno`. -/
def toldFailure (r : Int × Int) (es : List Info) : CInt :=
  if 0 < r.1 then BitVec.ofInt 32 r.1 else if r.1 = 0 ∧ es = [] then 0 else BitVec.ofInt 32 (-r.2)

theorem finish_none {w : World} {r : Int × Int} {es : List Info} (m1 : Mem) (a4 : Word) (calls : List (Callee × Query))
    (hbad : r.1 ≠ 0 ∨ es = [] ∨ w.alloc (BitVec.ofNat 64 (needed es)) = none) :
    ∃ i, finish (w.env m1) a4 r es calls = ⟨.ok ⟨i, -1⟩, calls, [], false⟩ ∧ BitVec.ofInt 32 i = toldFailure r es := by
  have hneed : blockSize es = needed es := rfl
  unfold finish toldFailure
  by_cases h0 : r.1 = 0
  · rw [if_pos h0]
    by_cases h1 : es = []
    · rw [if_neg (fun h => h h1)]
      refine ⟨0, rfl, ?_⟩
      rw [if_neg (by omega), if_pos ⟨h0, h1⟩]
      rfl
    · rw [if_pos h1]
      have ha : w.alloc (BitVec.ofNat 64 (needed es)) = none := by
        rcases hbad with h | h | h
        · exact absurd h0 h
        · exact absurd h h1
        · exact h
      have hal : (Bounds.allocInSandbox (w.env m1).alloc 1 (BitVec.ofNat 64 (blockSize es))).1 = none := by
        rw [hneed, allocInSandbox_one]; exact ha
      simp only [hal]
      refine ⟨-r.2, rfl, ?_⟩
      rw [if_neg (by omega), if_neg (fun h => h1 h.2)]
  · rw [if_neg h0]
    by_cases h1 : 0 < r.1
    · refine ⟨r.1, by rw [if_pos (by omega)], ?_⟩
      rw [if_pos h1]
    · refine ⟨-r.2, by rw [if_neg (by omega)], ?_⟩
      rw [if_neg h1, if_neg (fun h => h0 h.1)]

/-- **C90, lookups that fail.**  If the function does not succeed, or its list is empty, or the sandbox has no memory for
the list, the function has still been called once with exactly what the program asked, and the caller is told what
`toldFailure` says; nothing but the child's scratch memory and the result has changed.  The result is not a result: it
is whatever was on the stack where `localRes` is. -/
theorem failed_lookup {w : World} {hist : List Export} {users : List Nat} {conf : List Config}
    (hw : Setup w hist users conf) {c : Child} {n : Nat} {host serv hints res : Word} {hs ss : List Byte}
    (hr : Ready w c n host serv hints res hs ss) {f : Callee} (hf : Chosen conf .getAddrInfo (some f))
    {r : Int × Int} {es : List Info} (hlook : w.look f (asked c.mem hints hs ss) = (r, es))
    (hbad : r.1 ≠ 0 ∨ es = [] ∨ w.alloc (BitVec.ofNat 64 (needed es)) = none) :
    ∃ c', getaddrinfo w c host serv hints res hs.length ss.length =
        .ok (toldFailure r es, [(f, asked c.mem hints hs ss)], c') ∧
      bytesAt c'.mem res 8 = bytesAt c.mem w.localRes 8 ∧ c'.live = c.live ∧
      ∀ x, Outside ((res, 8) :: scratch w c n) x → c'.mem x = c.mem x := by
  obtain ⟨a1, a2, a3, a4, m1, g1, g2, g3, g4, -, hm1, hall⟩ := lookup_spec hw hr
  have hroom := hr.room
  have hask := handler_asks hw hr.hostText hr.servText (by omega) (by omega) g1 g2 g3 g4.1
  rw [calleeOf_chosen hf (w.env m1) hw.base.policies] at hask
  simp only at hask
  have hl : (w.env m1).call f (asked c.mem hints hs ss) = (r, es) := hlook
  rw [hl] at hask
  simp only at hask
  obtain ⟨i, hfin, hi⟩ := finish_none (w := w) m1 a4 [(f, asked c.mem hints hs ss)] hbad
  rw [hfin] at hask
  obtain ⟨c', k1, k2, k3, -, k4⟩ := hall _ _ _ _ hask
  refine ⟨c', by rw [k1, hi], ?_, k2, ?_⟩
  · rw [k3]; exact g4.2
  · intro x hx
    rw [k4 x]
    · exact hm1 x fun y hy => hx y (List.mem_cons_of_mem _ (kept_scratch hy))
    · apply outside_mono hx
      intro y hy
      simp only [List.mem_cons, List.not_mem_nil, or_false] at hy
      rcases hy with rfl | rfl
      · exact ⟨(w.localRes, 8), by simp [scratch], rfl, Nat.le_refl _⟩
      · exact ⟨(res, 8), by simp, rfl, Nat.le_refl _⟩

/-- **C90, no permission.**  If the host has not allowed lookups, nothing is called, and the caller is told `-ENOSYS`. -/
theorem denied_lookup {w : World} {hist : List Export} {users : List Nat} {conf : List Config}
    (hw : Setup w hist users conf) {c : Child} {n : Nat} {host serv hints res : Word} {hs ss : List Byte}
    (hr : Ready w c n host serv hints res hs ss) (hf : Chosen conf .getAddrInfo none) :
    ∃ c', getaddrinfo w c host serv hints res hs.length ss.length = .ok (-38, [], c') ∧
      bytesAt c'.mem res 8 = bytesAt c.mem w.localRes 8 ∧ c'.live = c.live ∧
      ∀ x, Outside ((res, 8) :: scratch w c n) x → c'.mem x = c.mem x := by
  obtain ⟨a1, a2, a3, a4, m1, g1, g2, g3, g4, -, hm1, hall⟩ := lookup_spec hw hr
  have hroom := hr.room
  have hask := handler_asks hw hr.hostText hr.servText (by omega) (by omega) g1 g2 g3 g4.1
  rw [calleeOf_chosen hf (w.env m1) hw.base.policies] at hask
  simp only at hask
  obtain ⟨c', k1, k2, k3, -, k4⟩ := hall _ _ _ _ hask
  refine ⟨c', by rw [k1]; rfl, ?_, k2, ?_⟩
  · rw [k3]; exact g4.2
  · intro x hx
    rw [k4 x]
    · exact hm1 x fun y hy => hx y (List.mem_cons_of_mem _ (kept_scratch hy))
    · apply outside_mono hx
      intro y hy
      simp only [List.mem_cons, List.not_mem_nil, or_false] at hy
      rcases hy with rfl | rfl
      · exact ⟨(w.localRes, 8), by simp [scratch], rfl, Nat.le_refl _⟩
      · exact ⟨(res, 8), by simp, rfl, Nat.le_refl _⟩

/-- **C90, finding.**  A name that does not exist (`EAI_NONAME`, -2) and no `errno` set by the failing lookup: the
program is told 0, success, and takes the eight bytes that were on its stack for the address of the list. -/
theorem failure_reported_as_success {w : World} {hist : List Export} {users : List Nat} {conf : List Config}
    (hw : Setup w hist users conf) {c : Child} {n : Nat} {host serv hints res : Word} {hs ss : List Byte}
    (hr : Ready w c n host serv hints res hs ss) {f : Callee} (hf : Chosen conf .getAddrInfo (some f))
    {e : Int} (he : e < 0) {es : List Info} (hlook : w.look f (asked c.mem hints hs ss) = ((e, 0), es)) :
    ∃ calls c', getaddrinfo w c host serv hints res hs.length ss.length = .ok (0, calls, c') ∧
      bytesAt c'.mem res 8 = bytesAt c.mem w.localRes 8 := by
  obtain ⟨c', h1, h2, _⟩ := failed_lookup hw hr hf hlook (.inl (by simp only; omega))
  refine ⟨[(f, asked c.mem hints hs ss)], c', ?_, h2⟩
  rw [h1, toldFailure, if_neg (by simp only; omega), if_neg (by simp only; omega)]
  rfl

/-- **C90, hostile sandboxes.**  Whatever message a sandbox sends and whatever its memory holds, serving it as a lookup
calls at most one function, the one that the host has chosen for lookups, and changes nothing outside the sandbox's
heap. -/
theorem hostile_lookup {w : World} {hist : List Export} {users : List Nat} {conf : List Config}
    (hw : Setup w hist users conf) (m : Mem) (p : Packet) :
    (turn w m p).2.1.length ≤ 1 ∧ (∀ x ∈ (turn w m p).2.1, Chosen conf .getAddrInfo (some x.1)) ∧
    ∀ x : Word, ¬ (w.region.base.toNat ≤ x.toNat ∧ x.toNat < w.region.top.toNat) → (turn w m p).2.2 x = m x := by
  have hz : ∀ (P : (Callee × Query) → Prop) (Q : Word → Prop), ([] : Calls).length ≤ 1 ∧ (∀ x ∈ ([] : Calls), P x) ∧
    ∀ x : Word, Q x → m x = m x := fun P Q => ⟨by decide, nofun, fun _ _ => rfl⟩
  show (effects w m p).1.length ≤ 1 ∧ (∀ x ∈ (effects w m p).1, _) ∧ ∀ x : Word, _ → (effects w m p).2 x = m x
  unfold effects
  split
  · rename_i k _
    simp only
    split
    · exact hz _ _
    · unfold served
      split
      · rename_i hk
        generalize ((run w m (.builtin k) p.req p.fd).2).map m = bs
        generalize hh : handleGetaddrinfo (w.env m) (arg bs 0) (arg bs 1) (arg bs 2) (arg bs 3) = out
        have hcalls : out.calls = [] ∨ ∃ f q, out.calls = [(f, q)] ∧ Chosen conf .getAddrInfo (some f) := by
          subst hh
          rcases gai_shape (w.env m) (arg bs 0) (arg bs 1) (arg bs 2) (arg bs 3) with ⟨res, h⟩ | ⟨q, -, h⟩
          · rw [h]; exact .inl rfl
          · rw [h]
            rcases hc : calleeOf (w.env m).policies with _ | f
            · rcases ask_none _ (arg bs 3) q hc with h' | h' <;> rw [h'] <;> exact .inl rfl
            · rw [ask_some _ _ q f hc, finish_calls]
              exact .inr ⟨f, q, rfl, callee_chosen (by rw [← hw.base.policies]; exact hc)⟩
        refine ⟨?_, ?_, ?_⟩
        · rcases hcalls with h | ⟨f, q, h, _⟩ <;> rw [h] <;> simp
        · rcases hcalls with h | ⟨f, q, h, hf⟩
          · rw [h]; nofun
          · rw [h]
            intro x hx
            simp only [List.mem_singleton] at hx
            subst hx
            exact hf
        · intro x hx
          by_cases hst : out.stores = []
          · rw [hst]; rfl
          · subst hh
            obtain ⟨_, _, p2, n2, i1, i2, i3, i4, i5, i6, i7, i8, i9⟩ :=
              gai_stores_inside (w.env m) hw.base.base.wf hw.fits hw.alloc _ _ _ _ hst
            apply applyStores_out
            intro s hs i hi e
            apply hx
            have htop : (w.env m).region.top.toNat < 2 ^ 64 := (w.env m).region.top.isLt
            show (w.env m).region.base.toNat ≤ _ ∧ _ < (w.env m).region.top.toNat
            rw [e]
            simp only [BitVec.toNat_add, BitVec.toNat_ofNat]
            rcases i9 s hs with ⟨t1, t2⟩ | ⟨t1, t2⟩
            · omega
            · rw [t1]; omega
      · exact hz _ _
  · exact hz _ _

/-! ### A case that meets the conditions -/

def exConf : List Config := [.allow .getAddrInfo]

/-- Lookups are allowed; the system knows the name `"h"` and gives two addresses for it. -/
def exWorld : World where
  toNet := { NetEnd.exWorld with policies := configure exConf }
  look := fun _ q => if q.host = some [104] then ((0, 0), exInfos) else ((-2, 0), [])
  alloc := fun n => if n.toNat ≤ 0x1000 then some 0x1a000 else none
  localRes := 0x7000

theorem exSetup : Setup exWorld FileTree.exHist [3] exConf where
  base := { NetEnd.exSetup with policies := rfl }
  fits := by
    intro c q
    simp only [exWorld]
    split
    · exact exEnv_ok.2.1 c q
    · exact ⟨by decide, nofun⟩
  alloc := by
    intro n p h
    simp only [exWorld] at h
    split at h
    · simp only [Option.some.injEq] at h
      subst h
      refine ⟨by decide, ?_, by decide⟩
      show 0x1a000 + n.toNat ≤ 0x20000
      omega
    · simp at h
  mapped := by decide

/-- The name is a constant of the program (`x` is its letter), the service is empty, the hints are in the heap. -/
def exChild (x : Byte) : Child where
  mem := fun a => if a = 0x5000 then x else if a = 0x19004 then 2 else if a = 0x7001 then 9 else 0
  live := [0x17000]
  mallocs := [0x18000, 0x18200, 0x18400, 0x18600, 0x18800]

theorem exReady (x : Byte) (hx : x ≠ 0) : Ready exWorld (exChild x) 64 0x5000 0x5100 0x19000 0x6000 [x] [] where
  room := by simp only [List.length_cons, List.length_nil]; decide
  hostText := by
    refine ⟨?_, rfl⟩
    intro i hi
    have : i = 0 := by simp at hi; exact hi
    subst this
    exact ⟨rfl, hx⟩
  servText := ⟨nofun, rfl⟩
  objs := by
    intro o ho
    simp only [objects, List.length_cons, List.length_nil, List.mem_cons, List.not_mem_nil, or_false] at ho
    rcases ho with rfl | rfl | rfl | rfl
    · exact ⟨⟨by decide, .inr ⟨by decide, by decide⟩⟩, EndToEnd.apart_of_lt (by decide) (by decide)⟩
    · exact ⟨⟨by decide, .inr ⟨by decide, by decide⟩⟩, EndToEnd.apart_of_lt (by decide) (by decide)⟩
    · exact ⟨⟨by decide, .inl (by simp only [InHeap]; decide)⟩, EndToEnd.apart_of_lt (by decide) (by decide)⟩
    · exact ⟨⟨by decide, .inr ⟨by decide, by decide⟩⟩, EndToEnd.apart_of_lt (by decide) (by decide)⟩
  stack := ⟨by decide, .inl (by simp only [InHeap]; decide)⟩
  place := by decide
  pool := by
    have hm : (exChild x).mallocs.take 5 = [0x18000, 0x18200, 0x18400, 0x18600, 0x18800] := rfl
    refine ⟨Nat.le_refl _, ?_, ?_, ?_⟩
    · rw [hm]
      intro p hp
      simp only [List.mem_cons, List.not_mem_nil, or_false] at hp
      rcases hp with rfl | rfl | rfl | rfl | rfl <;> (simp only [InHeap]; decide)
    · rw [hm]
      intro p hp o ho
      simp only [objects, List.length_cons, List.length_nil, List.mem_cons, List.not_mem_nil, or_false] at hp ho
      rcases hp with rfl | rfl | rfl | rfl | rfl <;> rcases ho with rfl | rfl | rfl | rfl | rfl <;>
        first
        | exact EndToEnd.apart_of_lt (by decide) (by decide)
        | exact EndToEnd.apart_of_gt (by decide) (by decide)
    · rw [hm]
      simp only [List.pairwise_cons, List.mem_cons, List.not_mem_nil, or_false, forall_eq_or_imp, forall_eq,
        List.Pairwise.nil, and_true, false_implies, implies_true]
      refine ⟨⟨?_, ?_, ?_, ?_⟩, ⟨?_, ?_, ?_⟩, ⟨?_, ?_⟩, ?_⟩ <;> exact EndToEnd.apart_of_gt (by decide) (by decide)
  fresh := by
    intro k p hp o ho
    simp only [exWorld] at hp
    split at hp
    · rename_i hk
      simp only [Option.some.injEq] at hp
      subst hp
      intro i j hi hj e
      have he := congrArg BitVec.toNat e
      simp only [scratch, exWorld, NetEnd.exWorld, exChild, List.take, List.map, List.mem_cons, List.not_mem_nil,
        or_false] at ho
      rcases ho with rfl | rfl | rfl | rfl | rfl | rfl | rfl | rfl <;> simp only [] at hj <;> bv_omega
    · cases hp

/-- `getaddrinfo("h", "", hints, &res)` gives the two addresses. -/
example : ∃ c', getaddrinfo exWorld (exChild 104) 0x5000 0x5100 0x19000 0x6000 1 0 =
      .ok (0, [(.system .getAddrInfo, ⟨some [104], some [], some (0, 2, 0, 0)⟩)], c') ∧
    numAt (asNat c'.mem) 0x6000 8 = 0x1a000 ∧
    Chain (asNat c'.mem) 0x1a000 (0x1a000 + 105) 0x1a000 (exInfos.map Info.seen) := by
  obtain ⟨c', h1, h2, h3, _⟩ := lookup_end_to_end exSetup (exReady 104 (by decide)) (f := .system .getAddrInfo)
    (.allowed ⟨[], [], rfl, rfl, nofun⟩) (errno := 0) (es := exInfos) rfl (by decide) (p := 0x1a000) rfl
  exact ⟨c', h1, h2, h3⟩

/-- An unknown name: the program is told that the lookup succeeded, and gets the address `0x900` that was on the stack. -/
example : ∃ calls c', getaddrinfo exWorld (exChild 105) 0x5000 0x5100 0x19000 0x6000 1 0 = .ok (0, calls, c') ∧
    bytesAt c'.mem 0x6000 8 = [0, 9, 0, 0, 0, 0, 0, 0] :=
  failure_reported_as_success exSetup (exReady 105 (by decide)) (f := .system .getAddrInfo)
    (.allowed ⟨[], [], rfl, rfl, nofun⟩) (e := -2) (by decide) (es := []) rfl

/-- A host that has allowed `bind` but not lookups. -/
example : ∃ c', getaddrinfo { exWorld with toNet := { exWorld.toNet with policies := configure [.allow .bind] } }
    (exChild 104) 0x5000 0x5100 0x19000 0x6000 1 0 = .ok (-38, [], c') := by
  obtain ⟨c', h, _⟩ := denied_lookup
    (w := { exWorld with toNet := { exWorld.toNet with policies := configure [.allow .bind] } })
    { base := { NetEnd.exSetup with policies := rfl }, fits := exSetup.fits, alloc := exSetup.alloc,
      mapped := exSetup.mapped } (c := exChild 104) (n := 64) (hs := [104]) (ss := [])
    { exReady 104 (by decide) with } (.untouched (by intro x hx; simp at hx; subst hx; decide))
  exact ⟨c', h⟩

/-- A hostile sandbox sends a message whose frame is not in the heap: nothing is called. -/
example : (turn exWorld (exChild 104).mem ⟨24, ⟨6, 32, 0x5000⟩, -1⟩).2.1 = [] := by decide +kernel

/-- And one whose frame is there and names a place in the heap for the result: the system's function is called, without
names and hints. -/
example : (turn exWorld (fun a => if a = 0x18001 then 0x90 else if a = 0x18002 then 1 else 0)
    ⟨24, ⟨6, 32, 0x18000⟩, -1⟩).2.1 = [(.system .getAddrInfo, ⟨none, none, none⟩)] := by decide +kernel

end Verif.NameEnd
