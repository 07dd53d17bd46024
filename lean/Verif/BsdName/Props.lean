import Verif.BsdName.Lemmas

/-!
# Name lookups of the sandboxed program on FreeBSD, end to end: theorems
-/

namespace Verif.BsdName

open Verif.Bounds (Region contains contains_iff)
open Verif.Strings Verif.Strings.Spec
open Verif.FileTree (Export)
open Verif.Callback (Handler Packet Event Result tableOf dispatch_tableOf copyAddrs copyAddrs_length)
open Verif.Net (Op Config Callee configure)
open Verif.NetEnd (Chosen)
open Verif.AddrInfo (Query Info Out Env Store leBytes applyStores infoSize extraOf blockSize copyHints AllocOk needed ListsFit
  allocInSandbox_one calleeOf read32 read32_num strdupOut_nameSeen)
open Verif.AddrInfo.Spec (numAt Seen)
open Verif.ChildArgs (Bounds Child Wrapped wrapPtr wrapCStr wrapGetAddrInfo andThen unwrap bytesAt Apart InHeap Object
  blit blit_bytes blit_else)
open Verif.Syscall (CInt Reply)
open Verif.EndToEnd (le ofLe le_length ofLe_le64 copy_bytes Pool Outside wrap_spec wrap_pool pool_last bytesAt_write
  bytesAt_congr bytesAt_get bytesAt_length bytesAt_eq_get answerOf inHeap_mono apart_mono apart_symm outside_mono
  outside_of_apart asNat_add cstring_moved cstring_unique)
open Verif.NameEnd (World Calls frameSize release Setup wrapAll wrapAll_pool wrapGetAddrInfo_all copies objects scratch kept Ready
  asked goods_after goods_four unwrap_live unwrap_in_mem unwrap_out_mem response_low kept_scratch numAt_bytes name_seen
  numAt_congr applyStores_out apart_nat callee_chosen)
open Verif.BsdNet (noSys)
open Spec (Chain)

/-- **C126, lookups that succeed (part that holds).**  A sandboxed program looks a name up; the two names, the hints and the place for the
result may be anywhere in its memory.  The function that the host has chosen is called once, with exactly the two names
and the four numbers of the hints.  If it succeeds with the list `es` and the sandbox has memory for it, the program is
told 0 and finds at `*res` the address of a block in its own heap, in which there is the list `es`; apart from that
block and the result, only the child's own scratch memory has changed, and the copies are free again.  What is missing: the
pointers to canonical names in the list are the host's (`bsd_canon_leak`). -/
theorem bsd_lookup_partial {w : World} {hist : List Export} {users : List Nat} {conf : List Config}
    (hw : Setup w hist users conf) {c : Child} {n : Nat} {host serv hints res : Word} {hs ss : List Byte}
    (hr : Ready w c n host serv hints res hs ss) {f : Callee} (hf : Chosen conf .getAddrInfo (some f))
    {errno : Int} {es : List Info} (hlook : w.look f (asked c.mem hints hs ss) = ((0, errno), es)) (hne : es ≠ [])
    {p : Word} (hp : w.alloc (BitVec.ofNat 64 (needed es)) = some p) :
    ∃ c', getaddrinfo w c host serv hints res hs.length ss.length = .ok (0, [(f, asked c.mem hints hs ss)], c') ∧
      numAt (asNat c'.mem) res.toNat 8 = p.toNat ∧
      Chain (asNat c'.mem) p.toNat (p.toNat + needed es) p.toNat (es.map Info.seen) ∧
      w.region.base.toNat ≤ p.toNat ∧ p.toNat + needed es ≤ w.region.top.toNat ∧ c'.live = c.live ∧
      ∀ x, Outside ((p, needed es) :: (res, 8) :: scratch w c n) x → c'.mem x = c.mem x := by
  obtain ⟨a1, a2, a3, a4, m1, g1, g2, g3, g4, ⟨o, ho, ho1, ho2⟩, hm1, hall⟩ := lookup_spec hw hr
  have hroom := hr.room
  have hask := handler_asks hw hr.hostText hr.servText (by omega) (by omega) g1 g2 g3 g4.1
  rw [calleeOf_chosen hf (w.env m1) hw.base.policies] at hask
  simp only at hask
  have hl : (w.env m1).call f (asked c.mem hints hs ss) = ((0, errno), es) := hlook
  have hneed : blockSize es = needed es := rfl
  have hal : (Bounds.allocInSandbox (w.env m1).alloc 1 (BitVec.ofNat 64 (blockSize es))).1 = some p := by
    rw [hneed, allocInSandbox_one]; exact hp
  rw [hl] at hask
  simp only [finish, if_true, if_pos hne, hal] at hask
  obtain ⟨c', k1, k2, k3, -, k4⟩ := hall _ _ _ _ hask
  have hst : (handleGetaddrinfo (w.env m1) a1 a2 a3 a4).stores ≠ [] := by
    rw [hask]; simp [fillBlock]
  have hfit := hw.fits f (asked c.mem hints hs ss)
  rw [hlook] at hfit
  simp only at hfit
  have hpos : 48 ≤ needed es := by
    cases es with
    | nil => exact absurd rfl hne
    | cons e es => simp only [needed, List.length_cons]; omega
  have hn64 : (BitVec.ofNat 64 (needed es)).toNat = needed es := by simp; omega
  obtain ⟨b1, b2, b3⟩ := hw.alloc _ _ hp
  rw [hn64] at b2
  have htop := w.region.top.isLt
  have hslot := (contains_iff w.hdr w.region hw.base.base.wf a4 _).1 g4.1
  have h8 : (BitVec.ofNat 64 8 : Word).toNat = 8 := rfl
  rw [h8] at hslot
  have hfresh := hr.fresh _ _ hp
  rw [hn64] at hfresh
  have hapart : Apart p (needed es) a4 8 := by
    rw [ho1]
    exact apart_mono (hfresh o (List.mem_cons_of_mem _ ho)) (Nat.le_refl _) ho2
  have hdis := apart_nat hapart (by omega) (by omega) (by omega) (by omega)
  -- what the list is
  obtain ⟨cc, q, p', n', j1, j2, j3, j4, j5⟩ :=
    gai_list_partial (w.env m1) hw.fits hw.alloc a1 a2 a3 a4 m1 hst
  have hcq : (cc, q) = (f, asked c.mem hints hs ss) := by
    have : [(f, asked c.mem hints hs ss)] = [(cc, q)] := by rw [← j1, hask]
    simpa using this.symm
  obtain ⟨rfl, rfl⟩ := Prod.mk.inj hcq
  rw [hl] at j4 j5
  simp only at j4 j5
  have hn' : n' = BitVec.ofNat 64 (needed es) := by
    apply BitVec.eq_of_toNat_eq
    rw [j4, hn64]
  have hpp : p' = p := by
    have h1 : w.alloc n' = some p' := j3
    rw [hn', hp] at h1
    exact (Option.some.inj h1).symm
  subst hpp
  rw [j4] at j5
  obtain ⟨j6, j7⟩ := j5 (by omega)
  rw [hask] at j6 j7
  simp only at j6 j7
  -- where the stores are
  have hout : ∀ x, Outside [(p', needed es), (a4, 8)] x → applyStores m1 (fillBlock p' a4 es) x = m1 x := by
    intro x hx
    obtain ⟨c2, q2, p2, n2, i1, i2, i3, i4, i5, i6, i7, i8, i9⟩ :=
      gai_stores_inside (w.env m1) hw.base.base.wf hw.fits hw.alloc a1 a2 a3 a4 hst
    have hcq : (c2, q2) = (cc, asked c.mem hints hs ss) := by
      have : [(cc, asked c.mem hints hs ss)] = [(c2, q2)] := by rw [← i1, hask]
      simpa using this.symm
    obtain ⟨rfl, rfl⟩ := Prod.mk.inj hcq
    rw [hl] at i4
    simp only at i4
    have hn2 : n2 = BitVec.ofNat 64 (needed es) := by
      apply BitVec.eq_of_toNat_eq
      rw [i4, hn64]
    have hpp : p2 = p' := by
      have h1 : w.alloc n2 = some p2 := i3
      rw [hn2, hp] at h1
      exact (Option.some.inj h1).symm
    rw [hask] at i9
    simp only at i9
    apply applyStores_out
    intro s hs i hi e
    rcases i9 s hs with ⟨t1, t2⟩ | ⟨t1, t2⟩
    · rw [hpp] at t1
      rw [i4, hpp] at t2
      refine hx (p', needed es) (by simp) (s.addr.toNat - p'.toNat + i) (by simp only; omega) ?_
      rw [e]
      apply BitVec.eq_of_toNat_eq
      simp only [BitVec.toNat_add, BitVec.toNat_ofNat]
      omega
    · rw [t1] at e
      exact hx (a4, 8) (by simp) i (by simp only; omega) e
  refine ⟨c', ?_, ?_, ?_, b1, b2, k2, ?_⟩
  · rw [k1]; rfl
  · have := numAt_bytes k3 0 8 (by omega)
    simp only [Nat.add_zero] at this
    rw [this]
    exact j6
  · refine chain_congr ?_ j7
    intro x hx1 hx2
    show c'.mem _ = applyStores m1 _ _
    apply k4
    have key : ∀ o ∈ (res, 8) :: scratch w c n, Outside [o] (BitVec.ofNat 64 x) := by
      intro o ho y hy i hi e
      simp only [List.mem_singleton] at hy
      subst hy
      refine hfresh y ho (x - p'.toNat) i (by omega) hi ?_
      rw [← e]
      apply BitVec.eq_of_toNat_eq
      simp only [BitVec.toNat_add, BitVec.toNat_ofNat]
      omega
    intro y hy
    simp only [List.mem_cons, List.not_mem_nil, or_false] at hy
    rcases hy with rfl | rfl
    · exact key (w.localRes, 8) (by simp [scratch]) _ (by simp)
    · exact key (res, 8) (by simp) _ (by simp)
  · intro x hx
    rw [k4 x, hout x, hm1 x]
    · exact fun y hy => hx y (List.mem_cons_of_mem _ (List.mem_cons_of_mem _ (kept_scratch hy)))
    · apply outside_mono hx
      intro y hy
      simp only [List.mem_cons, List.not_mem_nil, or_false] at hy
      rcases hy with rfl | rfl
      · exact ⟨_, List.mem_cons_self, rfl, Nat.le_refl _⟩
      · exact ⟨o, List.mem_cons_of_mem _ (List.mem_cons_of_mem _ ho), ho1, ho2⟩
    · apply outside_mono hx
      intro y hy
      simp only [List.mem_cons, List.not_mem_nil, or_false] at hy
      rcases hy with rfl | rfl
      · exact ⟨(w.localRes, 8), by simp [scratch], rfl, Nat.le_refl _⟩
      · exact ⟨(res, 8), by simp, rfl, Nat.le_refl _⟩

/-- What the caller is told when there is no list: the function's result if it is positive, as all of FreeBSD's error codes are;
0 if the function succeeded with an empty list; `EAI_MEMORY` if there is no memory for the list; and for a negative result the
negated `errno`. -/
def toldFailure (r : Int × Int) (es : List Info) : CInt :=
  if 0 < r.1 then BitVec.ofInt 32 r.1
  else if r.1 = 0 then if es = [] then 0 else 6
  else BitVec.ofInt 32 (-r.2)

theorem finish_none {w : World} {r : Int × Int} {es : List Info} (m1 : Mem) (a4 : Word) (calls : List (Callee × Query))
    (hbad : r.1 ≠ 0 ∨ es = [] ∨ w.alloc (BitVec.ofNat 64 (needed es)) = none) :
    ∃ i, finish (w.env m1) a4 r es calls = ⟨.ok ⟨i, -1⟩, calls, [], false⟩ ∧ BitVec.ofInt 32 i = toldFailure r es := by
  have hneed : blockSize es = needed es := rfl
  unfold finish toldFailure
  by_cases h0 : r.1 = 0
  · rw [if_pos h0]
    by_cases h1 : es = []
    · rw [if_neg (fun h => h h1)]
      refine ⟨0, rfl, ?_⟩
      rw [if_neg (by omega), if_pos h0, if_pos h1]
      rfl
    · rw [if_pos h1]
      have ha : w.alloc (BitVec.ofNat 64 (needed es)) = none := by
        rcases hbad with h | h | h
        · exact absurd h0 h
        · exact absurd h h1
        · exact h
      have hal : (Bounds.allocInSandbox (w.env m1).alloc 1 (BitVec.ofNat 64 (blockSize es))).1 = none := by
        rw [hneed, allocInSandbox_one]; exact ha
      simp only [hal]
      refine ⟨6, rfl, ?_⟩
      rw [if_neg (by omega), if_pos h0, if_neg h1]
      rfl
  · rw [if_neg h0]
    by_cases h1 : 0 < r.1
    · refine ⟨r.1, by rw [if_pos (by omega)], ?_⟩
      rw [if_pos h1]
    · refine ⟨-r.2, by rw [if_neg (by omega)], ?_⟩
      rw [if_neg h1, if_neg h0]

/-- **C126, lookups that fail.**  If the function does not succeed, or its list is empty, or the sandbox has no memory for
the list, the function has still been called once with exactly what the program asked, and the caller is told what
`toldFailure` says; nothing but the child's scratch memory and the result has changed.  The result is not a result: it
is whatever was on the stack where `localRes` is. -/
theorem bsd_failed_lookup {w : World} {hist : List Export} {users : List Nat} {conf : List Config}
    (hw : Setup w hist users conf) {c : Child} {n : Nat} {host serv hints res : Word} {hs ss : List Byte}
    (hr : Ready w c n host serv hints res hs ss) {f : Callee} (hf : Chosen conf .getAddrInfo (some f))
    {r : Int × Int} {es : List Info} (hlook : w.look f (asked c.mem hints hs ss) = (r, es))
    (hbad : r.1 ≠ 0 ∨ es = [] ∨ w.alloc (BitVec.ofNat 64 (needed es)) = none) :
    ∃ c', getaddrinfo w c host serv hints res hs.length ss.length =
        .ok (toldFailure r es, [(f, asked c.mem hints hs ss)], c') ∧
      bytesAt c'.mem res 8 = bytesAt c.mem w.localRes 8 ∧ c'.live = c.live ∧
      ∀ x, Outside ((res, 8) :: scratch w c n) x → c'.mem x = c.mem x := by
  obtain ⟨a1, a2, a3, a4, m1, g1, g2, g3, g4, -, hm1, hall⟩ := lookup_spec hw hr
  have hroom := hr.room
  have hask := handler_asks hw hr.hostText hr.servText (by omega) (by omega) g1 g2 g3 g4.1
  rw [calleeOf_chosen hf (w.env m1) hw.base.policies] at hask
  simp only at hask
  have hl : (w.env m1).call f (asked c.mem hints hs ss) = (r, es) := hlook
  rw [hl] at hask
  simp only at hask
  obtain ⟨i, hfin, hi⟩ := finish_none (w := w) m1 a4 [(f, asked c.mem hints hs ss)] hbad
  rw [hfin] at hask
  obtain ⟨c', k1, k2, k3, -, k4⟩ := hall _ _ _ _ hask
  refine ⟨c', by rw [k1, hi], ?_, k2, ?_⟩
  · rw [k3]; exact g4.2
  · intro x hx
    rw [k4 x]
    · exact hm1 x fun y hy => hx y (List.mem_cons_of_mem _ (kept_scratch hy))
    · apply outside_mono hx
      intro y hy
      simp only [List.mem_cons, List.not_mem_nil, or_false] at hy
      rcases hy with rfl | rfl
      · exact ⟨(w.localRes, 8), by simp [scratch], rfl, Nat.le_refl _⟩
      · exact ⟨(res, 8), by simp, rfl, Nat.le_refl _⟩

/-- **C126, no permission.**  If the host has not allowed lookups, nothing is called, and the caller is told `-ENOSYS`,
which is -78. -/
theorem bsd_denied_lookup {w : World} {hist : List Export} {users : List Nat} {conf : List Config}
    (hw : Setup w hist users conf) {c : Child} {n : Nat} {host serv hints res : Word} {hs ss : List Byte}
    (hr : Ready w c n host serv hints res hs ss) (hf : Chosen conf .getAddrInfo none) :
    ∃ c', getaddrinfo w c host serv hints res hs.length ss.length = .ok (-78, [], c') ∧
      bytesAt c'.mem res 8 = bytesAt c.mem w.localRes 8 ∧ c'.live = c.live ∧
      ∀ x, Outside ((res, 8) :: scratch w c n) x → c'.mem x = c.mem x := by
  obtain ⟨a1, a2, a3, a4, m1, g1, g2, g3, g4, -, hm1, hall⟩ := lookup_spec hw hr
  have hroom := hr.room
  have hask := handler_asks hw hr.hostText hr.servText (by omega) (by omega) g1 g2 g3 g4.1
  rw [calleeOf_chosen hf (w.env m1) hw.base.policies] at hask
  simp only at hask
  obtain ⟨c', k1, k2, k3, -, k4⟩ := hall _ _ _ _ hask
  refine ⟨c', by rw [k1]; rfl, ?_, k2, ?_⟩
  · rw [k3]; exact g4.2
  · intro x hx
    rw [k4 x]
    · exact hm1 x fun y hy => hx y (List.mem_cons_of_mem _ (kept_scratch hy))
    · apply outside_mono hx
      intro y hy
      simp only [List.mem_cons, List.not_mem_nil, or_false] at hy
      rcases hy with rfl | rfl
      · exact ⟨(w.localRes, 8), by simp [scratch], rfl, Nat.le_refl _⟩
      · exact ⟨(res, 8), by simp, rfl, Nat.le_refl _⟩

/-- **C126, errors.**  Every error code that FreeBSD's lookups give is positive, and the program is told exactly that code;
if the sandbox has no memory for the list, it is told `EAI_MEMORY`.  (On Linux neither is so, see C90.) -/
theorem bsd_error_told {w : World} {hist : List Export} {users : List Nat} {conf : List Config}
    (hw : Setup w hist users conf) {c : Child} {n : Nat} {host serv hints res : Word} {hs ss : List Byte}
    (hr : Ready w c n host serv hints res hs ss) {f : Callee} (hf : Chosen conf .getAddrInfo (some f))
    {e errno : Int} {es : List Info} (hlook : w.look f (asked c.mem hints hs ss) = ((e, errno), es)) :
    (0 < e → e < 2 ^ 31 → ∃ v calls c', getaddrinfo w c host serv hints res hs.length ss.length = .ok (v, calls, c') ∧
      v.toInt = e) ∧
    (e = 0 → es ≠ [] → w.alloc (BitVec.ofNat 64 (needed es)) = none →
      ∃ calls c', getaddrinfo w c host serv hints res hs.length ss.length = .ok (6, calls, c')) := by
  constructor
  · intro h1 h2
    obtain ⟨c', h, _⟩ := bsd_failed_lookup hw hr hf hlook (.inl (by simp only; omega))
    refine ⟨_, _, c', h, ?_⟩
    rw [toldFailure, if_pos h1]
    rw [BitVec.toInt_ofInt]
    simp only [Int.bmod]
    omega
  · intro h1 h2 h3
    obtain ⟨c', h, _⟩ := bsd_failed_lookup hw hr hf hlook (.inr (.inr h3))
    refine ⟨[(f, asked c.mem hints hs ss)], c', ?_⟩
    rw [h, toldFailure, if_neg (by simp only; omega), if_pos h1, if_neg h2]

/-- **C126, finding.**  A function of the host program that reports failure by a negative number, as system calls do, and leaves
`errno` at zero: the program is told 0, success, and takes the eight bytes that were on its stack for the address of the list. -/
theorem bsd_negative_told_success {w : World} {hist : List Export} {users : List Nat} {conf : List Config}
    (hw : Setup w hist users conf) {c : Child} {n : Nat} {host serv hints res : Word} {hs ss : List Byte}
    (hr : Ready w c n host serv hints res hs ss) {f : Callee} (hf : Chosen conf .getAddrInfo (some f))
    {e : Int} (he : e < 0) {es : List Info} (hlook : w.look f (asked c.mem hints hs ss) = ((e, 0), es)) :
    ∃ calls c', getaddrinfo w c host serv hints res hs.length ss.length = .ok (0, calls, c') ∧
      bytesAt c'.mem res 8 = bytesAt c.mem w.localRes 8 := by
  obtain ⟨c', h1, h2, _⟩ := bsd_failed_lookup hw hr hf hlook (.inl (by simp only; omega))
  refine ⟨[(f, asked c.mem hints hs ss)], c', ?_, h2⟩
  rw [h1, toldFailure, if_neg (by simp only; omega), if_neg (by simp only; omega)]
  rfl

/-- **C126, finding, for every lookup.**  Every pointer to a canonical name that the host's function gives, an address of the
host's memory, is afterwards in the block that the program was given. -/
theorem bsd_canon_leak {w : World} {hist : List Export} {users : List Nat} {conf : List Config}
    (hw : Setup w hist users conf) {c : Child} {n : Nat} {host serv hints res : Word} {hs ss : List Byte}
    (hr : Ready w c n host serv hints res hs ss) {f : Callee} (hf : Chosen conf .getAddrInfo (some f))
    {errno : Int} {es : List Info} (hlook : w.look f (asked c.mem hints hs ss) = ((0, errno), es)) (hne : es ≠ [])
    {p : Word} (hp : w.alloc (BitVec.ofNat 64 (needed es)) = some p) :
    ∃ v calls c', getaddrinfo w c host serv hints res hs.length ss.length = .ok (v, calls, c') ∧
      ∀ e ∈ es, ∃ a, p.toNat ≤ a ∧ a + 8 ≤ p.toNat + needed es ∧ numAt (asNat c'.mem) a 8 = e.canon.toNat := by
  obtain ⟨c', h1, _, h3, _⟩ := bsd_lookup_partial hw hr hf hlook hne hp
  refine ⟨_, _, c', h1, fun e he => ?_⟩
  obtain ⟨a, h4, h5, h6⟩ := chain_canon h3 e.seen (List.mem_map_of_mem he)
  exact ⟨a + 24, by omega, by omega, h6⟩

/-- **C126, hostile sandboxes.**  Whatever message a sandbox sends and whatever its memory holds, serving it as a lookup
calls at most one function, the one that the host has chosen for lookups, and changes nothing outside the sandbox's
heap. -/
theorem bsd_hostile_lookup {w : World} {hist : List Export} {users : List Nat} {conf : List Config}
    (hw : Setup w hist users conf) (m : Mem) (p : Packet) :
    (turn w m p).2.1.length ≤ 1 ∧ (∀ x ∈ (turn w m p).2.1, Chosen conf .getAddrInfo (some x.1)) ∧
    ∀ x : Word, ¬ (w.region.base.toNat ≤ x.toNat ∧ x.toNat < w.region.top.toNat) → (turn w m p).2.2 x = m x := by
  have hz : ∀ (P : (Callee × Query) → Prop) (Q : Word → Prop), ([] : Calls).length ≤ 1 ∧ (∀ x ∈ ([] : Calls), P x) ∧
    ∀ x : Word, Q x → m x = m x := fun P Q => ⟨by decide, nofun, fun _ _ => rfl⟩
  show (effects w m p).1.length ≤ 1 ∧ (∀ x ∈ (effects w m p).1, _) ∧ ∀ x : Word, _ → (effects w m p).2 x = m x
  unfold effects
  split
  · rename_i k _
    simp only
    split
    · exact hz _ _
    · unfold served
      split
      · rename_i hk
        generalize ((run w m (.builtin k) p.req p.fd).2).map m = bs
        generalize hh : handleGetaddrinfo (w.env m) (arg bs 0) (arg bs 1) (arg bs 2) (arg bs 3) = out
        have hcalls : out.calls = [] ∨ ∃ f q, out.calls = [(f, q)] ∧ Chosen conf .getAddrInfo (some f) := by
          subst hh
          rcases gai_shape (w.env m) (arg bs 0) (arg bs 1) (arg bs 2) (arg bs 3) with ⟨res, h⟩ | ⟨q, -, h⟩
          · rw [h]; exact .inl rfl
          · rw [h]
            rcases hc : calleeOf (w.env m).policies with _ | f
            · rcases ask_none _ (arg bs 3) q hc with h' | h' <;> rw [h'] <;> exact .inl rfl
            · rw [ask_some _ _ q f hc, finish_calls]
              exact .inr ⟨f, q, rfl, callee_chosen (by rw [← hw.base.policies]; exact hc)⟩
        refine ⟨?_, ?_, ?_⟩
        · rcases hcalls with h | ⟨f, q, h, _⟩ <;> rw [h] <;> simp
        · rcases hcalls with h | ⟨f, q, h, hf⟩
          · rw [h]; nofun
          · rw [h]
            intro x hx
            simp only [List.mem_singleton] at hx
            subst hx
            exact hf
        · intro x hx
          by_cases hst : out.stores = []
          · rw [hst]; rfl
          · subst hh
            obtain ⟨_, _, p2, n2, i1, i2, i3, i4, i5, i6, i7, i8, i9⟩ :=
              gai_stores_inside (w.env m) hw.base.base.wf hw.fits hw.alloc _ _ _ _ hst
            apply applyStores_out
            intro s hs i hi e
            apply hx
            have htop : (w.env m).region.top.toNat < 2 ^ 64 := (w.env m).region.top.isLt
            show (w.env m).region.base.toNat ≤ _ ∧ _ < (w.env m).region.top.toNat
            rw [e]
            simp only [BitVec.toNat_add, BitVec.toNat_ofNat]
            rcases i9 s hs with ⟨t1, t2⟩ | ⟨t1, t2⟩
            · omega
            · rw [t1]; omega
      · exact hz _ _
  · exact hz _ _

/-- **C126, the host.** A request whose result slot, or whose non-null hints, are not inside the heap is
refused with `EAI_MEMORY` or `EAI_BADHINTS`: the policy is not asked and nothing is stored. -/
theorem bsd_refused (v : Env) (hwf : v.region.WF v.hdr) (host service hints slot : Word) :
    (¬ (v.region.base.toNat + v.hdr.toNat ≤ slot.toNat ∧ slot.toNat + 8 ≤ v.region.top.toNat) →
      handleGetaddrinfo v host service hints slot = ⟨.ok ⟨6, -1⟩, [], [], false⟩) ∧
    (v.region.base.toNat + v.hdr.toNat ≤ slot.toNat ∧ slot.toNat + 8 ≤ v.region.top.toNat →
      hints ≠ 0 →
      ¬ (v.region.base.toNat + v.hdr.toNat ≤ hints.toNat ∧
        hints.toNat + 48 ≤ v.region.top.toNat) →
      handleGetaddrinfo v host service hints slot = ⟨.ok ⟨12, -1⟩, [], [], false⟩) := by
  have h8 : (8 : Word).toNat = 8 := rfl
  have h48 : (BitVec.ofNat 64 infoSize).toNat = 48 := rfl
  constructor
  · intro hbad
    unfold handleGetaddrinfo
    rw [if_pos]
    · rfl
    · rw [Bool.eq_false_iff]
      intro hc
      rw [contains_iff v.hdr v.region hwf] at hc
      omega
  · intro hslot hh hbad
    unfold handleGetaddrinfo
    rw [if_neg, if_pos]
    · rfl
    · refine ⟨hh, ?_⟩
      rw [Bool.eq_false_iff]
      intro hc
      rw [contains_iff v.hdr v.region hwf] at hc
      omega
    · rw [Bool.not_eq_false, contains_iff v.hdr v.region hwf]
      omega

/-- **C126, the host.**  The host gives the list back to its resolver exactly if it has copied it: a list for which the sandbox
has no memory, and one that is empty, is kept for ever. -/
theorem bsd_freed_iff (v : Env) (slot : Word) (q : Query) (c : Callee) (h : calleeOf v.policies = some c)
    (h0 : (v.call c q).1.1 = 0) :
    (ask v slot q).freed = true ↔ (v.call c q).2 ≠ [] ∧ v.alloc (BitVec.ofNat 64 (needed (v.call c q).2)) ≠ none := by
  rw [ask_some v slot q c h]
  unfold finish
  have hneeded : blockSize (v.call c q).2 = needed (v.call c q).2 := rfl
  rw [hneeded, allocInSandbox_one, if_pos h0]
  by_cases hne : (v.call c q).2 = []
  · simp [hne]
  · rw [if_pos hne]
    rcases v.alloc (BitVec.ofNat 64 (needed (v.call c q).2)) with _ | p <;> simp [hne]

/-- **C126, the code's own answer.**  A request for a lookup whose size is not that of the frame or whose frame is not wholly
in the heap is answered with FreeBSD's `ENOSYS`; nothing is called and nothing written. -/
theorem bsd_own_answer {w : World} {hist : List Export} {users : List Nat} {conf : List Config}
    (hw : Setup w hist users conf) (m : Mem) (p : Packet) (hlen : 24 ≤ p.len) (hk : p.req.kind = 6)
    (hbad : ¬ (p.req.size.toNat = 32 ∧ w.region.base.toNat + w.hdr.toNat ≤ p.req.data.toNat ∧
      p.req.data.toNat + 32 ≤ w.region.top.toNat)) :
    turn w m p = (.ok [.received p.req p.fd, .replied (-78) (-1)], [], m) := by
  have hd : Callback.dispatch w.table (6 : Word) = some (.builtin 6) := by
    rw [hw.base.base.table, Callback.dispatch_tableOf]
    rfl
  have hr : run w m (.builtin 6) p.req p.fd = (.ok ⟨-78, -1⟩, []) := by
    simp only [run, Callback.invoke_refuses w.hdr w.region hw.base.base.wf frameSize (by decide) _ m p.req p.fd hbad]
    rfl
  have hl : ¬ p.len < Callback.requestSize := by simp only [Callback.requestSize]; omega
  simp only [turn, effects, Callback.handle, hl, if_false, hk, hd, hr, if_true]

/-- The hypotheses can be met: a request whose frame is outside the heap. -/
example : turn NameEnd.exWorld (fun _ => 0) ⟨24, ⟨6, 32, 0x5000⟩, -1⟩ =
    (.ok [.received ⟨6, 32, 0x5000⟩ (-1), .replied (-78) (-1)], [], fun _ => 0) :=
  bsd_own_answer NameEnd.exSetup _ _ (by decide) rfl (by decide)

/-- The hypotheses can be met: a list for which there is no memory is not freed, and hints outside the heap are refused. -/
example : (ask { AddrInfo.exEnv with alloc := fun _ => none } 0x12000 ⟨none, none, none⟩).freed = false ∧
    (ask AddrInfo.exEnv 0x12000 ⟨none, none, none⟩).freed = true ∧
    handleGetaddrinfo AddrInfo.exEnv 0x11000 0x11000 0x30000 0x12000 = ⟨.ok ⟨12, -1⟩, [], [], false⟩ ∧
    handleGetaddrinfo AddrInfo.exEnv 0x11000 0x11000 0 0x30000 = ⟨.ok ⟨6, -1⟩, [], [], false⟩ := by
  decide +kernel

/-! ### A case that meets the conditions -/

private def exConf : List Config := [.allow .getAddrInfo]

private def exList : List Info :=
  [⟨0, 2, 1, 6, [16, 2, 0, 80], 0, 0x801000, 0x802000, 0x803000⟩, ⟨0, 2, 2, 17, [16, 2, 0, 53, 9], 0, 0x801100, 0, 0⟩]

/-- Lookups are allowed; the system knows the name `"h"` and gives two addresses for it; `"j"` is handled badly; there is no
other name (`EAI_NONAME`, 8). -/
private def exWorld : World :=
  { NameEnd.exWorld with
    look := fun _ q => if q.host = some [104] then ((0, 0), exList) else if q.host = some [106] then ((-1, 0), []) else ((8, 0), []) }

private theorem exSetup : Setup exWorld FileTree.exHist [3] exConf where
  base := NameEnd.exSetup.base
  fits := by
    intro c q
    simp only [exWorld]
    split
    · exact ⟨by decide, by decide⟩
    · split <;> exact ⟨by decide, nofun⟩
  alloc := NameEnd.exSetup.alloc
  mapped := NameEnd.exSetup.mapped

private theorem exReady (x : Byte) (hx : x ≠ 0) :
    Ready exWorld (NameEnd.exChild x) 64 0x5000 0x5100 0x19000 0x6000 [x] [] :=
  { NameEnd.exReady x hx with }

private theorem exChosen : Chosen exConf .getAddrInfo (some (.system .getAddrInfo)) := .allowed ⟨[], [], rfl, rfl, nofun⟩

/-- `getaddrinfo("h", "", hints, &res)` gives the two addresses. -/
example : ∃ c', getaddrinfo exWorld (NameEnd.exChild 104) 0x5000 0x5100 0x19000 0x6000 1 0 =
      .ok (0, [(.system .getAddrInfo, ⟨some [104], some [], some (0, 2, 0, 0)⟩)], c') ∧
    numAt (asNat c'.mem) 0x6000 8 = 0x1a000 ∧
    Chain (asNat c'.mem) 0x1a000 (0x1a000 + 105) 0x1a000 (exList.map Info.seen) := by
  obtain ⟨c', h1, h2, h3, _⟩ := bsd_lookup_partial exSetup (exReady 104 (by decide)) exChosen (errno := 0) (es := exList) rfl
    (by decide) (p := 0x1a000) rfl
  exact ⟨c', h1, h2, h3⟩

/-- The address of the host's copy of the canonical name is in the sandbox. -/
example : ∃ v calls c', getaddrinfo exWorld (NameEnd.exChild 104) 0x5000 0x5100 0x19000 0x6000 1 0 = .ok (v, calls, c') ∧
    ∃ a, 0x1a000 ≤ a ∧ a + 8 ≤ 0x1a000 + 105 ∧ numAt (asNat c'.mem) a 8 = 0x802000 := by
  obtain ⟨v, calls, c', h1, h2⟩ := bsd_canon_leak exSetup (exReady 104 (by decide)) exChosen (errno := 0) (es := exList) rfl
    (by decide) (p := 0x1a000) rfl
  exact ⟨v, calls, c', h1, h2 _ List.mem_cons_self⟩

/-- An unknown name: the program is told so. -/
example : ∃ v calls c', getaddrinfo exWorld (NameEnd.exChild 105) 0x5000 0x5100 0x19000 0x6000 1 0 = .ok (v, calls, c') ∧
    v.toInt = 8 :=
  (bsd_error_told exSetup (exReady 105 (by decide)) exChosen (e := 8) (errno := 0) (es := []) rfl).1 (by decide) (by decide)

/-- And with no memory for the list, that there is none. -/
example : ∃ calls c', getaddrinfo { exWorld with alloc := fun _ => none } (NameEnd.exChild 104) 0x5000 0x5100 0x19000 0x6000 1 0 =
    .ok (6, calls, c') :=
  (bsd_error_told (w := { exWorld with alloc := fun _ => none })
    { base := exSetup.base, fits := exSetup.fits, alloc := nofun, mapped := exSetup.mapped } (c := NameEnd.exChild 104) (n := 64)
    (hs := [104]) (ss := []) { exReady 104 (by decide) with fresh := nofun } exChosen (e := 0) (errno := 0) (es := exList) rfl).2
    rfl (by decide) rfl

/-- A function that fails with -1: the program is told that the lookup succeeded, and gets the address `0x900` that was on the
stack. -/
example : ∃ calls c', getaddrinfo exWorld (NameEnd.exChild 106) 0x5000 0x5100 0x19000 0x6000 1 0 = .ok (0, calls, c') ∧
    bytesAt c'.mem 0x6000 8 = [0, 9, 0, 0, 0, 0, 0, 0] :=
  bsd_negative_told_success exSetup (exReady 106 (by decide)) exChosen (e := -1) (by decide) (es := []) rfl

/-- A host that has allowed `bind` but not lookups. -/
example : ∃ c', getaddrinfo { exWorld with toNet := { exWorld.toNet with policies := configure [.allow .bind] } }
    (NameEnd.exChild 104) 0x5000 0x5100 0x19000 0x6000 1 0 = .ok (-78, [], c') := by
  obtain ⟨c', h, _⟩ := bsd_denied_lookup
    (w := { exWorld with toNet := { exWorld.toNet with policies := configure [.allow .bind] } })
    { base := { NetEnd.exSetup with policies := rfl }, fits := exSetup.fits, alloc := exSetup.alloc,
      mapped := exSetup.mapped } (c := NameEnd.exChild 104) (n := 64) (hs := [104]) (ss := [])
    { exReady 104 (by decide) with } (.untouched (by intro x hx; simp at hx; subst hx; decide))
  exact ⟨c', h⟩

/-- A hostile sandbox sends a message whose frame is not in the heap: nothing is called. -/
example : (turn exWorld (NameEnd.exChild 104).mem ⟨24, ⟨6, 32, 0x5000⟩, -1⟩).2.1 = [] := by decide +kernel

/-- And one whose frame is there and names a place in the heap for the result: the system's function is called, without
names and hints. -/
example : (turn exWorld (fun a => if a = 0x18019 then 0x90 else if a = 0x1801a then 1 else 0)
    ⟨24, ⟨6, 32, 0x18000⟩, -1⟩).2.1 = [(.system .getAddrInfo, ⟨none, none, none⟩)] := by decide +kernel

end Verif.BsdName
