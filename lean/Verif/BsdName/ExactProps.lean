import Verif.BsdName.Props
import Verif.NameEnd.ExactProps

/-!
# Name lookups of the sandboxed program on FreeBSD: the memory afterwards, byte by byte

As `Verif.NameEnd.ExactProps`, for FreeBSD's structures and error numbers.
-/

namespace Verif.BsdName

open Verif.Strings (writeBytes writeBytes_out)
open Verif.FileTree (Export)
open Verif.Net (Callee Config)
open Verif.NetEnd (Chosen)
open Verif.AddrInfo (Query Info Out Env Store leBytes applyStores infoSize extraOf blockSize copyHints leBytes_length Holds
  holds_write holds_frame holds_append holds_bytesAt holds_numAt applyStores_append AllocOk needed ListsFit allocInSandbox_one
  calleeOf)
open Verif.ChildArgs (Child bytesAt Apart)
open Verif.Syscall (CInt)
open Verif.EndToEnd (Outside)
open Verif.NameEnd (World Calls Setup Ready asked scratch kept put num put_in put_out num_length leBytes_num addrs_length holds_get
  bytes_get applyStores_out apart_nat exWorld exChild exSetup exReady)

/-! ### Specification -/

/-- FreeBSD's `struct addrinfo` whose address is at `sa` and whose successor is at `next`.  The padding and the pointer to the
canonical name are the host's (finding 7). -/
def record (e : Info) (sa next : Nat) : List Byte :=
  num 4 e.flags.toNat ++ num 4 e.family.toNat ++ num 4 e.socktype.toNat ++ num 4 e.protocol.toNat ++
    num 4 e.addr.length ++ num 4 e.pad.toNat ++ num 8 e.canon.toNat ++ num 8 sa ++ num 8 next

/-- The structures, one after the other from `p` on; their addresses begin at `sa`. -/
def records (p sa : Nat) : List Info → List Byte
  | [] => []
  | e :: es => record e sa (if es = [] then 0 else p + 48) ++ records (p + 48) (sa + e.addr.length) es

/-- The block at `p` with the list: first the structures, then the addresses. -/
def image (p : Nat) (es : List Info) : List Byte := records p (p + 48 * es.length) es ++ es.flatMap (·.addr)

/-- What a lookup should do with the memory, what the program is told, and which functions are called: `f` is the function
that the host has chosen, `q` what the program asks.  If there is a list, it is put into the block that the host has
taken for it, and its address into the result (and into `localRes` on the stack).  If not, the result is what happens to
be in `localRes`. -/
def looked (w : World) (f : Option Callee) (q : Query) (res : Word) (m : Mem) : Mem × CInt × Calls :=
  match f with
  | none => (put m res (bytesAt m w.localRes 8), -78, [])
  | some f =>
    match if (w.look f q).1.1 = 0 ∧ (w.look f q).2 ≠ [] then w.alloc (.ofNat 64 (needed (w.look f q).2)) else none with
    | some p =>
      (put (put (put m p (image p.toNat (w.look f q).2)) w.localRes (num 8 p.toNat)) res (num 8 p.toNat), 0, [(f, q)])
    | none => (put m res (bytesAt m w.localRes 8), toldFailure (w.look f q).1 (w.look f q).2, [(f, q)])

/-! ### Lemmas -/

theorem record_eq (e : Info) (sa next : Nat) :
    record e sa next = e.head ++ (leBytes 8 e.canon.toNat ++ (leBytes 8 sa ++ leBytes 8 next)) := by
  simp only [record, Info.head, leBytes_num, List.append_assoc]

theorem record_length (e : Info) (sa next : Nat) : (record e sa next).length = 48 := by
  simp [record, num_length]

theorem records_length (es : List Info) : ∀ p sa, (records p sa es).length = 48 * es.length := by
  induction es with
  | nil => intros; rfl
  | cons e es ih =>
    intro p sa
    simp only [records, List.length_append, record_length, ih, List.length_cons]
    omega

theorem image_length (p : Nat) (es : List Info) : (image p es).length = needed es := by
  rw [image, List.length_append, records_length, addrs_length]
  rfl

theorem placed_record {m : Mem} {p sa next : Nat} {e : Info} (h : Placed m p sa next e) :
    Holds m p (record e sa next) ∧ Holds m sa e.addr := by
  obtain ⟨h1, h2, h3, h4, h5⟩ := h
  refine ⟨?_, h5⟩
  rw [record_eq, holds_append, holds_append, holds_append, Info.head_length, leBytes_length, leBytes_length]
  exact ⟨h1, h3, h2, h4⟩

theorem seg_records (es : List Info) : ∀ (m : Mem) (p sa : Nat), Seg m p sa 0 es →
    Holds m p (records p sa es) ∧ Holds m sa (es.flatMap (·.addr)) := by
  induction es with
  | nil => intro m p sa _; exact ⟨nofun, nofun⟩
  | cons e es ih =>
    intro m p sa h
    cases es with
    | nil =>
      obtain ⟨h1, h2⟩ := placed_record h
      simp only [records, if_true, List.append_nil, List.flatMap_cons, List.flatMap_nil]
      exact ⟨h1, h2⟩
    | cons e2 es2 =>
      obtain ⟨h1, h2⟩ := placed_record h.1
      obtain ⟨h3, h4⟩ := ih _ _ _ h.2
      rw [records, if_neg (by simp), List.flatMap_cons, holds_append, holds_append, record_length]
      exact ⟨⟨h1, h3⟩, h2, h4⟩

/-- The block and the result after the host's stores. -/
theorem fill_in (m : Mem) (p slot : Word) (es : List Info) (hne : es ≠ []) (hp : p.toNat + needed es < 2 ^ 64)
    (hs : slot.toNat + 8 < 2 ^ 64) (hd : slot.toNat + 8 ≤ p.toNat ∨ p.toNat + needed es ≤ slot.toNat) :
    Holds (applyStores m (fillBlock p slot es)) p.toNat (image p.toNat es) ∧
      Holds (applyStores m (fillBlock p slot es)) slot.toNat (num 8 p.toNat) := by
  have hnx : needed es = 48 * es.length + extraOf es := rfl
  have hpos : 0 < es.length := List.length_pos_iff.2 hne
  have hsl : slot = BitVec.ofNat 64 slot.toNat := by simp
  rw [fillBlock_nat p slot]
  simp only [List.append_assoc]
  rw [applyStores_append, applyStores_append]
  generalize applyStores m [⟨BitVec.ofNat 64 p.toNat, List.replicate (needed es) 0⟩] = m1
  obtain ⟨hseg, -⟩ := copyLoop_run p.toNat es m1 (p.toNat + 48 * es.length) 0 (by omega) (by omega)
  generalize applyStores m1 (copyLoop (BitVec.ofNat 64 p.toNat)
    (BitVec.ofNat 64 (p.toNat + 48 * es.length)) 0 es) = m2 at hseg ⊢
  simp only [Nat.mul_zero, Nat.add_zero] at hseg
  have hseg := seg_terminate es m2 p.toNat (p.toNat + 48 * es.length) _ hne (by omega) (by omega) hseg
  simp only [applyStores]
  generalize writeBytes m2 (BitVec.ofNat 64 (p.toNat + 48 * (es.length - 1) + 40)) (leBytes 8 0) = m3 at hseg ⊢
  refine ⟨?_, ?_⟩
  · have hseg := seg_frame es m3 p.toNat (p.toNat + 48 * es.length) 0 slot.toNat (leBytes 8 p.toNat) (by omega) (by omega)
      (by rw [leBytes_length]; omega) (by rw [leBytes_length]; omega) hseg
    rw [← hsl] at hseg
    obtain ⟨h1, h2⟩ := seg_records es _ _ _ hseg
    rw [image, holds_append, records_length]
    exact ⟨h1, h2⟩
  · have hw := holds_write m3 slot.toNat (leBytes 8 p.toNat) (by rw [leBytes_length]; omega)
    rw [← hsl, leBytes_num] at hw
    rw [leBytes_num]
    exact hw

/-- Nothing else is written. -/
theorem fill_out (m : Mem) (p slot : Word) (es : List Info) (hne : es ≠ []) (hp : p.toNat + needed es < 2 ^ 64)
    {x : Word} (hx : x.toNat < p.toNat ∨ p.toNat + needed es ≤ x.toNat)
    (hxs : ∀ i, i < 8 → x ≠ slot + BitVec.ofNat 64 i) : applyStores m (fillBlock p slot es) x = m x := by
  have hnx : needed es = 48 * es.length + extraOf es := rfl
  have hpos : 0 < es.length := List.length_pos_iff.2 hne
  have hx64 := x.isLt
  have frame : ∀ (m' : Mem) (a : Nat) (bs : List Byte), p.toNat ≤ a → a + bs.length ≤ p.toNat + needed es →
      writeBytes m' (BitVec.ofNat 64 a) bs x = m' x := by
    intro m' a bs h1 h2
    apply writeBytes_out
    intro i hi e
    have := congrArg BitVec.toNat e
    simp only [BitVec.toNat_add, BitVec.toNat_ofNat] at this
    omega
  rw [fillBlock_nat p slot]
  simp only [List.append_assoc]
  rw [applyStores_append, applyStores_append]
  simp only [applyStores]
  rw [writeBytes_out _ _ _ _ (by rw [leBytes_length]; exact hxs), 
    frame _ (p.toNat + 48 * (es.length - 1) + 40) (leBytes 8 0) (by omega) (by rw [leBytes_length]; omega)]
  rw [applyStores_out, frame _ _ _ (by omega) (by rw [List.length_replicate]; omega)]
  intro s hs i hi e
  obtain ⟨h1, h2⟩ := copyLoop_inside p.toNat (p.toNat + needed es) es _ 0 (by omega) (by omega) (by omega) s hs
  have := congrArg BitVec.toNat e
  simp only [BitVec.toNat_add, BitVec.toNat_ofNat] at this
  omega

/-- **C126, the memory afterwards.**  Whatever the host has chosen and whatever the answer: the program is told what `looked`
says, the functions are called that it says, and the whole memory of the program, apart from the frame and the blocks
that the child keeps for itself, is what it says. -/
theorem bsd_lookup_exact {w : World} {hist : List Export} {users : List Nat} {conf : List Config}
    (hw : Setup w hist users conf) {c : Child} {n : Nat} {host serv hints res : Word} {hs ss : List Byte}
    (hr : Ready w c n host serv hints res hs ss) (hap : Apart w.localRes 8 res 8) {f : Option Callee}
    (hf : Chosen conf .getAddrInfo f) :
    ∃ c', getaddrinfo w c host serv hints res hs.length ss.length =
        .ok ((looked w f (asked c.mem hints hs ss) res c.mem).2.1,
          (looked w f (asked c.mem hints hs ss) res c.mem).2.2, c') ∧
      c'.live = c.live ∧
      ∀ x, Outside (kept w c n) x → c'.mem x = (looked w f (asked c.mem hints hs ss) res c.mem).1 x := by
  obtain ⟨a1, a2, a3, a4, m1, g1, g2, g3, g4, ⟨o, ho, ho1, ho2⟩, hm1, hall⟩ := lookup_spec hw hr
  have hroom := hr.room
  have hask := handler_asks hw hr.hostText hr.servText (by omega) (by omega) g1 g2 g3 g4.1
  rw [calleeOf_chosen hf (w.env m1) hw.base.policies] at hask
  -- the cases without a list
  have nothing : ∀ (i : Int) calls freed,
      handleGetaddrinfo (w.env m1) a1 a2 a3 a4 = ⟨.ok ⟨i, -1⟩, calls, [], freed⟩ →
      ∃ c', getaddrinfo w c host serv hints res hs.length ss.length = .ok (BitVec.ofInt 32 i, calls, c') ∧
        c'.live = c.live ∧
        ∀ x, Outside (kept w c n) x → c'.mem x = put c.mem res (bytesAt c.mem w.localRes 8) x := by
    intro i calls freed h
    obtain ⟨c', k1, k2, k3, k4, k5⟩ := hall _ _ _ _ h
    simp only [applyStores] at k3 k4 k5
    refine ⟨c', k1, k2, fun x hx => ?_⟩
    by_cases hin : ∃ j, j < 8 ∧ x = res + BitVec.ofNat 64 j
    · obtain ⟨j, hj, rfl⟩ := hin
      rw [put_in _ _ _ j (by simp [ChildArgs.bytesAt]; exact hj) (by simp [ChildArgs.bytesAt])]
      exact bytes_get (k3.trans g4.2) j (by simp [ChildArgs.bytesAt]; exact hj)
    · have hnr : ∀ j, j < 8 → x ≠ res + BitVec.ofNat 64 j := fun j hj e => hin ⟨j, hj, e⟩
      rw [put_out _ _ _ _ (by simp only [ChildArgs.bytesAt, List.length_map, List.length_range]; exact hnr)]
      by_cases hin2 : ∃ j, j < 8 ∧ x = w.localRes + BitVec.ofNat 64 j
      · obtain ⟨j, hj, rfl⟩ := hin2
        exact EndToEnd.bytesAt_eq_get ((k4 hap).trans g4.2) j hj
      · rw [k5 x, hm1 x hx]
        intro y hy
        simp only [List.mem_cons, List.not_mem_nil, or_false] at hy
        rcases hy with rfl | rfl
        · exact fun j hj e => hin2 ⟨j, hj, e⟩
        · exact hnr
  cases f with
  | none =>
    simp only at hask
    obtain ⟨c', k1, k2, k3⟩ := nothing _ _ _ hask
    exact ⟨c', k1, k2, k3⟩
  | some f =>
    simp only at hask
    have hl : (w.env m1).call f (asked c.mem hints hs ss) = w.look f (asked c.mem hints hs ss) := rfl
    rw [hl] at hask
    have hfit := hw.fits f (asked c.mem hints hs ss)
    generalize asked c.mem hints hs ss = q at *
    simp only [looked]
    rcases hlook : w.look f q with ⟨r, es⟩
    rw [hlook] at hask hfit
    simp only at hask hfit ⊢
    have hneed : blockSize es = needed es := rfl
    by_cases hbad : r.1 ≠ 0 ∨ es = [] ∨ w.alloc (BitVec.ofNat 64 (needed es)) = none
    · obtain ⟨i, hfin, hi⟩ := finish_none (w := w) m1 a4 [(f, q)] hbad
      rw [hfin] at hask
      obtain ⟨c', k1, k2, k3⟩ := nothing _ _ _ hask
      have hno : (if r.1 = 0 ∧ es ≠ [] then w.alloc (.ofNat 64 (needed es)) else none) = none := by
        split
        · rename_i h
          rcases hbad with h' | h' | h'
          · exact absurd h.1 h'
          · exact absurd h' h.2
          · exact h'
        · rfl
      simp only [hno]
      rw [hi] at k1
      exact ⟨c', k1, k2, k3⟩
    · have h0 : r.1 = 0 := Classical.byContradiction fun h => hbad (.inl h)
      have hne : es ≠ [] := fun h => hbad (.inr (.inl h))
      obtain ⟨p, hp⟩ : ∃ p, w.alloc (BitVec.ofNat 64 (needed es)) = some p := by
        rcases h : w.alloc (BitVec.ofNat 64 (needed es)) with _ | p
        · exact absurd (.inr (.inr h)) hbad
        · exact ⟨p, rfl⟩
      have hal : (Bounds.allocInSandbox (w.env m1).alloc 1 (BitVec.ofNat 64 (blockSize es))).1 = some p := by
        rw [hneed, allocInSandbox_one]; exact hp
      simp only [finish, if_pos h0, if_pos hne, hal] at hask
      simp only [if_pos (And.intro h0 hne), hp]
      obtain ⟨c', k1, k2, k3, k4, k5⟩ := hall _ _ _ _ hask
      have hpos : 48 ≤ needed es := by
        cases es with
        | nil => exact absurd rfl hne
        | cons e es => simp only [needed, List.length_cons]; omega
      have hn64 : (BitVec.ofNat 64 (needed es)).toNat = needed es := by simp; omega
      obtain ⟨b1, b2, b3⟩ := hw.alloc _ _ hp
      rw [hn64] at b2
      have htop := w.region.top.isLt
      have hslot := (Bounds.contains_iff w.hdr w.region hw.base.base.wf a4 _).1 g4.1
      have h8 : (BitVec.ofNat 64 8 : Word).toNat = 8 := rfl
      rw [h8] at hslot
      have hfresh := hr.fresh _ _ hp
      rw [hn64] at hfresh
      have hapart : Apart p (needed es) a4 8 := by
        rw [ho1]
        exact EndToEnd.apart_mono (hfresh o (List.mem_cons_of_mem _ ho)) (Nat.le_refl _) ho2
      have hdis := apart_nat hapart (by omega) (by omega) (by omega) (by omega)
      obtain ⟨f1, f2⟩ := fill_in m1 p a4 es hne (by omega) (by omega) hdis
      have hslot8 : bytesAt (applyStores m1 (fillBlock p a4 es)) a4 8 = num 8 p.toNat := by
        apply List.ext_getElem
        · rw [num_length]; simp [ChildArgs.bytesAt]
        · intro i h1 h2
          rw [← holds_get f2 i h2]
          simp [ChildArgs.bytesAt]
      refine ⟨c', k1, k2, fun x hx => ?_⟩
      by_cases hin : ∃ j, j < 8 ∧ x = res + BitVec.ofNat 64 j
      · obtain ⟨j, hj, rfl⟩ := hin
        rw [put_in _ _ _ j (by rw [num_length]; exact hj) (by rw [num_length]; omega)]
        exact bytes_get (k3.trans hslot8) j (by rw [num_length]; exact hj)
      · have hnr : ∀ j, j < 8 → x ≠ res + BitVec.ofNat 64 j := fun j hj e => hin ⟨j, hj, e⟩
        rw [put_out _ res _ _ (by rw [num_length]; exact hnr)]
        by_cases hin2 : ∃ j, j < 8 ∧ x = w.localRes + BitVec.ofNat 64 j
        · obtain ⟨j, hj, rfl⟩ := hin2
          rw [put_in _ _ _ j (by rw [num_length]; exact hj) (by rw [num_length]; omega)]
          exact bytes_get ((k4 hap).trans hslot8) j (by rw [num_length]; exact hj)
        · have hnl : ∀ j, j < 8 → x ≠ w.localRes + BitVec.ofNat 64 j := fun j hj e => hin2 ⟨j, hj, e⟩
          rw [put_out _ w.localRes _ _ (by rw [num_length]; exact hnl), k5 x]
          · by_cases hin3 : ∃ j, j < needed es ∧ x = p + BitVec.ofNat 64 j
            · obtain ⟨j, hj, rfl⟩ := hin3
              rw [put_in _ _ _ j (by rw [image_length]; exact hj) (by rw [image_length]; omega)]
              exact holds_get f1 j (by rw [image_length]; exact hj)
            · have hnp : ∀ j, j < needed es → x ≠ p + BitVec.ofNat 64 j := fun j hj e => hin3 ⟨j, hj, e⟩
              rw [put_out _ p _ _ (by rw [image_length]; exact hnp), ← hm1 x hx]
              apply fill_out m1 p a4 es hne (by omega)
              · rcases Nat.lt_or_ge x.toNat p.toNat with h | h
                · exact .inl h
                · rcases Nat.lt_or_ge x.toNat (p.toNat + needed es) with h' | h'
                  · exact absurd (by bv_omega) (hnp (x.toNat - p.toNat) (by omega))
                  · exact .inr h'
              · intro j hj e
                rcases List.mem_cons.1 ho with rfl | ho
                · exact hx (w.sp, 32) List.mem_cons_self j (by simp only; omega) (by rw [e, ho1])
                · rcases List.mem_cons.1 ho with rfl | ho
                  · exact hnl j hj (by rw [e, ho1])
                  · exact hx o (List.mem_cons_of_mem _ ho) j (by omega) (by rw [e, ho1])
          · intro y hy
            simp only [List.mem_cons, List.not_mem_nil, or_false] at hy
            rcases hy with rfl | rfl
            · exact hnl
            · exact hnr

/-! ### Cases that meet the conditions -/

/-- Both the known and the unknown name. -/
example (x : Byte) (hx : x ≠ 0) : ∃ c', getaddrinfo exWorld (exChild x) 0x5000 0x5100 0x19000 0x6000 1 0 =
      .ok (0, [(.system .getAddrInfo, ⟨some [x], some [], some (0, 2, 0, 0)⟩)], c') ∧
    c'.mem 0x6001 = (if x = 104 then 0xa0 else 9) ∧ c'.mem 0x7001 = (if x = 104 then 0xa0 else 9) := by
  have hask : asked (exChild x).mem 0x19000 [x] [] = ⟨some [x], some [], some (0, 2, 0, 0)⟩ := by
    simp only [asked, exChild, AddrInfo.Spec.numAt]
    rfl
  obtain ⟨c', h1, -, h3⟩ := bsd_lookup_exact exSetup (exReady x hx) (EndToEnd.apart_of_gt (by decide) (by decide))
    (f := some (.system .getAddrInfo)) (.allowed ⟨[], [], rfl, rfl, nofun⟩)
  rw [hask] at h1 h3
  have out : ∀ y : Word, y = 0x6001 ∨ y = 0x7001 → Outside (kept exWorld (exChild x) 64) y := by
    intro y hy o ho j hj e
    have he := congrArg BitVec.toNat e
    simp only [kept, exWorld, NetEnd.exWorld, exChild, List.take, List.map, List.mem_cons, List.not_mem_nil,
      or_false] at ho
    rcases hy with rfl | rfl <;> rcases ho with rfl | rfl | rfl | rfl | rfl | rfl <;> simp only [] at hj <;> bv_omega
  have k1 := h3 0x6001 (out _ (.inl rfl))
  have k2 := h3 0x7001 (out _ (.inr rfl))
  by_cases h : x = 104
  · subst h
    refine ⟨c', h1, ?_, ?_⟩
    · rw [k1]; decide +kernel
    · rw [k2]; decide +kernel
  · have hlk : looked exWorld (some (.system .getAddrInfo)) ⟨some [x], some [], some (0, 2, 0, 0)⟩ 0x6000 (exChild x).mem =
        (put (exChild x).mem 0x6000 [0, 9, 0, 0, 0, 0, 0, 0], 0,
          [(.system .getAddrInfo, ⟨some [x], some [], some (0, 2, 0, 0)⟩)]) := by
      simp only [looked, exWorld, Option.some.injEq, List.cons.injEq, and_true, if_neg h]
      rfl
    rw [hlk] at h1 k1 k2
    refine ⟨c', h1, ?_, ?_⟩
    · rw [k1, if_neg h]; rfl
    · rw [k2, if_neg h]; rfl

end Verif.BsdName
