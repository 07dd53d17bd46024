import Verif.Run.Spec

/-!
# Whole runs of a sandboxed program: theorems
-/

namespace Verif.Run

open Verif.Bounds (Region)
open Verif.Strings (asNat)
open Verif.Strings.Spec (CStringAt)
open Verif.FileTree (Export specHistory runHistory ShortPaths)
open Verif.FileTree.Spec (Answers cut)
open Verif.PathSyscall (HostOp Entry Log Kernel)
open Verif.Net (Config Callee)
open Verif.ChildArgs (Child bytesAt Apart InHeap Object)
open Verif.Syscall (CInt Regs Info Answer abi libc found)
open Verif.EndToEnd (Want Meant asks objects nameOp then_ fdAnswer intAnswer Pool Outside)
open Verif.NetEnd (Chosen opAsked given called)
open Verif.NameEnd (put put_in put_out asked looked)
open Verif.UserEnd (Registered Arrives told)

/-! ### The meaning of a call is unique -/

theorem answers_unique {hist : List Export} (hs : ShortPaths hist) {names : FileTree.Spec.Names} {h h' : Int}
    {rest rest' : FileTree.Spec.Names} (a : Answers (specHistory hist) names h rest)
    (a' : Answers (specHistory hist) names h' rest') : h = h' ∧ rest = rest' := by
  have e := (FileTree.lookup_refines hist hs ⟨true, names⟩ h ⟨false, rest⟩).2 ⟨rfl, a⟩
  have e' := (FileTree.lookup_refines hist hs ⟨true, names⟩ h' ⟨false, rest'⟩).2 ⟨rfl, a'⟩
  rw [e] at e'
  simp only [Option.some.injEq, Prod.mk.injEq, Path.Path.mk.injEq, true_and] at e'
  exact e'

theorem plain_then {k : Kernel} (hk : ∀ l op, k (plain l) (plainOp op) = k l op) (l : Log) (op : HostOp) :
    plain (then_ k l op) = then_ k (plain l) (plainOp op) := by
  simp only [then_, plain, List.map_append, List.map_cons, List.map_nil]
  have := hk l op
  simp only [plain] at this
  rw [this]

theorem meant_plain {hist : List Export} {k : Kernel} {recv : Int → BitVec 32} {s : List Byte} {want : Want}
    {ans : Answer} {log : Log} (hk : ∀ l op, k (plain l) (plainOp op) = k l op)
    (h : Meant hist k recv s want ans log) : Meant hist k recv s want ans (plain log) := by
  have hn : plain [] = [] := rfl
  have hname : ∀ h rest, plainOp (nameOp h rest) = nameOp h rest := fun _ _ => rfl
  cases h with
  | climbs _ h1 => exact .climbs _ h1
  | absent _ names h1 h2 => exact .absent _ names h1 h2
  | openFile names h flags mode h1 h2 =>
    rw [plain_then hk]
    exact .openFile names h flags mode h1 h2
  | openBeneath names h rest flags mode h1 h2 h3 =>
    rw [plain_then hk]
    exact .openBeneath names h rest flags mode h1 h2 h3
  | accessNone names h rest mode h1 h2 h3 =>
    rw [plain_then hk]
    exact .accessNone names h rest mode h1 h2 h3
  | accessSome names h rest mode p l h1 h2 h3 h4 h5 =>
    have hl : plain l = l := by rw [h5, plain_then hk]; rfl
    rw [plain_then hk, plain_then hk, hl]
    exact .accessSome names h rest mode p l h1 h2 h3 h4 h5
  | statFile names h sb h1 h2 =>
    rw [plain_then hk, ← hk]
    exact .statFile names h 0 h1 h2
  | statNone names h rest h1 h2 h3 h4 =>
    rw [plain_then hk]
    exact .statNone names h rest h1 h2 h3 h4
  | statSome names h rest p l sb h1 h2 h3 h4 h5 h6 =>
    have hl : plain l = l := by rw [h6, plain_then hk]; rfl
    rw [plain_then hk, plain_then hk, hl, ← hk l, hl]
    exact .statSome names h rest p l 0 h1 h2 h3 h4 h5 h6

/-- **C93, what is not compared.**  Two system calls of the host count as the same exactly if they are, or differ only in the
address of the buffer of `fstat` or `fstatat`. -/
theorem plain_same_iff (a b : PathSyscall.HostOp) : plainOp a = plainOp b ↔ a = b ∨
    (∃ fd s s', a = .fstat fd s ∧ b = .fstat fd s') ∨
    ∃ fd path flags s s', a = .fstatat fd path s flags ∧ b = .fstatat fd path s' flags := by
  cases a <;> cases b <;> grind [plainOp]

example : plainOp (.fstatat 5 [] 0x18000 0x1000) = plainOp (.fstatat 5 [] 0x18200 0x1000) ∧
    plainOp (.fstatat 5 [] 0x18000 0x1000) ≠ plainOp (.fstatat 5 [] 0x18000 0) := by decide

/-- **C93, one meaning.**  What a call on a path means is unique: the answer, and the host's calls apart from the address of
the buffer of `stat`. -/
theorem meant_unique {hist : List Export} (hs : ShortPaths hist) {k : Kernel} {recv : Int → BitVec 32} {s : List Byte}
    {want : Want} {ans ans' : Answer} {log log' : Log} (hk : ∀ l op, k (plain l) (plainOp op) = k l op)
    (h : Meant hist k recv s want ans log) (h' : Meant hist k recv s want ans' log') :
    ans = ans' ∧ plain log = plain log' := by
  have hf : ∀ h sb sb', k [] (.fstat h sb) = k [] (.fstat h sb') := fun h sb sb' => by
    rw [← hk [] (.fstat h sb), ← hk [] (.fstat h sb')]; rfl
  have hfa : ∀ l p path sb sb' fl, k l (.fstatat p path sb fl) = k l (.fstatat p path sb' fl) :=
    fun l p path sb sb' fl => by
      rw [← hk l (.fstatat p path sb fl), ← hk l (.fstatat p path sb' fl)]; rfl
  have hu := @answers_unique hist hs
  have hi : ∀ {a b : FileTree.Spec.Names} {o}, o = some a → o = some b → a = b :=
    fun h1 h2 => Option.some.inj (h1.symm.trans h2)
  have hstat : ∀ l h sb sb', plain (then_ k l (.fstat h sb)) = plain (then_ k l (.fstat h sb')) := fun l h sb sb' => by
    rw [plain_then hk, plain_then hk]; rfl
  have hstatat : ∀ l p path sb sb' fl q, plain (then_ k (then_ k l (.fstatat p path sb fl)) q) =
      plain (then_ k (then_ k l (.fstatat p path sb' fl)) q) := fun l p path sb sb' fl q => by
    rw [plain_then hk, plain_then hk, plain_then hk, plain_then hk]; rfl
  cases h <;> cases h' <;> grind

/-! ### Memory -/

theorem apart_of {S : Word → Prop} {a b : Word} {n k : Nat} (ha : ∀ i, i < n → ¬ S (a + BitVec.ofNat 64 i))
    (hb : ∀ i, i < k → S (b + BitVec.ofNat 64 i)) : Apart a n b k :=
  fun i j hi hj e => ha i hi (e ▸ hb j hj)

theorem outside_of {S : Word → Prop} {l : List (Word × Nat)} (h : ∀ o ∈ l, ∀ i, i < o.2 → S (o.1 + BitVec.ofNat 64 i))
    {x : Word} (hx : ¬ S x) : Outside l x :=
  fun o ho i hi e => hx (e ▸ h o ho i hi)

theorem same_bytes {S : Word → Prop} {m m' : Mem} (h : Same S m m') {a : Word} {n : Nat}
    (ha : ∀ i, i < n → ¬ S (a + BitVec.ofNat 64 i)) : bytesAt m a n = bytesAt m' a n :=
  EndToEnd.bytesAt_congr fun i hi => h _ (ha i hi)

theorem same_string {S : Word → Prop} {m m' : Mem} (h : Same S m m') {a : Word} {s : List Byte}
    (ha : ∀ i, i < s.length + 1 → ¬ S (a + BitVec.ofNat 64 i)) (hs : CStringAt (asNat m') a.toNat s) :
    CStringAt (asNat m) a.toNat s :=
  EndToEnd.cstring_moved hs (same_bytes h ha)

theorem put_same {S : Word → Prop} {m m' : Mem} (h : Same S m m') (a : Word) (bs : List Byte) :
    Same S (put m a bs) (put m' a bs) := fun x hx => by simp only [put, h x hx]

/-- `readString` finds the string that is there. -/
theorem readString_eq {m : Mem} {a : Word} {s : List Byte} {n : Nat} (h : CStringAt (asNat m) a.toNat s)
    (hn : s.length < n) : readString m n a = some s := by
  induction s generalizing n a with
  | nil =>
    obtain ⟨n, rfl⟩ : ∃ k, n = k + 1 := ⟨n - 1, by simp at hn; omega⟩
    have := h.2
    simp only [List.length_nil, EndToEnd.asNat_add] at this
    rw [readString, if_pos (by simpa using this)]
  | cons b s ih =>
    obtain ⟨n, rfl⟩ : ∃ k, n = k + 1 := ⟨n - 1, by simp at hn; omega⟩
    have h0 := h.1 0 (by simp)
    rw [EndToEnd.asNat_add] at h0
    simp only [List.getElem_cons_zero] at h0
    have e0 : a + BitVec.ofNat 64 0 = a := by bv_omega
    rw [e0] at h0
    rw [readString, if_neg (by rw [h0.1]; exact h0.2), ih (a := a + 1) ?_ (by simp at hn; omega), h0.1]
    · rfl
    · refine ⟨fun i hi => ?_, ?_⟩
      · have := h.1 (i + 1) (by simp; omega)
        rw [EndToEnd.asNat_add] at this ⊢
        have e : a + BitVec.ofNat 64 (i + 1) = a + 1 + BitVec.ofNat 64 i := by bv_omega
        rw [e] at this
        simpa using this
      · have := h.2
        rw [EndToEnd.asNat_add] at this ⊢
        have e : a + BitVec.ofNat 64 (b :: s).length = a + 1 + BitVec.ofNat 64 s.length := by
          simp only [List.length_cons]; bv_omega
        rw [e] at this
        exact this

/-- A result register is determined by what the C library reads. -/
theorem rax_unique {x : Word} {a : Answer} (h : libc x = found a) : x = BitVec.ofInt 64 (number a) := by
  have : x.toInt = number a := by
    unfold libc at h
    cases a <;> simp only [found] at h <;> split at h <;> simp only [Prod.mk.injEq, Option.some.injEq, reduceCtorEq,
      and_false, and_true, true_and] at h <;> simp only [number] <;> omega
  rw [← this, BitVec.ofInt_toInt]

theorem regs_unique {i : Info} {r r' : Regs} {a : Answer} (h1 : libc r'.rax = found a) (h2 : r'.rip = i.callAddr)
    (h3 : abi r' = abi r) : r' = after i r a := by
  obtain ⟨_, _, _, _, _, _, _, _⟩ := r
  obtain ⟨_, _, _, _, _, _, _, _⟩ := r'
  simp only [abi, List.cons.injEq, and_true] at h3
  simp only at h1 h2
  have := rax_unique h1
  simp only [after, Regs.mk.injEq]
  exact ⟨this, h3.1, h3.2.1, h3.2.2.1, h3.2.2.2.1, h3.2.2.2.2.1, h3.2.2.2.2.2, h2⟩

/-! ### One call -/

theorem now_setup {W : Worlds} {H : Host} {S : Word → Prop} (hf : Fixed W H S) (past : List Event) (m : Mem) :
    UserEnd.Setup (now W past m).toUser (H.exports (past.map Event.plain)) (H.users (past.map Event.plain))
      (H.conf (past.map Event.plain)) := by
  have h := hf.setup (past.map Event.plain)
  exact { h with base := { h.base with base := { h.base.base with } } }

theorem take_of_take {l : List Word} {k : Nat} (hk : k ≤ 5) {p : Word} (h : p ∈ l.take k) : p ∈ l.take 5 :=
  List.take_subset_take_left _ hk h

theorem pool_of {W : Worlds} {S : Word → Prop} {n k : Nat} {live bs : List Word} (hb : Blocks W S n live bs)
    (past : List Event) (m m' : Mem) {objs : List (Word × Nat)} {j : Nat} (hj : j ≤ 32) (hk : k ≤ 5)
    (ho : ∀ o ∈ objs, ∀ i, i < o.2 → ¬ S (o.1 + BitVec.ofNat 64 i)) :
    Pool (now W past m).toNet.toWorld n ⟨m', live, bs⟩ (((now W past m).sp, j) :: objs) k where
  enough := Nat.le_trans hk hb.enough
  heap := fun p hp => hb.heap _ p (take_of_take hk hp)
  apart := by
    intro p hp o ho'
    rcases List.mem_cons.1 ho' with rfl | h
    · exact fun a b ha hb' => hb.frame (past.map Event.plain) p (take_of_take hk hp) a b ha (by simp only at hb'; omega)
    · exact EndToEnd.apart_symm (apart_of (ho o h) (hb.own p (take_of_take hk hp)))
  pairwise := by
    refine hb.pairwise.sublist ?_
    have : bs.take k = (bs.take 5).take k := by rw [List.take_take, Nat.min_eq_left hk]
    rw [this]
    exact List.take_sublist _ _

theorem object_mono {w : World} {hist : List Export} {users : List Nat} {conf : List Config}
    (hw : UserEnd.Setup w.toUser hist users conf) {p : Word} {n k : Nat} (h : Object w.hdr w.region w.bounds p n)
    (hn : n < 2 ^ 64) (hk : k ≤ n) : Object w.hdr w.region w.bounds p k := by
  refine ⟨h.1, ?_⟩
  rcases h.2 with h | h
  · exact .inl (EndToEnd.inHeap_mono hw.base.base h hn hk)
  · refine .inr ⟨?_, ?_⟩
    · have := h.1; omega
    · have := h.2; omega

theorem now_at {W : Worlds} {s : State} {t : Ideal} (h : s.past.map Event.plain = t.past) (m : Mem) :
    (now W s.past m).toNet.toWorld = { (W t.past).toNet.toWorld with str := readString m (2 ^ 64) } := by
  simp only [now, h]

theorem scratch_owned {W : Worlds} {H : Host} {S : Word → Prop} (hf : Fixed W H S) {n : Nat} {live bs : List Word}
    (hb : Blocks W S n live bs) (past : List Event) {j k : Nat} (hj : j ≤ 32) (hk : k ≤ 5) {x : Word} (hx : ¬ S x) :
    Outside (((W past).sp, j) :: (bs.take k).map (·, n)) x := by
  apply outside_of (S := S) _ hx
  intro o ho i hi
  rcases List.mem_cons.1 ho with rfl | h
  · exact (hf.stack past).2 i (by simp only at hi; omega)
  · obtain ⟨p, hp, rfl⟩ := List.mem_map.1 h
    exact hb.own p (take_of_take hk hp) i hi

theorem asks_path {nr : Int} {r : Regs} {want : Want} {path sb : Word} (h : asks nr (abi r) = some (want, path, sb)) :
    path = r.rdi ∧ nr ≠ 257 ∧ ¬ (nr = 49 ∨ nr = 42) := by
  simp only [asks, abi] at h
  repeat' split at h
  all_goals first
    | contradiction
    | (simp only [Option.some.injEq, Prod.mk.injEq] at h; exact ⟨h.2.1.symm, by omega, by omega⟩)

theorem op_number {nr : Int} {op : Net.Op} (hop : opAsked nr = some op) : nr = 49 ∨ nr = 42 := by
  unfold opAsked at hop
  split at hop
  · exact .inl ‹_›
  · split at hop
    · exact .inr ‹_›
    · cases hop

/-- A call on a path is made properly. -/
theorem path_ready {W : Worlds} {H : Host} {S : Word → Prop} (hf : Fixed W H S) {n : Nat} (hn : 144 ≤ n ∧ n < 2 ^ 64)
    {live bs : List Word} (hb : Blocks W S n live bs) (past : List Event) {m m' : Mem} (hm : Same S m m') {want : Want}
    {path sb : Word} {text : List Byte} (ht : CStringAt (asNat m') path.toNat text)
    (ho : ∀ o ∈ objects want path sb text, Own (W (past.map Event.plain)) S n o) :
    EndToEnd.Ready (now W past m).toNet.toWorld ⟨m, live, bs⟩ n want path sb text where
  room := ⟨(ho (path, text.length + 1) (by simp [objects])).2.1, hn⟩
  string := same_string hm (ho (path, text.length + 1) (by simp [objects])).2.2 ht
  objs := fun o h => ⟨(ho o h).1, apart_of (ho o h).2.2 fun i hi => (hf.stack (past.map Event.plain)).2 i (by omega)⟩
  stack := object_mono (hf.setup (past.map Event.plain)) (hf.stack _).1 (by omega) (by omega)
  pool := pool_of hb past m m (by omega) (by omega) fun o h => (ho o h).2.2

/-- The host's calls for a relative path put nothing into a buffer. -/
theorem rel_plain (k : Kernel) (fd : Int) (s : List Byte) (flags mode : BitVec 32) :
    plain (RelEnd.calls k fd s flags mode) = RelEnd.calls k fd s flags mode := by
  unfold RelEnd.calls
  split <;> rfl

theorem nameLength_eq {m : Mem} {a : Word} {s : List Byte} (h : CStringAt (asNat m) a.toNat s) (hn : s.length < 2 ^ 64) :
    nameLength m a = s.length := by
  rw [nameLength, readString_eq h hn]
  rfl

/-- What is asked does not depend on what the child keeps for itself. -/
theorem asked_same {S : Word → Prop} {m m' : Mem} (h : Same S m m') {hints : Word}
    (ho : ∀ i, i < 48 → ¬ S (hints + BitVec.ofNat 64 i)) (hs ss : List Byte) :
    asked m hints hs ss = asked m' hints hs ss := by
  have hb := same_bytes h ho
  have e : ∀ i, i + 4 ≤ 48 → _ := fun i hi => NameEnd.numAt_bytes hb i 4 hi
  have e0 := e 0 (by omega)
  simp only [Nat.add_zero] at e0
  simp only [asked, e0, e 4 (by omega), e 8 (by omega), e 12 (by omega)]

/-- Nor do the memory afterwards, the answer and the calls. -/
theorem looked_same {S : Word → Prop} {w : NameEnd.World} (hl : ∀ i, i < 8 → ¬ S (w.localRes + BitVec.ofNat 64 i))
    {m m' : Mem} (h : Same S m m') (f : Option Callee) (q : AddrInfo.Query) (res : Word) :
    Same S (looked w f q res m).1 (looked w f q res m').1 ∧ (looked w f q res m).2 = (looked w f q res m').2 := by
  have hb := same_bytes h hl
  unfold looked
  cases f with
  | none => exact ⟨by rw [hb]; exact put_same h _ _, rfl⟩
  | some f =>
    simp only
    split
    · exact ⟨put_same (put_same (put_same h _ _) _ _) _ _, rfl⟩
    · exact ⟨by rw [hb]; exact put_same h _ _, rfl⟩

/-- **C93, one call.**  If the program, in the state of the ideal machine, makes a call properly, then the sandboxed
program makes the same call, it succeeds, and afterwards the two are alike again. -/
theorem step_alike {W : Worlds} {H : Host} {S : Word → Prop} (hf : Fixed W H S) {P : Program} (hP : Blind S P) {n : Nat}
    (hn : 144 ≤ n ∧ n < 2 ^ 64) {live bs : List Word} (hb : Blocks W S n live bs) {s : State} {t t' : Ideal}
    (ha : Alike S live s t) (ht : Step W H S n P t t') :
    ∃ s', step W P bs s = .ok (some s') ∧ Alike S live s' t' := by
  obtain ⟨⟨m0, live0, bs0⟩, regs, past⟩ := s
  obtain ⟨tm, tr, tp⟩ := t
  obtain ⟨hmem, hlive, hregs, hpast⟩ := ha
  simp only at hmem hlive hregs hpast
  subst hlive hregs hpast
  obtain ⟨hm1, hact⟩ := hP _ _ regs hmem
  have hs := now_setup hf past (P m0 regs).1
  have hshort := (hf.setup (past.map Event.plain)).base.base.short
  have hk := hf.kernel (past.map Event.plain)
  cases ht with
  | path m i r want path sb text ans log hp hcode hask hstr hobj hmeant hplain =>
    simp only at hp hobj hmeant
    rw [hp] at hm1 hact
    simp only at hm1 hact
    have hr := path_ready hf hn hb past hm1 hstr hobj
    obtain ⟨hpath, hne, hns⟩ := asks_path hask
    have hlen : pathLength (P m0 regs).1 i r = text.length := by
      rw [pathLength, if_neg hne, ← hpath, readString_eq hr.string (by have := hr.room; omega)]
      rfl
    obtain ⟨r', log', c', ans', e1, e2, e3, e4, e5, e6, e7, e8⟩ := EndToEnd.syscall_end_to_end hs.base.base hcode hask hr
    obtain ⟨rfl, hlog⟩ := meant_unique hshort hk hmeant e2
    refine ⟨⟨c', r', past ++ [.host log']⟩, ?_, ?_, e6, regs_unique e3 e4 e5, ?_⟩
    · simp only [step, hact, if_neg hns, if_neg (show ¬ isRelative (P m0 regs).1 i r from fun h => hne h.1), hlen, e1]
    · intro x hx
      have hout := scratch_owned hf hb (past.map Event.plain) (j := 16) (k := 3) (by omega) (by omega) hx
      have hst : ∀ l, ((now W past (P m0 regs).1).statBytes l).length = 144 := hs.base.base.stat
      have hbytes : (W (past.map Event.plain)).statBytes log = (now W past (P m0 regs).1).statBytes log' := by
        show _ = (W (past.map Event.plain)).statBytes log'
        rw [← hf.stat _ log, hlog, hf.stat]
      simp only
      by_cases hw : want = .stat
      · subst hw
        by_cases hin : ∃ j, j < 144 ∧ x = sb + BitVec.ofNat 64 j
        · obtain ⟨j, hj, rfl⟩ := hin
          have hfill := e8 rfl
          have hsame : (P m0 regs).1 (sb + BitVec.ofNat 64 j) = m (sb + BitVec.ofNat 64 j) := hm1 _ hx
          cases ans with
          | value v =>
            have hv := hfill.1 ⟨v, rfl⟩
            simp only [stored]
            rw [put_in _ _ _ j (by rw [hbytes, hst]; exact hj) (by rw [hbytes, hst]; decide)]
            have := EndToEnd.bytesAt_get (m := c'.mem) (a := sb) (n := 144) j (by rw [EndToEnd.bytesAt_length]; exact hj)
            rw [← this]
            simp only [hv, hbytes]
          | descriptor v =>
            have hv := hfill.2 (by simp)
            exact (EndToEnd.bytesAt_eq_get hv j hj).trans hsame
          | error e =>
            have hv := hfill.2 (by simp)
            exact (EndToEnd.bytesAt_eq_get hv j hj).trans hsame
        · have hns : ∀ j, j < 144 → x ≠ sb + BitVec.ofNat 64 j := fun j hj e => hin ⟨j, hj, e⟩
          have h1 := e7 x hout fun _ o ho j hj => by
            rw [List.mem_singleton] at ho
            subst ho
            exact hns j hj
          rw [h1]
          have h2 : stored m sb ((W (past.map Event.plain)).statBytes log) .stat ans x = m x := by
            cases ans
            · exact put_out _ _ _ _ (by rw [hbytes, hst]; exact hns)
            · rfl
            · rfl
          rw [h2]
          exact hm1 x hx
      · have h1 := e7 x hout fun h => absurd h hw
        rw [h1]
        have h2 : stored m sb ((W (past.map Event.plain)).statBytes log) want ans x = m x := by
          cases want
          · rfl
          · rfl
          · exact absurd rfl hw
        rw [h2]
        exact hm1 x hx
    · simp only [List.map_append, List.map_cons, List.map_nil, Event.plain, ← hlog, hplain]
  | openat m i r text ans log hp hcode hnr hstr habs hown hobj hmeant hplain =>
    simp only at hp hobj hmeant hown
    rw [hp] at hm1 hact
    simp only at hm1 hact
    have hr := path_ready (sb := 0) (want := .open_ (r.rdx.setWidth 32) (r.r10.setWidth 32)) hf hn hb past hm1 hstr
      (by intro o ho; simp only [objects, reduceCtorEq, if_false, List.mem_singleton] at ho; subst ho; exact hobj)
    have hread : readString (P m0 regs).1 (2 ^ 64) r.rsi = some text :=
      readString_eq hr.string (by have := hr.room; omega)
    have hlen : pathLength (P m0 regs).1 i r = text.length := by
      rw [pathLength, if_pos hnr, hread]
      rfl
    obtain ⟨r', log', c', ans', e1, e2, e3, e4, e5, e6, e7⟩ :=
      EndToEnd.openat_end_to_end hs.base.base hcode hnr hread habs hown hr
    obtain ⟨rfl, hlog⟩ := meant_unique hshort hk hmeant e2
    refine ⟨⟨c', r', past ++ [.host log']⟩, ?_, ?_, e6, regs_unique e3 e4 e5, ?_⟩
    · have hnrel : ¬ isRelative (P m0 regs).1 i r := fun h => h.2 (by rw [hread]; exact habs)
      simp only [step, hact, if_neg (show ¬ (i.syscall = 49 ∨ i.syscall = 42) by omega), if_neg hnrel, hlen, e1]
    · intro x hx
      have hout := scratch_owned hf hb (past.map Event.plain) (j := 16) (k := 3) (by omega) (by omega) hx
      exact (e7 x hout).trans (hm1 x hx)
    · simp only [List.map_append, List.map_cons, List.map_nil, Event.plain, ← hlog, hplain]
  | rel m i r text fd hp hcode hnr hstr hrel hobj hdir =>
    simp only at hp hobj hdir
    rw [hp] at hm1 hact
    simp only at hm1 hact
    have hr0 := path_ready (sb := 0) (want := .open_ (r.rdx.setWidth 32) (r.r10.setWidth 32)) hf hn hb past hm1 hstr
      (by intro o ho; simp only [objects, reduceCtorEq, if_false, List.mem_singleton] at ho; subst ho; exact hobj)
    have hread : readString (P m0 regs).1 (2 ^ 64) r.rsi = some text :=
      readString_eq hr0.string (by have := hr0.room; omega)
    have hlen : pathLength (P m0 regs).1 i r = text.length := by
      rw [pathLength, if_pos hnr, hread]
      rfl
    have hset : RelEnd.Setup (now W past (P m0 regs).1).toNet (H.exports (past.map Event.plain))
        (H.users (past.map Event.plain)) :=
      ⟨hs.base.base, hs.base.pad2, hf.fails (past.map Event.plain)⟩
    have hr : RelEnd.Ready (now W past (P m0 regs).1).toNet ⟨(P m0 regs).1, live0, bs⟩ n r.rsi text :=
      { room := ⟨hobj.2.1, by omega, hn.2⟩
        string := hr0.string
        object := hobj.1
        apart := apart_of hobj.2.2 fun i hi => (hf.stack (past.map Event.plain)).2 i (by omega)
        stack := object_mono (hf.setup (past.map Event.plain)) (hf.stack _).1 (by omega) (by omega)
        pool := pool_of hb past _ _ (by omega) (by omega) (by
          intro o ho; rw [List.mem_singleton] at ho; subst ho; exact hobj.2.2) }
    have hdir' : RelEnd.Directory (now W past (P m0 regs).1).toNet (r.rdi.setWidth 32) fd := by
      cases hdir with
      | given h h1 h2 h3 => exact .given _ h1 h2 h3
      | none h1 => exact .none h1
    obtain ⟨r', c', e1, e2, e3, e4, e5, e6⟩ := RelEnd.relative_openat_partial hset hcode hnr hread hrel hr hdir'
    refine ⟨⟨c', r', past ++ [.host (RelEnd.calls (now W past (P m0 regs).1).kernel fd text (r.rdx.setWidth 32)
      (r.r10.setWidth 32))]⟩, ?_, ?_, e5, regs_unique e2 e3 e4, ?_⟩
    · have hyes : isRelative (P m0 regs).1 i r := ⟨hnr, by rw [hread]; exact hrel⟩
      simp only [step, hact, if_neg (show ¬ (i.syscall = 49 ∨ i.syscall = 42) by omega), if_pos hyes, hlen, e1]
    · intro x hx
      have hout := scratch_owned hf hb (past.map Event.plain) (j := 24) (k := 2) (by omega) (by omega) hx
      exact (e6 x hout).trans (hm1 x hx)
    · simp only [List.map_append, List.map_cons, List.map_nil, Event.plain, rel_plain]
      rfl
  | sock m i r op f len h hp hcode hop hch hlen hmax hobj hheap hsock hpass hh =>
    simp only at hp hobj hheap hpass hch
    rw [hp] at hm1 hact
    simp only at hm1 hact
    have hr : NetEnd.Ready (now W past (P m0 regs).1).toNet ⟨(P m0 regs).1, live0, bs⟩ n r.rsi len :=
      { room := ⟨hobj.2.1, by omega, hn.2⟩
        object := hobj.1
        apart := apart_of hobj.2.2 fun i hi => (hf.stack (past.map Event.plain)).2 i (by omega)
        stack := object_mono (hf.setup (past.map Event.plain)) (hf.stack _).1 (by omega) (by omega)
        pool := pool_of hb past _ _ (by omega) (by omega) (by
          intro o ho; rw [List.mem_singleton] at ho; subst ho; exact hobj.2.2) }
    obtain ⟨r', c', e1, e2, e3, e4, e5, e6⟩ := NetEnd.network_call_end_to_end (h := h) hs.base hcode hop hch hlen hmax hr
      hheap hsock hpass hh
    have hbytes : bytesAt (P m0 regs).1 r.rsi len = bytesAt m r.rsi len := same_bytes hm1 hobj.2.2
    simp only [hbytes] at e1 e2
    have hns := op_number hop
    refine ⟨⟨c', r', past ++ [.net (called (given h (bytesAt m r.rsi len)) f)]⟩, ?_, ?_, e5, regs_unique e2 e3 e4, ?_⟩
    · simp only [step, hact, if_pos hns, e1]
    · intro x hx
      have hout := scratch_owned hf hb (past.map Event.plain) (j := 24) (k := 2) (by omega) (by omega) hx
      exact (e6 x hout).trans (hm1 x hx)
    · simp only [List.map_append, List.map_cons, List.map_nil, Event.plain]
  | back m idx data size fd r u h d hp hu hsz hobj harr hd =>
    simp only at hp hobj hu hsz harr hd
    rw [hp] at hm1 hact
    simp only at hm1 hact
    have hpos : 0 < size := hsz ▸ hs.sizes u
    obtain ⟨p, ps, hps, hp3⟩ : ∃ p ps, bs = p :: ps ∧ p ∈ bs.take 5 := by
      cases bs with
      | nil => exact absurd hb.enough (by simp)
      | cons p ps => exact ⟨p, ps, rfl, by simp⟩
    have hr : UserEnd.Ready (now W past (P m0 regs).1).toUser ⟨(P m0 regs).1, live0, bs⟩ data size :=
      { pos := ⟨hpos, by have := hobj.2.1; omega⟩
        object := hobj.1
        fresh := ⟨p, ps, hps, EndToEnd.inHeap_mono hs.base.base (hb.heap _ p hp3) hn.2 hobj.2.1,
          EndToEnd.apart_symm (apart_of hobj.2.2 fun i hi => hb.own p hp3 i (by have := hobj.2.1; omega)),
          hb.new p hp3⟩ }
    obtain ⟨m1, c', e1, _, e2, e3, e4⟩ := UserEnd.user_callback_end_to_end hs hu hsz hr harr
    have hbytes : bytesAt (P m0 regs).1 data size = bytesAt m data size := same_bytes hm1 hobj.2.2
    simp only [hbytes] at e2 e3
    replace hd : d = if ((now W past (P m0 regs).1).fns u).takes then h else -1 := hd
    rw [← hd] at e2 e3
    refine ⟨⟨c', { r with rax := (told (W (past.map Event.plain)).toUser
        (((W (past.map Event.plain)).fns u).result (bytesAt m data size) d)).setWidth 64 },
      past ++ [.user [(u, bytesAt m data size, d)]]⟩, ?_, ?_, e4, rfl, ?_⟩
    · simp only [step, hact, e2]
      rfl
    · rw [e3]
      apply hf.fns (past.map Event.plain)
      intro x hx
      rw [e1 x ?_]
      · exact hm1 x hx
      · apply outside_of (S := S) _ hx
        intro o ho j hj
        obtain ⟨q, hq, rfl⟩ := List.mem_map.1 ho
        exact hb.own q (take_of_take (by omega) hq) j (by have := hobj.2.1; simp only at hj; omega)
    · simp only [List.map_append, List.map_cons, List.map_nil, Event.plain]
  | look m host serv hints res r hs' ss f hp hhost hserv hobj hap hall hch =>
    simp only at hp hobj hap hall hch
    rw [hp] at hm1 hact
    simp only at hm1 hact
    have o1 := hobj _ (List.mem_cons_self ..)
    have o2 := hobj (serv, ss.length + 1) (by simp)
    have o3 := hobj (hints, 48) (by simp)
    have o4 := hobj (res, 8) (by simp)
    have hls := hf.localRes (past.map Event.plain)
    have hn1 := o1.2.1
    have hn2 := o2.2.1
    simp only at hn1 hn2
    have hset : NameEnd.Setup (now W past (P m0 regs).1).names (H.exports (past.map Event.plain))
        (H.users (past.map Event.plain)) (H.conf (past.map Event.plain)) :=
      ⟨hs.base, (hf.names (past.map Event.plain)).fits, (hf.names (past.map Event.plain)).alloc,
        (hf.names (past.map Event.plain)).mapped⟩
    have hown : ∀ o ∈ NameEnd.objects (now W past (P m0 regs).1).names host serv hints hs' ss,
        Object (W (past.map Event.plain)).hdr (W (past.map Event.plain)).region (W (past.map Event.plain)).bounds o.1 o.2 ∧
        ∀ i, i < o.2 → ¬ S (o.1 + BitVec.ofNat 64 i) := by
      intro o ho
      simp only [NameEnd.objects, List.mem_cons, List.not_mem_nil, or_false] at ho
      rcases ho with rfl | rfl | rfl | rfl
      · exact ⟨o1.1, o1.2.2⟩
      · exact ⟨o2.1, o2.2.2⟩
      · exact ⟨o3.1, o3.2.2⟩
      · exact hls
    have hr : NameEnd.Ready (now W past (P m0 regs).1).names ⟨(P m0 regs).1, live0, bs⟩ n host serv hints res hs' ss :=
      { room := ⟨hn1, hn2, by omega, hn.2⟩
        hostText := same_string hm1 o1.2.2 hhost
        servText := same_string hm1 o2.2.2 hserv
        objs := fun o ho => ⟨(hown o ho).1, apart_of (hown o ho).2 (hf.stack (past.map Event.plain)).2⟩
        stack := (hf.stack (past.map Event.plain)).1
        place := o4.1.1
        pool := pool_of hb past _ _ (by omega) (by omega) fun o ho => (hown o ho).2
        fresh := by
          intro k p hk o ho
          obtain ⟨l1, l2⟩ := hf.lists (past.map Event.plain) k p hk
          rcases List.mem_cons.1 ho with rfl | ho
          · exact hall k p hk
          · rcases List.mem_cons.1 ho with rfl | ho
            · exact apart_of l2 (hf.stack (past.map Event.plain)).2
            · rcases List.mem_cons.1 ho with rfl | ho
              · exact l1
              · obtain ⟨q, hq, rfl⟩ := List.mem_map.1 ho
                exact apart_of l2 (hb.own q hq) }
    obtain ⟨c', e1, e2, e3⟩ := NameEnd.lookup_exact hset hr hap hch
    have hl1 : nameLength (P m0 regs).1 host = hs'.length := nameLength_eq hr.hostText (by omega)
    have hl2 : nameLength (P m0 regs).1 serv = ss.length := nameLength_eq hr.servText (by omega)
    simp only [asked_same hm1 o3.2.2] at e1 e3
    obtain ⟨k1, k2⟩ := looked_same (w := (W (past.map Event.plain)).names) hls.2 hm1 f (asked m hints hs' ss) res
    have hlk : ∀ m, looked (now W past (P m0 regs).1).names f (asked m hints hs' ss) res (P m0 regs).1 =
        looked (W (past.map Event.plain)).names f (asked m hints hs' ss) res (P m0 regs).1 := fun _ => rfl
    rw [hlk] at e1
    refine ⟨⟨c', { r with rax := (looked (W (past.map Event.plain)).names f (asked m hints hs' ss) res m).2.1.setWidth 64 },
      past ++ [.look (looked (W (past.map Event.plain)).names f (asked m hints hs' ss) res m).2.2]⟩, ?_, ?_, e2, rfl, ?_⟩
    · simp only [step, hact, hl1, hl2, e1, k2]
    · intro x hx
      have hout := scratch_owned hf hb (past.map Event.plain) (j := 32) (k := 5) (by omega) (by omega) hx
      exact (e3 x hout).trans (k1 x hx)
    · simp only [List.map_append, List.map_cons, List.map_nil, Event.plain]
  | badSock m i r op len hp hcode hop hlen hobj hsock hbad =>
    simp only at hp hobj hsock hbad
    rw [hp] at hm1 hact
    simp only at hm1 hact
    have hr : NetEnd.Ready (now W past (P m0 regs).1).toNet ⟨(P m0 regs).1, live0, bs⟩ n r.rsi len :=
      { room := ⟨hobj.2.1, by omega, hn.2⟩
        object := hobj.1
        apart := apart_of hobj.2.2 fun i hi => (hf.stack (past.map Event.plain)).2 i (by omega)
        stack := object_mono (hf.setup (past.map Event.plain)) (hf.stack _).1 (by omega) (by omega)
        pool := pool_of hb past _ _ (by omega) (by omega) (by
          intro o ho; rw [List.mem_singleton] at ho; subst ho; exact hobj.2.2) }
    obtain ⟨r', c', e1, e2, e3, e4, e5, e6⟩ := NetEnd.bad_network_call_refused hs.base hcode hop hlen hr
      (hf.agree (past.map Event.plain)) hsock hbad
    refine ⟨⟨c', r', past ++ [.net []]⟩, ?_, ?_, e5, regs_unique e2 e3 e4, ?_⟩
    · simp only [step, hact, if_pos (op_number hop), e1]
    · intro x hx
      have hout := scratch_owned hf hb (past.map Event.plain) (j := 24) (k := 2) (by omega) (by omega) hx
      exact (e6 x hout).trans (hm1 x hx)
    · simp only [List.map_append, List.map_cons, List.map_nil, Event.plain]
  | badBack m idx data size fd r h hp hbad hpos hobj harr =>
    simp only at hp hobj hbad harr
    rw [hp] at hm1 hact
    simp only at hm1 hact
    obtain ⟨p, ps, hps, hp3⟩ : ∃ p ps, bs = p :: ps ∧ p ∈ bs.take 5 := by
      cases bs with
      | nil => exact absurd hb.enough (by simp)
      | cons p ps => exact ⟨p, ps, rfl, by simp⟩
    have hr : UserEnd.Ready (now W past (P m0 regs).1).toUser ⟨(P m0 regs).1, live0, bs⟩ data size :=
      { pos := ⟨hpos, by have := hobj.2.1; omega⟩
        object := hobj.1
        fresh := ⟨p, ps, hps, EndToEnd.inHeap_mono hs.base.base (hb.heap _ p hp3) hn.2 hobj.2.1,
          EndToEnd.apart_symm (apart_of hobj.2.2 fun i hi => hb.own p hp3 i (by have := hobj.2.1; omega)),
          hb.new p hp3⟩ }
    obtain ⟨c', e1, e2, e3⟩ := UserEnd.bad_user_callback_refused hs (hf.small (past.map Event.plain)) hr harr hbad
    refine ⟨⟨c', { r with rax := (-38 : CInt).setWidth 64 }, past ++ [.user []]⟩, ?_, ?_, e2, rfl, ?_⟩
    · simp only [step, hact, e1]
    · intro x hx
      refine (e3 x ?_).trans (hm1 x hx)
      apply outside_of (S := S) _ hx
      intro o ho j hj
      obtain ⟨q, hq, rfl⟩ := List.mem_map.1 ho
      exact hb.own q (take_of_take (by omega) hq) j (by have := hobj.2.1; simp only at hj; omega)
    · simp only [List.map_append, List.map_cons, List.map_nil, Event.plain]
  | other m i r hp hnr =>
    simp only at hp
    rw [hp] at hm1 hact
    simp only at hm1 hact
    refine ⟨⟨⟨(P m0 regs).1, live0, bs⟩, r, past ++ [.host []]⟩, ?_, hm1, rfl, rfl, ?_⟩
    · have he : ∀ v, Syscall.emulate v i r = .ok (r, []) := fun v =>
        Syscall.not_emulated_unchanged v i r (by
          simp only [Syscall.syscallNumbers, List.mem_cons, List.not_mem_nil, or_false]; exact hnr)
      simp only [step, hact, if_neg (show ¬ (i.syscall = 49 ∨ i.syscall = 42) by omega),
        if_neg (show ¬ isRelative (P m0 regs).1 i r from fun h => hnr (by have := h.1; omega)), EndToEnd.trap, he]
    · simp only [List.map_append, List.map_cons, List.map_nil, Event.plain, plain]

/-! ## C93 -/

/-- **C93.**  A program runs in a sandbox: it computes, makes system calls on paths and sockets, calls functions of the
host, and goes on with what it finds, as often as it likes.  Suppose that the ideal machine, in which every call does at
once what it should and nothing else, runs the program through so many calls.  Then so does the sandbox, from every
memory that the program cannot tell from the ideal one and whatever blocks `malloc` gives: nothing ends early, the
program finds the same registers, the same memory and so the same results, and the host has made exactly the same system
calls and called the same functions, in the same order.  Afterwards all copies are free again. -/
theorem run_transparent {W : Worlds} {H : Host} {S : Word → Prop} (hf : Fixed W H S) {P : Program} (hP : Blind S P)
    {n : Nat} (hn : 144 ≤ n ∧ n < 2 ^ 64) {live : List Word} {blocks : List (List Word)}
    (hb : ∀ b ∈ blocks, Blocks W S n live b) {s : State} {t t' : Ideal} (ha : Alike S live s t)
    (ht : Steps W H S n P blocks.length t t') :
    ∃ s', run W P blocks s = .ok (some s') ∧ Alike S live s' t' := by
  induction blocks generalizing s t with
  | nil =>
    cases ht
    exact ⟨s, rfl, ha⟩
  | cons b bs ih =>
    cases ht with
    | more _ _ t1 _ h1 h2 =>
      obtain ⟨s1, e1, a1⟩ := step_alike hf hP hn (hb b List.mem_cons_self) ha h1
      obtain ⟨s', e2, a2⟩ := ih (fun b' h => hb b' (List.mem_cons_of_mem _ h)) a1 h2
      exact ⟨s', by rw [run, e1]; exact e2, a2⟩

/-- **C93, the end.**  If the program ends in the ideal machine, it ends in the sandbox. -/
theorem end_transparent {W : Worlds} {S : Word → Prop} {P : Program} (hP : Blind S P) {live b : List Word} {s : State}
    {t : Ideal} (ha : Alike S live s t) (h : (P t.mem t.regs).2 = .stop) : step W P b s = .ok none := by
  have := (hP _ _ s.regs ha.mem).2
  rw [← ha.regs] at h
  simp only [step, this, h]

/-- **C93, results do not depend on the sandbox.**  Two sandboxes that differ in what the child keeps for itself and in the
blocks that `malloc` gives run the program alike. -/
theorem runs_agree {W : Worlds} {H : Host} {S : Word → Prop} (hf : Fixed W H S) {P : Program} (hP : Blind S P)
    {n : Nat} (hn : 144 ≤ n ∧ n < 2 ^ 64) {live live' : List Word} {blocks blocks' : List (List Word)}
    (hb : ∀ b ∈ blocks, Blocks W S n live b) (hb' : ∀ b ∈ blocks', Blocks W S n live' b)
    (hl : blocks.length = blocks'.length) {s s2 : State} {t t' : Ideal} (ha : Alike S live s t) (ha2 : Alike S live' s2 t)
    (ht : Steps W H S n P blocks.length t t') :
    ∃ s' s2', run W P blocks s = .ok (some s') ∧ run W P blocks' s2 = .ok (some s2') ∧
      Same S s'.child.mem s2'.child.mem ∧ s'.regs = s2'.regs ∧ s'.past.map Event.plain = s2'.past.map Event.plain := by
  obtain ⟨s', e1, a1⟩ := run_transparent hf hP hn hb ha ht
  obtain ⟨s2', e2, a2⟩ := run_transparent hf hP hn hb' ha2 (hl ▸ ht)
  exact ⟨s', s2', e1, e2, fun x hx => (a1.mem x hx).trans (a2.mem x hx).symm, a1.regs.trans a2.regs.symm,
    a1.past.trans a2.past.symm⟩

/-! ### A case that meets the conditions -/

/-- What the child keeps for itself: five blocks and the frame on the stack. -/
def exOwn (x : Word) : Prop := (0x18000 ≤ x.toNat ∧ x.toNat < 0x18a00) ∨ (0x19800 ≤ x.toNat ∧ x.toNat < 0x19820)

/-- As in the examples of `Verif.NetEnd`, and lookups are allowed. -/
def exConf : List Config := NetEnd.exConf ++ [.allow .getAddrInfo]

def exWorld : World where
  toUser := { UserEnd.exWorld with toNet := { UserEnd.exWorld.toNet with policies := Net.configure exConf } }
  look := NameEnd.exWorld.look
  alloc := NameEnd.exWorld.alloc
  localRes := 0x7000

theorem exSetup : UserEnd.Setup exWorld.toUser FileTree.exHist [3, 5] exConf :=
  { UserEnd.exSetup with base := { UserEnd.exSetup.base with policies := rfl } }

/-- Nothing changes in the host but what it has recorded. -/
def exWorlds : Worlds := fun _ => exWorld

def exHost : Host := ⟨fun _ => FileTree.exHist, fun _ => [3, 5], fun _ => exConf⟩

/-- A program that opens `/lib/x`; then asks about it, and the answer goes to `0x19000`; then, if the first byte there is 7,
calls back, with these bytes and the descriptor that `open` gave; then ends. -/
def exProgram : Program := fun m r =>
  if r.rip = 0 then (m, .sys ⟨1, 2, 0x700⟩ ⟨2, 0x5000, 0, 0, 0, 0, 0, 0x6fe⟩)
  else if r.rip = 0x700 then (m, .sys ⟨1, 4, 0x800⟩ ⟨4, 0x5000, 0x19000, r.rax, 0, 0, 0, 0x7fe⟩)
  else if r.rip = 0x800 ∧ m 0x19000 = 7 then (m, .back 8 0x19000 8 (-1) { r with rip := 0x900 })
  else (m, .stop)

def exStart : Ideal := ⟨EndToEnd.exChild.mem, ⟨0, 0, 0, 0, 0, 0, 0, 0⟩, []⟩

theorem off_toNat (a : Word) (i k : Nat) (h : a.toNat = k) (hi : k + i < 2 ^ 64) :
    (a + BitVec.ofNat 64 i).toNat = k + i := by
  rw [BitVec.toNat_add, BitVec.toNat_ofNat, h]
  omega

theorem exFixed : Fixed exWorlds exHost exOwn where
  setup := fun _ => exSetup
  names := fun _ => ⟨exSetup.base, NameEnd.exSetup.fits, NameEnd.exSetup.alloc,
    (by decide : 0 < exWorld.region.base.toNat)⟩
  kernel := fun _ _ _ => rfl
  fails := fun _ _ _ h => absurd h (by decide : ¬ (9 : Int) < 0)
  stat := fun _ _ => rfl
  fns := by
    intro p u bs h m m' hm x hx
    simp only [exWorlds, exWorld, UserEnd.exWorld]
    split
    · exact hm x hx
    · simp only
      split
      · rfl
      · exact hm x hx
  stack := by
    intro p
    simp only [exWorlds]
    refine ⟨⟨by decide, .inl (by simp only [InHeap]; decide)⟩, fun i hi => .inr ?_⟩
    rw [off_toNat _ i 0x19800 rfl (by omega)]
    omega
  small := by
    intro p u
    simp only [exWorlds, exWorld, UserEnd.exWorld]
    split <;> decide
  agree := by
    intro p
    simp only [exWorlds]
    exact ⟨by decide, by decide, by decide⟩
  localRes := by
    intro p
    refine ⟨⟨by simp only [exWorlds, exWorld]; decide, .inr ⟨by simp only [exWorlds]; decide, by simp only [exWorlds]; decide⟩⟩,
      fun i hi h => ?_⟩
    rw [exOwn, off_toNat _ i 0x7000 rfl (by omega)] at h
    omega
  lists := by
    intro p k b hb
    simp only [exWorlds, exWorld, NameEnd.exWorld] at hb
    split at hb
    · rename_i hk
      simp only [Option.some.injEq] at hb
      subst hb
      refine ⟨fun i j hi hj e => ?_, fun i hi h => ?_⟩
      · have := congrArg BitVec.toNat e
        rw [off_toNat _ i 0x1a000 rfl (by omega), off_toNat _ j 0x7000 rfl (by omega)] at this
        omega
      · rw [exOwn, off_toNat _ i 0x1a000 rfl (by omega)] at h
        omega
    · cases hb

theorem exBlind : Blind exOwn exProgram := by
  intro m m' r h
  have h7 : m 0x19000 = m' 0x19000 := h _ (by unfold exOwn; decide)
  simp only [exProgram, h7]
  repeat' split
  all_goals exact ⟨h, rfl⟩

theorem exBlocks : Blocks exWorlds exOwn 144 [0x17000] [0x18000, 0x18200, 0x18400, 0x18600, 0x18800] where
  enough := by decide
  heap := by
    intro w p hp
    simp only [List.take, List.mem_cons, List.not_mem_nil, or_false] at hp
    rcases hp with rfl | rfl | rfl | rfl | rfl <;> (simp only [InHeap, exWorlds]; decide)
  own := by
    intro p hp i hi
    simp only [List.take, List.mem_cons, List.not_mem_nil, or_false] at hp
    left
    rcases hp with rfl | rfl | rfl | rfl | rfl
    · rw [off_toNat _ i 0x18000 rfl (by omega)]; omega
    · rw [off_toNat _ i 0x18200 rfl (by omega)]; omega
    · rw [off_toNat _ i 0x18400 rfl (by omega)]; omega
    · rw [off_toNat _ i 0x18600 rfl (by omega)]; omega
    · rw [off_toNat _ i 0x18800 rfl (by omega)]; omega
  frame := by
    intro w p hp
    simp only [List.take, List.mem_cons, List.not_mem_nil, or_false] at hp
    simp only [exWorlds]
    rcases hp with rfl | rfl | rfl | rfl | rfl <;> exact EndToEnd.apart_of_lt (by decide) (by decide)
  pairwise := by
    simp only [List.take, List.pairwise_cons, List.mem_cons, List.not_mem_nil, or_false, forall_eq_or_imp, forall_eq,
      List.Pairwise.nil, and_true, false_implies, implies_true]
    refine ⟨⟨?_, ?_, ?_, ?_⟩, ⟨?_, ?_, ?_⟩, ⟨?_, ?_⟩, ?_⟩ <;> exact EndToEnd.apart_of_gt (by decide) (by decide)
  new := by
    intro p hp
    simp only [List.take, List.mem_cons, List.not_mem_nil, or_false] at hp
    rcases hp with rfl | rfl | rfl | rfl | rfl <;> simp

theorem exOwnPath : Own exWorld exOwn 144 (0x5000, 7) := by
  refine ⟨⟨by decide, .inr ⟨by decide, by decide⟩⟩, by decide, fun i hi h => ?_⟩
  simp only at hi h
  rw [exOwn, off_toNat 0x5000 i 0x5000 rfl (by omega)] at h
  omega

theorem exOwnBuffer {k : Nat} (hk : k ≤ 144) : Own exWorld exOwn 144 (0x19000, k) := by
  refine ⟨⟨by simp, .inl (EndToEnd.inHeap_mono exSetup.base.base (n := 144) (by simp only [InHeap]; decide)
    (by decide) hk)⟩, hk, fun i hi h => ?_⟩
  simp only at hi h
  rw [exOwn, off_toNat 0x19000 i 0x19000 rfl (by omega)] at h
  omega

theorem exAnswers : Answers (specHistory FileTree.exHist) [Path.txt "lib", Path.txt "x"] 5 [Path.txt "x"] :=
  .dir [Path.txt "lib"] _ 5 (by decide) rfl (by decide)

/-- The three calls of the program. -/
theorem exSteps : ∃ t, Steps exWorlds exHost exOwn 144 exProgram 3 exStart t ∧ t.regs.rax = 108 ∧
    (exProgram t.mem t.regs).2 = .stop := by
  refine ⟨_, .more _ _ _ _ (.path _ _ _ _ (.open_ 0 0) 0x5000 0 (Path.txt "/lib/x") _ _ rfl rfl rfl EndToEnd.exString ?_
      (.openBeneath [Path.txt "lib", Path.txt "x"] 5 [Path.txt "x"] 0 0 (by decide) exAnswers (by decide)) rfl)
    (.more _ _ _ _ (.path _ _ _ _ .stat 0x5000 0x19000 (Path.txt "/lib/x") _ _ rfl rfl rfl EndToEnd.exString ?_
      (.statSome [Path.txt "lib", Path.txt "x"] 5 [Path.txt "x"] 9 _ 0 (by decide) exAnswers (by decide) rfl (by decide)
        rfl) rfl)
    (.more _ _ _ _ (.back _ _ 8 0x19000 8 (-1) _ 5 (-1) (-1) rfl ⟨1, rfl, rfl⟩ rfl (exOwnBuffer (by decide))
      (.inl ⟨by decide, rfl⟩) rfl) (.none _))), ?_, ?_⟩
  · intro o ho
    simp only [objects, reduceCtorEq, if_false, List.mem_singleton] at ho
    subst ho
    exact exOwnPath
  · intro o ho
    simp only [objects, if_true, List.mem_cons, List.not_mem_nil, or_false] at ho
    rcases ho with rfl | rfl
    · exact exOwnPath
    · exact exOwnBuffer (by decide)
  · rfl
  · rfl

/-- So the sandboxed program makes these calls, too, and finds 108. -/
example : ∃ s', run exWorlds exProgram (List.replicate 3 [0x18000, 0x18200, 0x18400, 0x18600, 0x18800])
    ⟨⟨EndToEnd.exChild.mem, [0x17000], []⟩, ⟨0, 0, 0, 0, 0, 0, 0, 0⟩, []⟩ = .ok (some s') ∧ s'.regs.rax = 108 ∧
    step exWorlds exProgram [] s' = .ok none := by
  obtain ⟨t, h1, h2, h3⟩ := exSteps
  obtain ⟨s', e1, e2⟩ := run_transparent exFixed exBlind (by decide) (live := [0x17000])
    (blocks := List.replicate 3 [0x18000, 0x18200, 0x18400, 0x18600, 0x18800])
    (s := ⟨⟨EndToEnd.exChild.mem, [0x17000], []⟩, ⟨0, 0, 0, 0, 0, 0, 0, 0⟩, []⟩)
    (fun b hb => by rw [List.eq_of_mem_replicate hb]; exact exBlocks) ⟨fun _ _ => rfl, rfl, rfl, rfl⟩ h1
  exact ⟨s', e1, by rw [e2.regs, h2], end_transparent exBlind e2 h3⟩

end Verif.Run
