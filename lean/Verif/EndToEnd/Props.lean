import Verif.EndToEnd.Lemmas
import Verif.Defaults.Props

/-!
# A system call of the sandboxed program, end to end: theorems
-/

namespace Verif.EndToEnd

open Verif.Bounds (Region contains contains_iff)
open Verif.Strings Verif.Strings.Spec
open Verif.Path (txt)
open Verif.FileTree Verif.FileTree.Spec
open Verif.Callback (Handler Packet Event Result tableOf)
open Verif.PathSyscall Verif.PathSyscall.Spec
open Verif.ChildArgs (Bounds Child Wrapped wrapPtr wrapCStr unwrap bytesAt Apart InHeap Object blit blit_bytes
  blit_else)
open Verif.Syscall (CInt Regs Info Arg Reply Answer Arrives abi wanted libc found emulate_faithful openat_absolute)

/-! ### Specification -/

/-- The system calls on paths, by number and arguments (`syscall(2)`): which call, the address of the path, and the
address of the result for `stat`. -/
def asks (nr : Int) : List Word → Option (Want × Word × Word)
  | a :: b :: c :: _ =>
    if nr = 2 then some (.open_ (b.setWidth 32) (c.setWidth 32), a, 0)
    else if nr = 4 then some (.stat, a, b)
    else if nr = 21 then some (.access (b.setWidth 32), a, 0)
    else none
  | _ => none

/-- The objects of the program that take part: the path and, for `stat`, the buffer. -/
def objects (want : Want) (path sb : Word) (s : List Byte) : List (Word × Nat) :=
  (path, s.length + 1) :: if want = .stat then [(sb, 144)] else []

/-- The program makes the call properly, and the child has the memory for it: there is a string at `path` and, for
`stat`, a buffer at `sb`, each wholly in the shared heap or wholly outside; the frame on the stack does not overlap
them; and `malloc` has three more blocks that overlap nothing (`n` bytes is enough for each). -/
structure Ready (w : World) (c : Child) (n : Nat) (want : Want) (path sb : Word) (s : List Byte) : Prop where
  room : s.length + 1 ≤ n ∧ 144 ≤ n ∧ n < 2 ^ 64
  string : CStringAt (asNat c.mem) path.toNat s
  objs : ∀ o ∈ objects want path sb s, Object w.hdr w.region w.bounds o.1 o.2 ∧ Apart o.1 o.2 w.sp 16
  stack : Object w.hdr w.region w.bounds w.sp 16
  pool : Pool w n c ((w.sp, 16) :: objects want path sb s) 3

/-- The places that the child uses for itself while it makes a call: the frame on its stack and the blocks. -/
def scratch (w : World) (c : Child) (n : Nat) : List (Word × Nat) :=
  (w.sp, 16) :: (c.mallocs.take 3).map (·, n)

/-- What the buffer of `stat` holds afterwards: what the host's kernel says about the file, if the call succeeded,
and what was there otherwise. -/
def Filled (w : World) (c c' : Child) (sb : Word) (ans : Answer) (log : Log) : Prop :=
  ((∃ v, ans = .value v) → bytesAt c'.mem sb 144 = w.statBytes log) ∧
  ((¬ ∃ v, ans = .value v) → bytesAt c'.mem sb 144 = bytesAt c.mem sb 144)

/-! ### Lemmas -/

theorem outside_mono {l l' : List (Word × Nat)} {x : Word} (h : Outside l x)
    (hs : ∀ a ∈ l', ∃ b ∈ l, a.1 = b.1 ∧ a.2 ≤ b.2) : Outside l' x := by
  intro a ha i hi
  obtain ⟨b, hb, h1, h2⟩ := hs a ha
  rw [h1]
  exact h b hb i (by omega)

theorem outside_of_apart {l : List (Word × Nat)} {a : Word} {n i : Nat} (h : ∀ o ∈ l, Apart o.1 o.2 a n)
    (hi : i < n) : Outside l (a + BitVec.ofNat 64 i) :=
  fun o ho j hj e => h o ho j i hj hi e.symm

theorem apart_symm {a b : Word} {n k : Nat} (h : Apart a n b k) : Apart b k a n :=
  fun i j hi hj e => h j i hj hi e.symm

theorem asNat_add (m : Mem) (a : Word) (i : Nat) : asNat m (a.toNat + i) = m (a + BitVec.ofNat 64 i) := by
  unfold asNat
  congr 1
  apply BitVec.eq_of_toNat_eq
  simp

/-- A string that has the same bytes elsewhere. -/
theorem cstring_moved {m m' : Mem} {a b : Word} {s : List Byte} (h : CStringAt (asNat m) a.toNat s)
    (hb : bytesAt m' b (s.length + 1) = bytesAt m a (s.length + 1)) : CStringAt (asNat m') b.toNat s := by
  refine ⟨?_, ?_⟩
  · intro i hi
    have := bytesAt_eq_get hb i (by omega)
    have h1 := h.1 i hi
    rw [asNat_add] at h1 ⊢
    rw [this]
    exact h1
  · have := bytesAt_eq_get hb s.length (by omega)
    have h1 := h.2
    rw [asNat_add] at h1 ⊢
    rw [this]
    exact h1

/-- An argument wrapper that draws on the pool. -/
theorem wrap_pool {w : World} {hist : List Export} {users : List Nat} (hw : Setup w hist users) {n k l : Nat}
    {c : Child} {objs : List (Word × Nat)} {orig : Word} (hp : Pool w n c objs (k + 1)) (hn : n < 2 ^ 64)
    (hl : 0 < l) (hln : l ≤ n) (ho : Object w.hdr w.region w.bounds orig l) :
    ∃ a c1, wrapPtr w.bounds c orig l = .ok (a, c1) ∧ InHeap w.hdr w.region a.arg l ∧
      bytesAt c1.mem a.arg l = bytesAt c.mem orig l ∧ a.original = orig ∧
      Pool w n c1 (if a.copy = none then objs else (a.arg, n) :: objs) k ∧
      c1.live = a.copy.toList ++ c.live ∧
      (∀ q ∈ c1.mallocs.take k, q ∈ c.mallocs.take (k + 1)) ∧
      (∀ q, a.copy = some q → q ∈ c.mallocs.take (k + 1) ∧ ∀ o ∈ objs, Apart q n o.1 o.2) ∧
      (∀ x, (∀ q, a.copy = some q → Outside [(q, l)] x) → c1.mem x = c.mem x) := by
  obtain ⟨p, ps, h1, h2, h3, h4⟩ := hp.next
  obtain ⟨a, c1, e1, e2, e3, e4⟩ := wrap_spec hl (by omega) ho h1 (inHeap_mono hw h2 hn hln)
  refine ⟨a, c1, e1, e2, e3, ?_⟩
  rcases e4 with ⟨rfl, rfl⟩ | ⟨rfl, rfl⟩
  · refine ⟨rfl, ?_, rfl, ?_, by simp, fun _ _ => rfl⟩
    · simp only [if_true]
      exact hp.mono (fun _ h => h) c1.mem c1.live
    · intro q hq
      exact List.take_subset_take_left _ (by omega) hq
  · refine ⟨rfl, ?_, rfl, ?_, ?_, ?_⟩
    · simp only [reduceCtorEq, if_false, Wrapped.arg, Option.getD_some]
      exact h4 _ _
    · intro q hq
      rw [h1, List.take_succ_cons]
      exact List.mem_cons_of_mem _ hq
    · intro q hq
      cases hq
      exact ⟨by rw [h1, List.take_succ_cons]; exact List.mem_cons_self, h3⟩
    · intro x hx
      exact blit_else _ _ _ _ _ fun i hi => hx p rfl (p, l) (by simp) i hi

/-- The last block of a pool, for the frame. -/
theorem pool_last {w : World} {n k : Nat} {c : Child} {objs : List (Word × Nat)} (hp : Pool w n c objs (k + 1)) :
    ∃ p ps, c.mallocs = p :: ps ∧ InHeap w.hdr w.region p n ∧ (∀ o ∈ objs, Apart p n o.1 o.2) ∧
      p ∈ c.mallocs.take (k + 1) := by
  obtain ⟨p, ps, h1, h2, h3, _⟩ := hp.next
  exact ⟨p, ps, h1, h2, h3, by rw [h1, List.take_succ_cons]; exact List.mem_cons_self⟩

theorem scratch_mem {w : World} {c : Child} {n : Nat} {q : Word} (h : q ∈ c.mallocs.take 3) :
    (q, n) ∈ scratch w c n :=
  List.mem_cons_of_mem _ (List.mem_map.2 ⟨q, h, rfl⟩)

/-- The request to which a call becomes, `wanted` of `Verif.Syscall` in the terms used here. -/
def reqOf (path sb : Word) : Want → Syscall.Request
  | .open_ flags mode => ⟨0, [.cstr path, .int flags, .int mode], -1⟩
  | .access mode => ⟨2, [.cstr path, .int mode], -1⟩
  | .stat => ⟨1, [.cstr path, .out sb], -1⟩

/-- What a request to the host gives. -/
def Gives (w : World) (hist : List Export) (c : Child) (n : Nat) (want : Want) (path sb : Word) (s : List Byte) :
    Prop :=
  ∃ rep log c' ans, request w c s.length (reqOf path sb want) = .ok (rep, log, c') ∧
    Meant hist w.kernel w.recv s want ans log ∧ ans.Proper ∧ Arrives ans rep ∧ c'.live = c.live ∧
    (∀ x, Outside (scratch w c n) x → (want = .stat → Outside [(sb, 144)] x) → c'.mem x = c.mem x) ∧
    (want = .stat → Filled w c c' sb ans log)

/-- `open` and `access`: one wrapped argument. -/
theorem plain_gives {w : World} {hist : List Export} {users : List Nat} (hw : Setup w hist users) {c : Child}
    {n : Nat} {want : Want} {path sb : Word} {s : List Byte} (hr : Ready w c n want path sb s)
    (hne : want ≠ .stat) : Gives w hist c n want path sb s := by
  obtain ⟨⟨hn1, hn2, hn3⟩, hstr, hobjs, hstack, hpool⟩ := hr
  have hobj := hobjs (path, s.length + 1) (by simp [objects])
  have h0 : (0 : Byte) ∉ s := by
    intro hm
    obtain ⟨i, hi, he⟩ := List.getElem_of_mem hm
    exact (hstr.1 i hi).2 he
  obtain ⟨a, c1, ha, hin, hbytes, haorig, hpool1, hlive1, hsub1, hcopy, hmem1⟩ :=
    wrap_pool hw hpool hn3 (by omega) hn1 hobj.1
  obtain ⟨p, ps, hm, hp, hpa, hpin⟩ := pool_last hpool1
  obtain ⟨m1, hm1, hsend⟩ := send_spec hw c1 (callOf a.arg sb want) hstack p ps hm (inHeap_mono hw hp hn3 (by omega))
  -- the string is still there when the host looks
  have hsep : ∀ o ∈ [(w.sp, 16), (p, 16)], Apart o.1 o.2 a.arg (s.length + 1) := by
    intro o ho
    simp only [List.mem_cons, List.not_mem_nil, or_false] at ho
    cases hc : a.copy with
    | none =>
      have harg : a.arg = path := by simp [Wrapped.arg, hc, haorig]
      rw [harg]
      rcases ho with rfl | rfl
      · exact apart_symm hobj.2
      · have := hpa (path, s.length + 1) (by simp [hc, objects])
        exact apart_mono this (by omega) (by omega)
    | some q =>
      have harg : a.arg = q := by simp [Wrapped.arg, hc]
      rw [harg]
      rcases ho with rfl | rfl
      · exact apart_symm (apart_mono ((hcopy q hc).2 (w.sp, 16) (by simp)) hn1 (by omega))
      · have := hpa (a.arg, n) (by simp [hc])
        rw [harg] at this
        exact apart_mono this (by omega) hn1
  have hb1 : bytesAt m1 a.arg (s.length + 1) = bytesAt c.mem path (s.length + 1) := by
    rw [← hbytes]
    exact bytesAt_congr fun i hi => hm1 _ (outside_of_apart hsep hi)
  have hgp := getPath_string hw m1 a.arg s hin (by omega) (cstring_moved hstr hb1)
  obtain ⟨res, log, ans, hserve, hmeant, hprop, harr, htgt, _⟩ :=
    serve_meant hw m1 a.arg sb s h0 hgp want (fun h => absurd h hne)
  obtain ⟨c2, hs2, hlive2, hmem2⟩ := hsend res log hserve
  have hmem2' : c2.mem = m1 := by
    rw [hmem2]
    refine (afterCalls_spec hw log m1 sb fun e he x hx => (htgt e he x hx).2).2.1 fun e he => ?_
    cases ht : statTarget e with
    | none => rfl
    | some x => exact absurd (htgt e he x ht).1 hne
  have hreq : request w c s.length (reqOf path sb want) =
      .ok (reply w res.integer res.handle, log, unwrap false c2 a (s.length + 1)) := by
    have ha' : wrapCStr w.bounds c path s.length = .ok (a, c1) := ha
    cases want with
    | open_ flags mode =>
      simp only [callOf] at hs2
      simp only [reqOf, request, ha', hs2]
    | access mode =>
      simp only [callOf] at hs2
      simp only [reqOf, request, ha', hs2]
    | stat => exact absurd rfl hne
  refine ⟨_, log, _, ans, hreq, hmeant, hprop, harr, ?_, ?_, fun h => absurd h hne⟩
  · cases hc : a.copy with
    | none => simp [unwrap, hc, hlive2, hlive1]
    | some q => simp [unwrap, hc, hlive2, hlive1]
  · intro x hx _
    have hu : (unwrap false c2 a (s.length + 1)).mem x = c2.mem x := by
      cases hc : a.copy <;> simp [unwrap, hc]
    rw [hu, hmem2', hm1, hmem1]
    · intro q hq
      apply outside_mono hx
      intro o ho
      simp only [List.mem_singleton] at ho
      subst ho
      exact ⟨(q, n), scratch_mem (hcopy q hq).1, rfl, hn1⟩
    · apply outside_mono hx
      intro o ho
      simp only [List.mem_cons, List.not_mem_nil, or_false] at ho
      rcases ho with rfl | rfl
      · exact ⟨(w.sp, 16), by simp [scratch], rfl, by simp⟩
      · exact ⟨(p, n), scratch_mem (hsub1 p hpin), rfl, by simp only; omega⟩

/-- `stat`: a path and a buffer. -/
theorem stat_gives {w : World} {hist : List Export} {users : List Nat} (hw : Setup w hist users) {c : Child}
    {n : Nat} {path sb : Word} {s : List Byte} (hr : Ready w c n .stat path sb s) :
    Gives w hist c n .stat path sb s := by
  obtain ⟨⟨hn1, hn2, hn3⟩, hstr, hobjs, hstack, hpool⟩ := hr
  have hobj := hobjs (path, s.length + 1) (by simp [objects])
  have hbuf := hobjs (sb, 144) (by simp [objects])
  have h0 : (0 : Byte) ∉ s := by
    intro hm
    obtain ⟨i, hi, he⟩ := List.getElem_of_mem hm
    exact (hstr.1 i hi).2 he
  obtain ⟨a, c1, ha, hin, hbytes, haorig, hpool1, hlive1, hsub1, hcopy, hmem1⟩ :=
    wrap_pool hw hpool hn3 (by omega) hn1 hobj.1
  obtain ⟨b, c2, hb, hbin, hbbytes, hborig, hpool2, hlive2, hsub2, hbcopy, hmem2⟩ :=
    wrap_pool hw hpool1 hn3 (by omega) hn2 hbuf.1
  obtain ⟨p, ps, hm, hp, hpa, hpin⟩ := pool_last hpool2
  obtain ⟨m1, hm1, hsend⟩ := send_spec hw c2 (.stat a.arg b.arg) hstack p ps hm (inHeap_mono hw hp hn3 (by omega))
  -- everything that the first pool keeps apart, the later ones do too
  have in1 : ∀ o ∈ (w.sp, 16) :: objects .stat path sb s,
      o ∈ (if a.copy = none then (w.sp, 16) :: objects .stat path sb s
        else (a.arg, n) :: (w.sp, 16) :: objects .stat path sb s) := by
    intro o ho
    split
    · exact ho
    · exact List.mem_cons_of_mem _ ho
  have in2 : ∀ o ∈ (if a.copy = none then (w.sp, 16) :: objects .stat path sb s
        else (a.arg, n) :: (w.sp, 16) :: objects .stat path sb s),
      Apart p n o.1 o.2 := by
    intro o ho
    apply hpa
    split
    · exact ho
    · exact List.mem_cons_of_mem _ ho
  have apath : ∀ q k, (∀ o ∈ (if a.copy = none then (w.sp, 16) :: objects .stat path sb s
        else (a.arg, n) :: (w.sp, 16) :: objects .stat path sb s), Apart q n o.1 o.2) → k ≤ n →
      Apart q k a.arg (s.length + 1) := by
    intro q k hq hk
    cases hc : a.copy with
    | none =>
      have harg : a.arg = path := by simp [Wrapped.arg, hc, haorig]
      rw [harg]
      exact apart_mono (hq (path, s.length + 1) (in1 _ (by simp [objects]))) hk (by simp)
    | some x => exact apart_mono (hq (a.arg, n) (by simp [hc])) hk hn1
  have spPath : Apart w.sp 16 a.arg (s.length + 1) := by
    cases hc : a.copy with
    | none =>
      have harg : a.arg = path := by simp [Wrapped.arg, hc, haorig]
      rw [harg]
      exact apart_symm hobj.2
    | some q =>
      have harg : a.arg = q := by simp [Wrapped.arg, hc]
      rw [harg]
      exact apart_symm (apart_mono ((hcopy q hc).2 (w.sp, 16) (by simp)) hn1 (by omega))
  have hsep : ∀ o ∈ [(w.sp, 16), (p, 16)], Apart o.1 o.2 a.arg (s.length + 1) := by
    intro o ho
    simp only [List.mem_cons, List.not_mem_nil, or_false] at ho
    rcases ho with rfl | rfl
    · exact spPath
    · exact apath p 16 in2 (by omega)
  have hsepB : ∀ o ∈ [(w.sp, 16), (p, 16)], Apart o.1 o.2 b.arg 144 := by
    intro o ho
    simp only [List.mem_cons, List.not_mem_nil, or_false] at ho
    cases hc : b.copy with
    | none =>
      have harg : b.arg = sb := by simp [Wrapped.arg, hc, hborig]
      rw [harg]
      rcases ho with rfl | rfl
      · exact apart_symm hbuf.2
      · exact apart_mono (in2 (sb, 144) (in1 _ (by simp [objects]))) (by omega) (by omega)
    | some q =>
      have harg : b.arg = q := by simp [Wrapped.arg, hc]
      rw [harg]
      rcases ho with rfl | rfl
      · exact apart_symm (apart_mono ((hbcopy q hc).2 (w.sp, 16) (in1 _ (by simp))) hn2 (by omega))
      · have := hpa (b.arg, n) (by simp [hc])
        rw [harg] at this
        exact apart_mono this (by omega) hn2
  have hb2 : bytesAt c2.mem a.arg (s.length + 1) = bytesAt c.mem path (s.length + 1) := by
    rw [← hbytes]
    apply bytesAt_congr
    intro i hi
    apply hmem2
    intro q hq
    apply outside_of_apart (n := s.length + 1) ?_ hi
    intro o ho
    simp only [List.mem_singleton] at ho
    subst ho
    exact apath q 144 (hbcopy q hq).2 hn2
  have hb1 : bytesAt m1 a.arg (s.length + 1) = bytesAt c.mem path (s.length + 1) := by
    rw [← hb2]
    exact bytesAt_congr fun i hi => hm1 _ (outside_of_apart hsep hi)
  have hbuf2 : bytesAt c1.mem sb 144 = bytesAt c.mem sb 144 := by
    apply bytesAt_congr
    intro i hi
    apply hmem1
    intro q hq
    apply outside_of_apart (n := 144) ?_ hi
    intro o ho
    simp only [List.mem_singleton] at ho
    subst ho
    exact apart_mono ((hcopy q hq).2 (sb, 144) (by simp [objects])) hn1 (by omega)
  have hbuf1 : bytesAt m1 b.arg 144 = bytesAt c.mem sb 144 := by
    rw [← hbuf2, ← hbbytes]
    exact bytesAt_congr fun i hi => hm1 _ (outside_of_apart hsepB hi)
  have hgp := getPath_string hw m1 a.arg s hin (by omega) (cstring_moved hstr hb1)
  obtain ⟨res, log, ans, hserve, hmeant, hprop, harr, htgt, hval⟩ :=
    serve_meant hw m1 a.arg b.arg s h0 hgp .stat (fun _ => hbin)
  obtain ⟨c3, hs3, hlive3, hmem3⟩ := hsend res log hserve
  have hafter := afterCalls_spec hw log m1 b.arg fun e he x hx => (htgt e he x hx).2
  have hreq : request w c s.length (reqOf path sb .stat) =
      .ok (reply w res.integer res.handle, log, unwrap false (unwrap true c3 b 144) a (s.length + 1)) := by
    have ha' : wrapCStr w.bounds c path s.length = .ok (a, c1) := ha
    have hl : statLen = 144 := rfl
    simp only [reqOf, request, ha', hl, hb, hs3]
  -- the memory in the end
  have hu : (unwrap false (unwrap true c3 b 144) a (s.length + 1)).mem = (unwrap true c3 b 144).mem := by
    cases hc : a.copy <;> simp [unwrap, hc]
  have hback : bytesAt (unwrap true c3 b 144).mem sb 144 = bytesAt c3.mem b.arg 144 := by
    cases hc : b.copy with
    | none => simp [unwrap, hc, Wrapped.arg, hborig]
    | some q =>
      simp only [unwrap, hc, if_true, Wrapped.arg, Option.getD_some, hborig]
      exact blit_bytes _ _ _ _ (by omega)
  refine ⟨_, log, _, ans, hreq, hmeant, hprop, harr, ?_, ?_, fun _ => ⟨?_, ?_⟩⟩
  · cases hc : a.copy <;> cases hc' : b.copy <;>
      simp [unwrap, hc, hc', hlive3, hlive2, hlive1]
  · intro x hx hxs
    have hxs := hxs rfl
    rw [hu]
    have e1 : (unwrap true c3 b 144).mem x = c3.mem x := by
      cases hc : b.copy with
      | none => simp [unwrap, hc]
      | some q =>
        simp only [unwrap, hc, if_true, hborig]
        exact blit_else _ _ _ _ _ fun i hi => hxs (sb, 144) (by simp) i hi
    have sc : ∀ q l, q ∈ c.mallocs.take 3 → l ≤ n → Outside [(q, l)] x := by
      intro q l hq hl
      apply outside_mono hx
      intro o ho
      simp only [List.mem_singleton] at ho
      subst ho
      exact ⟨(q, n), scratch_mem hq, rfl, hl⟩
    have e2 : c3.mem x = m1 x := by
      rw [hmem3]
      apply hafter.1
      cases hc : b.copy with
      | none =>
        have harg : b.arg = sb := by simp [Wrapped.arg, hc, hborig]
        rw [harg]
        exact hxs
      | some q =>
        have harg : b.arg = q := by simp [Wrapped.arg, hc]
        rw [harg]
        exact sc q 144 (hsub1 q (hbcopy q hc).1) hn2
    rw [e1, e2, hm1, hmem2, hmem1]
    · intro q hq
      exact sc q _ (hcopy q hq).1 hn1
    · intro q hq
      exact sc q _ (hsub1 q (hbcopy q hq).1) hn2
    · apply outside_mono hx
      intro o ho
      simp only [List.mem_cons, List.not_mem_nil, or_false] at ho
      rcases ho with rfl | rfl
      · exact ⟨(w.sp, 16), by simp [scratch], rfl, by simp⟩
      · exact ⟨(p, n), scratch_mem (hsub1 p (hsub2 p hpin)), rfl, by simp only; omega⟩
  · intro hv
    rw [hu, hback, hmem3]
    exact hafter.2.2 ((hval rfl).1 hv)
  · intro hv
    rw [hu, hback, hmem3, hafter.2.1, hbuf1]
    intro e he
    cases ht : statTarget e with
    | none => rfl
    | some x =>
      refine absurd ((hval rfl).2 ⟨e, he, ?_⟩) hv
      rw [ht, (htgt e he x ht).2]

theorem gives {w : World} {hist : List Export} {users : List Nat} (hw : Setup w hist users) {c : Child}
    {n : Nat} {want : Want} {path sb : Word} {s : List Byte} (hr : Ready w c n want path sb s) :
    Gives w hist c n want path sb s := by
  by_cases h : want = .stat
  · subst h
    exact stat_gives hw hr
  · exact plain_gives hw hr h

theorem wanted_asks {nr : Int} {r : Regs} {want : Want} {path sb : Word}
    (h : asks nr (abi r) = some (want, path, sb)) : wanted nr (abi r) = some (reqOf path sb want) ∧ nr ≠ 257 := by
  simp only [asks, abi] at h
  simp only [wanted, abi]
  by_cases h2 : nr = 2
  · subst h2
    simp at h
    obtain ⟨rfl, rfl, rfl⟩ := h
    simp [reqOf]
  by_cases h4 : nr = 4
  · subst h4
    simp at h
    obtain ⟨rfl, rfl, rfl⟩ := h
    simp [reqOf]
  by_cases h21 : nr = 21
  · subst h21
    simp at h
    obtain ⟨rfl, rfl, rfl⟩ := h
    simp [reqOf]
  · simp [h2, h4, h21] at h

/-! ## C66 -/

/-- **C66.**  A sandboxed program makes the system call `open`, `stat` or `access`.  Whatever the exports of its
sandbox, its memory and the answers of the host's kernel: the call ends; what the program finds in its result
register, as the C library reads it, is what the call means for the text that it passed; the host makes exactly the
system calls that this takes; the program goes on after the call with its other registers as they were; its memory is
as before, apart from the child's own frame and blocks, which are free again; and for `stat`, the buffer holds what
the host's kernel said about the file if the call succeeded, and is as before if not. -/
theorem syscall_end_to_end {w : World} {hist : List Export} {users : List Nat} (hw : Setup w hist users) {c : Child}
    {n : Nat} {i : Info} {r : Regs} {want : Want} {path sb : Word} {s : List Byte} (hcode : i.code = 1)
    (hcall : asks i.syscall (abi r) = some (want, path, sb)) (hr : Ready w c n want path sb s) :
    ∃ r' log c' ans, trap w c s.length i r = .ok (r', log, c') ∧ Meant hist w.kernel w.recv s want ans log ∧
      libc r'.rax = found ans ∧ r'.rip = i.callAddr ∧ abi r' = abi r ∧ c'.live = c.live ∧
      (∀ x, Outside (scratch w c n) x → (want = .stat → Outside [(sb, 144)] x) → c'.mem x = c.mem x) ∧
      (want = .stat → Filled w c c' sb ans log) := by
  obtain ⟨rep, log, c', ans, h1, h2, h3, h4, h5, h6, h7⟩ := gives hw hr
  obtain ⟨hwant, hne⟩ := wanted_asks hcall
  have hhost : hostOf w c s.length (reqOf path sb want) = rep := by rw [hostOf, h1]
  obtain ⟨r', e1, e2, e3, e4⟩ := emulate_faithful
    (v := ⟨hostOf w c s.length, w.pid, w.str, fun f => f⟩) hcode hwant (fun h => absurd h hne) h3
    (by simp only [hhost]; exact h4)
  exact ⟨r', log, c', ans, by rw [trap, e1]; simp only [h1], h2, e2, e3, e4, h5, h6, h7⟩

/-- **C66, a child without memory.**  If the path is outside the shared memory and there is no block for its copy, the child ends: the
host is not asked, and the program does not go on with some result. -/
theorem no_memory_ends_program {w : World} {c : Child} {n : Nat} {i : Info} {r : Regs} {want : Want} {path sb : Word}
    (hcode : i.code = 1) (hcall : asks i.syscall (abi r) = some (want, path, sb)) (hz : path ≠ 0)
    (hout : ChildArgs.inside w.bounds path 1 = false) (hm : c.mallocs = []) : trap w c n i r = .abort := by
  obtain ⟨hwant, hne⟩ := wanted_asks hcall
  have hw := (((ChildArgs.no_memory_ends_child hm hz).1 n hout).2)
  have hreq : request w c n (reqOf path sb want) = .abort := by
    cases want <;> simp only [reqOf, request, hw]
  obtain ⟨r', e1, _⟩ := emulate_faithful
    (v := ⟨hostOf w c n, w.pid, w.str, fun f => f⟩) (a := .value 0) hcode hwant (fun h => absurd h hne)
    (by simp [Syscall.Answer.Proper]) (by simp only [hostOf, hreq]; simp [Syscall.Arrives])
  rw [trap, e1]
  simp only [hreq]

/-- **C66, `openat`.**  The same for `openat` with an absolute path (the call that the C library makes for `open`),
unless the path names the process's own descriptors. -/
theorem openat_end_to_end {w : World} {hist : List Export} {users : List Nat} (hw : Setup w hist users) {c : Child}
    {n : Nat} {i : Info} {r : Regs} {s : List Byte} (hcode : i.code = 1) (hnr : i.syscall = 257)
    (hstr : w.str r.rsi = some s) (habs : s.head? = some 47) (hown : ¬ Syscall.fdDir w.pid <+: s)
    (hr : Ready w c n (.open_ (r.rdx.setWidth 32) (r.r10.setWidth 32)) r.rsi 0 s) :
    ∃ r' log c' ans, trap w c s.length i r = .ok (r', log, c') ∧
      Meant hist w.kernel w.recv s (.open_ (r.rdx.setWidth 32) (r.r10.setWidth 32)) ans log ∧
      libc r'.rax = found ans ∧ r'.rip = i.callAddr ∧ abi r' = abi r ∧ c'.live = c.live ∧
      (∀ x, Outside (scratch w c n) x → c'.mem x = c.mem x) := by
  obtain ⟨rep, log, c', ans, h1, h2, h3, h4, h5, h6, h7⟩ := gives hw hr
  have hz : r.rsi ≠ 0 := (hr.objs (r.rsi, s.length + 1) (by simp [objects])).1.1
  have hhost : hostOf w c s.length (reqOf r.rsi 0 (.open_ (r.rdx.setWidth 32) (r.r10.setWidth 32))) = rep := by
    rw [hostOf, h1]
  obtain ⟨r', e1, e2, e3, e4⟩ := openat_absolute
    (v := ⟨hostOf w c s.length, w.pid, w.str, fun f => f⟩) hcode hnr hstr hz hown habs h3
    (by simp only [reqOf] at hhost; simp only [hhost]; exact h4)
  refine ⟨r', log, c', ans, ?_, h2, e2, e3, e4, h5, fun x hx => h6 x hx (by simp)⟩
  rw [trap, e1]
  simp only [reqOf] at h1
  simp only [h1]

/-! ### A case that meets the conditions -/

theorem apart_of_lt {a b : Word} {n k : Nat} (h : a.toNat + n ≤ b.toNat) (hb : b.toNat + k ≤ 2 ^ 64) :
    Apart a n b k := by
  intro i j hi hj e
  have := congrArg BitVec.toNat e
  simp only [BitVec.toNat_add, BitVec.toNat_ofNat] at this
  omega

theorem apart_of_gt {a b : Word} {n k : Nat} (h : b.toNat + k ≤ a.toNat) (hb : a.toNat + n ≤ 2 ^ 64) :
    Apart a n b k := apart_symm (apart_of_lt h hb)

/-- `/lib` is exported as descriptor 5 of the host; every call of the host's kernel gives 9. -/
def exWorld : World where
  hdr := 0x400
  region := ⟨0x10400, 0x20000⟩
  malloc := fun n => some (List.replicate n 0xAA)
  tree := runHistory exHist
  kernel := fun _ _ => (9, 0)
  table := (tableOf [3]).handlers
  bounds := ⟨0x10000, 0x20000⟩
  sp := 0x19800
  pad := [1, 2, 3, 4]
  recv := fun _ => 4
  statBytes := fun _ => List.replicate 144 7
  pid := 77
  str := fun a => if a = 0x5000 then some (txt "/lib/x") else none

/-- The string `"/lib/x"` is a constant of the library, outside the shared memory; the buffer for `stat` is at
`0x19000`, inside. -/
def exChild : Child where
  mem := fun a => ((txt "/lib/x")[(a - 0x5000).toNat]?).getD 0
  live := [0x17000]
  mallocs := [0x18000, 0x18200, 0x18400, 0x18600]

theorem exSetup : Setup exWorld exHist [3] where
  wf := by decide
  short := exHist_short
  tree := rfl
  mallocOk := by
    intro n b h
    simp only [exWorld, Option.some.injEq] at h
    subst h; simp
  mallocTotal := by intro n; simp [exWorld]
  table := rfl
  pad := rfl
  kernel := by intro l op; exact ⟨fun _ => (by decide : (9 : Int) < 2 ^ 31), fun h => absurd h (by decide : ¬ (9 : Int) < 0)⟩
  recv := fun _ _ => (by decide : (4 : CInt).toNat < 2 ^ 31)
  stat := fun _ => List.length_replicate

theorem exString : CStringAt (asNat exChild.mem) (0x5000 : Word).toNat (txt "/lib/x") := by
  have : ∀ i : Fin (txt "/lib/x").length,
      asNat exChild.mem ((0x5000 : Word).toNat + i.val) = (txt "/lib/x")[i.val] ∧ (txt "/lib/x")[i.val] ≠ 0 := by
    decide +kernel
  exact ⟨fun i hi => this ⟨i, hi⟩, by decide +kernel⟩

theorem exReady (want : Want) : Ready exWorld exChild 144 want 0x5000 0x19000 (txt "/lib/x") where
  room := by decide
  string := exString
  objs := by
    intro o ho
    have hl : (txt "/lib/x").length = 6 := rfl
    have : o = (0x5000, 7) ∨ o = (0x19000, 144) := by
      cases want <;> simp_all [objects]
    rcases this with rfl | rfl
    · exact ⟨⟨by decide, .inr ⟨by decide, by decide⟩⟩, apart_of_lt (by decide) (by decide)⟩
    · exact ⟨⟨by decide, .inl (by simp only [InHeap]; decide)⟩, apart_of_lt (by decide) (by decide)⟩
  stack := ⟨by decide, .inl (by simp only [InHeap]; decide)⟩
  pool := by
    have hm : exChild.mallocs.take 3 = [0x18000, 0x18200, 0x18400] := rfl
    have hl : (txt "/lib/x").length = 6 := rfl
    refine ⟨by decide, ?_, ?_, ?_⟩
    · rw [hm]
      intro p hp
      simp only [List.mem_cons, List.not_mem_nil, or_false] at hp
      rcases hp with rfl | rfl | rfl <;> (simp only [InHeap]; decide)
    · rw [hm]
      intro p hp o ho
      have : o = (0x19800, 16) ∨ o = (0x5000, 7) ∨ o = (0x19000, 144) := by
        cases want <;> simp_all [objects, exWorld] <;> exact Or.imp_right Or.inl ho
      simp only [List.mem_cons, List.not_mem_nil, or_false] at hp
      rcases hp with rfl | rfl | rfl <;> rcases this with rfl | rfl | rfl <;>
        first
        | exact apart_of_lt (by decide) (by decide)
        | exact apart_of_gt (by decide) (by decide)
    · rw [hm]
      simp only [List.pairwise_cons, List.mem_cons, List.not_mem_nil, or_false, forall_eq_or_imp, forall_eq,
        List.Pairwise.nil, and_true, false_implies, implies_true]
      exact ⟨⟨apart_of_gt (by decide) (by decide), apart_of_gt (by decide) (by decide)⟩,
        apart_of_gt (by decide) (by decide)⟩

/-- `stat("/lib/x", buf)`: number 4, and it succeeds. -/
example : ∃ r' log c' ans, trap exWorld exChild 6 ⟨1, 4, 0x700⟩ ⟨4, 0x5000, 0x19000, 0, 0, 0, 0, 0x6fe⟩ = .ok (r', log, c') ∧
    Meant exHist exWorld.kernel exWorld.recv (txt "/lib/x") .stat ans log ∧ libc r'.rax = found ans := by
  obtain ⟨r', log, c', ans, h1, h2, h3, _⟩ := syscall_end_to_end exSetup
    (i := ⟨1, 4, 0x700⟩) (r := ⟨4, 0x5000, 0x19000, 0, 0, 0, 0, 0x6fe⟩) rfl rfl (exReady .stat)
  exact ⟨r', log, c', ans, h1, h2, h3⟩

/-- `open("/lib/x", 0)`: the program gets descriptor 4, the host opens `x` beneath descriptor 5. -/
example : (match trap exWorld exChild 6 ⟨1, 2, 0x700⟩ ⟨2, 0x5000, 0, 0, 0, 0, 0, 0x6fe⟩ with
    | .ok (r', log, _) => some (r'.rax, log.map (·.op))
    | _ => none) = some (4, [.openat2 5 (some (txt "x")) 0 0 8]) := by
  decide +kernel

/-- The same without memory. -/
example : trap exWorld { exChild with mallocs := [] } 6 ⟨1, 2, 0x700⟩ ⟨2, 0x5000, 0, 0, 0, 0, 0, 0x6fe⟩ = .abort :=
  no_memory_ends_program rfl rfl (by decide) (by decide) rfl

/-- `openat(AT_FDCWD, "/lib/x", 0)`. -/
example : exWorld.str 0x5000 = some (txt "/lib/x") ∧ (txt "/lib/x").head? = some 47 ∧
    ¬ Syscall.fdDir exWorld.pid <+: txt "/lib/x" := by
  refine ⟨by decide +kernel, by decide +kernel, by decide +kernel⟩

/-! ## C67 -/

/-- **C67.**  A program in a sandbox to which the host has exported nothing of its own opens a path.  Either the host
makes no system call and the program gets the error `EINVAL` or `ENOENT`; or the path, resolved, lies beneath one of
the three library directories or is the linker's cache, and the host's only system call is to open what is left of
the path beneath an open descriptor of that directory, with `RESOLVE_BENEATH`, or to duplicate the descriptor of the
cache. -/
theorem new_sandbox_opens_only_libraries {w : World} {disk : List Byte → Option Fd.Obj} {lim : Nat} {t : Fd.Table}
    {users : List Nat} (hw : Setup w (Defaults.got disk lim Defaults.defaults t).1 users) {c : Child} {n : Nat}
    {i : Info} {r : Regs} {s : List Byte} (hcode : i.code = 1) (hnr : i.syscall = 2)
    (hr : Ready w c n (.open_ (r.rsi.setWidth 32) (r.rdx.setWidth 32)) r.rdi 0 s) :
    w.tree = (Defaults.construct disk lim t).1 ∧
    ∃ r' log c', trap w c s.length i r = .ok (r', log, c') ∧
      ((log = [] ∧ (libc r'.rax = (-1, some 22) ∨ libc r'.rax = (-1, some 2))) ∨
       ∃ d ns rest o h, (d, ns) ∈ Defaults.allowedNames ∧ disk (Defaults.text ns) = some o ∧
         (Defaults.construct disk lim t).2.at h = some o ∧
         Path.Spec.resolve [] (cut s) = some (ns ++ rest) ∧
         ((d = false ∧ rest = [] ∧ log.map (·.op) = [.dup h]) ∨
          (d = true ∧ rest ≠ [] ∧ log.map (·.op) = [.openat2 h (some (join rest))
            ((r.rsi.setWidth 32).signExtend 64) ((r.rdx.setWidth 32).setWidth 64) 8]))) := by
  have hcon := Defaults.construct_got disk lim t
  refine ⟨by rw [hw.tree, hcon], ?_⟩
  have hasks : asks i.syscall (abi r) = some (.open_ (r.rsi.setWidth 32) (r.rdx.setWidth 32), r.rdi, 0) := by
    simp [asks, abi, hnr]
  obtain ⟨r', log, c', ans, h1, h2, h3, _⟩ := syscall_end_to_end hw hcode hasks hr
  refine ⟨r', log, c', h1, ?_⟩
  have key : ∀ names h rest, Path.Spec.resolve [] (cut s) = some names →
      Answers (specHistory (Defaults.got disk lim Defaults.defaults t).1) names h rest →
      ∃ d ns o, (d, ns) ∈ Defaults.allowedNames ∧ disk (Defaults.text ns) = some o ∧
        (Defaults.construct disk lim t).2.at h = some o ∧ names = ns ++ rest ∧ (d = true ↔ rest ≠ []) := by
    intro names h rest hres ha
    obtain ⟨e, he, e1, e2, e3⟩ := answers_export _ names h rest ha
    obtain ⟨m1, _, o, m2, m3⟩ := (Defaults.got_mem disk lim Defaults.defaults t).2 e he
    obtain ⟨d1, d2, _⟩ := Defaults.defaults_names _ m1
    simp only at d1 d2
    refine ⟨e.isDir, namesOf e.path, o, d1, by rw [← d2]; exact m2, by rw [← e1, hcon]; exact m3, e2, ?_⟩
    rcases e3 with ⟨k1, k2⟩ | ⟨k1, k2⟩ <;> simp [k1, k2]
  cases h2 with
  | climbs => exact Or.inl ⟨rfl, Or.inl h3⟩
  | absent => exact Or.inl ⟨rfl, Or.inr h3⟩
  | openFile names h _ _ hres ha =>
    obtain ⟨d, ns, o, k1, k2, k3, rfl, k5⟩ := key names h [] hres ha
    refine Or.inr ⟨d, ns, [], o, h, k1, k2, k3, hres, Or.inl ⟨?_, rfl, rfl⟩⟩
    cases d <;> simp_all
  | openBeneath names h rest _ _ hres ha hne =>
    obtain ⟨d, ns, o, k1, k2, k3, rfl, k5⟩ := key names h rest hres ha
    exact Or.inr ⟨d, ns, rest, o, h, k1, k2, k3, hres, Or.inr ⟨k5.2 hne, hne, rfl⟩⟩

/-- The exports of a sandbox in a host where the four files exist and descriptors 0 to 2 are taken. -/
def exNew : List Export :=
  (Defaults.got (fun _ => some ⟨7, false⟩) 100 Defaults.defaults (fun i => if i < 3 then some ⟨8, false⟩ else none)).1

/-- The conditions can be met. -/
example : Setup { exWorld with tree := runHistory exNew } exNew [3] ∧
    Ready { exWorld with tree := runHistory exNew } exChild 144 (.open_ 0 0) 0x5000 0x19000 (txt "/lib/x") :=
  have h := exReady (.open_ 0 0)
  ⟨{ exSetup with short := Defaults.got_short _ _ _, tree := rfl },
   ⟨h.room, h.string, h.objs, h.stack, ⟨h.pool.enough, h.pool.heap, h.pool.apart, h.pool.pairwise⟩⟩⟩

end Verif.EndToEnd
