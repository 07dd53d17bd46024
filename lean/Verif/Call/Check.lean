import Verif.Call.Props

/-!
# What creating a proxy does, for any sandbox (property C82, exactly)

`include/process_sandbox/cxxsandbox.h:82-94` of a debug build, against a sandbox that may answer anything and may change
its memory while the host looks at it.
-/

namespace Verif.Call

open Spec
open Verif.AddrInfo (leBytes leBytes_length)

/-- What a comparison with `want` loads, if it goes on until a byte is different
(`include/process_sandbox/cxxsandbox.h:89`): `want` itself, or a beginning of it and one byte that is not the next. -/
def ReadUpTo (want bs : List Byte) : Prop :=
  bs = want ∨ ∃ k b, ∃ hk : k < want.length, b ≠ want[k] ∧ bs = want.take k ++ [b]

theorem loads_get (a : Word) (bs : List Byte) (k : Nat) :
    (loads a bs)[k]? = bs[k]?.map fun b => .read (a + BitVec.ofNat 64 k) b := by
  simp only [loads, List.getElem?_map, List.getElem?_zipIdx]
  cases bs[k]? <;> simp

/-- The comparison, whatever the memory is and however it changes meanwhile. -/
theorem strcmpEq_exact (name : List Byte) : ∀ (a : Word) (w : World),
    ∃ bs, (strcmpEq w a name).2.trace = w.trace ++ loads a bs ∧ ReadUpTo (name ++ [0]) bs ∧
      ((strcmpEq w a name).1 = true ↔ bs = name ++ [0]) := by
  induction name with
  | nil =>
    intro a w
    refine ⟨[(w.read a).1], ?_, ?_, ?_⟩
    · rw [loads_cons]; rfl
    · by_cases h : (w.read a).1 = 0
      · exact Or.inl (by simp [h])
      · exact Or.inr ⟨0, (w.read a).1, by simp, by simpa using h, by simp⟩
    · simp [strcmpEq]
  | cons c cs ih =>
    intro a w
    by_cases h : (w.read a).1 = c
    · obtain ⟨bs, h1, h2, h3⟩ := ih (a + 1) (w.read a).2
      refine ⟨c :: bs, ?_, ?_, ?_⟩
      · rw [strcmpEq, if_pos h, h1, loads_cons]
        have : (w.read a).2.trace = w.trace ++ [.read a (w.read a).1] := rfl
        rw [this, h, List.append_assoc]
        rfl
      · rcases h2 with h2 | ⟨k, b, hk, hb, h2⟩
        · exact Or.inl (by rw [h2]; rfl)
        · exact Or.inr ⟨k + 1, b, by simpa using hk, by simpa using hb, by simp [h2]⟩
      · rw [strcmpEq, if_pos h, h3]
        simp
    · refine ⟨[(w.read a).1], ?_, ?_, ?_⟩
      · rw [strcmpEq, if_neg h, loads_cons]; rfl
      · exact Or.inr ⟨0, (w.read a).1, by simp, by simpa using h, by simp⟩
      · rw [strcmpEq, if_neg h]
        simp only [Bool.false_eq_true, List.cons_append, List.cons.injEq, h, false_and]

/-- What a debug build does to create a proxy, whatever the sandbox answers and whatever it does to its memory
meanwhile.  The call of `type_encoding` has no room or throws, and then so does the constructor, and nothing else
happens; or it returns an address `a` of the sandbox's choice.  The null pointer ends the host.  At any other address,
checked by nothing, the host loads one byte after another until one is different from its own name; if none is, it frees
that address and the proxy is there, and otherwise the host ends. -/
theorem check_exact (alloc : Word → Option Word) (sb : Sandbox) (slot : Nat) (name : List Byte) (w : World)
    (res : Result) (w1 : World) (hcall : callOp alloc sb 0 typeFrame (leBytes 4 slot) w = (res, w1)) :
    ((res = .badAlloc ∨ res = .sendThrew) ∧ construct true alloc sb slot name w = (.threw, w1)) ∨
    ∃ r a, res = .returned r ∧ a = BitVec.ofNat 64 (leVal r) ∧
      ((a = 0 ∧ construct true alloc sb slot name w = (.exited, w1)) ∨
       (a ≠ 0 ∧ ∃ bs, ReadUpTo (name ++ [0]) bs ∧
          if bs = name ++ [0] then
            (construct true alloc sb slot name w).1 = .ok ∧
            (construct true alloc sb slot name w).2.trace = w1.trace ++ loads a bs ++ [.free a]
          else
            (construct true alloc sb slot name w).1 = .exited ∧
            (construct true alloc sb slot name w).2.trace = w1.trace ++ loads a bs)) := by
  cases res with
  | badAlloc => exact Or.inl ⟨Or.inl rfl, by simp only [construct, if_true, hcall]⟩
  | sendThrew => exact Or.inl ⟨Or.inr rfl, by simp only [construct, if_true, hcall]⟩
  | returned r =>
    refine Or.inr ⟨r, _, rfl, rfl, ?_⟩
    by_cases h0 : BitVec.ofNat 64 (leVal r) = 0
    · exact Or.inl ⟨h0, by simp only [construct, if_true, hcall, if_pos h0]⟩
    · refine Or.inr ⟨h0, ?_⟩
      obtain ⟨bs, k1, k2, k3⟩ := strcmpEq_exact name (BitVec.ofNat 64 (leVal r)) w1
      refine ⟨bs, k2, ?_⟩
      rcases hcmp : strcmpEq w1 (BitVec.ofNat 64 (leVal r)) name with ⟨ok, w2⟩
      rw [hcmp] at k1 k3
      simp only at k1 k3
      have hcon : construct true alloc sb slot name w =
          if ok = true then (.ok, w2.free (BitVec.ofNat 64 (leVal r))) else (.exited, w2) := by
        simp only [construct, if_true, hcall, if_neg h0, hcmp]
        cases ok <;> rfl
      rw [hcon]
      by_cases hb : bs = name ++ [0]
      · rw [if_pos hb, if_pos (k3.mpr hb)]
        exact ⟨rfl, by show w2.trace ++ _ = _; rw [k1]⟩
      · rw [if_neg hb, if_neg (fun h => hb (k3.mp h))]
        exact ⟨rfl, k1⟩

theorem touched_append (s t : List Ev) : touched (s ++ t) = touched s ++ touched t := List.filterMap_append

theorem frees_append (s t : List Ev) : frees (s ++ t) = frees s ++ frees t := List.filterMap_append

theorem touched_loads (a : Word) (bs : List Byte) :
    touched (loads a bs) = (List.range bs.length).map fun i => a + BitVec.ofNat 64 i := by
  induction bs generalizing a with
  | nil => rfl
  | cons b bs ih =>
    rw [loads_cons, List.length_cons, List.range_succ_eq_map, List.map_cons, List.map_map]
    show a :: touched (loads (a + 1) bs) = _
    rw [ih]
    refine congr (congrArg _ (by simp)) ?_
    apply List.map_congr_left
    intro i _
    simp only [Function.comp]
    rw [BitVec.add_assoc]
    congr 1
    apply BitVec.eq_of_toNat_eq
    simp [BitVec.toNat_add, BitVec.toNat_ofNat]
    omega

theorem frees_loads (a : Word) (bs : List Byte) : frees (loads a bs) = [] := by
  induction bs generalizing a with
  | nil => rfl
  | cons b bs ih => rw [loads_cons]; exact ih (a + 1)

/-- When creating a proxy in a debug build does what C82 wants, for any sandbox.  The host acts on nothing outside the
sandbox and is still there exactly if the call of `type_encoding` throws, or if the sandbox answers with an address of
its own at which, as far as the host looks, its own name stands inside the sandbox.  Everything else either ends the
host or makes it load, or even free, what is not the sandbox's. -/
theorem check_confined_iff (h : Heap) (hlo : 0 < h.lo) (alloc : Word → Option Word) (hg : Gives h alloc) (sb : Sandbox)
    (slot : Nat) (name : List Byte) (w : World) (ht : w.trace = []) :
    (((construct true alloc sb slot name w).1 ≠ .exited ∧
      (∀ x ∈ touched (construct true alloc sb slot name w).2.trace, h.Has x) ∧
      ∀ x ∈ frees (construct true alloc sb slot name w).2.trace, h.Has x) ↔
    ((callOp alloc sb 0 typeFrame (leBytes 4 slot) w).1 = .badAlloc ∨
     (callOp alloc sb 0 typeFrame (leBytes 4 slot) w).1 = .sendThrew ∨
     ∃ r, (callOp alloc sb 0 typeFrame (leBytes 4 slot) w).1 = .returned r ∧
       (∀ i, i ≤ name.length → h.Has (BitVec.ofNat 64 (leVal r) + BitVec.ofNat 64 i)) ∧
       ∃ f, (construct true alloc sb slot name w).2.trace =
         (callOp alloc sb 0 typeFrame (leBytes 4 slot) w).2.trace ++
           loads (BitVec.ofNat 64 (leVal r)) (name ++ [0]) ++ f)) := by
  have hcf := call_uses_its_frame h alloc hg sb 0 typeFrame ⟨by decide, by decide⟩ (leBytes 4 slot)
    (leBytes_length 4 slot) w
  -- the call itself stays inside
  have hin : (∀ x ∈ touched (callOp alloc sb 0 typeFrame (leBytes 4 slot) w).2.trace, h.Has x) ∧
      ∀ x ∈ frees (callOp alloc sb 0 typeFrame (leBytes 4 slot) w).2.trace, h.Has x := by
    rcases hal : alloc typeFrame.size with _ | cf
    · rw [hcf.1 hal, ht]
      simp [touched, frees]
    · obtain ⟨pre, post, e1, e2, e3⟩ := hcf.2 cf hal
      obtain ⟨p1, _, p3⟩ := pre_silent e2
      obtain ⟨g0, g1, g2⟩ := hg _ _ hal
      have hsz : (typeFrame.size).toNat = 16 := by decide
      rw [hsz] at g2
      rw [e1, ht]
      simp only [List.nil_append, touched_append, frees_append, p1]
      rcases e3 with ⟨_, rfl⟩ | ⟨r, _, hr, rfl, hhas⟩
      · refine ⟨fun x hx => ?_, fun x hx => ?_⟩
        · simp only [touched, List.filterMap_cons, List.filterMap_nil, List.append_nil] at hx
          exact p3 x hx
        · simp [frees] at hx
      · refine ⟨fun x hx => ?_, fun x hx => ?_⟩
        · simp only [touched_append, touched_loads, List.mem_append] at hx
          rcases hx with (hx | hx) | hx | hx
          · exact p3 x hx
          · simp [touched] at hx
          · obtain ⟨i, hi, rfl⟩ := List.mem_map.mp hx
            exact hhas i (List.mem_range.mp hi)
          · simp [touched] at hx
        · simp only [frees_append, frees_loads, List.mem_append] at hx
          rcases hx with hx | hx | hx
          · simp [frees] at hx
          · cases hx
          · simp only [frees, List.filterMap_cons, List.filterMap_nil, List.mem_singleton] at hx
            subst hx
            exact ⟨g1, by omega⟩
  rcases hcall : callOp alloc sb 0 typeFrame (leBytes 4 slot) w with ⟨res, w1⟩
  rw [hcall] at hin
  simp only at hin ⊢
  rcases check_exact alloc sb slot name w res w1 hcall with ⟨hres, hcon⟩ | ⟨r, a, hr, ha, hrest⟩
  · rw [hcon]
    constructor
    · intro _; rcases hres with hres | hres
      · exact Or.inl hres
      · exact Or.inr (Or.inl hres)
    · intro _; exact ⟨(nomatch ·), hin.1, hin.2⟩
  · subst hr
    simp only [reduceCtorEq, false_or, Result.returned.injEq]
    rcases hrest with ⟨h0, hcon⟩ | ⟨h0, bs, hbs, hif⟩
    · rw [hcon]
      constructor
      · intro hh; exact absurd rfl hh.1
      · rintro ⟨r', rfl, hhas, _⟩
        have := hhas 0 (by omega)
        rw [← ha, h0] at this
        have h1 := this.1
        simp at h1
        omega
    · split at hif
      · rename_i hb
        obtain ⟨k1, k2⟩ := hif
        constructor
        · rintro ⟨_, hh, _⟩
          refine ⟨r, rfl, ?_, [.free a], by rw [k2, ← ha, hb]⟩
          intro i hi
          apply hh
          rw [k2, touched_append, touched_append, touched_loads, ← ha]
          apply List.mem_append_left
          apply List.mem_append_right
          exact List.mem_map.mpr ⟨i, List.mem_range.mpr (by rw [hb]; simp; omega), rfl⟩
        · rintro ⟨r', rfl, hhas, _⟩
          rw [← ha] at hhas
          refine ⟨by rw [k1]; decide, ?_, ?_⟩
          · intro x hx
            rw [k2] at hx
            simp only [touched_append, touched_loads, List.mem_append] at hx
            rcases hx with (hx | hx) | hx
            · exact hin.1 x hx
            · obtain ⟨i, hi, rfl⟩ := List.mem_map.mp hx
              rw [List.mem_range, hb] at hi
              exact hhas i (by simp at hi; omega)
            · simp [touched] at hx
          · intro x hx
            rw [k2] at hx
            simp only [frees_append, frees_loads, List.mem_append] at hx
            rcases hx with (hx | hx) | hx
            · exact hin.2 x hx
            · simp at hx
            · simp only [frees, List.filterMap_cons, List.filterMap_nil, List.mem_singleton] at hx
              subst hx
              have := hhas 0 (by omega)
              simpa using this
      · rename_i hb
        obtain ⟨k1, k2⟩ := hif
        constructor
        · intro hh; exact absurd k1 hh.1
        · rintro ⟨r', rfl, _, f, hf⟩
          exfalso
          rw [k2, ← ha, List.append_assoc, List.append_cancel_left_eq] at hf
          rcases hbs with hbs | ⟨k, b, hk, hne, rfl⟩
          · exact hb hbs
          · have hl : k ≤ (name ++ [0]).length := by omega
            have e1 : (_ : List Ev)[k]? = (_ : List Ev)[k]? := congrArg (fun l => l[k]?) hf
            have e2 : (loads a (name ++ [0]) ++ f)[k]? = (loads a (name ++ [0]))[k]? :=
              List.getElem?_append_left (by simpa [loads] using hk)
            have e3 : ((name ++ [0]).take k ++ [b])[k]? = [b][k - ((name ++ [0]).take k).length]? :=
              List.getElem?_append_right (by simp; omega)
            rw [e2, loads_get, loads_get, e3, List.getElem?_eq_getElem hk] at e1
            simp only [List.length_take, Nat.min_eq_left hl, Nat.sub_self, List.getElem?_cons_zero, Option.map_some,
              Option.some.injEq, Ev.read.injEq, true_and] at e1
            exact hne e1

/-- The check of a host that declares `f`, against a sandbox that answers with the address where it has put that name. -/
example : ((construct true exAlloc (fun _ p m => (.back, store (store m p (leBytes 8 0x10900)) 0x10900 [102, 0])) 1 [102]
      ⟨fun _ => 0, [], fun _ m => m⟩).1 = .ok) ∧ 0 < exHeap.lo ∧ Gives exHeap exAlloc :=
  ⟨by decide +kernel, by decide, exAlloc_gives⟩

/-- The same host, with a sandbox that answers with an address of the host where another name stands. -/
example : (construct true exAlloc (fun _ p m => (.back, store m p (leBytes 8 0x7000))) 1 [102]
      ⟨fun x => if x = 0x7000 then 103 else 0, [], fun _ m => m⟩).1 = .exited := by decide +kernel

end Verif.Call
