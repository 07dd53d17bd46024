import Verif.Start.Lemmas
import Verif.Start.Host

/-!
# Starting the child process: theorems
-/

namespace Verif.Start

open Verif.Fd

/-- A parent whose descriptors are all low, to show that the hypotheses below can be met: standard
streams, page map at 3, shared memory at 4, sockets at 5 and 6. -/
def exT : Table := fun i => if i < 7 then some ⟨10 + i, true⟩ else none
def exH : Handles := ⟨4, 3, 5, 6⟩
def exE : Env := ⟨1024, some ⟨99, false⟩, true⟩

theorem exRoom : Room exE.lim exT := ⟨8, by omega, fun i hi => by simp [exT]; omega, by decide⟩
theorem exRefer : Refer exT exH ⟨14, true⟩ ⟨13, true⟩ ⟨16, true⟩ ⟨15, true⟩ :=
  ⟨by decide, by decide, by decide, by decide⟩

/-! ## C35 -/

/-- **C35 (partial).**  If the parent's three standard streams are open then, wherever the other
descriptors are, the child executes the library runner with exactly the wanted table: streams as
inherited, the five objects at their numbers, nothing else; and the page map is open for reading
only if `/proc` is usable.  What is missing: a parent with a closed standard stream, see
`child_stray_descriptor`; and a parent at its limit of open files, see `descriptor_limit_hangs`. -/
theorem child_descriptors_partial {fuel e t h shm pm cb rpc lib} (hr : Room e.lim t)
    (hh : Refer t h shm pm cb rpc) (hlib : e.lib = some lib) (hf : 10 ≤ fuel)
    (hstd : ∀ i, i < 3 → t i ≠ none) :
    ∃ t' hs, startChild fuel e t h = (.exec t', hs) ∧
      ∀ i, t' i = wanted t shm (if e.proc then Obj.readOnly pm else pm) cb lib rpc i := by
  obtain ⟨t5, t', h1, h2, h3, -⟩ := startChild_spec hr hh hlib hf
  obtain ⟨b, hb8, -, hbl⟩ := hr
  refine ⟨_, _, h1, fun i => ?_⟩
  rw [dropWrite_spec (pm := pm) (h2 4) (h2 8) (by omega)]
  have e0 := h3 0 (hstd 0 (by omega))
  have e1 := h3 1 (hstd 1 (by omega))
  have e2 := h3 2 (hstd 2 (by omega))
  rcases i with _ | _ | _ | _ | _ | _ | _ | _ | i <;> simp [wanted, h2, e0, e1, e2]
  cases e.proc <;> simp [Obj.readOnly]

/-- **C35, any parent.**  Whatever is open in the parent, the five objects are at their numbers and
nothing is open from 8 up; a standard stream that was open is unchanged, and one that was closed is closed
or is a copy of one of the five objects. -/
theorem child_descriptors_any {fuel e t h shm pm cb rpc lib} (hr : Room e.lim t)
    (hh : Refer t h shm pm cb rpc) (hlib : e.lib = some lib) (hf : 10 ≤ fuel) :
    ∃ t' hs, startChild fuel e t h = (.exec t', hs) ∧
      (∀ i, 3 ≤ i → t' i = wanted t shm (if e.proc then Obj.readOnly pm else pm) cb lib rpc i) ∧
      ∀ i, i < 3 → (t i ≠ none → t' i = t i) ∧
        (t i = none → t' i = none ∨ t' i = some shm ∨ t' i = some pm ∨ t' i = some cb ∨
          t' i = some rpc ∨ t' i = some lib) := by
  obtain ⟨t5, t', h1, h2, h3, h4, -⟩ := startChild_spec hr hh hlib hf
  obtain ⟨b, hb8, -, hbl⟩ := hr
  have hd := dropWrite_spec (e := e) (t := t') (pm := pm) (h2 4) (h2 8) (by omega)
  refine ⟨_, _, h1, fun i hi => ?_, fun i hi => ?_⟩
  · rw [hd]
    rcases i with _ | _ | _ | _ | _ | _ | _ | _ | i <;> simp [wanted, h2] at hi ⊢
    cases e.proc <;> simp [Obj.readOnly]
  · have hi' : dropWrite e t' i = t5 i := by
      rw [hd]
      rcases i with _ | _ | _ | i <;> first | (simp [h2, wanted]; done) | omega
    rw [hi']
    refine ⟨h3 i, fun hn => ?_⟩
    rcases h4 i (by omega) hn with h | ⟨o, ho, h⟩
    · exact .inl h
    · rw [ho]; simp only [Option.some.injEq]; exact .inr (by grind)

/-- **C35, exactly.**  Whatever is open in the parent, the child starts with the wanted table, except that each standard stream
that is closed in the parent is a copy of one and the same object: the first of the shared memory, the page map, the two sockets
and the library that has a number below 8. -/
theorem child_descriptors_exact {fuel e t h shm pm cb rpc lib} (hr : Room e.lim t)
    (hh : Refer t h shm pm cb rpc) (hlib : e.lib = some lib) (hf : 10 ≤ fuel) :
    ∃ t' hs, startChild fuel e t h = (.exec t', hs) ∧
      ∀ i, t' i = wanted (fun j => (t j).or (some (stray h shm pm cb rpc lib))) shm
        (if e.proc then Obj.readOnly pm else pm) cb lib rpc i := by
  obtain ⟨t5, t', h1, h2, -, -, h5⟩ := startChild_spec hr hh hlib hf
  obtain ⟨b, hb8, -, hbl⟩ := hr
  refine ⟨_, _, h1, fun i => ?_⟩
  rw [dropWrite_spec (pm := pm) (h2 4) (h2 8) (by omega)]
  have e0 := h5 0 (by omega)
  have e1 := h5 1 (by omega)
  have e2 := h5 2 (by omega)
  rcases i with _ | _ | _ | _ | _ | _ | _ | _ | i <;> simp [wanted, h2, e0, e1, e2]
  cases e.proc <;> simp [Obj.readOnly]

example : ∃ t' hs, startChild 10 exE exT exH = (.exec t', hs) ∧
    ∀ i, t' i = wanted exT ⟨14, true⟩ ⟨13, false⟩ ⟨16, true⟩ ⟨99, false⟩ ⟨15, true⟩ i :=
  child_descriptors_partial exRoom exRefer rfl (by omega) (fun i hi => by simp [exT]; omega)

/-- A parent that was started with its standard input closed; its page map is at 3. -/
def exT0 : Table := fun i => if 1 ≤ i ∧ i < 9 then some ⟨10 + i, true⟩ else none

/-- The page map becomes the standard input, as the shared memory has number 8 there. -/
example : stray ⟨8, 3, 5, 6⟩ ⟨18, true⟩ ⟨13, true⟩ ⟨16, true⟩ ⟨15, true⟩ ⟨99, false⟩ = ⟨13, true⟩ := rfl

/-- **C35 fails when a standard stream is closed.**  With standard input closed in the parent, the child
starts with a writable copy of the page map as its descriptor 0. -/
theorem child_stray_descriptor :
    exT0 0 = none ∧ Room exE.lim exT0 ∧
      Refer exT0 ⟨8, 3, 5, 6⟩ ⟨18, true⟩ ⟨13, true⟩ ⟨16, true⟩ ⟨15, true⟩ ∧
      ∃ t' hs, startChild 10 exE exT0 ⟨8, 3, 5, 6⟩ = (.exec t', hs) ∧ t' 0 = some ⟨13, true⟩ := by
  refine ⟨rfl, ⟨9, by omega, fun i hi => by simp [exT0]; omega, by decide⟩,
    ⟨by decide, by decide, by decide, by decide⟩, ?_⟩
  apply execAt_some
  decide +kernel

/-- **A parent at its limit of open files.**  When every number below the limit is taken and the shared
memory has a number below 8, the child never leaves `move_fd`, and the parent, suspended by `vfork`,
never continues. -/
theorem descriptor_limit_hangs {e : Env} {t : Table} {h : Handles}
    (hfull : ∀ i, i < e.lim → t i ≠ none) (hs : h.shm < 8) (fuel : Nat) :
    (startChild fuel e t h).1 = .looping := by
  unfold startChild
  rw [moveFd_full hfull hs]

example (fuel : Nat) : (startChild fuel ⟨7, some ⟨99, false⟩, true⟩ exT exH).1 = .looping :=
  descriptor_limit_hangs (fun i hi => by simp [exT]; exact hi) (by decide) fuel

/-! ## C48 -/

/-- **C48 (partial).**  The child's page-map descriptor is read-only, and no other descriptor of the child
refers to the page map for writing, if the parent's standard streams are open and none is the
page map, no other passed object is, and `/proc` is usable.  What is missing: the other
cases, in which the property fails: `pagemap_writable_without_proc`, `pagemap_writable_closed_stdin`. -/
theorem pagemap_readonly_partial {fuel e t h shm pm cb rpc lib} (hr : Room e.lim t)
    (hh : Refer t h shm pm cb rpc) (hlib : e.lib = some lib) (hf : 10 ≤ fuel)
    (hstd : ∀ i, i < 3 → ∃ o, t i = some o ∧ o.id ≠ pm.id)
    (hd : shm.id ≠ pm.id ∧ cb.id ≠ pm.id ∧ rpc.id ≠ pm.id ∧ lib.id ≠ pm.id) (hp : e.proc = true) :
    ∃ t' hs, startChild fuel e t h = (.exec t', hs) ∧ t' 4 = some ⟨pm.id, false⟩ ∧
      ∀ i o, t' i = some o → o.id = pm.id → o.wr = false := by
  obtain ⟨t', hs, h1, h2⟩ := child_descriptors_partial hr hh hlib hf
    (fun i hi => by obtain ⟨o, ho, -⟩ := hstd i hi; simp [ho])
  refine ⟨t', hs, h1, by rw [h2, hp]; rfl, fun i o ho hid => ?_⟩
  rw [h2, hp] at ho
  obtain ⟨o0, s0, n0⟩ := hstd 0 (by omega)
  obtain ⟨o1, s1, n1⟩ := hstd 1 (by omega)
  obtain ⟨o2, s2, n2⟩ := hstd 2 (by omega)
  rcases i with _ | _ | _ | _ | _ | _ | _ | _ | i <;> simp [wanted, s0, s1, s2, Obj.readOnly] at ho <;>
    first | (subst ho; simp_all; done) | skip

example : ∃ t' hs, startChild 10 exE exT exH = (.exec t', hs) ∧ t' 4 = some ⟨13, false⟩ ∧
    ∀ i o, t' i = some o → o.id = 13 → o.wr = false :=
  pagemap_readonly_partial exRoom exRefer rfl (by omega)
    (fun i hi => ⟨⟨10 + i, true⟩, by simp [exT]; omega, by simp; omega⟩) (by decide) rfl

/-- **C48, exactly when it holds.**  The page map can be written in the parent; no other object of the parent's streams and of what is passed
is the page map.  Then the child cannot write the page map, exactly if `/proc` is usable and either the three streams are open, or the
shared memory has a number below 8, or the page map has a number from 8 up. -/
theorem pagemap_readonly_iff {fuel e t h shm pm cb rpc lib} (hr : Room e.lim t)
    (hh : Refer t h shm pm cb rpc) (hlib : e.lib = some lib) (hf : 10 ≤ fuel)
    (hstd : ∀ i, i < 3 → ∀ o, t i = some o → o.id ≠ pm.id)
    (hd : shm.id ≠ pm.id ∧ cb.id ≠ pm.id ∧ rpc.id ≠ pm.id ∧ lib.id ≠ pm.id) (hwr : pm.wr = true) :
    ∃ t' hs, startChild fuel e t h = (.exec t', hs) ∧
      ((∀ i o, t' i = some o → o.id = pm.id → o.wr = false) ↔
        e.proc = true ∧ ((∀ i, i < 3 → t i ≠ none) ∨ h.shm < 8 ∨ 8 ≤ h.pagemap)) := by
  obtain ⟨t', hs, h1, h2⟩ := child_descriptors_exact hr hh hlib hf
  refine ⟨t', hs, h1, fun hw => ⟨?_, ?_⟩, fun ⟨hp, hc⟩ i o ho hid => ?_⟩
  · cases hp : e.proc with
    | true => rfl
    | false =>
      have := hw 4 pm (by rw [h2, hp]; rfl) rfl
      rw [hwr] at this
      cases this
  · refine Classical.byContradiction fun hn => ?_
    simp only [not_or, Classical.not_forall, Classical.not_not] at hn
    obtain ⟨⟨i, hi, hti⟩, hs8, hp8⟩ := hn
    have hst : stray h shm pm cb rpc lib = pm := by
      rw [stray, if_neg hs8, if_pos (by omega)]
    have := hw i pm (by
      rw [h2]
      rcases i with _ | _ | _ | i <;> first | omega | simp [wanted, hti, hst]) rfl
    rw [hwr] at this
    cases this
  · rw [h2, hp] at ho
    have key : ∀ j, j < 3 → (t j).or (some (stray h shm pm cb rpc lib)) = some o → False := by
      intro j hj hjo
      cases htj : t j with
      | some a =>
        rw [htj] at hjo
        cases hjo
        exact hstd j hj o htj hid
      | none =>
        rw [htj] at hjo
        cases hjo
        rcases hc with hc | hc | hc
        · exact hc j hj htj
        · rw [stray, if_pos hc] at hid
          exact hd.1 hid
        · rw [stray, if_neg (show ¬ h.pagemap < 8 by omega)] at hid
          grind
    rcases i with _ | _ | _ | _ | _ | _ | _ | _ | i <;> simp only [wanted, if_true] at ho
    · exact (key 0 (by omega) ho).elim
    · exact (key 1 (by omega) ho).elim
    · exact (key 2 (by omega) ho).elim
    all_goals first | (cases ho; simp_all [Obj.readOnly]; done) | cases ho

/-- Both sides of the condition are possible: standard input is closed in `exT0`. -/
example : (∀ i, i < 3 → ∀ o, exT0 i = some o → o.id ≠ 13) ∧
    ¬ ((∀ i, i < 3 → exT0 i ≠ none) ∨ (8 : Int) < 8 ∨ (8 : Int) ≤ 3) ∧ (∀ i, i < 3 → exT i ≠ none) := by
  refine ⟨fun i hi o ho => ?_, ?_, fun i hi => by simp [exT]; omega⟩
  · simp only [exT0] at ho
    split at ho
    · cases ho
      simp
      omega
    · cases ho
  · rintro (h | h | h)
    · exact h 0 (by omega) rfl
    · omega
    · omega

/-- **C48 fails without `/proc`.**  For every parent, if `/proc/self/fd/4` cannot be opened (no `/proc`
mounted, say), the child starts with the page map writable; nothing reports it. -/
theorem pagemap_writable_without_proc {fuel e t h shm pm cb rpc lib} (hr : Room e.lim t)
    (hh : Refer t h shm pm cb rpc) (hlib : e.lib = some lib) (hf : 10 ≤ fuel) (hp : e.proc = false) :
    ∃ t' hs, startChild fuel e t h = (.exec t', hs) ∧ t' 4 = some pm := by
  obtain ⟨t', hs, h1, h2, -⟩ := child_descriptors_any hr hh hlib hf
  exact ⟨t', hs, h1, by rw [h2 4 (by omega), hp]; rfl⟩

example : ∃ t' hs, startChild 10 { exE with proc := false } exT exH = (.exec t', hs) ∧
    t' 4 = some ⟨13, true⟩ :=
  pagemap_writable_without_proc exRoom exRefer rfl (by omega) rfl

/-- **C48 fails with a closed standard stream**, although `/proc` is usable. -/
theorem pagemap_writable_closed_stdin :
    ∃ t' hs, startChild 10 exE exT0 ⟨8, 3, 5, 6⟩ = (.exec t', hs) ∧ t' 4 = some ⟨13, false⟩ ∧
      t' 0 = some ⟨13, true⟩ := by
  obtain ⟨t', hs, h1, h2⟩ := child_stray_descriptor.2.2.2
  refine ⟨t', hs, h1, ?_, h2⟩
  have h : execAt (startChild 10 exE exT0 ⟨8, 3, 5, 6⟩) 4 = some (some ⟨13, false⟩) := by
    decide +kernel
  rw [h1] at h
  simpa [execAt] using h

end Verif.Start
