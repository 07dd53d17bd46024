import Verif.Boot.Model
import Verif.Location.Props

/-!
# The shared heap as both sides see it: property C64
-/

namespace Verif.Boot

/-! ### Specification -/

/-- The offset in the object of the byte at address `p`, for a mapping of `length` bytes at `at_`. -/
def offset (at_ length p : Word) : Option Nat :=
  if at_.toNat ≤ p.toNat ∧ p.toNat < at_.toNat + length.toNat then some (p.toNat - at_.toNat) else none

/-- Both sides see the same byte at every address, and the child's bounds are those of the mapping. -/
def Same (base size : Word) (c : Child) : Prop :=
  (∀ p, offset c.shared c.length p = offset base size p) ∧ c.start = base ∧ c.stop = base + size

/-- A kernel that knows `MAP_FIXED_NOREPLACE`: the address asked for or nothing. -/
def Kernel.Fixed (k : Kernel) : Prop := ∀ a r, k.heapAt a = some r → r = a

/-! ### C64 -/

/-- **C64 (partial).**  A child that starts on a kernel that knows the flag sees the heap where the host has it: a pointer written
by one side means the same byte to the other.  What is missing: kernels before 4.17, which ignore the flag and take the address as a hint,
see `elsewhere_unnoticed`. -/
theorem same_view_partial {k : Kernel} (hk : k.Fixed) {base size : Word} (hb : base ≠ 0) (hs : size ≠ 0)
    {before after : List (List Char)} (he : ∀ e ∈ before, e.take Location.name.length ≠ Location.name) {c : Child}
    (h : bootstrap k (hostHeader base size) (before ++ (Location.location base size).1 :: after) = some c) : Same base size c := by
  rw [bootstrap, Location.location_roundtrip base size hb hs before after he] at h
  simp only at h
  split at h
  · simp at h
  · rename_i r hr
    split at h
    · simp at h
    · simp only [Option.some.injEq] at h
      subst h
      rw [hk base r hr]
      exact ⟨fun _ => rfl, rfl, rfl⟩

/-- **C64, exactly when it holds.**  A child that has started sees the heap where the host has it, exactly if the kernel has put it there;
the code has no part in it. -/
theorem same_view_iff {k : Kernel} {base size : Word} (hb : base ≠ 0) (hs : size ≠ 0)
    {before after : List (List Char)} (he : ∀ e ∈ before, e.take Location.name.length ≠ Location.name) {c : Child}
    (h : bootstrap k (hostHeader base size) (before ++ (Location.location base size).1 :: after) = some c) :
    Same base size c ↔ k.heapAt base = some base := by
  rw [bootstrap, Location.location_roundtrip base size hb hs before after he] at h
  simp only at h
  split at h
  · simp at h
  · rename_i r hr
    split at h
    · simp at h
    · simp only [Option.some.injEq] at h
      subst h
      constructor
      · rintro ⟨h, _, _⟩
        have := h base
        simp only [offset] at this
        rw [if_pos (c := base.toNat ≤ base.toNat ∧ _) ⟨Nat.le_refl _, by bv_omega⟩] at this
        split at this
        · simp only [Option.some.injEq] at this
          rw [hr, show r = base by bv_omega]
        · simp at this
      · intro e
        rw [hr] at e
        cases e
        exact ⟨fun _ => rfl, rfl, rfl⟩

/-- **C64, progress.**  The child starts exactly when the kernel maps both objects. -/
theorem starts_iff {k : Kernel} {base size : Word} (hb : base ≠ 0) (hs : size ≠ 0)
    {before after : List (List Char)} (he : ∀ e ∈ before, e.take Location.name.length ≠ Location.name) :
    (bootstrap k (hostHeader base size) (before ++ (Location.location base size).1 :: after)).isSome ↔
      (k.heapAt base).isSome ∧ k.pagemapAt.isSome := by
  rw [bootstrap, Location.location_roundtrip base size hb hs before after he]
  cases h1 : k.heapAt base <;> cases h2 : k.pagemapAt <;> simp [h1]

example : ∃ c, bootstrap ⟨fun a => some a, some 0x5000⟩ (hostHeader 0x7f0000000000 0x40000000)
    ("PATH=/bin".toList :: (Location.location 0x7f0000000000 0x40000000).1 :: []) = some c ∧ c.start = 0x7f0000000000 := by
  have := Location.location_roundtrip 0x7f0000000000 0x40000000 (by decide) (by decide) ["PATH=/bin".toList] [] (by decide)
  simp only [List.cons_append, List.nil_append] at this
  exact ⟨_, by rw [bootstrap, this], rfl⟩

/-- **C64 fails when the kernel chooses another place.**  The child carries on with the heap mapped elsewhere than its bounds say,
and the two sides disagree about the first byte. -/
theorem elsewhere_unnoticed {base size q pm : Word} (hb : base ≠ 0) (hs : size ≠ 0) (hq : q ≠ base)
    (before after : List (List Char)) (he : ∀ e ∈ before, e.take Location.name.length ≠ Location.name) :
    ∃ c, bootstrap ⟨fun _ => some q, some pm⟩ (hostHeader base size) (before ++ (Location.location base size).1 :: after) = some c ∧
      c.shared ≠ c.start ∧ offset base size base = some 0 ∧ offset c.shared c.length base ≠ some 0 ∧ ¬ Same base size c := by
  refine ⟨⟨q, size, base, base + size, pm⟩, ?_, hq, ?_, ?_, ?_⟩
  · rw [bootstrap, Location.location_roundtrip base size hb hs before after he]
    rfl
  · have : 0 < size.toNat := by bv_omega
    simp [offset, this]
  · simp only [offset]
    split
    · simp only [ne_eq, Option.some.injEq]
      bv_omega
    · simp
  · rintro ⟨h, _, _⟩
    have := h base
    simp only [offset] at this
    rw [if_pos (c := base.toNat ≤ base.toNat ∧ _) ⟨Nat.le_refl _, by bv_omega⟩] at this
    split at this
    · simp only [Option.some.injEq] at this
      bv_omega
    · simp at this

end Verif.Boot
