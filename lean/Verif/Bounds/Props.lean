import Verif.Bounds.Model
import Verif.Bounds.Spec

/-!
# C01, C05: bounds check and array allocation
-/

namespace Verif.Bounds

open Spec

/-- A region as the constructor builds it: adding the header to the base does not
wrap and stays at or below the top. -/
def Region.WF (hdr : Word) (r : Region) : Prop :=
  r.base.toNat + hdr.toNat ≤ r.top.toNat

instance (hdr : Word) (r : Region) : Decidable (r.WF hdr) :=
  inferInstanceAs (Decidable (_ ≤ _))

/-- The region of every `Library` is well formed if the mapping does not wrap around
the address space and is at least twice as large as the header. -/
theorem ofMapping_wf (hdr mapBase mapSize : Word)
    (hsz : 2 * hdr.toNat ≤ mapSize.toNat)
    (hno : mapBase.toNat + mapSize.toNat < 2 ^ 64) :
    (Region.ofMapping hdr mapBase mapSize).WF hdr := by
  simp only [Region.WF, Region.ofMapping, Region.mk']
  bv_omega

/-- **C01.** The region of a `Library` is the mapping without its header, exactly. -/
theorem ofMapping_exact (hdr mapBase mapSize : Word) (hsz : hdr.toNat ≤ mapSize.toNat)
    (hno : mapBase.toNat + mapSize.toNat < 2 ^ 64) :
    (Region.ofMapping hdr mapBase mapSize).base.toNat = mapBase.toNat + hdr.toNat ∧
      (Region.ofMapping hdr mapBase mapSize).top.toNat = mapBase.toNat + mapSize.toNat := by
  simp only [Region.ofMapping, Region.mk']
  constructor <;> bv_omega

example : (Region.ofMapping 0x400 0x7f0000000000 0x40000000).WF 0x400 :=
  ofMapping_wf _ _ _ (by decide) (by decide)

/-- **C01.** The bounds check accepts exactly the blocks that start at or above the end of
the (second) header, start below the top, and end at or below the top, where the end is
computed without wrap-around. -/
theorem contains_iff (hdr : Word) (r : Region) (h : r.WF hdr) (ptr sz : Word) :
    contains hdr r ptr sz = true ↔
      r.base.toNat + hdr.toNat ≤ ptr.toNat ∧ ptr.toNat < r.top.toNat ∧
        ptr.toNat + sz.toNat ≤ r.top.toNat := by
  simp only [Region.WF] at h
  simp only [contains, Bool.and_eq_true, decide_eq_true_eq]
  bv_omega

example : contains 0x400 ⟨0x10400, 0x20000⟩ 0x10800 0xf800 = true ∧
    (⟨0x10400, 0x20000⟩ : Region).WF 0x400 := by decide
example : contains 0x400 ⟨0x10400, 0x20000⟩ 0x10800 0xffffffffffffffff = false := by decide

/-- **C01.** Byte-wise reading: for a non-empty block, the check is true exactly when every
single byte of the block (as mathematical numbers) is in `[base + hdr, top)`. -/
theorem contains_iff_bytes (hdr : Word) (r : Region) (h : r.WF hdr) (ptr sz : Word)
    (hsz : sz ≠ 0) :
    contains hdr r ptr sz = true ↔
      BlockWithin (r.base.toNat + hdr.toNat) r.top.toNat ptr.toNat sz.toNat := by
  rw [contains_iff hdr r h]
  have hpos : 0 < sz.toNat := by
    rcases Nat.eq_zero_or_pos sz.toNat with h0 | h0
    · exact absurd (BitVec.eq_of_toNat_eq (by simpa using h0)) hsz
    · exact h0
  constructor
  · rintro ⟨h1, h2, h3⟩ a ⟨ha, hb⟩
    omega
  · intro hb
    have h1 := hb ptr.toNat ⟨Nat.le_refl _, by omega⟩
    have h2 := hb (ptr.toNat + sz.toNat - 1) ⟨by omega, by omega⟩
    omega

example : contains 0x400 ⟨0x10400, 0x20000⟩ 0x10800 1 = true ∧ (1 : Word) ≠ 0 := by decide

/-- **C01.** A contained block never wraps around the address space. -/
theorem contains_no_wrap (hdr : Word) (r : Region) (h : r.WF hdr) (ptr sz : Word)
    (hc : contains hdr r ptr sz = true) (i : Word) (hi : i < sz) :
    (ptr + i).toNat = ptr.toNat + i.toNat ∧
      r.base.toNat + hdr.toNat ≤ (ptr + i).toNat ∧ (ptr + i).toNat < r.top.toNat := by
  rw [contains_iff hdr r h] at hc
  have := r.top.isLt
  have hi' : i.toNat < sz.toNat := by bv_omega
  have : (ptr + i).toNat = ptr.toNat + i.toNat := by
    rw [BitVec.toNat_add]; exact Nat.mod_eq_of_lt (by omega)
  omega

example : contains 0x400 ⟨0x10400, 0x20000⟩ 0x10800 8 = true ∧ (7 : Word) < 8 := by decide

/-- **C01.** Containment is inherited by sub-blocks that start strictly below the top. -/
theorem contains_sub (hdr : Word) (r : Region) (h : r.WF hdr) (ptr sz off n : Word)
    (hc : contains hdr r ptr sz = true) (hsub : off.toNat + n.toNat ≤ sz.toNat)
    (hlt : off.toNat < sz.toNat) :
    contains hdr r (ptr + off) n = true := by
  rw [contains_iff hdr r h] at hc ⊢
  have := r.top.isLt
  have : (ptr + off).toNat = ptr.toNat + off.toNat := by
    rw [BitVec.toNat_add]; exact Nat.mod_eq_of_lt (by omega)
  omega

example : contains 0x400 ⟨0x10400, 0x20000⟩ 0x10800 16 = true ∧
    contains 0x400 ⟨0x10400, 0x20000⟩ (0x10800 + 8) 8 = true := by decide

/-- **C01, finding.** The documented heap is `[base, top)` (`sandbox_heap`,
`include/process_sandbox/sandbox.h:782-785`), but the check excludes the header a second
time: the first `hdr` bytes of that heap are never considered contained. -/
theorem contains_excludes_heap_start (hdr : Word) (r : Region) (h : r.WF hdr)
    (ptr sz : Word) (hlo : ptr.toNat < r.base.toNat + hdr.toNat) :
    contains hdr r ptr sz = false := by
  rw [Bool.eq_false_iff, Ne, contains_iff hdr r h]
  omega

example : contains 0x400 ⟨0x10400, 0x20000⟩ 0x10400 1 = false ∧
    (0x10400 : Word).toNat < (0x10400 : Word).toNat + (0x400 : Word).toNat := by decide

/-- **C01.** A pointer taken from sandbox-writable allocator state is used, unchanged, exactly if the
object at it starts in the heap and ends in it; otherwise it becomes null. -/
theorem domesticate_spec (hdr : Word) (r : Region) (h : r.WF hdr) (objSize ptr : Word) :
    (r.base.toNat + hdr.toNat ≤ ptr.toNat ∧ ptr.toNat < r.top.toNat ∧
        ptr.toNat + objSize.toNat ≤ r.top.toNat →
      domesticate hdr r objSize ptr = ptr) ∧
    (¬ (r.base.toNat + hdr.toNat ≤ ptr.toNat ∧ ptr.toNat < r.top.toNat ∧
        ptr.toNat + objSize.toNat ≤ r.top.toNat) →
      domesticate hdr r objSize ptr = 0) := by
  unfold domesticate
  rw [← contains_iff hdr r h]
  constructor
  · intro hc; rw [if_pos hc]
  · intro hc; rw [if_neg hc]

example : domesticate 0x400 ⟨0x10400, 0x20000⟩ 8 0x10800 = 0x10800 ∧
    domesticate 0x400 ⟨0x10400, 0x20000⟩ 8 0x1fffc = 0 := by decide

/-- **C05.** If `count` objects of `bytes` bytes do not fit in 64 bits the request is refused
and the allocator is not asked; otherwise it is asked once, for exactly
`bytes * count` bytes, and its answer is returned. -/
theorem allocInSandbox_exact (alloc : Word → Option Word) (bytes count : Word) :
    (2 ^ 64 ≤ bytes.toNat * count.toNat →
      allocInSandbox alloc bytes count = (none, [])) ∧
    (bytes.toNat * count.toNat < 2 ^ 64 →
      ∃ sz : Word, sz.toNat = bytes.toNat * count.toNat ∧
        allocInSandbox alloc bytes count = (alloc sz, [sz])) := by
  constructor
  · intro h
    simp [allocInSandbox, umul, h]
  · intro h
    refine ⟨bytes * count, ?_, ?_⟩
    · rw [BitVec.toNat_mul]; exact Nat.mod_eq_of_lt h
    · have : ¬ 2 ^ 64 ≤ bytes.toNat * count.toNat := by omega
      simp [allocInSandbox, umul, this]

/-- **C05.** A block that is returned has room for every element: element `i` of `count`
occupies bytes that the allocator was asked for. -/
theorem allocInSandbox_room (alloc : Word → Option Word) (bytes count p : Word)
    (h : (allocInSandbox alloc bytes count).1 = some p) :
    ∃ sz : Word, alloc sz = some p ∧
      ∀ i, i < count.toNat → i * bytes.toNat + bytes.toNat ≤ sz.toNat := by
  rcases Nat.lt_or_ge (bytes.toNat * count.toNat) (2 ^ 64) with hlt | hge
  · obtain ⟨sz, hsz, heq⟩ := (allocInSandbox_exact alloc bytes count).2 hlt
    rw [heq] at h
    refine ⟨sz, h, fun i hi => ?_⟩
    rw [hsz, ← Nat.succ_mul, Nat.mul_comm]
    exact Nat.mul_le_mul_left _ hi
  · rw [(allocInSandbox_exact alloc bytes count).1 hge] at h
    simp at h

example : (allocInSandbox (fun _ => some 0x1000) 16 4) = (some 0x1000, [64]) := by decide
example : (allocInSandbox (fun _ => some 0x1000) 0x10 0x1000000000000001) = (none, []) := by decide

end Verif.Bounds
