import Verif.Shm.Model

/-!
# Shared memory mappings: theorems
-/

namespace Verif.Shm

/-! ### Arithmetic -/

theorem maskBits (k i : Nat) (hk : k < 64) :
    (1#64 <<< k - 1).getLsbD i = decide (i < k) := by
  have h : (1#64 <<< k - 1) = BitVec.ofNat 64 (2 ^ k - 1) := by
    apply BitVec.eq_of_toNat_eq
    have h2 : 2 ^ k < 2 ^ 64 := Nat.pow_lt_pow_right (by omega) hk
    have h3 : 0 < 2 ^ k := Nat.two_pow_pos k
    have h1 : (1#64 <<< k).toNat = 2 ^ k := by
      rw [BitVec.toNat_shiftLeft]
      simp [Nat.shiftLeft_eq]
      omega
    rw [BitVec.toNat_sub, h1]
    simp
    omega
  rw [h, BitVec.getLsbD_ofNat, Nat.testBit_two_pow_sub_one]
  by_cases hi : i < k
  · simp [hi]; omega
  · simp [hi]

theorem toNat_pow {k : Nat} (hk : k < 64) : (1#64 <<< k).toNat = 2 ^ k := by
  have h2 : 2 ^ k < 2 ^ 64 := Nat.pow_lt_pow_right (by omega) hk
  rw [BitVec.toNat_shiftLeft]
  simp [Nat.shiftLeft_eq]
  omega

/-- Clearing the low bits rounds down to a multiple. -/
theorem and_mask (x : Word) {k : Nat} (hk : k < 64) :
    (x &&& ~~~(1#64 <<< k - 1)).toNat = x.toNat / 2 ^ k * 2 ^ k := by
  have h : x &&& ~~~(1#64 <<< k - 1) = (x >>> k) <<< k := by
    apply BitVec.eq_of_getLsbD_eq
    intro i hi
    rw [BitVec.getLsbD_and, BitVec.getLsbD_not, maskBits k i hk, BitVec.getLsbD_shiftLeft,
      BitVec.getLsbD_ushiftRight]
    by_cases hik : i < k
    · simp [hik]
    · have : k + (i - k) = i := by omega
      simp [hik, hi, this]
  rw [h, BitVec.toNat_shiftLeft, BitVec.toNat_ushiftRight, Nat.shiftRight_eq_div_pow,
    Nat.shiftLeft_eq]
  apply Nat.mod_eq_of_lt
  have := Nat.div_mul_le_self x.toNat (2 ^ k)
  have := x.isLt
  omega

/-- `alignUp` gives the least multiple that is not smaller, if nothing wraps. -/
theorem alignUp_spec (p : Word) {k : Nat} (hk : k < 64) (hp : p.toNat + 2 ^ k ≤ 2 ^ 64) :
    2 ^ k ∣ (alignUp p (1#64 <<< k)).toNat ∧ p.toNat ≤ (alignUp p (1#64 <<< k)).toNat ∧
      (alignUp p (1#64 <<< k)).toNat < p.toNat + 2 ^ k := by
  unfold alignUp
  rw [and_mask _ hk]
  have h3 : 0 < 2 ^ k := Nat.two_pow_pos k
  have h1 : (1#64 <<< k - 1).toNat = 2 ^ k - 1 := by
    rw [BitVec.toNat_sub, toNat_pow hk]
    have h2 : 2 ^ k < 2 ^ 64 := Nat.pow_lt_pow_right (by omega) hk
    simp
    omega
  have h2 : (p + (1#64 <<< k - 1)).toNat = p.toNat + (2 ^ k - 1) := by
    rw [BitVec.toNat_add, h1]
    omega
  rw [h2]
  have e := Nat.div_add_mod (p.toNat + (2 ^ k - 1)) (2 ^ k)
  have l := Nat.mod_lt (p.toNat + (2 ^ k - 1)) h3
  rw [Nat.mul_comm] at e
  exact ⟨Nat.dvd_mul_left _ _, by omega, by omega⟩

/-! ## C38 -/

/-- What is wanted of the mapping: aligned to its size, inside the reservation, and the address space is
as before except that the mapping is there. -/
structure Trimmed (m : Space) (r size : Nat) (m' : Space) (base : Nat) (k : Kind) : Prop where
  aligned : size ∣ base
  inside : r ≤ base ∧ base + size ≤ r + 2 * size
  exact : ∀ x, m' x = if base ≤ x ∧ x < base + size then k else m x

/-- The reservation is where nothing was, page aligned and inside the address space. -/
structure Placed (m : Space) (r size : Nat) : Prop where
  fits : r + 2 * size < 2 ^ 64
  page : r % 4096 = 0
  free : ∀ x, r ≤ x → x < r + 2 * size → m x = .free

theorem trim_core {m : Space} {r : Word} {k : Nat} (hk : 12 < k) (hk' : k < 63)
    (hp : Placed m r.toNat (2 ^ k)) :
    let size : Word := 1#64 <<< k
    let base := alignUp r size
    (size * 2).toNat = 2 * 2 ^ k ∧ (r + size * 2).toNat = r.toNat + 2 * 2 ^ k ∧
      (base + size).toNat = base.toNat + 2 ^ k ∧ base.toNat % 4096 = 0 ∧
      2 ^ k ∣ base.toNat ∧ r.toNat ≤ base.toNat ∧ base.toNat + 2 ^ k ≤ r.toNat + 2 * 2 ^ k ∧
      (base + size).toNat % 4096 = 0 := by
  intro size base
  have hs : size.toNat = 2 ^ k := toNat_pow (by omega)
  have hfit := hp.fits
  obtain ⟨h1, h2, h3⟩ := alignUp_spec r (k := k) (by omega) (by omega)
  have hs2 : (size * 2).toNat = 2 * 2 ^ k := by
    rw [BitVec.toNat_mul, hs]
    simp
    omega
  have hpk : 4096 ∣ 2 ^ k := by
    have : (4096 : Nat) = 2 ^ 12 := rfl
    rw [this]
    exact Nat.pow_dvd_pow 2 (by omega)
  have hb : base.toNat % 4096 = 0 := Nat.mod_eq_zero_of_dvd (Nat.dvd_trans hpk h1)
  have hbs : (base + size).toNat = base.toNat + 2 ^ k := by
    rw [BitVec.toNat_add, hs]
    change ((alignUp r (1#64 <<< k)).toNat + 2 ^ k) % 2 ^ 64 = (alignUp r (1#64 <<< k)).toNat + 2 ^ k
    omega
  refine ⟨hs2, ?_, hbs, hb, h1, h2, ?_, ?_⟩
  · rw [BitVec.toNat_add, hs2]; omega
  · change (alignUp r (1#64 <<< k)).toNat + 2 ^ k ≤ _
    omega
  · rw [hbs]
    obtain ⟨c, hc⟩ := hpk
    omega

theorem put_apply (m : Space) (a n k x) : m.put a n k x = if a ≤ x ∧ x < a + n then k else m x := rfl

theorem put_zero (m : Space) (a k) : m.put a 0 k = m := by
  funext x; rw [put_apply, if_neg (by omega)]

theorem pages_eq {n : Nat} (h : n % 4096 = 0) : pages n = n := by
  unfold pages; omega

theorem munmap_eq (m : Space) (a n : Word) (h : a.toNat % 4096 = 0) (hn : n.toNat % 4096 = 0) :
    munmap m a n = m.put a.toNat n.toNat .free := by
  unfold munmap
  by_cases h0 : n = 0
  · subst h0; simp [put_zero]
  · rw [if_pos ⟨h, h0⟩, pages_eq hn]

/-- **C38, the heap.**  Wherever the system puts the reservation, the mapping has the size asked for, is
aligned to it and lies inside the reservation, and everything else is as before: exactly the
rest of the reservation is released.  For sizes from two pages up to `2 ^ 62`. -/
theorem mapShared_trimmed {m : Space} {r : Word} {k : Nat} (hk : 12 < k) (hk' : k < 63)
    (hp : Placed m r.toNat (2 ^ k)) :
    ∃ m' base, mapShared ⟨some r, true⟩ m (1#64 <<< k) = (m', base) ∧
      Trimmed m r.toNat (2 ^ k) m' base.toNat .shared := by
  obtain ⟨hs2, hre, hbe, hba, hdvd, hle, hin, hbea⟩ := trim_core hk hk' hp
  have hs : (1#64 <<< k).toNat = 2 ^ k := toNat_pow (by omega)
  have hsz : pageSize < 1#64 <<< k := by
    rw [BitVec.lt_def, hs]
    have : 2 ^ 12 < 2 ^ k := Nat.pow_lt_pow_right (by omega) hk
    simpa [pageSize] using this
  simp only [mapShared, if_pos hsz, Option.getD_some, if_true]
  refine ⟨_, _, rfl, hdvd, ⟨hle, hin⟩, ?_⟩
  · intro x
    generalize hb : alignUp r (1#64 <<< k) = base at *
    have hd1 : r < base → (base - r).toNat = base.toNat - r.toNat := fun h => by
      rw [BitVec.toNat_sub_of_le (by rw [BitVec.le_def]; omega)]
    have hd2 : base + 1#64 <<< k < r + 1#64 <<< k * 2 →
        (r + 1#64 <<< k * 2 - (base + 1#64 <<< k)).toNat = r.toNat + 2 * 2 ^ k - (base.toNat + 2 ^ k) :=
      fun h => by rw [BitVec.toNat_sub_of_le (by rw [BitVec.le_def]; omega), hre, hbe]
    have hfree := hp.free x
    have hlt1 : r < base ↔ r.toNat < base.toNat := BitVec.lt_def
    have hlt2 : base + 1#64 <<< k < r + 1#64 <<< k * 2 ↔ base.toNat + 2 ^ k < r.toNat + 2 * 2 ^ k := by
      rw [BitVec.lt_def, hre, hbe]
    have hrp := hp.page
    by_cases c1 : r < base <;> by_cases c2 : base + 1#64 <<< k < r + 1#64 <<< k * 2
    · rw [if_pos c1, if_pos c2, munmap_eq _ _ _ hbea (by rw [hd2 c2]; omega),
        munmap_eq _ _ _ hp.page (by rw [hd1 c1]; omega), hd1 c1, hd2 c2]
      simp only [put_apply, hs2, hs, hbe]
      grind
    · rw [if_pos c1, if_neg c2, munmap_eq _ _ _ hp.page (by rw [hd1 c1]; omega), hd1 c1]
      simp only [put_apply, hs2, hs]
      grind
    · rw [if_neg c1, if_pos c2, munmap_eq _ _ _ hbea (by rw [hd2 c2]; omega), hd2 c2]
      simp only [put_apply, hs2, hs, hbe]
      grind
    · rw [if_neg c1, if_neg c2]
      simp only [put_apply, hs2, hs]
      grind

/-- Such a reservation exists: 1 GiB asked for in an empty address space, reserved at a page that is not
aligned to 1 GiB. -/
example : Placed (fun _ => .free) (0x7f0000001000#64).toNat (2 ^ 30) :=
  ⟨by decide, by decide, fun _ _ _ => rfl⟩

example : (mapShared ⟨some 0x7f0000001000#64, true⟩ (fun _ => .free) (1#64 <<< (30 : Nat))).2 =
    0x7f0040000000#64 := by decide

/-- **C38, one page.**  A mapping of one page needs no trimming: page alignment is its natural alignment. -/
theorem mapShared_page {m : Space} {r : Word} (hpage : r.toNat % 4096 = 0) :
    ∃ m' base, mapShared ⟨some r, true⟩ m pageSize = (m', base) ∧ base = r ∧ 4096 ∣ base.toNat ∧
      ∀ x, m' x = if r.toNat ≤ x ∧ x < r.toNat + 4096 then .shared else m x := by
  refine ⟨_, _, rfl, rfl, Nat.dvd_of_mod_eq_zero hpage, fun x => rfl⟩

/-- **C38, in the sandbox.**  `PalRange::alloc_range` gives a block of the size asked for, aligned to it,
inside what it allocated, and returns exactly the rest. -/
theorem allocRange_trimmed {m : Space} {r : Word} {k : Nat} (hk : 12 < k) (hk' : k < 63)
    (hp : Placed m r.toNat (2 ^ k)) :
    ∃ m' base, allocRange (some r) m (1#64 <<< k) = (m', base) ∧
      Trimmed m r.toNat (2 ^ k) m' base.toNat .reserved := by
  obtain ⟨hs2, hre, hbe, hba, hdvd, hle, hin, hbea⟩ := trim_core hk hk' hp
  have hs : (1#64 <<< k).toNat = 2 ^ k := toNat_pow (by omega)
  simp only [allocRange, Option.getD_some]
  refine ⟨_, _, rfl, hdvd, ⟨hle, hin⟩, ?_⟩
  intro x
  generalize hb : alignUp r (1#64 <<< k) = base at *
  have hd1 : r < base → (base - r).toNat = base.toNat - r.toNat := fun h => by
    rw [BitVec.toNat_sub_of_le (by rw [BitVec.le_def]; omega)]
  have hd2 : base + 1#64 <<< k < r + 1#64 <<< k * 2 →
      (r + 1#64 <<< k * 2 - (base + 1#64 <<< k)).toNat = r.toNat + 2 * 2 ^ k - (base.toNat + 2 ^ k) :=
    fun h => by rw [BitVec.toNat_sub_of_le (by rw [BitVec.le_def]; omega), hre, hbe]
  have hfree := hp.free x
  have hlt1 : r < base ↔ r.toNat < base.toNat := BitVec.lt_def
  have hlt2 : base + 1#64 <<< k < r + 1#64 <<< k * 2 ↔ base.toNat + 2 ^ k < r.toNat + 2 * 2 ^ k := by
    rw [BitVec.lt_def, hre, hbe]
  have hrp := hp.page
  by_cases c1 : r < base <;> by_cases c2 : base + 1#64 <<< k < r + 1#64 <<< k * 2
  · rw [if_pos c1, if_pos c2, munmap_eq _ r _ hp.page (by rw [hd1 c1]; omega),
      munmap_eq _ _ _ hbea (by rw [hd2 c2]; omega), hd1 c1, hd2 c2]
    simp only [put_apply, hs2, hbe]
    grind
  · rw [if_pos c1, if_neg c2, munmap_eq _ _ _ hp.page (by rw [hd1 c1]; omega), hd1 c1]
    simp only [put_apply, hs2]
    grind
  · rw [if_neg c1, if_pos c2, munmap_eq _ _ _ hbea (by rw [hd2 c2]; omega), hd2 c2]
    simp only [put_apply, hs2, hbe]
    grind
  · rw [if_neg c1, if_neg c2]
    simp only [put_apply, hs2]
    grind

/-- **C38, the destructor.**  Destroying the mapping leaves the address space as it was before it. -/
theorem mapShared_unmapped {m : Space} {r : Word} {k : Nat} (hk : 12 < k) (hk' : k < 63)
    (hp : Placed m r.toNat (2 ^ k)) :
    ∃ m' base, mapShared ⟨some r, true⟩ m (1#64 <<< k) = (m', base) ∧
      unmapShared m' base (1#64 <<< k) = m := by
  obtain ⟨m', base, he, ha, hi, hx⟩ := mapShared_trimmed hk hk' hp
  refine ⟨m', base, he, ?_⟩
  have hs : (1#64 <<< k).toNat = 2 ^ k := toNat_pow (by omega)
  have hpk : 4096 ∣ 2 ^ k := by
    have : (4096 : Nat) = 2 ^ 12 := rfl
    rw [this]
    exact Nat.pow_dvd_pow 2 (by omega)
  have hne : base ≠ mapFailed := by
    intro h
    have := Nat.mod_eq_zero_of_dvd (Nat.dvd_trans hpk ha)
    rw [h] at this
    simp [mapFailed] at this
  rw [unmapShared, if_pos hne, munmap_eq _ _ _ (Nat.mod_eq_zero_of_dvd (Nat.dvd_trans hpk ha))
    (by rw [hs]; exact Nat.mod_eq_zero_of_dvd hpk), hs]
  funext x
  rw [put_apply, hx]
  have := hp.free x
  grind

/-- **C38, in the sandbox, giving back.**  Giving a block of `PalRange::alloc_range` back leaves the address space as it was before it was
asked for. -/
theorem allocRange_deallocRange {m : Space} {r : Word} {k : Nat} (hk : 12 < k) (hk' : k < 63)
    (hp : Placed m r.toNat (2 ^ k)) :
    deallocRange (allocRange (some r) m (1#64 <<< k)).1 (allocRange (some r) m (1#64 <<< k)).2 (1#64 <<< k) = m := by
  obtain ⟨m', base, he, ha, hi, hx⟩ := allocRange_trimmed hk hk' hp
  rw [he]
  have hs : (1#64 <<< k).toNat = 2 ^ k := toNat_pow (by omega)
  have hpk : 4096 ∣ 2 ^ k := by
    have : (4096 : Nat) = 2 ^ 12 := rfl
    rw [this]
    exact Nat.pow_dvd_pow 2 (by omega)
  rw [deallocRange, munmap_eq _ _ _ (Nat.mod_eq_zero_of_dvd (Nat.dvd_trans hpk ha))
    (by rw [hs]; exact Nat.mod_eq_zero_of_dvd hpk), hs]
  funext x
  show (m'.put _ _ _) x = _
  rw [put_apply, hx]
  have := hp.free x
  grind

/-- **C38, where the system aligns.**  With a system that keeps its word about the alignment and takes free memory, the mapping is aligned to
its size, nothing else changes, and destroying it leaves the address space as it was. -/
theorem mapAligned_exact {m : Space} {r : Word} {k : Nat} (hk : 12 ≤ k) (hk' : k < 64) (ha : 2 ^ k ∣ r.toNat)
    (hfree : ∀ x, r.toNat ≤ x → x < r.toNat + 2 ^ k → m x = .free) :
    ∃ m' base, mapAligned (some r) m (1#64 <<< k) = (m', base) ∧ 2 ^ k ∣ base.toNat ∧
      (∀ x, m' x = if base.toNat ≤ x ∧ x < base.toNat + 2 ^ k then .shared else m x) ∧
      unmapShared m' base (1#64 <<< k) = m := by
  have hs : (1#64 <<< k).toNat = 2 ^ k := toNat_pow hk'
  have hpk : 4096 ∣ 2 ^ k := by
    have : (4096 : Nat) = 2 ^ 12 := rfl
    rw [this]
    exact Nat.pow_dvd_pow 2 hk
  have hne : r ≠ mapFailed := by
    intro h
    have := Nat.mod_eq_zero_of_dvd (Nat.dvd_trans hpk ha)
    rw [h] at this
    simp [mapFailed] at this
  refine ⟨_, _, rfl, ha, fun x => by rw [put_apply, hs], ?_⟩
  rw [unmapShared, if_pos hne, munmap_eq _ _ _ (Nat.mod_eq_zero_of_dvd (Nat.dvd_trans hpk ha))
    (by rw [hs]; exact Nat.mod_eq_zero_of_dvd hpk), hs]
  funext x
  rw [put_apply, put_apply]
  have := hfree x
  grind

/-- 1 GiB at an aligned address. -/
example : 2 ^ 30 ∣ (0x7f0040000000#64).toNat ∧
    (mapAligned (some 0x7f0040000000#64) (fun _ => .free) (1#64 <<< (30 : Nat))).2 = 0x7f0040000000#64 := by decide

/-! ## C50: failures -/

/-- **C50, where the system aligns.**  A failure is not noticed either; but nothing is mapped or unmapped by it, then or when the mapping is destroyed. -/
theorem aligned_failure_unnoticed (m : Space) (size : Word) :
    mapAligned none m size = (m, mapFailed) ∧ unmapShared m mapFailed size = m :=
  ⟨rfl, if_neg (by simp)⟩

/-- **C50.**  If the object cannot be mapped over the reservation, the constructor returns as if it had
been, with `MAP_FAILED` as the address; and the second half of the reservation is never released. -/
theorem map_failure_unnoticed {m : Space} {r : Word} {k : Nat} (hk : 12 < k) (hk' : k < 63)
    (hp : Placed m r.toNat (2 ^ k)) :
    ∃ m', mapShared ⟨some r, false⟩ m (1#64 <<< k) = (m', mapFailed) ∧
      ∀ x, r.toNat + 2 ^ k ≤ x → x < r.toNat + 2 * 2 ^ k → m' x = .reserved := by
  obtain ⟨hs2, hre, hbe, hba, hdvd, hle, hin, hbea⟩ := trim_core hk hk' hp
  have hs : (1#64 <<< k).toNat = 2 ^ k := toNat_pow (by omega)
  have hk12 : 2 ^ 12 < 2 ^ k := Nat.pow_lt_pow_right (by omega) hk
  have hfit := hp.fits
  have hsz : pageSize < 1#64 <<< k := by
    rw [BitVec.lt_def, hs]
    simpa [pageSize] using hk12
  have hpk : 2 ^ k % 4096 = 0 := Nat.mod_eq_zero_of_dvd (by
    have : (4096 : Nat) = 2 ^ 12 := rfl
    rw [this]
    exact Nat.pow_dvd_pow 2 (by omega))
  have hme : (mapFailed + 1#64 <<< k).toNat = 2 ^ k - 1 := by
    rw [BitVec.toNat_add, hs]
    simp [mapFailed]
    omega
  simp only [mapShared, if_pos hsz, Option.getD_some]
  refine ⟨_, rfl, ?_⟩
  intro x h1 h2
  have hun : ∀ (q : Space) (n : Word), munmap q (mapFailed + 1#64 <<< k) n = q := by
    intro q n
    unfold munmap
    rw [if_neg]
    rw [hme]
    omega
  generalize hb : alignUp r (1#64 <<< k) = base at *
  have hlt1 : r < base ↔ r.toNat < base.toNat := BitVec.lt_def
  have hd1 : r < base → (base - r).toNat = base.toNat - r.toNat := fun h => by
    rw [BitVec.toNat_sub_of_le (by rw [BitVec.le_def]; omega)]
  simp only [Bool.false_eq_true, if_false, hun, ite_self]
  have hrp := hp.page
  by_cases c1 : r < base
  · rw [if_pos c1, munmap_eq _ _ _ hp.page (by rw [hd1 c1]; omega), hd1 c1]
    simp only [put_apply, hs2]
    rw [if_neg (by omega), if_pos (by omega)]
  · rw [if_neg c1]
    simp only [put_apply, hs2]
    rw [if_pos (by omega)]

/-- **C50.**  If the reservation fails, the constructor goes on to map the object at address zero. -/
theorem reservation_failure_unnoticed {m : Space} {k : Nat} (hk : 12 < k) (hk' : k < 63) :
    alignUp mapFailed (1#64 <<< k) = 0 ∧
      mapShared ⟨none, false⟩ m (1#64 <<< k) = (m, mapFailed) ∧
      (mapShared ⟨none, true⟩ m (1#64 <<< k)).2 = 0 := by
  have hs : (1#64 <<< k).toNat = 2 ^ k := toNat_pow (by omega)
  have hk12 : 2 ^ 12 < 2 ^ k := Nat.pow_lt_pow_right (by omega) hk
  have hk63 : 2 ^ k < 2 ^ 63 := Nat.pow_lt_pow_right (by omega) hk'
  have hsz : pageSize < 1#64 <<< k := by
    rw [BitVec.lt_def, hs]
    simpa [pageSize] using hk12
  have ha : alignUp mapFailed (1#64 <<< k) = 0 := by
    apply BitVec.eq_of_toNat_eq
    unfold alignUp
    rw [and_mask _ (by omega)]
    have h1 : (mapFailed + (1#64 <<< k - 1)).toNat = 2 ^ k - 2 := by
      rw [BitVec.toNat_add, BitVec.toNat_sub, hs]
      simp [mapFailed]
      omega
    rw [h1, Nat.div_eq_of_lt (by omega), Nat.zero_mul]
    rfl
  have hpk : 2 ^ k % 4096 = 0 := Nat.mod_eq_zero_of_dvd (by
    have : (4096 : Nat) = 2 ^ 12 := rfl
    rw [this]
    exact Nat.pow_dvd_pow 2 (by omega))
  have hme : (mapFailed + 1#64 <<< k).toNat = 2 ^ k - 1 := by
    rw [BitVec.toNat_add, hs]
    simp [mapFailed]
    omega
  have hun : ∀ (q : Space) (n : Word), munmap q (mapFailed + 1#64 <<< k) n = q := by
    intro q n
    unfold munmap
    rw [if_neg]
    rw [hme]
    omega
  have hz : ¬ mapFailed < (0 : Word) := by simp [mapFailed]
  refine ⟨ha, ?_, ?_⟩
  · simp only [mapShared, if_pos hsz, Option.getD_none, ha, hun, if_neg hz, ite_self,
      Bool.false_eq_true, if_false]
  · simp only [mapShared, if_pos hsz, Option.getD_none, ha, if_true]

/-- **C50.**  If snmalloc's range has no memory left in the sandbox, `PalRange::alloc_range` returns null
as it should, but first unmaps the addresses `[size, 2 size)`, whatever they held. -/
theorem allocRange_failure_unmaps {m : Space} {k : Nat} (hk : 12 < k) (hk' : k < 63) :
    allocRange none m (1#64 <<< k) = (m.put (2 ^ k) (2 ^ k) .free, 0) := by
  have hs : (1#64 <<< k).toNat = 2 ^ k := toNat_pow (by omega)
  have hk12 : 2 ^ 12 < 2 ^ k := Nat.pow_lt_pow_right (by omega) hk
  have hk63 : 2 ^ k < 2 ^ 63 := Nat.pow_lt_pow_right (by omega) hk'
  have ha : alignUp 0 (1#64 <<< k) = 0 := by
    apply BitVec.eq_of_toNat_eq
    unfold alignUp
    rw [and_mask _ (by omega)]
    have h1 : ((0 : Word) + (1#64 <<< k - 1)).toNat = 2 ^ k - 1 := by
      rw [BitVec.toNat_add, BitVec.toNat_sub, hs]
      simp
      omega
    rw [h1, Nat.div_eq_of_lt (by omega), Nat.zero_mul]
    rfl
  have hs2 : (0 + 1#64 <<< k * 2).toNat = 2 * 2 ^ k := by
    rw [BitVec.toNat_add, BitVec.toNat_mul, hs]
    simp
    omega
  have h0 : (0 + 1#64 <<< k).toNat = 2 ^ k := by
    rw [BitVec.toNat_add, hs]
    simp
    omega
  have hlt : (0 : Word) + 1#64 <<< k < 0 + 1#64 <<< k * 2 := by
    rw [BitVec.lt_def, h0, hs2]; omega
  have hd : (0 + 1#64 <<< k * 2 - (0 + 1#64 <<< k)).toNat = 2 ^ k := by
    rw [BitVec.toNat_sub_of_le (by rw [BitVec.le_def]; omega), h0, hs2]; omega
  have hpk : 2 ^ k % 4096 = 0 := Nat.mod_eq_zero_of_dvd (by
    have : (4096 : Nat) = 2 ^ 12 := rfl
    rw [this]
    exact Nat.pow_dvd_pow 2 (by omega))
  simp only [allocRange, Option.getD_none, ha, if_pos hlt]
  rw [if_neg (by simp), munmap_eq _ _ _ (by rw [h0]; exact hpk) (by rw [hd]; exact hpk), h0, hd]

/-- Something is lost: a program linked at the usual fixed address, 4 MiB, loses its code when 4 MiB
cannot be had. -/
example : (fun x => if 0x400000 ≤ x ∧ x < 0x500000 then Kind.other else .free : Space) 0x400000 = .other ∧
    (allocRange none (fun x => if 0x400000 ≤ x ∧ x < 0x500000 then Kind.other else .free)
      (1#64 <<< (22 : Nat))).1 0x400000 = .free := by
  rw [allocRange_failure_unmaps (by omega) (by omega)]
  decide

/-! ## C49: the size of the heap -/

/-- The least power of two that is at least `n`. -/
def LeastPow (n s : Nat) : Prop :=
  (∃ k, s = 2 ^ k) ∧ n ≤ s ∧ ∀ j, n ≤ 2 ^ j → s ≤ 2 ^ j

theorem shl30 (g : Word) (h : g.toNat < 2 ^ 34) : (g <<< (30 : Nat)).toNat = g.toNat * 2 ^ 30 := by
  rw [BitVec.toNat_shiftLeft, Nat.shiftLeft_eq]
  omega

/-- **C49.**  For a number of GiB from 1 to `2 ^ 33`, the heap's size is the least power of two that
holds it. -/
theorem heapSize_least_partial {g : Word} (h1 : 1 ≤ g.toNat) (h2 : g.toNat ≤ 2 ^ 33) :
    ∃ s, heapSize g = some s ∧ LeastPow (g.toNat * 2 ^ 30) s.toNat := by
  have hsh := shl30 g (by omega)
  generalize hx : g <<< (30 : Nat) = x at hsh
  have hsub : (x - 1).toNat = g.toNat * 2 ^ 30 - 1 := by
    rw [BitVec.toNat_sub_of_le (by rw [BitVec.le_def]; simp; omega), hsh]
    rfl
  have hne : ¬ x - 1 = 0 := by
    intro h
    rw [h] at hsub
    simp at hsub
    omega
  have hb : nextPow2Bits x = Nat.log2 (g.toNat * 2 ^ 30 - 1) + 1 := by
    rw [nextPow2Bits, if_neg hne, hsub]
  generalize hn : g.toNat * 2 ^ 30 = n at *
  have hn0 : n - 1 ≠ 0 := by omega
  have hlo := (Nat.log2_eq_iff (k := Nat.log2 (n - 1)) hn0).1 rfl
  have hlt : Nat.log2 (n - 1) < 63 := (Nat.log2_lt hn0).2 (by omega)
  refine ⟨_, by simp only [heapSize, oneAtBit, hx, hb, if_pos (show Nat.log2 (n - 1) + 1 < 64 by omega)]; rfl, ?_⟩
  rw [toNat_pow (by omega)]
  refine ⟨⟨_, rfl⟩, by omega, ?_⟩
  intro j hj
  apply Nat.pow_le_pow_right (by omega)
  have : 2 ^ Nat.log2 (n - 1) < 2 ^ j := by omega
  exact (Nat.pow_lt_pow_iff_right (by omega)).1 this

example : heapSize 3 = some (4 <<< (30 : Nat)) := by decide

/-- **C49 fails** for zero: the shift is by 64 bits, which is undefined. -/
theorem heapSize_zero : heapSize 0 = none := by decide

/-- **C49 fails** for large numbers: they are silently taken modulo `2 ^ 34`. -/
theorem heapSize_wraps (g : Word) : heapSize (g + 0x400000000) = heapSize g := by
  have : (g + 0x400000000) <<< (30 : Nat) = g <<< (30 : Nat) := by
    apply BitVec.eq_of_toNat_eq
    rw [BitVec.toNat_shiftLeft, BitVec.toNat_shiftLeft, BitVec.toNat_add]
    simp only [Nat.shiftLeft_eq]
    simp
    omega
  rw [heapSize, heapSize, this]

/-- **C49, exactly when it holds.** -/
theorem heapSize_least_iff (g : Word) :
    (∃ s, heapSize g = some s ∧ LeastPow (g.toNat * 2 ^ 30) s.toNat) ↔ 1 ≤ g.toNat ∧ g.toNat ≤ 2 ^ 33 := by
  constructor
  · rintro ⟨s, h1, ⟨k, hk⟩, h2, _⟩
    constructor
    · refine Nat.pos_of_ne_zero fun h => ?_
      have : g = 0 := BitVec.eq_of_toNat_eq h
      rw [this, heapSize_zero] at h1
      cases h1
    · have hlt := s.isLt
      rw [hk] at hlt h2
      have : k < 64 := (Nat.pow_lt_pow_iff_right (by omega)).1 hlt
      have : 2 ^ k ≤ 2 ^ 63 := Nat.pow_le_pow_right (by omega) (by omega)
      omega
  · exact fun h => heapSize_least_partial h.1 h.2

/-- **C49, every number.**  The size depends on the number modulo `2 ^ 34` only; the shift is undefined exactly if that is zero or more
than `2 ^ 33`. -/
theorem heapSize_mod (g : Word) : heapSize g = heapSize (BitVec.ofNat 64 (g.toNat % 2 ^ 34)) ∧
    (heapSize g = none ↔ g.toNat % 2 ^ 34 = 0 ∨ 2 ^ 33 < g.toNat % 2 ^ 34) := by
  have he : heapSize g = heapSize (BitVec.ofNat 64 (g.toNat % 2 ^ 34)) := by
    have : g <<< (30 : Nat) = (BitVec.ofNat 64 (g.toNat % 2 ^ 34)) <<< (30 : Nat) := by
      apply BitVec.eq_of_toNat_eq
      rw [BitVec.toNat_shiftLeft, BitVec.toNat_shiftLeft, BitVec.toNat_ofNat]
      simp only [Nat.shiftLeft_eq]
      omega
    rw [heapSize, heapSize, this]
  refine ⟨he, ?_⟩
  rw [he]
  generalize hm : g.toNat % 2 ^ 34 = m
  have hlt : m < 2 ^ 34 := by omega
  have hto : (BitVec.ofNat 64 m).toNat = m := by rw [BitVec.toNat_ofNat]; omega
  constructor
  · intro h
    refine Classical.byContradiction fun hn => ?_
    obtain ⟨s, hs, _⟩ := heapSize_least_partial (g := BitVec.ofNat 64 m) (by omega) (by omega)
    rw [h] at hs
    cases hs
  · rintro (h | h)
    · rw [h]
      exact heapSize_zero
    · have hsh := shl30 (BitVec.ofNat 64 m) (by omega)
      rw [hto] at hsh
      generalize hx : (BitVec.ofNat 64 m) <<< (30 : Nat) = x at hsh
      have hsub : (x - 1).toNat = m * 2 ^ 30 - 1 := by
        rw [BitVec.toNat_sub_of_le (by rw [BitVec.le_def]; simp; omega), hsh]
        rfl
      have hne : ¬ x - 1 = 0 := by
        intro h
        rw [h] at hsub
        simp at hsub
        omega
      have hb : nextPow2Bits x = Nat.log2 (m * 2 ^ 30 - 1) + 1 := by
        rw [nextPow2Bits, if_neg hne, hsub]
      have : 63 ≤ Nat.log2 (m * 2 ^ 30 - 1) := (Nat.le_log2 (by omega)).2 (by omega)
      simp only [heapSize, oneAtBit, hx, hb, if_neg (show ¬ Nat.log2 (m * 2 ^ 30 - 1) + 1 < 64 by omega)]

/-- One GiB is reserved where `2 ^ 34 + 1` GiB were asked for. -/
example : heapSize 0x400000001 = some (1 <<< (30 : Nat)) := by decide

end Verif.Shm
