import Verif.Strings.Model
import Verif.Strings.Spec
import Verif.Bounds.Props

namespace Verif.Strings

open Verif.Bounds

theorem strnlenFrom_le (rd : Mem) (str : Word) (i fuel : Nat) :
    i ≤ (strnlenFrom rd str i fuel).1 ∧ (strnlenFrom rd str i fuel).1 ≤ i + fuel := by
  induction fuel generalizing i with
  | zero => simp [strnlenFrom]
  | succ n ih =>
    simp only [strnlenFrom]
    split
    · simp
    · have := ih (i + 1)
      simp only
      omega

theorem strnlenFrom_nonzero (rd : Mem) (str : Word) (i fuel : Nat) :
    ∀ j, i ≤ j → j < (strnlenFrom rd str i fuel).1 → rd (str + BitVec.ofNat 64 j) ≠ 0 := by
  induction fuel generalizing i with
  | zero => intro j h1 h2; simp [strnlenFrom] at h2; omega
  | succ n ih =>
    intro j h1 h2
    simp only [strnlenFrom] at h2
    split at h2
    · simp at h2; omega
    · rename_i hne
      rcases Nat.eq_or_lt_of_le h1 with h | h
      · subst h; exact hne
      · exact ih (i + 1) j h h2

theorem strnlenFrom_zero (rd : Mem) (str : Word) (i fuel : Nat)
    (h : (strnlenFrom rd str i fuel).1 ≠ i + fuel) :
    rd (str + BitVec.ofNat 64 (strnlenFrom rd str i fuel).1) = 0 := by
  induction fuel generalizing i with
  | zero => simp [strnlenFrom] at h
  | succ n ih =>
    simp only [strnlenFrom] at h ⊢
    split
    · assumption
    · rename_i hne
      simp only [hne, if_false] at h
      exact ih (i + 1) (by omega)

theorem strnlenFrom_reads (rd : Mem) (str : Word) (i fuel : Nat) :
    ∀ a ∈ (strnlenFrom rd str i fuel).2, ∃ j, i ≤ j ∧ j < i + fuel ∧
      a = str + BitVec.ofNat 64 j := by
  induction fuel generalizing i with
  | zero => simp [strnlenFrom]
  | succ n ih =>
    intro a ha
    simp only [strnlenFrom] at ha
    split at ha
    · simp at ha; exact ⟨i, by omega, by omega, ha⟩
    · simp only [List.mem_cons] at ha
      rcases ha with rfl | ha
      · exact ⟨i, by omega, by omega, rfl⟩
      · obtain ⟨j, h1, h2, h3⟩ := ih (i + 1) a ha
        exact ⟨j, by omega, by omega, h3⟩

theorem copyOut_spec (rd : Mem) (str : Word) (i n : Nat) (b : Buf) (h : i + n ≤ b.length) :
    ∃ b', (copyOut rd str i n b).1 = .ok b' ∧ b'.length = b.length ∧
      (∀ j, i ≤ j → j < i + n → b'[j]? = some (rd (str + BitVec.ofNat 64 j))) ∧
      (∀ j, (j < i ∨ i + n ≤ j) → b'[j]? = b[j]?) := by
  induction n generalizing i b with
  | zero => exact ⟨b, rfl, rfl, by intro j; omega, by simp⟩
  | succ n ih =>
    have hi : i < b.length := by omega
    simp only [copyOut, Buf.store, hi, if_true]
    obtain ⟨b', h1, h2, h3, h4⟩ := ih (i + 1)
      (b.set i (rd (str + BitVec.ofNat 64 i))) (by simp; omega)
    refine ⟨b', h1, by simpa using h2, ?_, ?_⟩
    · intro j hj1 hj2
      rcases Nat.eq_or_lt_of_le hj1 with h' | h'
      · subst h'
        rw [h4 i (by omega)]
        simp [hi]
      · exact h3 j h' (by omega)
    · intro j hj
      rw [h4 j (by omega), List.getElem?_set_ne (by omega)]

theorem copyOut_reads (rd : Mem) (str : Word) (i n : Nat) (b : Buf) :
    ∀ a ∈ (copyOut rd str i n b).2, ∃ j, i ≤ j ∧ j < i + n ∧
      a = str + BitVec.ofNat 64 j := by
  induction n generalizing i b with
  | zero => simp [copyOut]
  | succ n ih =>
    intro a ha
    simp only [copyOut] at ha
    split at ha
    · simp only [List.mem_cons] at ha
      rcases ha with rfl | ha
      · exact ⟨i, by omega, by omega, rfl⟩
      · obtain ⟨j, h1, h2, h3⟩ := ih (i + 1) _ a ha
        exact ⟨j, by omega, by omega, h3⟩
    · simp only [List.mem_singleton] at ha
      exact ⟨i, by omega, by omega, ha⟩

theorem toNat_sub_top (hdr : Word) (r : Region) (h : r.WF hdr) (str : Word)
    (hc : contains hdr r str 1 = true) :
    (r.top - str).toNat = r.top.toNat - str.toNat := by
  rw [contains_iff hdr r h] at hc
  obtain ⟨_, h2, _⟩ := hc
  bv_omega

theorem toNat_off (hdr : Word) (r : Region) (h : r.WF hdr) (str : Word)
    (hc : contains hdr r str 1 = true) (j : Nat) (hj : j < r.top.toNat - str.toNat) :
    (str + BitVec.ofNat 64 j).toNat = str.toNat + j := by
  rw [contains_iff hdr r h] at hc
  have := r.top.isLt
  rw [BitVec.toNat_add, BitVec.toNat_ofNat, Nat.mod_eq_of_lt (a := j) (by omega),
    Nat.mod_eq_of_lt (by omega)]

theorem writeBytes_out (m : Mem) (a : Word) (bs : List Byte) (x : Word)
    (hx : ∀ i, i < bs.length → x ≠ a + BitVec.ofNat 64 i) :
    writeBytes m a bs x = m x := by
  induction bs generalizing m a with
  | nil => rfl
  | cons b bs ih =>
    simp only [writeBytes]
    rw [ih]
    · have := hx 0 (by simp)
      simp at this
      simp [memSet, this]
    · intro i hi
      have := hx (i + 1) (by simpa using hi)
      intro he
      apply this
      rw [he]
      bv_omega

theorem writeBytes_in (m : Mem) (a : Word) (bs : List Byte) (hlen : bs.length < 2 ^ 64)
    (i : Nat) (hi : i < bs.length) :
    writeBytes m a bs (a + BitVec.ofNat 64 i) = bs[i] := by
  induction bs generalizing m a i with
  | nil => simp at hi
  | cons b bs ih =>
    simp only [List.length_cons] at hlen hi
    simp only [writeBytes]
    cases i with
    | zero =>
      rw [writeBytes_out]
      · simp [memSet]
      · intro j hj
        simp
        intro he
        have : (1 : Word) + BitVec.ofNat 64 j = 0 := by bv_omega
        have h2 : ((1 : Word) + BitVec.ofNat 64 j).toNat = 0 := by rw [this]; rfl
        rw [BitVec.toNat_add, BitVec.toNat_ofNat, Nat.mod_eq_of_lt (a := j) (by omega)] at h2
        rw [Nat.mod_eq_of_lt] at h2 <;> simp at * <;> omega
    | succ j =>
      have : a + BitVec.ofNat 64 (j + 1) = (a + 1) + BitVec.ofNat 64 j := by bv_omega
      rw [this, ih (memSet m a b) (a + 1) (by omega) j (by omega)]
      simp

theorem cText_nonzero (s : List Byte) : ∀ b ∈ cText s, b ≠ 0 := by
  induction s with
  | nil => simp [cText]
  | cons a s ih =>
    intro b hb
    simp only [cText] at hb
    split at hb
    · simp at hb
    · simp only [List.mem_cons] at hb
      rcases hb with rfl | hb
      · assumption
      · exact ih b hb

end Verif.Strings
