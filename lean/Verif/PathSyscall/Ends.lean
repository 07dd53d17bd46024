import Verif.PathSyscall.Props

/-!
# How every path request ends, whatever memory the host has (property C15)
-/

namespace Verif.PathSyscall

open Verif.Bounds Verif.Strings Verif.Path Verif.Path.Spec Verif.FileTree Verif.FileTree.Spec
open Verif.Callback Spec

/-- A path that is not a terminated string inside the heap is found out before anything is allocated. -/
theorem bad_path_null (v : Env) (hwf : v.region.WF v.hdr) (a : Word)
    (hbad : ¬ (v.region.base.toNat + v.hdr.toNat ≤ a.toNat ∧ a.toNat < v.region.top.toNat) ∨
      ∀ x, a.toNat ≤ x → x < v.region.top.toNat → asNat v.rd1 x ≠ 0) : getPath v a = .ok none := by
  have h := (strdupOut_null_iff v.hdr v.region hwf (fun n => some (List.replicate n 0)) (fun n b h => by
    simp only [Option.some.injEq] at h; subst h; simp) (fun n => by simp) v.rd1 v.rd2 a).2 hbad
  unfold getPath
  unfold strdupOut at h ⊢
  split at h
  · rename_i hc
    rw [if_pos hc]
    simp only at h ⊢
    split at h
    · rename_i hl
      rw [if_pos hl]
    · split at h
      · split at h <;> cases h
      · cases h
  · rename_i hc
    rw [if_neg hc]

/-! ## C15 -/

/-- **C15.**  For every request, content of the memory and allocator, the host answers a path request, or its behaviour is
undefined because it has no memory for the copy of the path; there is no other outcome.  The same holds for `openat`. -/
theorem serve_ends_iff (v : Env) (hwf : v.region.WF v.hdr) (hm : MallocOk v.malloc) :
    (∀ c, (serve v c = .ub ↔ NoRoom v.hdr v.region v.malloc v.rd1 c.path) ∧
      (¬ NoRoom v.hdr v.region v.malloc v.rd1 c.path → ∃ x, serve v c = .ok x)) ∧
    (∀ h a flags mode, (handleOpenat v h a flags mode = .ub ↔ NoRoom v.hdr v.region v.malloc v.rd1 a) ∧
      (¬ NoRoom v.hdr v.region v.malloc v.rd1 a → ∃ x, handleOpenat v h a flags mode = .ok x)) := by
  have key : ∀ a (x : Outcome (Result × Log)), (getPath v a = .ub → x = .ub) →
      (∀ b, getPath v a = .ok b → ∃ y, x = .ok y) →
      (x = .ub ↔ NoRoom v.hdr v.region v.malloc v.rd1 a) ∧
        (¬ NoRoom v.hdr v.region v.malloc v.rd1 a → ∃ y, x = .ok y) := by
    intro a x h1 h2
    have hs := strdupOut_outcome v.hdr v.region hwf v.malloc hm v.rd1 v.rd2 a
    by_cases hn : NoRoom v.hdr v.region v.malloc v.rd1 a
    · exact ⟨iff_of_true (h1 (hs.1.2 hn)) hn, fun h => absurd hn h⟩
    · obtain ⟨b, hb⟩ := hs.2 hn
      obtain ⟨y, hy⟩ := h2 b hb
      exact ⟨iff_of_false (by rw [hy]; nofun) hn, fun _ => ⟨y, hy⟩⟩
  have hp : ∀ a handler, (handlePath v a handler = .ub ↔ NoRoom v.hdr v.region v.malloc v.rd1 a) ∧
      (¬ NoRoom v.hdr v.region v.malloc v.rd1 a → ∃ y, handlePath v a handler = .ok y) := by
    intro a handler
    refine key a _ (fun h => by simp only [handlePath, h]) ?_
    intro b hb
    simp only [handlePath, hb]
    cases b with
    | none => exact ⟨_, rfl⟩
    | some raw =>
      obtain ⟨p, hp⟩ : ∃ p, ofView (some 0) (cText raw) = .ok p := (ofView_ok (some 0) (cText raw)).2 (Or.inr ⟨0, rfl, by decide⟩)
      simp only [hp]
      split
      · exact ⟨_, rfl⟩
      · split
        · exact ⟨_, rfl⟩
        · exact ⟨_, rfl⟩
  refine ⟨fun c => ?_, fun h a flags mode => ?_⟩
  · cases c <;> exact hp _ _
  · refine key a _ (fun h => by simp only [handleOpenat, h]) ?_
    intro b hb
    simp only [handleOpenat, hb]
    exact ⟨_, rfl⟩

/-- **C15, a host without memory.**  Whatever the allocator does: a path that is not a terminated string inside the heap is
refused with `-EINVAL` before anything is allocated, without a system call. -/
theorem bad_path_refused (v : Env) (hwf : v.region.WF v.hdr) (c : Call)
    (hbad : ¬ (v.region.base.toNat + v.hdr.toNat ≤ c.path.toNat ∧ c.path.toNat < v.region.top.toNat) ∨
      ∀ x, c.path.toNat ≤ x → x < v.region.top.toNat → asNat v.rd1 x ≠ 0) : serve v c = .ok (⟨-22, -1⟩, []) := by
  have hnull := bad_path_null v hwf c.path hbad
  have : ∀ handler, handlePath v c.path handler = .ok (⟨-22, -1⟩, []) := by
    intro handler
    simp only [handlePath, hnull]
    rfl
  cases c <;> exact this _

/-- A host whose allocator always fails: the good path at `0x1008` is undefined, a bad one is refused. -/
example : serve { exEnv with malloc := fun _ => none } (.access 0x1008 0) = .ub ∧
    serve { exEnv with malloc := fun _ => none } (.access 0 0) = .ok (⟨-22, -1⟩, []) :=
  ⟨by decide +kernel, bad_path_refused { exEnv with malloc := fun _ => none } exEnv_path.1 (.access 0 0)
    (.inl (by decide))⟩

end Verif.PathSyscall
