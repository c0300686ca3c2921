import Verif.Proofs.DiskNames

/-!
# C56: what a search does to the disk
-/

namespace Mairix
open Spec

/-- The subfolders a maildir search writes to. -/
def maildirSubs (dir : Text) : List Text := [dir ++ bs "/new", dir ++ bs "/cur"]

/-- **C56**, results in a maildir. The folders are there (`h1`; if they were before, `d` is `d0` by `C56_ready`, and if not, `C56_made` says what was done). The search succeeds; nothing on the
disk changes but the entries of the folder's `new` and `cur`; every result is there under its name, unless a directory or device has this name; everything else in the two folders
is a directory or device that was there; and these stay. -/
theorem C56_maildir {d0 d : Disk} {dir : Text} (h1 : maybeCreateMaildir d0 dir = .ok d) {n c : Nat} {en ec : List (Text × Nat)}
    (fn : Folder d [n, c] (dir ++ bs "/new") n en) (fc : Folder d [n, c] (dir ++ bs "/cur") c ec) (hnc : n ≠ c) (hard : Bool) {l : List (Nat × DbMsg × Source)}
    (hl : (l.map (·.1)).Nodup) (hi : ∀ x ∈ l, x.1 < 2 ^ 31) :
    ∃ d', searchMaildir d0 dir false hard l = .ok d' ∧ Kept [n, c] d d' ∧
      (∀ i m s, (i, m, s) ∈ l → ∀ t, maildirName dir i m = .ok (some t) → (∀ x, d.lstat t = some x → ¬ Stays x) → ResultAt [n, c] d d' hard t (delivered m s)) ∧
      (∀ sub ∈ maildirSubs dir, ∀ nm, NameOk nm → ∀ j, d'.lookup (child sub nm) = some j →
        (d.lookup (child sub nm) = some j ∧ ∃ x, d.lstat (child sub nm) = some x ∧ Stays x) ∨
        ∃ i m s, (i, m, s) ∈ l ∧ maildirName dir i m = .ok (some (child sub nm))) ∧
      (∀ sub ∈ maildirSubs dir, ∀ nm, NameOk nm → ∀ x, d.lstat (child sub nm) = some x → Stays x → d'.lookup (child sub nm) = d.lookup (child sub nm)) := by
  obtain ⟨k, cn, cc⟩ := clearedOf_two fn fc hnc fun _ => true
  obtain ⟨items, e, hnd, hit, hall⟩ := maildir_items dir hard l (clearDir (clearDir d (dir ++ bs "/new") fun _ => true) (dir ++ bs "/cur") fun _ => true) hl hi
  have hS : ∀ s ∈ maildirSubs dir, ClearedOf [n, c] d (clearDir (clearDir d (dir ++ bs "/new") fun _ => true) (dir ++ bs "/cur") fun _ => true) (fun _ => true) s := by
    intro s hs
    rcases List.mem_cons.1 hs with rfl | hs
    · exact cn
    · rcases List.mem_cons.1 hs with rfl | hs
      · exact cc
      · cases hs
  have hmem : ∀ it ∈ items, it.1 ∈ maildirSubs dir := by
    intro it h
    rcases (hit it h).1 with h | h
    · exact List.mem_cons.2 (.inl h)
    · exact List.mem_cons.2 (.inr (List.mem_cons.2 (.inl h)))
  obtain ⟨kk, r1, r2, r3⟩ := final_spec k hS hard (items := items) (fun it h => ⟨hmem it h, (hit it h).2.1, .inl rfl⟩) hnd
  refine ⟨_, ?_, kk, ?_, ?_, ?_⟩
  · simp only [searchMaildir, h1, bind, Except.bind, Bool.false_eq_true, if_false]
    exact e
  · intro i m s hm t ht hx
    obtain ⟨it, hmit, he, hdel⟩ := hall i m s hm t ht
    rw [← he, ← hdel]
    refine r1 it hmit ?_
    rw [he]
    cases hlk : d.lookup t with
    | none => exact .inl rfl
    | some j =>
      right
      obtain ⟨r, es, f, _⟩ := hS _ (hmem it hmit)
      rw [← he, f.lookup (hit it hmit).2.1] at hlk
      obtain ⟨x, hj⟩ := f.inodes _ (mem_of_lookup hlk)
      have : d.lstat t = some x := by rw [← he]; simp only [Disk.lstat, f.lookup (hit it hmit).2.1, hlk]; exact hj
      exact ⟨rfl, x, this, hx x this⟩
  · intro sub hsub nm hnm j hj
    rcases r2 sub hsub nm hnm j hj with ⟨a, b⟩ | ⟨it, hmit, he, r, es, es', f, f'⟩
    · rcases b with b | b
      · cases b
      · exact .inl ⟨a, b⟩
    · right
      obtain ⟨hd, _, i, m, s, hm, hname, _⟩ := hit it hmit
      have hsame : it.1 = sub := by
        rcases hd with h | h <;> rcases List.mem_cons.1 hsub with h' | h'
        · rw [h, h']
        · rcases List.mem_cons.1 h' with h' | h'
          · rw [h] at f'; rw [h'] at f
            exact absurd ((fn.unique f').trans (fc.unique f).symm) hnc
          · cases h'
        · rw [h] at f'; rw [h'] at f
          exact absurd ((fn.unique f).trans (fc.unique f').symm) hnc
        · rcases List.mem_cons.1 h' with h' | h'
          · rw [h, h']
          · cases h'
      rw [hsame, he] at hname
      exact ⟨i, m, s, hm, hname⟩
  · intro sub hsub nm hnm x hx hst
    exact r3 sub hsub nm hnm x hx (.inl hst)

/-- **C56**, results in an MH folder. Here only names that are numbers are removed. -/
theorem C56_mh {d0 d : Disk} {dir : Text} (h1 : ensureDir d0 dir = .ok d) {r : Nat} {es : List (Text × Nat)} (f : Folder d [r] dir r es) (hard : Bool) {l : List (DbMsg × Source)}
    (hl : l.length < 2 ^ 31) :
    ∃ d', searchMh d0 dir false hard l = .ok d' ∧ Kept [r] d d' ∧
      (∀ (k : Nat) m s, l[k]? = some (m, s) → ∀ t, mhName dir k m = .ok (some t) → (∀ x, d.lstat t = some x → ¬ Stays x) → ResultAt [r] d d' hard t (delivered m s)) ∧
      (∀ nm, NameOk nm → ∀ j, d'.lookup (child dir nm) = some j →
        (d.lookup (child dir nm) = some j ∧ (validMh nm = false ∨ ∃ x, d.lstat (child dir nm) = some x ∧ Stays x)) ∨
        ∃ (k : Nat) (m : DbMsg) (s : Source), l[k]? = some (m, s) ∧ mhName dir k m = .ok (some (child dir nm))) ∧
      (∀ nm, NameOk nm → ∀ x, d.lstat (child dir nm) = some x → (Stays x ∨ validMh nm = false) → d'.lookup (child dir nm) = d.lookup (child dir nm)) := by
  obtain ⟨k, cd⟩ := clearedOf_one f validMh
  obtain ⟨items, e, hnd, hit, hall⟩ := mh_items dir hard l 0 (clearDir d dir validMh) (by omega)
  simp only [Nat.zero_add] at hit hall
  have hS : ∀ s ∈ [dir], ClearedOf [r] d (clearDir d dir validMh) validMh s := by
    intro s hs
    rw [List.mem_singleton] at hs
    subst hs; exact cd
  obtain ⟨kk, r1, r2, r3⟩ := final_spec k hS hard (items := items) (fun it h => ⟨by simp [(hit it h).1], (hit it h).2.1, .inl (hit it h).2.2.1⟩) hnd
  refine ⟨_, ?_, kk, ?_, ?_, fun nm hn x hx h => r3 dir (by simp) nm hn x hx h⟩
  · simp only [searchMh, h1, bind, Except.bind, Bool.false_eq_true, if_false]
    exact e
  · intro i m s hm t ht hx
    obtain ⟨it, hmit, he, hdel⟩ := hall i m s hm t ht
    obtain ⟨hd, hnm, hv, _⟩ := hit it hmit
    rw [← he, ← hdel]
    refine r1 it hmit ?_
    rw [he]
    cases hlk : d.lookup t with
    | none => exact .inl rfl
    | some j =>
      right
      rw [← he, hd, f.lookup hnm] at hlk
      obtain ⟨x, hj⟩ := f.inodes _ (mem_of_lookup hlk)
      have : d.lstat t = some x := by rw [← he, hd]; simp only [Disk.lstat, f.lookup hnm, hlk]; exact hj
      exact ⟨hv, x, this, hx x this⟩
  · intro nm hnm j hj
    rcases r2 dir (by simp) nm hnm j hj with ⟨a, b⟩ | ⟨it, hmit, he, _⟩
    · exact .inl ⟨a, b⟩
    · right
      obtain ⟨hd, _, _, i, m, s, hm, hname, _⟩ := hit it hmit
      rw [hd, he] at hname
      exact ⟨i, m, s, hm, hname⟩

/-- **C56**, an augmented search with results in a maildir (partial: no file or link may already have the name of a result that is to be written as a file — see `C56_augment_violation`).
Nothing is removed from the folders, and the new results with new names are added. -/
theorem C56_augment_maildir_partial {d0 d : Disk} {dir : Text} (h1 : maybeCreateMaildir d0 dir = .ok d) {n c : Nat} {en ec : List (Text × Nat)}
    (fn : Folder d [n, c] (dir ++ bs "/new") n en) (fc : Folder d [n, c] (dir ++ bs "/cur") c ec) (hard : Bool) {l : List (Nat × DbMsg × Source)}
    (hl : (l.map (·.1)).Nodup) (hi : ∀ x ∈ l, x.1 < 2 ^ 31)
    (hfree : ∀ i m s, (i, m, s) ∈ l → m.type ≠ DB_MSG_FILE → ∀ t, maildirName dir i m = .ok (some t) → ∀ x, d.lstat t = some x → Stays x) :
    ∃ d', searchMaildir d0 dir true hard l = .ok d' ∧ Kept [n, c] d d' ∧
      (∀ i m s, (i, m, s) ∈ l → ∀ t, maildirName dir i m = .ok (some t) → d.lookup t = none → ResultAt [n, c] d d' hard t (delivered m s)) ∧
      (∀ sub ∈ maildirSubs dir, ∀ nm, NameOk nm → ∀ j, d.lookup (child sub nm) = some j → d'.lookup (child sub nm) = some j) := by
  obtain ⟨items, e, hnd, hit, hall⟩ := maildir_items dir hard l d hl hi
  have hS : ∀ s ∈ maildirSubs dir, ClearedOf [n, c] d d (fun _ => false) s := by
    intro s hs
    rcases List.mem_cons.1 hs with rfl | hs
    · exact clearedOf_none fn
    · rcases List.mem_cons.1 hs with rfl | hs
      · exact clearedOf_none fc
      · cases hs
  have hmem : ∀ it ∈ items, it.1 ∈ maildirSubs dir := by
    intro it h
    rcases (hit it h).1 with h | h
    · exact List.mem_cons.2 (.inl h)
    · exact List.mem_cons.2 (.inr (List.mem_cons.2 (.inl h)))
  have hcop : ∀ it ∈ items, it.2.2.copied = true → ∀ x, d.lstat (child it.1 it.2.1) = some x → Stays x := by
    intro it h hc
    obtain ⟨_, _, i, m, s, hm, hname, hdel, _⟩ := hit it h
    refine hfree i m s hm (fun ht => ?_) _ hname
    rw [hdel, delivered, if_pos ht] at hc
    cases hc
  obtain ⟨kk, r1, r2, r3⟩ := final_spec (Kept.refl _ d) hS hard (items := items) (fun it h => ⟨hmem it h, (hit it h).2.1, .inr (hcop it h)⟩) hnd
  refine ⟨_, ?_, kk, ?_, ?_⟩
  · simp only [searchMaildir, h1, bind, Except.bind, if_true]
    exact e
  · intro i m s hm t ht hx
    obtain ⟨it, hmit, he, hdel⟩ := hall i m s hm t ht
    rw [← he, ← hdel]
    exact r1 it hmit (.inl (by rw [he]; exact hx))
  · intro sub hsub nm hnm j hj
    obtain ⟨r, es, f, _⟩ := hS sub hsub
    have hj' := hj
    rw [f.lookup hnm] at hj'
    obtain ⟨x, hx⟩ := f.inodes _ (mem_of_lookup hj')
    rw [r3 sub hsub nm hnm x (by simp only [Disk.lstat, hj]; exact hx) (.inr rfl), hj]

/-- The same for an MH folder. -/
theorem C56_augment_mh_partial {d0 d : Disk} {dir : Text} (h1 : ensureDir d0 dir = .ok d) {r : Nat} {es : List (Text × Nat)} (f : Folder d [r] dir r es) (hard : Bool)
    {l : List (DbMsg × Source)} (hl : l.length < 2 ^ 31)
    (hfree : ∀ (k : Nat) m s, l[k]? = some (m, s) → m.type ≠ DB_MSG_FILE → ∀ t, mhName dir k m = .ok (some t) → ∀ x, d.lstat t = some x → Stays x) :
    ∃ d', searchMh d0 dir true hard l = .ok d' ∧ Kept [r] d d' ∧
      (∀ (k : Nat) m s, l[k]? = some (m, s) → ∀ t, mhName dir k m = .ok (some t) → d.lookup t = none → ResultAt [r] d d' hard t (delivered m s)) ∧
      (∀ nm, NameOk nm → ∀ j, d.lookup (child dir nm) = some j → d'.lookup (child dir nm) = some j) := by
  obtain ⟨items, e, hnd, hit, hall⟩ := mh_items dir hard l 0 d (by omega)
  simp only [Nat.zero_add] at hit hall
  have hS : ∀ s ∈ [dir], ClearedOf [r] d d (fun _ => false) s := by
    intro s hs
    rw [List.mem_singleton] at hs
    subst hs; exact clearedOf_none f
  have hcop : ∀ it ∈ items, it.2.2.copied = true → ∀ x, d.lstat (child it.1 it.2.1) = some x → Stays x := by
    intro it h hc
    obtain ⟨_, _, _, i, m, s, hm, hname, hdel, _⟩ := hit it h
    refine hfree i m s hm (fun ht => ?_) _ hname
    rw [hdel, delivered, if_pos ht] at hc
    cases hc
  obtain ⟨kk, r1, r2, r3⟩ := final_spec (Kept.refl _ d) hS hard (items := items) (fun it h => ⟨by simp [(hit it h).1], (hit it h).2.1, .inr (hcop it h)⟩) hnd
  refine ⟨_, ?_, kk, ?_, ?_⟩
  · simp only [searchMh, h1, bind, Except.bind, if_true]
    exact e
  · intro i m s hm t ht hx
    obtain ⟨it, hmit, he, hdel⟩ := hall i m s hm t ht
    rw [← he, ← hdel]
    exact r1 it hmit (.inl (by rw [he]; exact hx))
  · intro nm hnm j hj
    have hj' := hj
    rw [f.lookup hnm] at hj'
    obtain ⟨x, hx⟩ := f.inodes _ (mem_of_lookup hj')
    rw [r3 dir (by simp) nm hnm x (by simp only [Disk.lstat, hj]; exact hx) (.inr rfl), hj]

end Mairix
