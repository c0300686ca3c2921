import Verif.Proofs.Again
import Verif.Props.RunExamples

/-!
# C11: an update of mail that has not changed
-/

namespace Mairix
open Spec

/-- **C11**, the messages. After any history of runs, the last of which was `r`, a further run `r'` on the
same mail (it may list the folders in another order, and find other values in memory that was not
initialised) adds no message and kills none. If all that is listed can be indexed the update reports that
nothing has changed.
Partial: proved for modification times from 1970 to 2106 and mboxen below 4 gigabytes, see
`C11_time_violation`; and not where the first run only compared names and the second compares times. -/
theorem C11_messages_partial {hashfn : Nat → Text → Nat} {rs : List Run} {r r' : Run} {f : Option Text}
    (hs : ∀ x ∈ rs ++ [r], Sane x) (hs' : Sane r') (h : indexRuns hashfn (rs ++ [r]) none = .ok f)
    (same : SameMail r r') (h32 : Kept32 r) (hf : r.fast = true → r'.fast = true) {key : Nat} {db db' : Database} {b : Bool}
    (h1 : openOrNew hashfn r' f = .ok (key, db)) (h2 : updateStep hashfn r' key db = .ok (db', b)) :
    db'.msgs.map (·.src) = db.msgs.map (·.src) ∧ ((∀ e ∈ r.listed, addable r.world e = true) → b = false) := by
  obtain ⟨f0, e0, e⟩ := indexRuns_append h
  obtain ⟨db0, ix0, hH, _⟩ := indexRuns_ok rs [] (holds_none []) (by simp) (fun x hx => hs x (by simp [hx])) e0
  rw [List.nil_append] at hH
  obtain ⟨q1, q2, _⟩ := again_quiet hH (fun x hx => hs x (by simp [hx])) (hs r (by simp)) hs' e same h32 hf h1 h2
  exact ⟨q1, fun ha => q2 fun x hx => by rw [same.world]; exact ha x (same.listed.mem_iff.1 hx)⟩

/-- **C11**, the file: it stays as it is. (A purge, of course, may remove dead messages that were left by the
run before.) Partial as `C11_messages_partial`. -/
theorem C11_file_partial {hashfn : Nat → Text → Nat} {rs : List Run} {r r' : Run} {f f' : Option Text}
    (hs : ∀ x ∈ rs ++ [r], Sane x) (hs' : Sane r') (h : indexRuns hashfn (rs ++ [r]) none = .ok f)
    (same : SameMail r r') (h32 : Kept32 r) (hf : r.fast = true → r'.fast = true) (hp : r'.purge = true → r.purge = true)
    (ha : ∀ e ∈ r.listed, addable r.world e = true) (h' : indexRun hashfn r' f = .ok f') : f' = f := by
  obtain ⟨f0, e0, e⟩ := indexRuns_append h
  obtain ⟨db0, ix0, hH, _⟩ := indexRuns_ok rs [] (holds_none []) (by simp) (fun x hx => hs x (by simp [hx])) e0
  rw [List.nil_append] at hH
  exact again_file hH (fun x hx => hs x (by simp [hx])) (hs r (by simp)) hs' e same h32 hf hp ha h'

/-- The condition in `C11_messages_partial` on what is listed is needed: as long as something is listed that
is not a file (a broken symbolic link, say) every update reports a change, and the database is written
again. -/
theorem C11_unreadable {hashfn : Nat → Text → Nat} {rs : List Run} {r : Run} {f : Option Text}
    (hs : ∀ x ∈ rs ++ [r], Sane x) (h : indexRuns hashfn rs none = .ok f) (hn : r.listed.Nodup) (hf : r.fast = false)
    {e : Listed} (he : e ∈ r.listed) (hk : e.kind = .file) (hm : modified r.world e.path = none) {key : Nat} {db db' : Database} {b : Bool}
    (h1 : openOrNew hashfn r f = .ok (key, db)) (h2 : updateStep hashfn r key db = .ok (db', b)) : b = true := by
  obtain ⟨db0, ix0, hH, _⟩ := indexRuns_ok rs [] (holds_none []) (by simp) (fun x hx => hs x (by simp [hx])) h
  rw [List.nil_append] at hH
  have hr := hs r (by simp)
  obtain ⟨o1, o2, _, _⟩ := open_ok hH (fun x hx => hs x (by simp [hx])) h1
  obtain ⟨db1, _, _, _, _, hb, _⟩ := updateStep_flag o1 o2 hr hn h2
  rw [hb, Bool.or_eq_true]
  left
  unfold findsNew
  rw [Bool.or_eq_true, List.any_eq_true]
  left
  refine ⟨e, ((sortListed_spec hr.sortListed hn).2.mem_iff).2 he, ?_⟩
  rw [decide_eq_true_eq]
  intro hc
  obtain ⟨m, k1, k2⟩ := List.mem_filterMap.1 hc
  have k3 := (List.mem_filter.1 k1).2
  rcases place_src k2 with ⟨_, mt, sz, k4⟩ | ⟨k4, _⟩
  · simp only [stays, k4, hf, Bool.false_or, Bool.and_eq_true, beq_iff_eq, hm] at k3
    cases k3.2
  · rw [hk] at k4
    cases k4

/-! The hypotheses are met by two files and an mbox; the second run lists the files in another order and
finds other values in memory. -/

def exRun1' : Run :=
  { exRun [⟨.file, bs "/d/cur/a:2,S"⟩, ⟨.file, bs "/d/cur/b"⟩] exWorld1 false with
    junkHighest := fun _ => 1, junkIdx := 0, fast := true }

theorem exRun1'_sane : Sane exRun1' :=
  have h := exRuns_sane exRun1 (by simp)
  { sortListed := h.sortListed, sortExtant := h.sortExtant, sortTexts := h.sortTexts, sortTokens := h.sortTokens
    listed := by decide, extant := h.extant, read := h.read, parse := h.parse, md5 := h.md5, contents := h.contents }

/-- How many messages there are in the database file left by the runs, and whether the last run changed it. -/
def runTwice (r r' : Run) : Res (Nat × Bool) := do
  let f ← indexRuns exHash [r] none
  let f' ← indexRun exHash r' f
  let raw ← openDb (f'.getD [])
  .ok (raw.nMsgs, f' ≠ f)

example : (∀ x ∈ [] ++ [exRun1], Sane x) ∧ Sane exRun1' ∧ SameMail exRun1 exRun1' ∧ Kept32 exRun1 ∧
    (∀ e ∈ exRun1.listed, addable exRun1.world e = true) ∧ runTwice exRun1 exRun1' = .ok (3, false) := by
  refine ⟨fun x hx => exRuns_sane x (by simp at hx; simp [hx]), exRun1'_sane, ⟨List.Perm.swap .., .refl _, rfl, rfl⟩, ⟨?_, ?_⟩, by decide,
    by decide +kernel⟩
  · intro e he _ t ht
    simp only [exRun1, exRun, List.mem_cons, List.not_mem_nil, or_false] at he ht
    rcases he with rfl | rfl
    · rw [show modified exWorld1 (bs "/d/cur/b") = some 200 by decide] at ht
      cases ht
      decide
    · rw [show modified exWorld1 (bs "/d/cur/a:2,S") = some 100 by decide] at ht
      cases ht
      decide
  · decide

/-- A file from before 1970, which `stat` shows with a negative time. -/
def exWorldOld : World := { exWorld1 with stat := fun p => if p = bs "/d/cur/b" then .file (-1) 60 else .bad }
def exRunOld : Run := exRun [⟨.file, bs "/d/cur/b"⟩] exWorldOld false

/-- **C11 is false for times that do not fit in 32 bits.** A file with a modification time before 1970
is taken for changed in every run: the old entry is killed, a new one is added and the database grows. -/
theorem C11_time_violation : Sane exRunOld ∧ SameMail exRunOld exRunOld ∧ (∀ e ∈ exRunOld.listed, addable exRunOld.world e = true) ∧
    runTwice exRunOld exRunOld = .ok (3, true) ∧ (do let f ← indexRuns exHash [exRunOld] none; let raw ← openDb (f.getD []); .ok raw.nMsgs : Res Nat) = .ok 2 := by
  refine ⟨exRun_sane (by decide) ?_, ⟨.refl _, .refl _, rfl, rfl⟩, by decide, by decide +kernel, by decide +kernel⟩
  intro k p m h
  simp only [exWorldOld, exWorld1] at h
  split at h
  · cases h
  · split at h
    · cases h; exact exMail_cText (by decide)
    · split at h
      · cases h; exact exMail_cText (by decide)
      · cases h

end Mairix
