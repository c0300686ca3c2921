import Verif.Props.Update
import Verif.Props.DbFile
import Verif.Props.RunExamples

/-!
# Examples of updates and purges, for the theorems of Props/Update.lean
-/

namespace Mairix
open Spec

/-- The stages of a run after others: what it opened and what it made of it. -/
def stagesAfter (rs : List Run) (r : Run) : Res (Database × Database × Bool) := do
  let f ← indexRuns exHash rs none
  let (key, db0) ← openOrNew exHash r f
  let (db, b) ← updateStep exHash r key db0
  .ok (db0, db, b)

theorem updated_of_stages {rs : List Run} {r : Run} {db0 db : Database} {b : Bool} (e : stagesAfter rs r = .ok (db0, db, b))
    (hs : ∀ r' ∈ rs ++ [r], Sane r') (hn : r.listed.Nodup) : Updated exHash rs r db0 db b := by
  unfold stagesAfter at e
  obtain ⟨f, h1, e⟩ := res_bind_ok e
  obtain ⟨⟨key, db0'⟩, h2, e⟩ := res_bind_ok e
  obtain ⟨⟨db', b'⟩, h3, e⟩ := res_bind_ok e
  cases e
  exact ⟨⟨f, key, h1, h2, h3⟩, hs, hn⟩

theorem ok_of_map {α : Type} {x : Res α} (p : α → Bool) (h : x.map p = .ok true) : ∃ a, x = .ok a ∧ p a = true := by
  cases x with
  | error e => cases h
  | ok a => exact ⟨a, rfl, Except.ok.inj h⟩

/-- The kinds of the messages of a database. -/
def srcKinds (db : Database) : List Nat :=
  db.msgs.map fun m => match m.src with
    | .dead => 0
    | .file .. => 1
    | .imap .. => 2
    | .mbox .. => 3

/-- The hypotheses of `C10_update`, `C12_purge` and `C41_mboxen` are met: the second example run finds three messages; it
marks two of them dead and adds two new ones; the purge removes the two. -/
example : ∃ db0 db db', Updated exHash [exRun1] exRun2 db0 db true ∧ srcKinds db0 = [1, 1, 3] ∧ srcKinds db = [0, 0, 3, 1, 1] ∧
    cullDeadMessages 100 db = .ok (db', true) ∧ srcKinds db' = [3, 1, 1] ∧ (bs "dinner", [0, 1]) ∈ tableWords db'.tables.body := by
  obtain ⟨⟨⟨db0, db, b⟩, db', any⟩, e, h⟩ := ok_of_map (x := do
      let s ← stagesAfter [exRun1] exRun2
      let c ← cullDeadMessages 100 s.2.1
      .ok (s, c))
    (fun ((db0, db, b), db', any) => b && any && decide (srcKinds db0 = [1, 1, 3] ∧ srcKinds db = [0, 0, 3, 1, 1] ∧
      srcKinds db' = [3, 1, 1] ∧ (bs "dinner", [0, 1]) ∈ tableWords db'.tables.body))
    (by decide +kernel)
  simp only [Bool.and_eq_true, decide_eq_true_eq] at h
  obtain ⟨⟨rfl, rfl⟩, h1, h2, h3⟩ := h
  obtain ⟨s, e1, e⟩ := res_bind_ok e
  obtain ⟨c, e2, e⟩ := res_bind_ok e
  cases e
  exact ⟨db0, db, db', updated_of_stages e1 exRuns_sane (by decide), h1, h2, e2, h3⟩

/-- What a run would write after others. -/
def finishedAfter (rs : List Run) (r : Run) : Res (Nat × Database) := do
  let f ← indexRuns exHash rs none
  let (key, db0) ← openOrNew exHash r f
  let (db1, _) ← updateStep exHash r key db0
  let (db, _) ← purgeStep r db1
  .ok (key, db)

/-- The hypotheses of `C13_load`, `C13_search`, `C14_layout` and `C14_write` are met: the first example run writes a database
with a message in an mbox and two in files of their own, over a file that had other contents. -/
example : ∃ key db d, Finished exHash [] exRun1 key db ∧ writeDatabase key db (bs "junk") = .ok d ∧ srcKinds db = [1, 1, 3] := by
  obtain ⟨⟨⟨key, db⟩, d⟩, e, h⟩ := ok_of_map (x := do
      let s ← finishedAfter [] exRun1
      let d ← writeDatabase s.1 s.2 (bs "junk")
      .ok (s, d))
    (fun ((_, db), _) => decide (srcKinds db = [1, 1, 3])) (by decide +kernel)
  obtain ⟨s, e1, e⟩ := res_bind_ok e
  obtain ⟨d', e2, e⟩ := res_bind_ok e
  cases e
  unfold finishedAfter at e1
  obtain ⟨f, h1, e1⟩ := res_bind_ok e1
  obtain ⟨⟨key', db0⟩, h2, e1⟩ := res_bind_ok e1
  obtain ⟨⟨db1, b⟩, h3, e1⟩ := res_bind_ok e1
  obtain ⟨⟨db', p⟩, h4, e1⟩ := res_bind_ok e1
  cases e1
  exact ⟨key, db, d, ⟨⟨f, db0, db1, b, p, h1, h2, h3, h4⟩, fun r hr => exRuns_sane r (by simp at hr; simp [hr]), by decide⟩, e2, of_decide_eq_true h⟩

/-! ## C43: what can still go wrong -/

def exReply : Rfc822 :=
  .mk { exHdrs (bs "ann@x.org") (bs "Hello") (bs "<1@x>") with inReplyTo := some (bs "<0@x>") } (.cons (.plain (bs "yes")) none .nil)

def exReplyWorld : World where
  stat p := if p = bs "/d/cur/a" then .file 100 50 else .bad
  read _ p := if p = bs "/d/cur/a" then some exReply else none

/-- A run that finds one message, a reply to one that is not there; `junk` is what happens to be in memory. -/
def exReplyRun (junk : Nat) : Run :=
  { exRun [⟨.file, bs "/d/cur/a"⟩] exReplyWorld false with extant := [], junkHighest := fun _ => junk }

theorem exReplyRun_sane (junk : Nat) : Sane (exReplyRun junk) := by
  have h := exRun_sane (l := [⟨.file, bs "/d/cur/a"⟩]) (w := exReplyWorld) (purge := false) (by decide) (by
    intro k p m h
    simp only [exReplyWorld] at h
    split at h
    · cases h
      refine ⟨?_, ?_, ?_, ?_⟩
      · intro s hs; cases hs; decide
      · intro s hs; cases hs; decide
      · intro s hs; cases hs
      · refine ⟨trivial, ?_, trivial⟩; intro s hs; cases hs
    · cases h)
  exact { h with extant := by intro e he; cases he }

/-- **C43 is false without a restriction on uninitialised memory.** After one run over a mailbox with a reply to a
message that is not there, the next run over the same mailbox fails an assertion if an uninitialised
field of the loaded database happens to hold 7, and completes if it holds 0. -/
theorem C43_uninitialised_violation : (∀ j, Sane (exReplyRun j)) ∧
    (∃ f, indexRuns exHash [exReplyRun 7, exReplyRun 0] none = .ok f) ∧
    indexRuns exHash [exReplyRun 7, exReplyRun 7] none = .error .assertion := by
  refine ⟨exReplyRun_sane, ?_, by decide +kernel⟩
  obtain ⟨f, e, _⟩ := ok_of_map (x := indexRuns exHash [exReplyRun 7, exReplyRun 0] none) (fun _ => true) (by decide +kernel)
  exact ⟨f, e⟩

/-! ## C30: an mbox that has been truncated -/

def exTwo : Text := bs "From x\nSubject: box\n\nhi\nFrom x\nSubject: box\n\nhi\n"

def exBoxRun (t : Text) (time : Int) : Run :=
  { exRun [] exWorld1 false with
    extant := [⟨bs "/m", time, t.length⟩]
    mboxWorld := { exRunBoxes with contents := fun p => if p = bs "/m" then .data t else .failed } }

theorem exBoxRun_sane {t : Text} (ht : t.length < 2 ^ 31) (time : Int) : Sane (exBoxRun t time) := by
  have h := exRun_sane (l := []) (w := exWorld1) (purge := false) (by intro e he; cases he) (by
    intro k p m h
    simp only [exWorld1] at h
    split at h
    · cases h
    · split at h
      · cases h; exact exMail_cText (by decide)
      · split at h
        · cases h; exact exMail_cText (by decide)
        · cases h)
  exact { h with
    extant := by
      intro e he
      simp only [exBoxRun, List.mem_singleton] at he
      subst he
      simp [bs]
    contents := by
      intro p va h
      simp only [exBoxRun] at h
      split at h
      · cases h; exact ht
      · cases h }

/-- **C30 over several runs is false when an mbox has been truncated:** an mbox with two messages is indexed; when
the second message is gone it is indexed again; when the mbox has changed once more the next run uses the place of the second
message, which was never initialised. -/
theorem C30_truncated_violation : (∀ r ∈ [exBoxRun exTwo 5, exBoxRun exBoxText 6, exBoxRun exTwo 7], Sane r) ∧
    (∃ f, indexRuns exHash [exBoxRun exTwo 5, exBoxRun exBoxText 6] none = .ok f) ∧
    indexRuns exHash [exBoxRun exTwo 5, exBoxRun exBoxText 6, exBoxRun exTwo 7] none = .error .uninitialised := by
  refine ⟨?_, ?_, by decide +kernel⟩
  · intro r hr
    simp only [List.mem_cons, List.not_mem_nil, or_false] at hr
    rcases hr with rfl | rfl | rfl <;> exact exBoxRun_sane (by decide) _
  · obtain ⟨f, e, _⟩ := ok_of_map (x := indexRuns exHash [exBoxRun exTwo 5, exBoxRun exBoxText 6] none) (fun _ => true)
      (by decide +kernel)
    exact ⟨f, e⟩

/-! ## C21: the size of a message on an IMAP server -/

def exImapWorld : World where
  stat p := if p = bs "/d/a" then .file 100 50 else .bad
  read _ _ := some exMailA

def exImapRun (l : List Listed) : Run := { exRun l exImapWorld false with extant := [] }

theorem exImapRun_sane {l : List Listed} (hl : ∀ e ∈ l, 0 ∉ e.path) : Sane (exImapRun l) := by
  have h := exRun_sane (l := l) (w := exImapWorld) (purge := false) hl (by
    intro k p m h
    cases h
    exact exMail_cText (by decide))
  exact { h with extant := by intro e he; cases he }

/-- **C21 is false of messages on IMAP servers:** their sizes are never written, so that a search by size sees what was
in the file before. The same two messages, indexed in one run or in two, give different answers to the query for more than
200 bytes. -/
theorem C21_imap_violation :
    (∀ r ∈ [exImapRun [⟨.file, bs "/d/a"⟩], exImapRun [⟨.file, bs "/d/a"⟩, ⟨.imap, bs "imap:a"⟩]], Sane r) ∧
    searchesAfter [exImapRun [⟨.file, bs "/d/a"⟩], exImapRun [⟨.file, bs "/d/a"⟩, ⟨.imap, bs "imap:a"⟩]]
      [([bs "b:noon"], false), ([bs "z:200-"], false)] = .ok [.ok [0, 1], .ok [1]] ∧
    searchesAfter [exImapRun [⟨.file, bs "/d/a"⟩, ⟨.imap, bs "imap:a"⟩]]
      [([bs "b:noon"], false), ([bs "z:200-"], false)] = .ok [.ok [0, 1], .ok []] := by
  refine ⟨?_, by decide +kernel, by decide +kernel⟩
  intro r hr
  simp only [List.mem_cons, List.not_mem_nil, or_false] at hr
  rcases hr with rfl | rfl <;> exact exImapRun_sane (by decide)

end Mairix
