import Verif.Props.Run

/-!
# Examples of whole indexing runs, for the theorems of Props/Run.lean
-/

namespace Mairix
open Spec

/-! An example: two files and an mbox; before the second run one file has changed, one is gone and one new. -/

def exHdrs (to subject id : Text) : Headers :=
  { to := some to, cc := none, «from» := none, subject := some subject, messageId := some id, inReplyTo := none,
    references := none, date := 1000, seen := false, replied := false, flagged := false }

def exMail (to subject id body : Text) : Rfc822 := .mk (exHdrs to subject id) (.cons (.plain body) none .nil)

def exMailA : Rfc822 := exMail (bs "ann@x.org") (bs "Hello") (bs "<1@x>") (bs "lunch at noon")
def exMailB : Rfc822 := exMail (bs "bob@x.org") (bs "Re: Hello") (bs "<2@x>") (bs "fine")
def exMailC : Rfc822 := exMail (bs "bob@x.org") (bs "later") (bs "<3@x>") (bs "dinner")

def exWorld1 : World where
  stat p := if p = bs "/d/cur/a:2,S" then .file 100 50 else if p = bs "/d/cur/b" then .file 200 60 else .bad
  read k p := if k = .imap then none else if p = bs "/d/cur/a:2,S" then some exMailA else if p = bs "/d/cur/b" then some exMailB else none

def exWorld2 : World where
  stat p := if p = bs "/d/cur/a:2,S" then .file 100 50 else if p = bs "/d/cur/b" then .file 201 70 else
    if p = bs "/d/cur/c" then .file 300 40 else .bad
  read k p := if k = .imap then none else if p = bs "/d/cur/a:2,S" then some exMailA else if p = bs "/d/cur/b" then some exMailC else
    if p = bs "/d/cur/c" then some exMailB else none

def exBoxText : Text := bs "From x\nSubject: box\n\nhi\n"

def exRunBoxes : MboxWorld where
  contents p := if p = bs "/m" then .data exBoxText else .failed
  parse t := (if t = bs "Subject: box\n\nhi\n" then some exMailC else none, false)
  md5 t := List.replicate 15 0 ++ [UInt8.ofNat t.length]
  isFrom t := t.head? == some 0x78

def exRun (listed : List Listed) (w : World) (purge : Bool) : Run where
  listed := listed
  extant := [⟨bs "/m", 5, exBoxText.length⟩]
  world := w
  mboxWorld := exRunBoxes
  fast := false
  purge := purge
  checks := true
  freshKey := 77
  sortListed := isort messageCompare
  sortExtant := isort fun a b => strcmp a.path b.path
  sortTexts := isort strcmp
  sortTokens := isort compareSortable
  junkHighest := fun _ => 0
  junkIdx := 9
  junkMsg := fun _ => ⟨.dead, 0, 0, true, true, true⟩
  fuel := 100

def exRun1 : Run := exRun [⟨.file, bs "/d/cur/b"⟩, ⟨.file, bs "/d/cur/a:2,S"⟩] exWorld1 false
def exRun2 : Run := exRun [⟨.file, bs "/d/cur/c"⟩, ⟨.file, bs "/d/cur/b"⟩, ⟨.file, bs "/d/cur/gone"⟩] exWorld2 true

def exRun3 : Run := exRun [⟨.file, bs "/d/cur/c"⟩] exWorld2 true

def exHash (_ : Nat) (t : Text) : Nat := t.length

theorem exMail_cText {to subject id body : Text} (h : 0 ∉ id) : CText (exMail to subject id body) := by
  refine ⟨?_, ?_, ?_, ?_⟩
  · intro s hs; cases hs; exact h
  · intro s hs; cases hs
  · intro s hs; cases hs
  · refine ⟨trivial, ?_, trivial⟩; intro s hs; cases hs

theorem exRun_sane {l : List Listed} {w : World} {purge : Bool} (hl : ∀ e ∈ l, 0 ∉ e.path)
    (hw : ∀ k p m, w.read k p = some m → CText m) : Sane (exRun l w purge) where
  sortListed := sorts_listed
  sortExtant := sorts_extant
  sortTexts := sorts_strcmp
  sortTokens := sorts_sortable
  listed := hl
  extant := by
    intro e he
    simp only [exRun, List.mem_singleton] at he
    subst he
    decide
  read := hw
  parse := by
    intro t m h
    simp only [exRun, exRunBoxes] at h
    split at h
    · cases h; exact exMail_cText (by decide)
    · cases h
  md5 := by intro t; simp [exRun, exRunBoxes]
  contents := by
    intro p va h
    simp only [exRun, exRunBoxes] at h
    split at h
    · cases h; decide
    · cases h

theorem exWorld2_cText : ∀ k p m, exWorld2.read k p = some m → CText m := by
  intro k p m h
  simp only [exWorld2] at h
  split at h
  · cases h
  · split at h
    · cases h; exact exMail_cText (by decide)
    · split at h
      · cases h; exact exMail_cText (by decide)
      · split at h
        · cases h; exact exMail_cText (by decide)
        · cases h

theorem exRuns_sane : ∀ r ∈ [exRun1] ++ [exRun2], Sane r := by
  intro r hr
  simp only [List.cons_append, List.nil_append, List.mem_cons, List.not_mem_nil, or_false] at hr
  rcases hr with rfl | rfl
  · refine exRun_sane (by decide) ?_
    intro k p m h
    simp only [exWorld1] at h
    split at h
    · cases h
    · split at h
      · cases h; exact exMail_cText (by decide)
      · split at h
        · cases h; exact exMail_cText (by decide)
        · cases h
  · exact exRun_sane (by decide) exWorld2_cText

theorem exTimesTell : TimesTell [exRun1] exRun2 := by
  constructor
  · intro r' hr' p t s t' s' h1 h2 ht
    rw [List.mem_singleton] at hr'
    subst hr'
    simp only [exRun1, exRun2, exRun, exWorld1, exWorld2] at h1 h2 ⊢
    by_cases ha : p = bs "/d/cur/a:2,S"
    · simp only [ha, if_true] at h1 h2 ⊢
      cases h1
      cases h2
      exact ⟨rfl, trivial⟩
    · by_cases hb : p = bs "/d/cur/b"
      · simp only [hb, show bs "/d/cur/b" ≠ bs "/d/cur/a:2,S" by decide, if_true, if_false] at h1 h2
        cases h1
        cases h2
        exact absurd ht (by decide)
      · simp only [ha, hb, if_false] at h1
        cases h1
  · intro r' hr' p
    rw [List.mem_singleton] at hr'
    subst hr'
    rfl

/-- What searches find after the runs. -/
def searchesAfter (rs : List Run) (queries : List (List Text × Bool)) : Res (List (Except Fault (List Nat))) := do
  match ← indexRuns exHash rs none with
  | none => .ok []
  | some d =>
    let view ← viewDb (← openDb d)
    .ok (queries.map fun q => doSearch (fun _ => none) id view q.1 q.2 false)

/-- The runs complete: the hypotheses of `C46_history`, `C46_up_to_date` and `C46_search` are met. Searches afterwards find the message in the
mbox (0), the changed one (1) and the new one (2); before the second run they found what was there. -/
example : searchesAfter [exRun1] [([bs "b:noon"], false), ([bs "b:fine"], false), ([bs "b:dinner"], false)] =
    .ok [.ok [0], .ok [1], .ok [2]] := by decide +kernel

example : (∀ r ∈ [exRun1] ++ [exRun2], Sane r) ∧ exRun2.fast = false ∧ TimesTell [exRun1] exRun2 ∧
    searchesAfter ([exRun1] ++ [exRun2]) [([bs "b:noon"], false), ([bs "b:fine"], false), ([bs "b:dinner"], false)] =
      .ok [.ok [], .ok [2], .ok [0, 1]] :=
  ⟨exRuns_sane, rfl, exTimesTell, by decide +kernel⟩

/-- After the first run (without a purge) a threaded search works: all three messages are threads of their own. -/
example : exRun1.purge = false ∧ searchesAfter [exRun1] [([bs "b:fine"], true)] = .ok [.ok [1]] := by decide +kernel

/-- **C24 is false after a purge.** After a second run, with a purge, only the message in the mbox and a new one are left,
but thread number 2 is still in use: a threaded search leaves the table of threads. -/
theorem C24_purged_violation : (∀ r ∈ [exRun1, exRun3], Sane r) ∧
    searchesAfter [exRun1, exRun3] [([bs "b:dinner"], false), ([bs "b:dinner"], true)] = .ok [.ok [0], .error .outOfBounds] :=
  ⟨fun r hr => by
    rcases List.mem_cons.1 hr with rfl | hr
    · exact exRuns_sane _ (by simp)
    · rw [List.mem_singleton] at hr
      subst hr
      exact exRun_sane (by decide) exWorld2_cText, by decide +kernel⟩

end Mairix
