import Verif.Props.Whole
import Verif.Props.MimeExamples
import Verif.Props.RunExamples

/-!
# C57: two runs over the folders of Props/Folders.lean, with the message of Props/MimeExamples.lean

In the first run the message is in the maildir, and a file in the MH folder holds another one; before the second run that file has become a copy of the first message.
-/

namespace Mairix
open Spec

def exOther : Text := bs "Subject: soup\n\nat noon\n"

def exDisc (second : Bool) : Disc where
  fs := exFs
  mtime p := if p = bs "/m/l/x/1" ∧ second = true then 11 else 10
  size p := if p = bs "/m/in/new/1.a" then exMessage.length else if p = bs "/m/l/x/1" then (if second then exMessage else exOther).length else 0
  data p := if p = bs "/m/in/new/1.a" then some exMessage else if p = bs "/m/l/x/1" then some (if second then exMessage else exOther) else none
  after _ := []

def exIndexing (second : Bool) : Indexing where
  config := exConfig
  disc := exDisc second
  fast := false
  purge := second
  checks := true
  freshKey := 77
  sortListed := isort messageCompare
  sortExtant := isort fun a b => strcmp a.path b.path
  sortTexts := isort strcmp
  sortTokens := isort compareSortable
  junkHighest := fun _ => 0
  junkIdx := 9
  junkMsg := fun _ => ⟨.dead, 0, 0, true, true, true⟩
  depth := 21
  fuel := 1000

theorem exLibrary (b : Bool) : LibraryOk (exIndexing b) := ⟨sorts_listed, sorts_extant, sorts_strcmp, sorts_sortable⟩

theorem exMessage_short : exMessage.length < 2 ^ 31 ∧ exOther.length < 2 ^ 31 := by decide +kernel

theorem exDiscOk (b : Bool) : DiscOk (exIndexing b).disc where
  readdir := by
    intro p names h
    simp only [exIndexing, exDisc, exFs, Option.map_eq_some_iff] at h
    obtain ⟨⟨p', n'⟩, h1, rfl⟩ := h
    have h2 := List.mem_of_find?_eq_some h1
    have h3 := List.find?_some h1
    simp only [beq_iff_eq] at h3
    subst h3
    have : ∀ x ∈ exDirs, 0 ∉ x.1 ∧ ∀ n ∈ x.2, 0 ∉ n := by decide
    exact this _ h2
  lstat := by intro p sb h; simp [exIndexing, exDisc, exFs] at h
  size := by
    intro p va h
    simp only [exIndexing, exDisc] at h ⊢
    split at h
    · rename_i hp
      cases h
      exact ⟨if_pos hp, exMessage_short.1⟩
    · rename_i hp
      rw [if_neg hp]
      split at h
      · rename_i hp'
        rw [if_pos hp']
        cases h
        cases b
        · exact ⟨rfl, exMessage_short.2⟩
        · exact ⟨rfl, exMessage_short.1⟩
      · cases h

theorem exUnchanged : Unchanged (exIndexing false).disc (exIndexing true).disc := by
  intro p _ _ h
  simp only [exIndexing, exDisc, and_true, Bool.false_eq_true, and_false, if_false, if_true] at h ⊢
  by_cases hp : p = bs "/m/l/x/1"
  · rw [if_pos hp] at h
    exact absurd h (by decide)
  · simp only [hp, if_false, implies_true, and_self]

def exMd5 (t : Text) : List UInt8 := List.replicate 15 0 ++ [UInt8.ofNat t.length]

/-- What searches find after the runs, by path, in Greenwich on 18 May 2020. -/
def foundAfter (xs : List Indexing) (args : List (List Text)) : Res (List (Res (List Text))) := do
  match ← indexMails exHash (utc 1589800000).dayTime exMd5 xs none with
  | none => .ok []
  | some d =>
    let view ← viewDb (← openDb d)
    .ok (args.map fun a => do
      let f ← doSearch (utc 1589800000).scan id view a false false
      .ok (f.filterMap fun i => (view.msgs[i]?).map (·.path)))

/-- The date that is kept for 3 February 2020. -/
def exDate : Int := 1580688000

theorem exDate_stored : (utc 1589800000).dayTime 3 1 120 = exDate ∧ storedDate (utc 1589800000) ⟨2020, 2, 3⟩ = exDate := by decide +kernel

/-- All hypotheses of `C57_found_partial`, `C57_word_partial`, `C57_path_partial` and (see below) `C57_days_partial` are met, there are message files with a meaning, and the searches find what they should: a word of the text, the file name of an
attachment, the decoded name of a sender, a size, a year, a part of a path. -/
example : (∀ y ∈ [exIndexing false] ++ [exIndexing true], LibraryOk y) ∧ (∀ y ∈ [exIndexing false] ++ [exIndexing true], DiscOk y.disc) ∧
    (∀ y ∈ [exIndexing false] ++ [exIndexing true], ∃ s items, ∃ N < y.depth, Spec.Means y.config y.disc.fs s items ∧ PathMax y.disc.fs N) ∧
    (∀ y ∈ [exIndexing false], Unchanged y.disc (exIndexing true).disc) ∧ (∀ t, (exMd5 t).length = 16) ∧
    FileMeans (utc 1589800000).dayTime (exIndexing true).disc (bs "/m/l/x/1") (exKept exDate) ∧ FileMeans (utc 1589800000).dayTime (exIndexing true).disc (bs "/m/in/new/1.a") (exKept exDate) ∧
    foundAfter [exIndexing false] [[bs "b:hello"], [bs "s:soup"], [bs "n:f.png"], [bs "f:Y"], [bs "z:1-40"], [bs "d:2020"], [bs "d:2019"]] =
      .ok [.ok [bs "/m/in/new/1.a"], .ok [bs "/m/l/x/1"], .ok [bs "/m/in/new/1.a"], .ok [bs "/m/in/new/1.a"], .ok [bs "/m/l/x/1"], .ok [bs "/m/in/new/1.a"], .ok []] ∧
    foundAfter ([exIndexing false] ++ [exIndexing true]) [[bs "b:hello"], [bs "s:soup"], [bs "n:f.png", bs "b:~noon"], [bs "d:2020"], [bs "p:in"], [bs "b:hello", bs "p:~1.a"]] =
      .ok [.ok [bs "/m/in/new/1.a", bs "/m/l/x/1"], .ok [], .ok [bs "/m/in/new/1.a", bs "/m/l/x/1"], .ok [bs "/m/in/new/1.a", bs "/m/l/x/1"], .ok [bs "/m/in/new/1.a"], .ok [bs "/m/l/x/1"]] := by
  have hall : ∀ {P : Indexing → Prop}, (∀ b, P (exIndexing b)) → ∀ y ∈ [exIndexing false] ++ [exIndexing true], P y := by
    intro P h y hy
    simp only [List.cons_append, List.nil_append, List.mem_cons, List.not_mem_nil, or_false] at hy
    rcases hy with rfl | rfl <;> exact h _
  have hmean : ∀ p, IsFile exFs p → (¬ ∃ dir, p = dir ++ bs "/.gitignore") → (exIndexing true).disc.data p = some exMessage → FileMeans (utc 1589800000).dayTime (exIndexing true).disc p (exKept exDate) :=
    fun p h1 h2 h3 => ⟨h1, h2, exMessage, h3, by decide +kernel, by rw [← exDate_stored.1]; exact exMessage_means _⟩
  have hgit : ∀ p : Text, p.getLast? ≠ some 0x65 → ¬ ∃ dir, p = dir ++ bs "/.gitignore" := by
    rintro p h ⟨dir, rfl⟩
    exact h (by rw [List.getLast?_append]; rfl)
  refine ⟨hall exLibrary, hall exDiscOk, hall fun b => ⟨exSetting, exItems, 20, by simp [exIndexing], exMeans, exPathMax⟩, ?_, by intro t; simp [exMd5], ?_, ?_, by decide +kernel, by decide +kernel⟩
  · intro y hy
    rw [List.mem_singleton] at hy
    subst hy
    exact exUnchanged
  · exact hmean _ ⟨⟨.regular, 1, 32⟩, by decide +kernel, rfl⟩ (hgit _ (by decide)) (by decide +kernel)
  · exact hmean _ ⟨⟨.regular, 1, 31⟩, by decide +kernel, rfl⟩ (hgit _ (by decide)) (by decide +kernel)

/-- `d:2020` on that day: the other hypotheses of `C57_days_partial`, and what it says of the message. -/
example : Zone (utc 1589800000) ∧ (Day.mk 2020 5 18).Exists ∧ (utc 1589800000).localtime (utc 1589800000).now = (Day.mk 2020 5 18).tm 11 6 40 0 ∧ PeriodText (bs "2020") (.year 2020) ∧
    Covers ⟨2020, 5, 18⟩ ⟨2020, 1, 1⟩ ⟨2020, 12, 31⟩ (.year 2020) ∧ Reached ⟨2020, 5, 18⟩ ⟨2020, 1, 1⟩ (.year 2020) ∧ (Day.mk 2020 2 3).Exists ∧ (exKept exDate).hdrs.date = storedDate (utc 1589800000) ⟨2020, 2, 3⟩ ∧
    Day.UpTo ⟨2020, 1, 1⟩ ⟨2020, 2, 3⟩ ∧ Day.UpTo ⟨2020, 2, 3⟩ ⟨2020, 12, 31⟩ :=
  ⟨utc_zone _, by decide +kernel, by decide +kernel, .year (.long ⟨by decide, by decide, by decide⟩ (by decide) (by decide)), ⟨rfl, rfl⟩, trivial, by decide +kernel, by decide +kernel, by simp [Day.UpTo], by simp [Day.UpTo]⟩

end Mairix
