import Verif.Props.Posted
import Verif.Props.WholeExamples

/-!
# C77: two runs over an mbox, to which a message is delivered between them
-/

namespace Mairix
open Spec

/-- A message without header. -/
def pbText (body : Text) : Text := headerText [] [] body

def pbKept (body : Text) : Rfc822 := .mk ⟨none, none, none, none, none, none, none, 0, false, false, false⟩ (.cons (.plain (body.takeWhile (· != 0))) none .nil)

theorem pbText_means (mk : Nat → Nat → Nat → Int) (body : Text) : MimeMeans mk (.message (pbText body) (pbKept body)) := by
  refine .message (fields := []) (headerOf_of (by decide +kernel) (by decide +kernel) (by decide +kernel) .nil) ⟨?_, ?_, ?_, ?_, ?_, ?_, ?_, ?_, ?_, ?_, ?_⟩
    (.inl ⟨by simp, rfl⟩) (.inl ⟨by simp, rfl⟩) (.inl ⟨by simp, rfl⟩) (.untyped .none)
  all_goals first
    | exact .inl ⟨by simp, rfl⟩
    | exact ⟨[], .nil, rfl⟩
    | (refine ⟨fun h => by simp at h, ?_⟩; rintro ⟨f, hf, _⟩; cases hf)

theorem noFrom_of {t : Text} (h : ∀ p < t.length, (t.drop p).take 5 ≠ bs "From ") : NoFrom t := by
  rintro p ⟨_, rest, h1, _⟩
  by_cases hp : p < t.length
  · apply h p hp
    rw [h1, show (5 : Nat) = (bs "From ").length from by decide, List.take_left]
  · rw [List.drop_eq_nil_of_le (by omega)] at h1
    exact absurd h1.symm (by simp [bs])

/-- The first delivery. -/
def pbFirst : Posted := ⟨bs "me@home.org Mon Feb  3 12:00:00 2020", pbText (bs "hello\n"), pbKept (bs "hello\n")⟩
/-- The second one. -/
def pbSecond : Posted := ⟨bs "you@home.org Mon Feb  3 12:34:56 2020", pbText (bs "at noon\n"), pbKept (bs "at noon\n")⟩

theorem pbFirst_ok (mk : Nat → Nat → Nat → Int) : pbFirst.Ok mk :=
  ⟨by decide +kernel, by decide +kernel, ⟨pbFirst.text.dropLast, by decide +kernel⟩, noFrom_of (by decide +kernel), pbText_means mk _⟩

theorem pbSecond_ok (mk : Nat → Nat → Nat → Int) : pbSecond.Ok mk :=
  ⟨by decide +kernel, by decide +kernel, ⟨pbSecond.text.dropLast, by decide +kernel⟩, noFrom_of (by decide +kernel), pbText_means mk _⟩

def pbMk : Nat → Nat → Nat → Int := (utc 1589800000).dayTime

/-- The deliveries before the first and before the second run. -/
def pbBox (second : Bool) : List Posted := if second then [pbFirst, pbSecond] else [pbFirst]

/-- The disk: the mbox `/m/box`, perhaps a symbolic link to the file. -/
def pbDisc (link second : Bool) : Disc where
  fs := ⟨fun p => if p = bs "/m/box" then some ⟨.regular, 1, 5⟩ else none,
    fun p => if p = bs "/m/box" then some ⟨link, if link then 3 else if second then 11 else 10, if link then 8 else (boxBytes (pbBox second)).length⟩ else none, fun _ => none⟩
  mtime _ := if second then 11 else 10
  size p := if p = bs "/m/box" then (boxBytes (pbBox second)).length else 0
  data p := if p = bs "/m/box" then some (boxBytes (pbBox second)) else none
  after _ := []

def pbIndexing (link second : Bool) : Indexing :=
  { exIndexing second with config := ⟨bs "/m", none, none, some (bs "box"), none, link⟩, disc := pbDisc link second }

def pbItems : FolderType → List FolderItem
  | .mbox => [⟨none, .name (bs "box"), false⟩]
  | _ => []

theorem pbMeans (link second : Bool) : Spec.Means (pbIndexing link second).config (pbIndexing link second).disc.fs ⟨(pbDisc link second).fs, bs "/m", []⟩ pbItems where
  fs := rfl
  base := rfl
  omits := rfl
  omitOk := by simp
  maildirs := rfl
  mhs := rfl
  mboxen := ⟨[bs "box"], .last (by
    intro a b h
    have : (0x3a : UInt8) ∈ bs "box" := by rw [h]; simp
    exact absurd this (by decide)), by decide⟩
  itemsOk := by
    intro ft i hi
    cases ft with
    | maildir => simp [pbItems] at hi
    | mh => simp [pbItems] at hi
    | mbox =>
      simp only [pbItems, List.mem_singleton] at hi
      subst hi
      refine ⟨by decide, fun _ t h => ?_, ?_⟩
      · have : (0x78 : UInt8) = 0x2e := by
          have := congrArg List.getLast? h
          rw [List.getLast?_append] at this
          simpa [FolderItem.text, LastComp.text, bs] using this
        exact absurd this (by decide)
      · show ∀ c ∈ bs "box", c ≠ 0x5b ∧ c ≠ 0x2a ∧ c ≠ 0x3f
        decide

theorem pbPathMax (link second : Bool) : PathMax (pbIndexing link second).disc.fs 20 := by
  intro p hp
  simp only [pbIndexing, pbDisc]
  rw [if_neg]
  rintro rfl
  exact absurd hp (by decide)

theorem pbConfigured (link second : Bool) : Configured ⟨(pbDisc link second).fs, bs "/m", []⟩ pbItems .mbox (bs "/m/box") := by
  refine ⟨⟨none, .name (bs "box"), false⟩, by simp [pbItems], bs "/m/box", ⟨bs "/m", ?_, ⟨⟨.regular, 1, 5⟩, rfl⟩, rfl⟩, .inr ⟨rfl, rfl⟩, ⟨⟨.regular, 1, 5⟩, rfl, rfl⟩, ?_⟩
  · exact .bare rfl
  · rintro ⟨n, _, w, hw, _⟩
    cases hw

theorem pbLength : ∀ second, (boxBytes (pbBox second)).length < 2 ^ 31 := by decide +kernel

theorem pbDiscOk (link second : Bool) : DiscOk (pbIndexing link second).disc where
  readdir := by intro p names h; cases h
  lstat := by
    intro p sb h
    simp only [pbIndexing, pbDisc] at h
    split at h
    · rename_i hp
      rw [hp]
      decide
    · cases h
  size := by
    intro p va h
    simp only [pbIndexing, pbDisc] at h ⊢
    split at h
    · rename_i hp
      cases h
      exact ⟨if_pos hp, pbLength second⟩
    · cases h

theorem pbBox_at (second : Bool) : MboxAt (pbIndexing false second).disc (bs "/m/box") (pbBox second) :=
  ⟨by simp [pbIndexing, pbDisc], ⟨⟨.regular, 1, 5⟩, by simp [pbIndexing, pbDisc], rfl⟩,
    ⟨⟨false, if second then 11 else 10, (boxBytes (pbBox second)).length⟩, by simp [pbIndexing, pbDisc], rfl, rfl⟩⟩

/-- The places of the messages found after the runs. -/
def pbFound (xs : List Indexing) (args : List (List Text)) : Res (List (Res (List (Nat × Nat)))) := do
  match ← indexMails exHash pbMk exMd5 xs none with
  | none => .ok []
  | some d =>
    let view ← viewDb (← openDb d)
    .ok (args.map fun a => do
      let f ← doSearch (utc 1589800000).scan id view a false false
      .ok (f.filterMap fun i => (view.msgs[i]?).map fun m => (m.mtime, m.size)))

/-- Both runs complete, and the second message is found when it has been delivered. -/
theorem pbRuns : pbFound [pbIndexing false false] [[bs "b:hello"], [bs "b:noon"]] = .ok [.ok [(42, 7)], .ok []] ∧
    pbFound ([pbIndexing false false] ++ [pbIndexing false true]) [[bs "b:hello"], [bs "b:noon"]] =
      .ok [.ok [(42, 7)], .ok [(92, 9)]] :=
  ⟨by decide +kernel, by decide +kernel⟩

/-- The theorem applies to the runs. -/
example : ∃ file raw view, indexMails exHash pbMk exMd5 ([pbIndexing false false] ++ [pbIndexing false true]) none = .ok (some file) ∧ openDb file = .ok raw ∧ viewDb raw = .ok view ∧
    ∀ {scan dateRange}, ScansDates scan dateRange → ∀ {cs : List Cond} {args : List Text}, QueryWrittenAs dateRange cs args → (∀ c ∈ cs, Cond.Fits c) → ∀ sort : List Nat → List Nat,
        ∃ found, doSearch scan sort view args false false = .ok found ∧ ∀ y, TellsPosted pbSecond (bs "/m/box") y →
            ((∃ i ∈ found, IsInBox view i (bs "/m/box") (92, 9)) ↔ ∀ c ∈ cs, c.Holds y) := by
  have hall : ∀ {P : Indexing → Prop}, (∀ b, P (pbIndexing false b)) → ∀ y ∈ [pbIndexing false false] ++ [pbIndexing false true], P y := by
    intro P h y hy
    simp only [List.cons_append, List.nil_append, List.mem_cons, List.not_mem_nil, or_false] at hy
    rcases hy with rfl | rfl <;> exact h _
  have hrun := pbRuns.2
  unfold pbFound at hrun
  cases e : indexMails exHash pbMk exMd5 ([pbIndexing false false] ++ [pbIndexing false true]) none with
  | error f => rw [e] at hrun; cases hrun
  | ok o =>
    cases o with
    | none => rw [e] at hrun; simp [bind, Except.bind] at hrun
    | some file =>
      obtain ⟨raw, view, h1, h2, h3⟩ := C77_found_partial (p := bs "/m/box") (boxes := [pbBox false]) (ms := pbBox true) (by intro t; simp [exMd5])
        (hall fun b => (⟨sorts_listed, sorts_extant, sorts_strcmp, sorts_sortable⟩ : LibraryOk (pbIndexing false b))) (hall (pbDiscOk false))
        (hall fun b => ⟨_, pbItems, 20, by simp [pbIndexing, exIndexing], pbMeans false b, pbPathMax false b⟩) (pbMeans false true)
        (by intro y hy; rw [List.mem_singleton.1 hy]; rfl) (.cons (.inr (pbBox_at false)) (.cons (.inr (pbBox_at true)) .nil)) (pbBox_at true)
        (List.pairwise_pair.2 ⟨[pbSecond], rfl⟩)
        (by
          intro m hm
          simp only [pbBox, if_true, List.mem_cons, List.not_mem_nil, or_false] at hm
          rcases hm with rfl | rfl
          · exact pbFirst_ok _
          · exact pbSecond_ok _) (pbConfigured false true) e
      refine ⟨file, raw, view, rfl, h1, h2, ?_⟩
      intro scan dateRange hs cs args hq hf sort
      obtain ⟨found, f1, _, f3⟩ := h3 hs hq hf sort
      refine ⟨found, f1, fun y hy => ?_⟩
      have := f3 1 pbSecond rfl y hy
      rw [show placeOf (pbBox true) 1 pbSecond = (92, 9) by decide +kernel] at this
      exact this

/-- **C77 is false for symbolic links** that are to be followed: the modification time and the size compared are those of the link, so that what is delivered later is not found. -/
theorem C77_link_violation : pbFound ([pbIndexing true false] ++ [pbIndexing true true]) [[bs "b:hello"], [bs "b:noon"]] = .ok [.ok [(42, 7)], .ok []] := by
  decide +kernel

end Mairix
