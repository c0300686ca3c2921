import Verif.Spec.Crash
import Verif.Props.RunExamples

/-!
# C60: runs that are stopped
-/

namespace Mairix
open Spec

theorem indexRun_prepare (hashfn : Nat → Text → Nat) (r : Run) (f : Option Text) :
    indexRun hashfn r f = (do
      let (key, db, any) ← prepare hashfn r f
      if any then do
        let (ws, _) ← allWrites key db
        let d ← runWrites ws (resized (f.getD []) (fileLength db))
        .ok (some d)
      else .ok f) := by
  unfold indexRun prepare
  by_cases hc : checkDuplicates r.sortTexts r.listed = true
  · simp only [hc, if_true]; rfl
  · rw [if_neg hc, if_neg hc]
    cases openOrNew hashfn r f with
    | error x => rfl
    | ok p =>
    obtain ⟨key, db1⟩ := p
    simp only [bind, Except.bind]
    cases updateStep hashfn r key db1 with
    | error x => rfl
    | ok p =>
    obtain ⟨db2, u⟩ := p
    simp only
    cases purgeStep r db2 with
    | error x => rfl
    | ok p =>
    obtain ⟨db3, v⟩ := p
    simp only [writeStep]
    cases u || v with
    | false => rfl
    | true =>
      simp only [if_true, bind, Except.bind]
      cases r.check db3 with
      | error x => rfl
      | ok _ =>
        simp only [writeDatabase]
        by_cases hv : verifyMboxSizes db3 = true
        · by_cases hl : fileLength db3 < 2 ^ 31
          · simp only [hv, hl, if_true, bind, Except.bind]
            cases allWrites key db3 with
            | error x => rfl
            | ok p =>
              rfl
          · simp only [hv, hl, if_true, if_false]
        · simp only [hv, if_false]
          rfl

/-- **C60, after the last store.** A run stopped after its last store leaves the file of a run that completes. -/
theorem C60_last_store {hashfn : Nat → Text → Nat} {r : Run} {f f' : Option Text} (e : indexRun hashfn r f = .ok f') :
    ∃ k, ∀ n, k ≤ n → stoppedRun hashfn r f (.storing n) = .ok f' := by
  rw [indexRun_prepare] at e
  obtain ⟨⟨key, db, any⟩, e1, e⟩ := res_bind_ok e
  cases any with
  | false =>
    refine ⟨0, fun n _ => ?_⟩
    simp only [stoppedRun, e1, bind, Except.bind]
    exact e
  | true =>
    simp only [if_true] at e
    obtain ⟨⟨ws, k⟩, e2, e⟩ := res_bind_ok e
    obtain ⟨d, e3, e⟩ := res_bind_ok e
    refine ⟨ws.length, fun n hn => ?_⟩
    simp only [stoppedRun, partWritten, e1, e2, bind, Except.bind, if_true, List.take_of_length_le hn]
    rw [show runWrites ws (resized (f.getD []) (fileLength db)) = .ok d from e3]
    exact e

theorem at_longer {d z : Text} {off : Nat} {b : List UInt8} (h : At d off b) : At (d ++ z) off b := by
  intro i hi
  have := h i hi
  have hlt : off + i < d.length := by
    have h1 : b[i]? = some b[i] := List.getElem?_eq_getElem hi
    rw [h1] at this
    exact (List.getElem?_eq_some_iff.1 this).1
  rw [List.getElem?_append_left hlt]
  exact this

theorem resized_longer {b : Text} {n : Nat} (h : b.length ≤ n) : resized b n = b ++ List.replicate (n - b.length) 0 := by
  rw [resized, List.take_of_length_le h]

theorem early_holds {hashfn : Nat → Text → Nat} {hist : List Run} {r : Run} {f f' : Option Text} {s : Stop} {db : Database} {ix : List MsgWords}
    (h : Holds hist f db ix) (e : stoppedRun hashfn r f s = .ok f') (he : Early s f f') : Holds hist f' db ix := by
  rcases he with rfl | ⟨hs, b, a, rfl, rfl, hl⟩
  · cases e; exact h
  · rcases hs with rfl | rfl
    · simp only [stoppedRun] at e
      obtain ⟨⟨key, db', any⟩, e1, e⟩ := res_bind_ok e
      cases any <;> cases e <;> exact h
    · simp only [stoppedRun] at e
      obtain ⟨⟨key, db', any⟩, e1, e⟩ := res_bind_ok e
      cases any with
      | false => cases e; exact h
      | true =>
        simp only [if_true] at e
        obtain ⟨d, e2, e⟩ := res_bind_ok e
        cases e
        obtain ⟨⟨ws, k⟩, e3, e2⟩ := res_bind_ok e2
        simp only [List.take_zero, runWrites, Option.getD_some] at e2
        cases e2
        have hsm : fileLength db' < 2 ^ 31 := by
          simp only [prepare] at e1
          split at e1
          · cases e1
          obtain ⟨_, _, e1⟩ := res_bind_ok e1
          obtain ⟨_, _, e1⟩ := res_bind_ok e1
          obtain ⟨_, _, e1⟩ := res_bind_ok e1
          split at e1
          · obtain ⟨_, _, e1⟩ := res_bind_ok e1
            split at e1
            · split at e1
              · cases e1; assumption
              · cases e1
            · cases e1
          · cases e1
        rw [resized_length] at hl
        obtain ⟨hm, key0, ws0, hw⟩ := h
        rw [resized_longer hl]
        refine ⟨hm, key0, ws0, hw.file, fun w hww => at_longer (hw.stored w hww), ?_, ?_, hw.boxes⟩
        · have := hw.length
          simp only [List.length_append, List.length_replicate]; omega
        · simp only [List.length_append, List.length_replicate]; omega

theorem ran_holds {hashfn : Nat → Text → Nat} {rs : List Run} {f : Option Text} (h : Ran hashfn rs f) (hs : ∀ r ∈ rs, Sane r) :
    ∃ db ix, Holds rs f db ix ∧ ∀ r, rs.getLast? = some r → Current r db := by
  induction h with
  | start => exact ⟨_, _, holds_none [], by simp⟩
  | @completed rs f r f' _ e ih =>
    have hs' : ∀ r' ∈ rs, Sane r' := fun r' h' => hs r' (by simp [h'])
    obtain ⟨db, ix, h, _⟩ := ih hs'
    obtain ⟨db', ix', h', c⟩ := indexRun_ok h hs' (hs r (by simp)) e
    refine ⟨db', ix', h', ?_⟩
    intro r' hr'
    rw [List.getLast?_concat, Option.some.injEq] at hr'
    rw [← hr']; exact c
  | stopped _ e he ih =>
    obtain ⟨db, ix, h, c⟩ := ih hs
    exact ⟨db, ix, early_holds h e he, c⟩

/-- **C60 (partial).** Runs may be stopped at any moment before their first store into the database file, as long as this file was there
and does not become shorter, and be followed by further runs: the file can still be opened and read, and what a search
sees agrees with the mail as it was in the last run that completed. Missing: all later moments up to the last store, see
`C60_lost_violation` and `C60_wrong_violation`; files that become shorter, see `C60_shorter_violation`; the first run,
see `C60_first_violation`. -/
theorem C60_stopped_partial {hashfn : Nat → Text → Nat} {rs : List Run} {r : Run} {d : Text} (hs : ∀ r' ∈ rs ++ [r], Sane r')
    (h : Ran hashfn (rs ++ [r]) (some d)) :
    ∃ raw view info, openDb d = .ok raw ∧ viewDb raw = .ok view ∧ Shows view info ∧ Agrees (rs ++ [r]) r view info := by
  obtain ⟨db, ix, h, hcur⟩ := ran_holds h hs
  exact holds_agrees h (hcur r (by simp)) hs

/-- **C60, searching for a word (partial).** Under the same conditions, if files with an unchanged modification time are unchanged and the
last run that completed was not a fast one, searching for a word finds, among the messages in files of their own and on
IMAP servers, exactly those that were listed in that run and had the word then in one of the fields. -/
theorem C60_search_partial {hashfn : Nat → Text → Nat} {rs : List Run} {r : Run} {d : Text} (hs : ∀ r' ∈ rs ++ [r], Sane r')
    (h : Ran hashfn (rs ++ [r]) (some d)) (hf : r.fast = false) (ht : TimesTell rs r)
    (scan) (sort : List Nat → List Nat) (letters w : Text) (hl : ∀ c ∈ letters, c ∈ bs "tcfsbnra") (hw : PlainWord w) :
    ∃ raw view found, openDb d = .ok raw ∧ viewDb raw = .ok view ∧
      doSearch scan sort view [letters ++ bs ":" ++ w] false false = .ok found ∧
      ∀ e, (∃ i ∈ found, IsAt view i e) ↔ e ∈ r.listed ∧ addable r.world e = true ∧
        ∃ m, Reads r.world e m ∧ ∃ c ∈ letters, ∃ f, LetterMeans c f ∧ HasWord m f (lower w) := by
  obtain ⟨raw, view, info, h1, h2, h3, h4⟩ := C60_stopped_partial hs h
  obtain ⟨_, h5, h6⟩ := agrees_up_to_date h4 hf ht
  obtain ⟨found, e1, h7⟩ := search_up_to_date h3 h5 h6 scan sort letters w hl hw
  exact ⟨raw, view, found, h1, h2, e1, h7⟩

/-! ## Concrete histories -/

/-- What searches find with this database file. -/
def searchesIn (queries : List (List Text)) : Option Text → Res (List (Res (List Nat)))
  | none => .ok []
  | some d => do
    let raw ← openDb d
    let view ← viewDb raw
    .ok (queries.map fun q => doSearch (fun _ => none) id view q false false)

/-- A message without headers. -/
def smMail (body : Text) : Rfc822 :=
  .mk { exHdrs [] [] [] with to := none, subject := none, messageId := none } (.cons (.plain body) none .nil)

/-- A world in which every file is a message, whose body is the name of the file. -/
def smWorld : World where
  stat p := .file 100 p.length
  read k p := if k = .imap then none else some (smMail p)

def smRun (l : List Text) (purge : Bool) : Run :=
  { exRun (l.map fun p => ⟨.file, p⟩) smWorld purge with extant := [] }

theorem smRun_sane {l : List Text} {purge : Bool} (hl : ∀ p ∈ l, 0 ∉ p) : Sane (smRun l purge) := by
  have h := exRun_sane (l := l.map fun p => ⟨.file, p⟩) (w := smWorld) (purge := purge) (by
      intro e he
      obtain ⟨p, hp, rfl⟩ := List.mem_map.1 he
      exact hl p hp) (by
      intro k p m h
      simp only [smWorld] at h
      split at h
      · cases h
      · cases h
        refine ⟨?_, ?_, ?_, ?_⟩
        · intro s hs; cases hs
        · intro s hs; cases hs
        · intro s hs; cases hs
        · refine ⟨trivial, ?_, trivial⟩; intro s hs; cases hs)
  exact { h with extant := by intro e he; cases he }

def smJan : Run := smRun [bs "jan"] false
def smFeb : Run := smRun [bs "feb"] true
def smBoth : Run := smRun [bs "jan", bs "feb"] false

def exQueries : List (List Text) := [[bs "b:jan"], [bs "b:feb"]]

/-- The database file when runs have completed, one more has been stopped at `s`, and again runs have completed. -/
def withStop (before : List Run) (r : Run) (s : Stop) (after : List Run) : Res (Option Text) := do
  let x ← indexRuns exHash before none
  let y ← stoppedRun exHash r x s
  indexRuns exHash after y

/-- What searches find then. -/
def searchesWith (before : List Run) (r : Run) (s : Stop) (after : List Run) : Res (List (Res (List Nat))) := do
  let y ← withStop before r s after
  searchesIn exQueries y

/-- The lengths of the file before and after the run that is stopped. -/
def lengthsWith (before : List Run) (r : Run) (s : Stop) : Res (Option Nat × Option Nat) := do
  let x ← indexRuns exHash before none
  let y ← stoppedRun exHash r x s
  .ok (x.map List.length, y.map List.length)

theorem exStopped_lengths : lengthsWith [smFeb] smBoth (.storing 0) = .ok (some 199, some 238) := by decide +kernel

theorem exStopped_searches : searchesWith [smFeb] smBoth (.storing 0) [] = .ok [.ok [], .ok [0]] := by decide +kernel

/-- The second of these runs is stopped after the file has been made longer: the hypotheses of `C60_stopped_partial` and
`C60_search_partial` are met. -/
theorem exStopped : ∃ d, Ran exHash ([] ++ [smFeb]) (some d) ∧ (∀ r' ∈ [] ++ [smFeb], Sane r') ∧ smFeb.fast = false ∧
    TimesTell [] smFeb ∧ d.length = 238 ∧ searchesIn exQueries (some d) = .ok [.ok [], .ok [0]] := by
  have h := exStopped_lengths
  have h' := exStopped_searches
  obtain ⟨x, e1, h⟩ := res_bind_ok h
  obtain ⟨y, e2, h⟩ := res_bind_ok h
  obtain ⟨y', e3, h'⟩ := res_bind_ok h'
  obtain ⟨x', e1', e3⟩ := res_bind_ok e3
  rw [e1] at e1'
  cases e1'
  obtain ⟨_, e2', e3⟩ := res_bind_ok e3
  rw [e2] at e2'
  cases e2'
  cases e3
  simp only [Except.ok.injEq, Prod.mk.injEq] at h
  obtain ⟨h1, h2⟩ := h
  obtain ⟨z, e1, e4⟩ := res_bind_ok e1
  cases e4
  cases x with
  | none => cases h1
  | some x =>
  cases y with
  | none => cases h2
  | some y =>
  simp only [Option.map_some, Option.some.injEq] at h1 h2
  refine ⟨y, .stopped (.completed .start e1) e2 (.inr ⟨.inr rfl, x, y, rfl, rfl, by omega⟩), ?_, rfl, ⟨?_, ?_⟩, h2, h'⟩
  · intro r hr
    rw [List.nil_append, List.mem_singleton] at hr
    subst hr
    exact smRun_sane (by decide)
  · intro r' hr'; cases hr'
  · intro r' hr'; cases hr'

/-- **C60 is false when a run is stopped between two stores.** After a run that completes, another one is stopped after 45 stores. Searches
succeed without finding anything, neither what was found before nor what would be found after the second run, and
further runs fail. -/
theorem C60_lost_violation : Sane smFeb ∧ Sane smBoth ∧
    searchesWith [smFeb] smBoth .reading [] = .ok [.ok [], .ok [0]] ∧
    searchesWith [smFeb] smBoth .reading [smBoth] = .ok [.ok [1], .ok [0]] ∧
    searchesWith [smFeb] smBoth (.storing 45) [] = .ok [.ok [], .ok []] ∧
    withStop [smFeb] smBoth (.storing 45) [smBoth] = .error .assertion :=
  ⟨smRun_sane (by decide), smRun_sane (by decide), by decide +kernel, by decide +kernel, by decide +kernel, by decide +kernel⟩

/-- **C60 is false when the file becomes shorter.** Without a single store, neither a search nor a further run can open the database. -/
theorem C60_shorter_violation : searchesWith [smBoth] smFeb (.storing 0) [] = .error (.exit 2) ∧
    withStop [smBoth] smFeb (.storing 0) [smFeb] = .error (.exit 2) :=
  ⟨by decide +kernel, by decide +kernel⟩

/-- **C60 is false for the runs that follow.** A run is stopped after 46 stores and started again. It completes, with the integrity checks on,
but the only message there is now is found by the word of the one that is gone, and not by its own. -/
theorem C60_wrong_violation : smFeb.checks = true ∧
    searchesWith [smJan] smFeb .reading [smFeb] = .ok [.ok [], .ok [0]] ∧
    searchesWith [smJan] smFeb (.storing 46) [smFeb] = .ok [.ok [0], .ok []] :=
  ⟨rfl, by decide +kernel, by decide +kernel⟩

/-- **C60 is false for the first run.** When it is stopped after the file has been made, no further run can read the database. -/
theorem C60_first_violation :
    withStop [] smJan .opened [smJan] = .error (.exit 2) ∧ withStop [] smJan (.storing 0) [smJan] = .error (.exit 2) :=
  ⟨by decide +kernel, by decide +kernel⟩

end Mairix
