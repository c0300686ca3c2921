import Verif.Proofs.Integrity
import Verif.Proofs.ISort
import Verif.Spec.Integrity

/-!
# C92: the integrity checks
-/

namespace Mairix
open Spec

/-- The check passes if `P` and otherwise an assertion fails. -/
def Verdict (a : Res Unit) (P : Prop) : Prop := (P → a = .ok ()) ∧ (¬ P → a = .error .assertion)

theorem verdict_bind {a b : Res Unit} {P Q : Prop} (ha : Verdict a P) (hb : Verdict b Q) : Verdict (a >>= fun _ => b) (P ∧ Q) := by
  constructor
  · rintro ⟨h1, h2⟩
    rw [ha.1 h1]
    exact hb.1 h2
  · intro h
    by_cases hp : P
    · rw [ha.1 hp]
      exact hb.2 fun hq => h ⟨hp, hq⟩
    · rw [ha.2 hp]
      rfl

theorem verdict_assert {b : Bool} {P : Prop} (h : b = true ↔ P) : Verdict (assertThat b) P := by
  constructor
  · intro hp
    rw [h.2 hp]
    rfl
  · intro hp
    cases b with
    | true => exact absurd (h.1 rfl) hp
    | false => rfl

theorem verdict_iff {a : Res Unit} {P Q : Prop} (h : Verdict a P) (hpq : P ↔ Q) : Verdict a Q := ⟨fun q => h.1 (hpq.2 q), fun q => h.2 fun p => q (hpq.1 p)⟩

theorem brokenChains_iff {n : Nat} : ∀ {es : List (Entry Matches)} (idx : Nat), (∀ e ∈ es, readAll e.data.bytes ≠ []) →
    (brokenChains n es idx = false ↔ ∀ e ∈ es, (readAll e.data.bytes).getLast? = some e.data.highest ∧ e.data.highest < n)
  | [], _, _ => by simp [brokenChains]
  | e :: es, idx, h => by
    have h1 : (readAll e.data.bytes).getLast? = some (readInto idx e.data.bytes) := by
      unfold readInto
      cases hl : (readAll e.data.bytes).getLast? with
      | none => exact absurd (List.getLast?_eq_none_iff.1 hl) (h e (by simp))
      | some v => rfl
    have ih := brokenChains_iff (n := n) (es := es) (readInto idx e.data.bytes) fun e' he => h e' (by simp [he])
    simp only [brokenChains, Bool.or_eq_false_iff, decide_eq_false_iff_not, List.mem_cons, forall_eq_or_imp, h1, Option.some.injEq, ih]
    refine and_congr_left fun _ => ?_
    omega

theorem anyEqual_tokens {q : List (Text × Nat) → List (Text × Nat)} (hq : Sorts compareSortable q) (l : List (Text × Nat)) : anyEqualNeighbours ((q l).map Prod.fst) = false ↔ (l.map Prod.fst).Nodup := by
  obtain ⟨hp, hs⟩ := hq l
  rw [← (hp.map Prod.fst).nodup_iff]
  refine ⟨fun h => before_nodup (anyEqual_before (List.pairwise_map.2 (hs.imp fun h => compareSortable_le h)) h), anyEqual_nodup⟩

theorem checkTable_verdict {q : List (Text × Nat) → List (Text × Nat)} (hq : Sorts compareSortable q) (junk n : Nat) {t : Table Matches} (hne : ∀ e ∈ t.slots.filterMap id, readAll e.data.bytes ≠ [])
    (hfit : (t.slots.filterMap id).length ≤ t.n) : Verdict (checkTable q junk n t) (SoundTable n t) := by
  have ht := sortable_texts t.slots 0
  rw [ents] at ht
  have hlen : (sortableTokens 0 t.slots).length = (t.slots.filterMap id).length := by
    have := congrArg List.length ht
    simpa using this
  have hf : tokensFit (sortableTokens 0 t.slots).length t.n = .ok () := by
    rw [hlen]
    exact if_pos hfit
  unfold checkTable
  rw [hf]
  refine verdict_iff (verdict_bind (verdict_assert (P := ∀ e ∈ t.slots.filterMap id, (readAll e.data.bytes).getLast? = some e.data.highest ∧ e.data.highest < n) ?_)
    (verdict_bind (P := True) ⟨fun _ => rfl, fun h => absurd trivial h⟩ (verdict_bind (verdict_assert (P := (t.slots.filterMap id).length = t.n) ?_) (verdict_assert (P := ((t.slots.filterMap id).map (·.text)).Nodup) ?_)))) ?_
  · rw [Bool.not_eq_true', brokenChains_iff junk hne]
  · rw [hlen, decide_eq_true_eq]
  · rw [Bool.not_eq_true', anyEqual_tokens hq, ht]
  · exact ⟨fun ⟨h1, _, h2, h3⟩ => ⟨h2, h3, h1⟩, fun h => ⟨h.last, trivial, h.count, h.once⟩⟩

theorem checkPaths_verdict {q : List Text → List Text} (hq : Sorts strcmp q) (msgs : List Msg) :
    Verdict (checkPaths q msgs) ((msgs.filterMap fun m => match m.src with | .file p _ _ => some p | _ => none).Nodup ∧ (msgs.filterMap fun m => match m.src with | .imap p => some p | _ => none).Nodup) := by
  refine verdict_assert ?_
  rw [Bool.not_eq_true', Bool.or_eq_false_iff, anyEqual_sorted hq, anyEqual_sorted hq]
  exact Iff.rfl

/-- **C92.** The integrity checks pass on every sound database, and on every database that is not sound an assertion fails, whatever order the C library's `qsort` gives to equal elements and whatever is in the uninitialised variable;
provided that no word has an empty list (see `C92_empty_violation`) and no table has more words than noted (see `C92_overrun_violation`). -/
theorem C92_integrity_partial {q : List Text → List Text} {qt : List (Text × Nat) → List (Text × Nat)} (hq : Sorts strcmp q) (hqt : Sorts compareSortable qt) (junk : Nat) {db : Database}
    (hne : ∀ t ∈ wordTables db.tables, ∀ e ∈ t.slots.filterMap id, readAll e.data.bytes ≠ [])
    (hfit : ∀ t ∈ wordTables db.tables, (t.slots.filterMap id).length ≤ t.n) :
    (SoundDb db → checkIntegrity q qt junk db = .ok ()) ∧ (¬ SoundDb db → checkIntegrity q qt junk db = .error .assertion) := by
  have ht : ∀ t ∈ wordTables db.tables, Verdict (checkTable qt junk db.msgs.length t) (SoundTable db.msgs.length t) := fun t h => checkTable_verdict hqt junk _ (hne t h) (hfit t h)
  simp only [wordTables, List.mem_cons, List.not_mem_nil, or_false, forall_eq_or_imp, forall_eq] at ht
  obtain ⟨t1, t2, t3, t4, t5, t6⟩ := ht
  refine verdict_iff (verdict_bind (checkPaths_verdict hq db.msgs) (verdict_bind t1 (verdict_bind t2 (verdict_bind t3 (verdict_bind t4 (verdict_bind t5 t6)))))) ?_
  constructor
  · rintro ⟨⟨h1, h2⟩, h3⟩
    refine ⟨h1, h2, ?_⟩
    simpa only [wordTables, List.mem_cons, List.not_mem_nil, or_false, forall_eq_or_imp, forall_eq] using h3
  · intro h
    refine ⟨⟨h.files, h.imap⟩, ?_⟩
    have := h.tables
    simpa only [wordTables, List.mem_cons, List.not_mem_nil, or_false, forall_eq_or_imp, forall_eq] using this

/-- A database with two messages, in files of their own, and one word in subjects: its list, its highest message, and the path of the second message. -/
def wordDb (bytes : List UInt8) (highest : Nat) (path : Text) : Database :=
  { newDatabase with
    msgs := [⟨.file (bs "/a") 1 1, 0, 0, false, false, false⟩, ⟨.file path 1 1, 0, 0, false, false, false⟩]
    tables := { newDatabase.tables with subject := ⟨[none, some ⟨bs "soup", 1, ⟨bytes, bytes.length, highest⟩⟩], 1, 2⟩ } }

/-- The hypotheses of the theorem are met by sound databases and by others: the checks see a wrong highest message, a message that does not exist, and a path that is there twice. -/
example : Sorts strcmp (isort strcmp) ∧ Sorts compareSortable (isort compareSortable) ∧ (∀ t ∈ wordTables (wordDb [1] 1 (bs "/b")).tables, ∀ e ∈ t.slots.filterMap id, readAll e.data.bytes ≠ []) ∧
    (∀ t ∈ wordTables (wordDb [1] 1 (bs "/b")).tables, (t.slots.filterMap id).length ≤ t.n) ∧
    checkIntegrity (isort strcmp) (isort compareSortable) 7 (wordDb [1] 1 (bs "/b")) = .ok () ∧ checkIntegrity (isort strcmp) (isort compareSortable) 7 (wordDb [1] 0 (bs "/b")) = .error .assertion ∧
    checkIntegrity (isort strcmp) (isort compareSortable) 7 (wordDb [2] 2 (bs "/b")) = .error .assertion ∧ checkIntegrity (isort strcmp) (isort compareSortable) 7 (wordDb [1] 1 (bs "/a")) = .error .assertion := by
  refine ⟨sorts_strcmp, sorts_sortable, by decide +kernel, by decide +kernel, ?_, ?_, ?_, ?_⟩ <;> decide +kernel

/-- **C92 violated** for a word with an empty list (which damage to the file can make): what the check says depends on the uninitialised variable. -/
theorem C92_empty_violation : checkIntegrity (isort strcmp) (isort compareSortable) 0 (wordDb [] 0 (bs "/b")) = .ok () ∧ checkIntegrity (isort strcmp) (isort compareSortable) 1 (wordDb [] 0 (bs "/b")) = .error .assertion := by
  constructor <;> decide +kernel

/-- A database with one word in subjects where no word is noted. -/
def overfullDb : Database :=
  { wordDb [1] 1 (bs "/b") with tables := { (wordDb [1] 1 (bs "/b")).tables with subject := { (wordDb [1] 1 (bs "/b")).tables.subject with n := 0 } } }

/-- **C92, violated.** With more words in a table than noted, no assertion fails: the check itself first writes outside the array it made for the words. -/
theorem C92_overrun_violation : ¬ SoundDb overfullDb ∧ checkIntegrity (isort strcmp) (isort compareSortable) 0 overfullDb = .error .outOfBounds := by
  refine ⟨fun h => ?_, by decide +kernel⟩
  have := (h.tables overfullDb.tables.subject (by simp [wordTables])).count
  revert this
  decide +kernel

end Mairix
