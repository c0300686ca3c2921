import Verif.Proofs.Good
import Verif.Spec.Run

/-! Sorting, looking for duplicates, and the integrity checks. -/

namespace Mairix
open Spec

theorem anyEqual_before : ∀ {l : List Text}, l.Pairwise (fun a b => strcmp a b ≠ .gt) → anyEqualNeighbours l = false →
    l.Pairwise Before := by
  intro l
  induction l with
  | nil => intro _ _; exact .nil
  | cons a l ih =>
    intro h h'
    cases l with
    | nil => exact .cons (by simp) .nil
    | cons b l =>
      simp only [anyEqualNeighbours] at h'
      split at h'
      · cases h'
      · next hne =>
        have hp := ih (List.pairwise_cons.1 h).2 h'
        have hab : Before a b := by
          have h1 := (List.pairwise_cons.1 h).1 b (by simp)
          rcases before_total a b with h2 | h2 | h2
          · exact h2
          · exact absurd (strcmp_eq.2 h2) hne
          · exact absurd (strcmp_gt.2 h2) h1
        refine .cons ?_ hp
        intro c hc
        rcases List.mem_cons.1 hc with rfl | hc
        · exact hab
        · exact before_trans hab ((List.pairwise_cons.1 hp).1 c hc)

theorem before_nodup {l : List Text} (h : l.Pairwise Before) : l.Nodup := by
  refine h.imp ?_
  rintro a b hab rfl
  exact before_irrefl hab

theorem anyEqual_nodup : ∀ {l : List Text}, l.Nodup → anyEqualNeighbours l = false := by
  intro l
  induction l with
  | nil => intro _; rfl
  | cons a l ih =>
    intro h
    cases l with
    | nil => rfl
    | cons b l =>
      simp only [anyEqualNeighbours]
      rw [if_neg]
      · exact ih (List.nodup_cons.1 h).2
      · intro he
        rw [strcmp_eq] at he
        exact (List.nodup_cons.1 h).1 (by simp [he])

/-- Looking at neighbours in the sorted list finds duplicates. -/
theorem anyEqual_sorted {q : List Text → List Text} (h : Sorts strcmp q) (l : List Text) :
    anyEqualNeighbours (q l) = false ↔ l.Nodup := by
  obtain ⟨hp, hs⟩ := h l
  rw [← hp.nodup_iff]
  exact ⟨fun h => before_nodup (anyEqual_before hs h), anyEqual_nodup⟩

theorem nodup_of_filters : ∀ {l : List Listed}, (l.filter (·.kind = .file)).Nodup → (l.filter (·.kind = .imap)).Nodup → l.Nodup := by
  intro l
  induction l with
  | nil => intro _ _; exact .nil
  | cons e l ih =>
    obtain ⟨k, p⟩ := e
    intro h1 h2
    cases k with
    | file =>
      simp only [List.filter_cons, decide_true, if_true, List.nodup_cons, List.mem_filter, and_true] at h1
      simp at h2
      exact List.nodup_cons.2 ⟨h1.1, ih h1.2 h2⟩
    | imap =>
      simp only [List.filter_cons, decide_true, if_true, List.nodup_cons, List.mem_filter, and_true] at h2
      simp at h1
      exact List.nodup_cons.2 ⟨h2.1, ih h1 h2.2⟩

theorem nodup_paths (l : List Listed) (k : Kind) :
    ((l.filter (·.kind = k)).map (·.path)).Nodup ↔ (l.filter (·.kind = k)).Nodup := by
  rw [List.nodup_iff_pairwise_ne, List.pairwise_map, List.nodup_iff_pairwise_ne]
  constructor
  · exact fun h => h.imp fun h h' => h (congrArg _ h')
  · intro h
    refine List.Pairwise.imp_of_mem ?_ h
    rintro ⟨ka, pa⟩ ⟨kb, pb⟩ ha hb hab
    simp at ha hb
    rintro rfl
    exact hab (by rw [ha.2, hb.2])

/-- `check_message_list_for_duplicates` finds duplicates. -/
theorem checkDuplicates_spec {q : List Text → List Text} (h : Sorts strcmp q) (l : List Listed) :
    checkDuplicates q l = false ↔ l.Nodup := by
  unfold checkDuplicates
  rw [Bool.or_eq_false_iff, anyEqual_sorted h, anyEqual_sorted h, nodup_paths, nodup_paths]
  exact ⟨fun h => nodup_of_filters h.1 h.2, fun h => ⟨h.filter _, h.filter _⟩⟩

theorem messageCompare_not_gt (a b : Listed) : messageCompare a b ≠ .gt ↔ ListedBefore a b ∨ a = b := by
  obtain ⟨ka, pa⟩ := a
  obtain ⟨kb, pb⟩ := b
  rw [show messageCompare ⟨ka, pa⟩ ⟨kb, pb⟩ = lookupCompare ⟨ka, pa⟩ pb kb from rfl]
  obtain ⟨h1, h2, h3⟩ := lookupCompare_spec ⟨ka, pa⟩ pb kb
  rw [← h1, ← h2]
  cases lookupCompare ⟨ka, pa⟩ pb kb <;> simp

/-- A listing without duplicates is sorted strictly. -/
theorem sortListed_spec {q : List Listed → List Listed} (h : Sorts messageCompare q) {l : List Listed} (hn : l.Nodup) :
    (q l).Pairwise ListedBefore ∧ (q l).Perm l := by
  obtain ⟨hp, hs⟩ := h l
  refine ⟨?_, hp⟩
  have hn' := hp.nodup_iff.2 hn
  refine List.Pairwise.imp ?_ (hs.and (List.nodup_iff_pairwise_ne.1 hn'))
  rintro a b ⟨h1, h2⟩
  exact ((messageCompare_not_gt a b).1 h1).resolve_right h2

theorem checkMbox_eq : ∀ l : List Extant, checkMboxDuplicates l = anyEqualNeighbours (l.map (·.path)) := by
  intro l
  induction l with
  | nil => rfl
  | cons a l ih =>
    cases l with
    | nil => rfl
    | cons b l =>
      simp only [checkMboxDuplicates, List.map_cons, anyEqualNeighbours] at ih ⊢
      rw [ih]
      split <;> simp_all

theorem sortExtant_spec {q : List Extant → List Extant} (h : Sorts (fun a b => strcmp a.path b.path) q) {l : List Extant}
    (hn : checkMboxDuplicates (q l) = false) : SortedExtant (q l) := by
  obtain ⟨hp, hs⟩ := h l
  rw [checkMbox_eq] at hn
  have := anyEqual_before (List.pairwise_map.2 hs) hn
  exact List.pairwise_map.1 this

/-! ### The integrity checks -/

theorem brokenChains_spec {hash : Text → Nat} {t : Table Matches} {mail : Mail} (h : RepMail hash t mail) {n : Nat}
    (hn : mail.length ≤ n) : ∀ (es : List (Entry Matches)), (∀ e ∈ es, e ∈ ents t.slots) → ∀ idx, brokenChains n es idx = false := by
  intro es
  induction es with
  | nil => intro _ _; rfl
  | cons e es ih =>
    intro he idx
    obtain ⟨b, hb, hv⟩ := h.sound e (he e (by simp))
    obtain ⟨rfl, hne⟩ := listOpt_some.1 hb
    have hl := hv.highest hne
    have hr : readInto idx e.data.bytes = e.data.highest := by
      simp only [readInto, valid_readAll hv, hl, Option.getD_some]
    have hlt : e.data.highest < n := by
      have := listing_lt _ (List.mem_of_getLast? hl)
      omega
    simp only [brokenChains, hr, ih (fun e he' => he e (by simp [he']))]
    simp; exact hlt

theorem sortable_texts : ∀ (slots : List (Option (Entry Matches))) (i : Nat),
    (sortableTokens i slots).map Prod.fst = (ents slots).map Entry.text := by
  intro slots
  induction slots with
  | nil => intro i; rfl
  | cons o slots ih =>
    intro i
    cases o with
    | none => simp only [sortableTokens, ih]; simp [ents]
    | some e => simp only [sortableTokens, List.map_cons, ih]; simp [ents]

theorem compareSortable_le {a b : Text × Nat} (h : compareSortable a b ≠ .gt) : strcmp a.1 b.1 ≠ .gt := by
  intro h'
  simp [compareSortable, h'] at h

theorem checkTable_spec {q : List (Text × Nat) → List (Text × Nat)} (hq : Sorts compareSortable q) {hash : Text → Nat}
    {t : Table Matches} {mail : Mail} (h : RepMail hash t mail) (junk : Nat) {n : Nat} (hn : mail.length ≤ n) :
    checkTable q junk n t = .ok () := by
  have h1 := brokenChains_spec h hn _ (fun e he => he) junk
  have h2 : (sortableTokens 0 t.slots).length = t.n := by
    rw [h.ok.n_eq, ← List.length_map (f := Prod.fst), sortable_texts, List.length_map]
  have h3 : anyEqualNeighbours ((q (sortableTokens 0 t.slots)).map Prod.fst) = false := by
    apply anyEqual_nodup
    rw [((hq (sortableTokens 0 t.slots)).1.map Prod.fst).nodup_iff, sortable_texts]
    exact h.ok.nodup
  rw [ents] at h1
  have h4 : tokensFit t.n t.n = .ok () := if_pos (Nat.le_refl _)
  simp only [checkTable, h1, h2, h3, h4, assertThat, bind, Except.bind]
  rfl

theorem places_filePath {msgs : List Msg} (h : (msgs.filterMap Place).Nodup) :
    (msgs.filterMap filePath).Nodup ∧ (msgs.filterMap imapPath).Nodup := by
  have e1 : msgs.filterMap filePath = ((msgs.filterMap Place).filter (·.kind = .file)).map (·.path) := by
    clear h
    induction msgs with
    | nil => rfl
    | cons m ms ih =>
      obtain ⟨s, _, _, _, _, _⟩ := m
      cases s <;> simp [List.filterMap_cons, filePath, Place, ih]
  have e2 : msgs.filterMap imapPath = ((msgs.filterMap Place).filter (·.kind = .imap)).map (·.path) := by
    clear e1 h
    induction msgs with
    | nil => rfl
    | cons m ms ih =>
      obtain ⟨s, _, _, _, _, _⟩ := m
      cases s <;> simp [List.filterMap_cons, imapPath, Place, ih]
  rw [e1, e2, nodup_paths, nodup_paths]
  exact ⟨h.filter _, h.filter _⟩

/-- The integrity checks do not fail. -/
theorem checkIntegrity_spec {q : List Text → List Text} {qt : List (Text × Nat) → List (Text × Nat)} (hq : Sorts strcmp q)
    (hqt : Sorts compareSortable qt) (junk : Nat) {hash : Text → Nat} {db : Database} {ix : List MsgWords}
    (h : GoodDb hash db ix) : checkIntegrity q qt junk db = .ok () := by
  have hl : ∀ f : Field, (ix.map (·.words f)).length ≤ db.msgs.length := by intro f; simp [h.length]
  have hp : checkPaths q db.msgs = .ok () := by
    obtain ⟨a, b⟩ := places_filePath h.places
    simp only [checkPaths, (anyEqual_sorted hq _).2 a, (anyEqual_sorted hq _).2 b]
    rfl
  simp only [checkIntegrity, hp, checkTable_spec hqt h.rep.to junk (hl _), checkTable_spec hqt h.rep.cc junk (hl _),
    checkTable_spec hqt h.rep.sender junk (hl _), checkTable_spec hqt h.rep.subject junk (hl _),
    checkTable_spec hqt h.rep.body junk (hl _), checkTable_spec hqt h.rep.attachment junk (hl _), bind, Except.bind]

end Mairix
