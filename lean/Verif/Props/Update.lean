import Verif.Proofs.RunProgress
import Verif.Proofs.ISort
import Verif.Spec.Purge

/-!
# C09, C10, C12, C40, C41, C43: looking up, updating, purging
-/

namespace Mairix
open Spec

/-! ## C09: looking up a path -/

/-- **C09.** The bisection ends, never looks outside the listing, and finds a place holding the path and kind looked
for iff there is one. -/
theorem C09_lookup {l : List Listed} (hs : l.Pairwise ListedBefore) (key : Text) (kind : Kind) :
    ∃ r, lookupMsgpath l key kind = .ok r ∧ (∀ k, r = some k → l[k]? = some ⟨kind, key⟩) ∧
      (r = none ↔ (⟨kind, key⟩ : Listed) ∉ l) := by
  obtain ⟨r, e, h1, h2⟩ := lookupMsgpath_spec hs key kind
  refine ⟨r, e, h1, h2, ?_⟩
  intro hn
  cases r with
  | none => rfl
  | some k => exact absurd (List.mem_of_getElem? (h1 k rfl)) hn

/-- **C09, the listing is sorted as looked up.** Sorting a listing without duplicates with `qsort` and the comparison
of the program gives the order assumed by the bisection, and loses nothing. -/
theorem C09_sorted {q : List Listed → List Listed} (h : Sorts messageCompare q) {l : List Listed} (hn : l.Nodup) :
    (q l).Pairwise ListedBefore ∧ ∀ e, e ∈ q l ↔ e ∈ l :=
  ⟨(sortListed_spec h hn).1, fun _ => (sortListed_spec h hn).2.mem_iff⟩

def exListing : List Listed := [⟨.file, bs "/a"⟩, ⟨.file, bs "/a/b"⟩, ⟨.file, bs "/b"⟩, ⟨.imap, bs "/a"⟩]

example : exListing.Pairwise ListedBefore ∧ lookupMsgpath exListing (bs "/b") .file = .ok (some 2) ∧
    lookupMsgpath exListing (bs "/a") .imap = .ok (some 3) ∧ lookupMsgpath exListing (bs "/b") .imap = .ok none ∧
    isort messageCompare exListing.reverse = exListing := by
  refine ⟨?_, by decide, by decide, by decide, by decide⟩
  have := (sortListed_spec sorts_listed (l := exListing.reverse) (by decide)).1
  rwa [show isort messageCompare exListing.reverse = exListing by decide] at this

/-! ## C40: duplicates in the listing -/

/-- **C40.** A run whose listing names a message twice stops with exit code 2, whatever the database file. -/
theorem C40_duplicates (hashfn : Nat → Text → Nat) {r : Run} (hs : Sorts strcmp r.sortTexts) (h : ¬ r.listed.Nodup)
    (f : Option Text) : indexRun hashfn r f = .error (.exit 2) := by
  have : checkDuplicates r.sortTexts r.listed = true := by
    cases hc : checkDuplicates r.sortTexts r.listed with
    | true => rfl
    | false => exact absurd ((checkDuplicates_spec hs r.listed).1 hc) h
  unfold indexRun
  rw [if_pos this]

/-- **C40, otherwise.** If no message is named twice the run goes on to open the database. -/
theorem C40_no_duplicates (hashfn : Nat → Text → Nat) {r : Run} (hs : Sorts strcmp r.sortTexts) (h : r.listed.Nodup)
    (f : Option Text) : indexRun hashfn r f = (do
      let (key, db) ← openOrNew hashfn r f
      let (db, updated) ← updateStep hashfn r key db
      let (db, purged) ← purgeStep r db
      writeStep r key db f (updated || purged)) := by
  have := (checkDuplicates_spec hs r.listed).2 h
  unfold indexRun
  rw [if_neg (by simp [this])]

example : Sorts strcmp (isort strcmp) ∧ ¬ ([⟨.file, bs "/a"⟩, ⟨.file, bs "/b"⟩, ⟨.file, bs "/a"⟩] : List Listed).Nodup ∧
    ([⟨.file, bs "/a"⟩, ⟨.file, bs "/b"⟩, ⟨.imap, bs "/a"⟩] : List Listed).Nodup :=
  ⟨sorts_strcmp, by decide, by decide⟩

/-! ## C10: updating -/

theorem updated_mem {hashfn : Nat → Text → Nat} {rs : List Run} {r : Run} {db0 db : Database} {b : Bool}
    (h : Updated hashfn rs r db0 db b) : ∃ key ix0 ix, Mem rs (hashfn key) db0 ix0 ∧ Loaded db0 ∧
      updateStep hashfn r key db0 = .ok (db, b) ∧ Mem (rs ++ [r]) (hashfn key) db ix ∧ Current r db := by
  obtain ⟨f, key, e1, e2, e3⟩ := h.stages
  obtain ⟨db1, ix1, h1, _⟩ := indexRuns_ok rs [] (holds_none []) (by simp) (fun r' h' => h.sane r' (by simp [h'])) e1
  simp only [List.nil_append] at h1
  obtain ⟨o1, o2, _, _⟩ := open_ok h1 (fun r' h' => h.sane r' (by simp [h'])) e2
  obtain ⟨ix2, u1, u2, _⟩ := update_ok o1 o2 (h.sane r (by simp)) (fun r' h' => h.sane r' (by simp [h'])) h.once e3
  exact ⟨key, ix1, ix2, o1, o2, e3, u1, u2⟩

theorem boxEntries_src {fi : Nat} {j : Nat} {gs : List ((Nat × Nat) × Option Rfc822)} {ms : List Msg} (h : BoxEntries fi j gs ms) :
    ∀ m ∈ ms, ∃ mi, m.src = .mbox fi mi := by
  induction h with
  | nil => intro m hm; cases hm
  | cons h1 _ ih =>
    intro m hm
    rcases List.mem_cons.1 hm with rfl | hm
    · exact ⟨_, h1.1⟩
    · exact ih m hm

theorem boxesDone_src {w : MboxWorld} {fi : Nat} {mbs mbs' : List Mbox} {ms : List Msg} {xs : List MsgWords}
    (h : BoxesDone w fi mbs mbs' ms xs) : ∀ m ∈ ms, ∃ fi mi, m.src = .mbox fi mi := by
  induction h with
  | nil => intro m hm; cases hm
  | cons h1 _ ih =>
    intro m hm
    rcases List.mem_append.1 hm with hm | hm
    · rcases h1 with ⟨_, _, rfl, _⟩ | ⟨_, _, _, gs, _, _, _, _, a, _⟩
      · cases hm
      · exact ⟨_, boxEntries_src a m hm⟩
    · exact ih m hm

/-- **C10.** An update leaves every message in its position, unchanged if it is still there and otherwise dead; behind
them come the entries for the listed places that are new, in order, and those for messages in mboxen. Thread numbers
are not compared here. What `stays` and `newPlaces` say of messages in mboxen depends on `mboxen`, the mboxen as
found on the disc (C30). No place is live twice. -/
theorem C10_update {hashfn : Nat → Text → Nat} {rs : List Run} {r : Run} {db0 db : Database} {b : Bool}
    (h : Updated hashfn rs r db0 db b) :
    ∃ l mboxen new box, l.Pairwise ListedBefore ∧ (∀ e, e ∈ l ↔ e ∈ r.listed) ∧
      db.msgs.map ({ · with tid := 0 }) =
        (db0.msgs.map (aged r.world r.fast l mboxen) ++ new ++ box).map ({ · with tid := 0 }) ∧
      Pairs (IsEntry r.world) (newPlaces r.world r.fast l mboxen db0.msgs) new ∧
      (∀ m ∈ box, ∃ fi mi, m.src = .mbox fi mi) ∧ (db.msgs.filterMap Place).Nodup := by
  obtain ⟨key, ix0, ix, h1, h2, e, h3, h4⟩ := updated_mem h
  have hr := h.sane r (by simp)
  obtain ⟨db1, e1, e⟩ := res_bind_ok e
  split at e
  case isFalse => cases e
  rename_i hsz
  have hse : SortedExtant (r.sortExtant r.extant) := by
    apply sortExtant_spec hr.sortExtant
    unfold buildMboxLists at e1
    cases hc : checkMboxDuplicates (r.sortExtant r.extant) with
    | false => rfl
    | true => rw [hc] at e1; cases e1
  obtain ⟨hsl, hpl⟩ := sortListed_spec hr.sortListed h.once
  obtain ⟨_, hm2, _⟩ := good_mboxLists h1.good h2 hse e1
  obtain ⟨db3, new, box, xs, ys, e3, hu, hg3, _, _⟩ := good_updateStep (w := r.world) (junk := r.junkMsg) (fast := r.fast)
    h1.good h2 hse hsl e1 (by
      rw [hpl.length_eq, ← hm2]
      exact hsz)
  rw [e3] at e
  cases e
  refine ⟨r.sortListed r.listed, db1.mboxen, new, box, hsl, fun _ => hpl.mem_iff, ?_, ?_, ?_, hg3.places⟩
  · have := hu.msgs
    rw [hm2] at this
    exact this
  · have := hu.new
    rw [hm2] at this
    exact this
  · exact boxesDone_src hu.box

/-! ## C12, C41: purging -/

theorem newIdx_after : ∀ (msgs : List Msg) (j i : Nat), ((buildNewIdx (keepMarks msgs) j)[i]?).join = (afterPurge msgs i).map (j + ·) := by
  intro msgs
  induction msgs with
  | nil => intro j i; simp [keepMarks, buildNewIdx, afterPurge]
  | cons m ms ih =>
    intro j i
    by_cases hd : m.src = .dead
    · simp only [keepMarks, List.map_cons, hd, ne_eq, not_true, decide_false, buildNewIdx]
      cases i with
      | zero => simp [afterPurge, hd]
      | succ i =>
        have := ih j i
        simp only [keepMarks] at this
        simp only [List.getElem?_cons_succ, this]
        simp [afterPurge, hd]
    · simp only [keepMarks, List.map_cons, hd, ne_eq, not_false_eq_true, decide_true, buildNewIdx]
      cases i with
      | zero => simp [afterPurge, hd]
      | succ i =>
        have := ih (j + 1) i
        simp only [keepMarks] at this
        simp only [List.getElem?_cons_succ, this]
        simp only [afterPurge, List.getElem?_cons_succ]
        split
        · split
          · rfl
          · simp [hd]; omega
        · rfl

theorem newIdxOf_after (msgs : List Msg) : newIdxOf (keepMarks msgs) = afterPurge msgs := by
  funext i
  have := newIdx_after msgs 0 i
  simp only [Nat.zero_add] at this
  rw [newIdxOf, this]
  cases afterPurge msgs i <;> rfl

theorem wordsPurged_of {hash hash' : Text → Nat} {msgs : List Msg} {t t' : Table Matches} {mail : Mail} (h : RepMail hash t mail)
    (hl : mail.length = msgs.length) (h' : RepMail hash' t' (keepOnly (keepMarks msgs) mail)) : WordsPurged msgs t t' := by
  have hk : (keepMarks msgs).length = mail.length := by simp [keepMarks, hl]
  intro w l'
  rw [h'.words.2]
  constructor
  · rintro ⟨h1, h2⟩
    refine ⟨h1, listing mail w, ?_, ?_⟩
    · rw [h.words.2]
      refine ⟨?_, listing_isListing mail w⟩
      intro hn
      rw [isListing_eq h2, listing_purge hk, hn] at h1
      exact h1 rfl
    · rw [isListing_eq h2, listing_purge hk, newIdxOf_after]
  · rintro ⟨h1, l, h2, rfl⟩
    refine ⟨h1, ?_⟩
    rw [isListing_eq ((h.words.2 w l).1 h2).2, ← newIdxOf_after, ← listing_purge hk]
    exact listing_isListing _ _

theorem idsPurged_of {hash hash' : Text → Nat} {msgs : List Msg} {t t' : Table Matches2} {mail : IdMail} (h : RepIds hash t mail)
    (hl : mail.length = msgs.length) (h' : RepIds hash' t' (keepOnly (keepMarks msgs) mail)) : IdsPurged msgs t t' := by
  have hk : ∀ f : List (Text × Bool) → List Text, (keepMarks msgs).length = (mail.map f).length := by simp [keepMarks, hl]
  intro w l' k'
  rw [h'.ids.2]
  simp only [idsMentioned, idsOwn, ← keepOnly_map]
  constructor
  · rintro ⟨h1, h2, h3⟩
    refine ⟨h1, listing (idsMentioned mail) w, listing (idsOwn mail) w, ?_, ?_, ?_⟩
    · rw [h.ids.2]
      refine ⟨?_, listing_isListing _ w, listing_isListing _ w⟩
      intro hn
      rw [isListing_eq h2, listing_purge (hk _)] at h1
      simp only [idsMentioned] at hn
      rw [hn] at h1
      exact h1 rfl
    · rw [isListing_eq h2, listing_purge (hk _), newIdxOf_after]; rfl
    · rw [isListing_eq h3, listing_purge (hk _), newIdxOf_after]; rfl
  · rintro ⟨h1, l, k, h2, rfl, rfl⟩
    refine ⟨h1, ?_, ?_⟩
    · rw [isListing_eq ((h.ids.2 w l k).1 h2).2.1, ← newIdxOf_after]
      simp only [idsMentioned]
      rw [← listing_purge (hk _)]
      exact listing_isListing _ _
    · rw [isListing_eq ((h.ids.2 w l k).1 h2).2.2, ← newIdxOf_after]
      simp only [idsOwn]
      rw [← listing_purge (hk _)]
      exact listing_isListing _ _

/-- **C12.** Purging an updated database succeeds (the loop that closes gaps in the tables ends), tells whether there
were dead messages, keeps the live messages in their order with date, flags and thread number, those in files of their own
and on IMAP servers with path, time and size and those in mboxen with mbox and position; and all tables list, for
every word, the messages listed before that are not dead, under their new numbers. -/
theorem C12_purge {hashfn : Nat → Text → Nat} {rs : List Run} {r : Run} {db0 db : Database} {b : Bool}
    (h : Updated hashfn rs r db0 db b) :
    ∃ fuel0, ∀ fuel ≥ fuel0, ∃ db' any, cullDeadMessages fuel db = .ok (db', any) ∧
      (any = true ↔ ∃ m ∈ db.msgs, m.src = .dead) ∧
      Pairs (SameMessage db.mboxen db'.mboxen) (db.msgs.filter fun m => decide (m.src ≠ .dead)) db'.msgs ∧
      WordsPurged db.msgs db.tables.to db'.tables.to ∧ WordsPurged db.msgs db.tables.cc db'.tables.cc ∧
      WordsPurged db.msgs db.tables.from db'.tables.from ∧ WordsPurged db.msgs db.tables.subject db'.tables.subject ∧
      WordsPurged db.msgs db.tables.body db'.tables.body ∧
      WordsPurged db.msgs db.tables.attachmentName db'.tables.attachmentName ∧
      IdsPurged db.msgs db.tables.msgIds db'.tables.msgIds := by
  obtain ⟨key, ix0, ix, _, _, _, h3, _⟩ := updated_mem h
  obtain ⟨fuel0, hf⟩ := cull_spec h3.good
  refine ⟨fuel0, fun fuel hge => ?_⟩
  obtain ⟨db', e, h1, h2, hg⟩ := hf fuel hge
  have hl : ∀ (β : Type) (g : MsgWords → β), (ix.map g).length = db.msgs.length := by intro β g; simp [h3.good.length]
  refine ⟨db', _, e, by simp, h1, ?_, ?_, ?_, ?_, ?_, ?_, ?_⟩
  · exact wordsPurged_of h3.good.rep.to (hl _ _) (by rw [keepOnly_map]; exact hg.rep.to)
  · exact wordsPurged_of h3.good.rep.cc (hl _ _) (by rw [keepOnly_map]; exact hg.rep.cc)
  · exact wordsPurged_of h3.good.rep.sender (hl _ _) (by rw [keepOnly_map]; exact hg.rep.sender)
  · exact wordsPurged_of h3.good.rep.subject (hl _ _) (by rw [keepOnly_map]; exact hg.rep.subject)
  · exact wordsPurged_of h3.good.rep.body (hl _ _) (by rw [keepOnly_map]; exact hg.rep.body)
  · exact wordsPurged_of h3.good.rep.attachment (hl _ _) (by rw [keepOnly_map]; exact hg.rep.attachment)
  · exact idsPurged_of h3.good.rep.ids (hl _ _) (by rw [keepOnly_map]; exact hg.rep.ids)

/-- **C41.** A purge that ends leaves exactly the mboxen that have a path, in their order, and every message in an
mbox refers to the same mbox and position as before. -/
theorem C41_mboxen {hashfn : Nat → Text → Nat} {rs : List Run} {r : Run} {db0 db db' : Database} {b any : Bool} {fuel : Nat}
    (h : Updated hashfn rs r db0 db b) (e : cullDeadMessages fuel db = .ok (db', any)) :
    db'.mboxen = db.mboxen.filter (·.path.isSome) ∧
      ∀ (i i' : Nat) m, db.msgs[i]? = some m → afterPurge db.msgs i = some i' → ∀ fi mi, m.src = .mbox fi mi →
        ∃ m' fi' mb p, db'.msgs[i']? = some m' ∧ m'.src = .mbox fi' mi ∧ db.mboxen[fi]? = some mb ∧
          db'.mboxen[fi']? = some mb ∧ mb.path = some p := by
  obtain ⟨key, ix0, ix, _, _, _, h3, _⟩ := updated_mem h
  obtain ⟨_, h1, h2, hg⟩ := cull_ok h3.good e
  refine ⟨h2, ?_⟩
  intro i i' m hm ha fi mi hs
  have hget : ∀ (ms : List Msg) (i i' : Nat) m, ms[i]? = some m → afterPurge ms i = some i' →
      (ms.filter fun m => decide (m.src ≠ .dead))[i']? = some m := by
    intro ms
    induction ms with
    | nil => intro i i' m h; simp at h
    | cons a ms ih =>
      intro i i' m h ha
      cases i with
      | zero =>
        simp only [List.getElem?_cons_zero, Option.some.injEq] at h
        subst h
        simp only [afterPurge, List.getElem?_cons_zero] at ha
        split at ha
        · cases ha
        · next hd =>
          simp only [List.take_zero, List.filter_nil, List.length_nil, Option.some.injEq] at ha
          subst ha
          simp [hd]
      | succ i =>
        simp only [List.getElem?_cons_succ] at h
        simp only [afterPurge, List.getElem?_cons_succ, h] at ha
        split at ha
        · cases ha
        · next hd =>
          have h1 : afterPurge ms i = some ((ms.take i).filter fun m => decide (m.src ≠ .dead)).length := by
            simp [afterPurge, h, hd]
          have := ih i _ m h h1
          by_cases hda : a.src = .dead
          · simp only [List.take_succ_cons, hda, ne_eq, not_true, decide_false, Bool.false_eq_true, not_false_eq_true,
              List.filter_cons_of_neg, Option.some.injEq] at ha ⊢
            subst ha
            exact this
          · simp only [List.take_succ_cons, hda, ne_eq, not_false_eq_true, decide_true, List.filter_cons_of_pos,
              List.length_cons, Option.some.injEq] at ha ⊢
            subst ha
            simpa using this
  obtain ⟨m', h4, h5⟩ := pairs_get h1 i' m (hget db.msgs i i' m hm ha)
  obtain ⟨_, _, _, _, _, h6⟩ := h5
  rw [hs] at h6
  obtain ⟨fi', mb, g1, g2, g3⟩ := h6
  have : mb ∈ db'.mboxen := List.mem_of_getElem? g3
  rw [h2, List.mem_filter] at this
  obtain ⟨p, hp⟩ := Option.isSome_iff_exists.1 this.2
  exact ⟨m', fi', mb, p, h4, g1, g2, g3, hp⟩

/-! ## C43: assertions never fail -/

/-- **C43.** The integrity checks make no difference: any sequence of runs ends the same with and without them. -/
theorem C43_checks (hashfn : Nat → Text → Nat) {rs : List Run} (hs : ∀ r ∈ rs, Sane r) :
    indexRuns hashfn rs none = indexRuns hashfn (rs.map fun r => { r with checks := false }) none :=
  indexRuns_unchecked rs [] (holds_none []) (by simp) hs

/-- **C43, all assertions (partial).** After any number of completed runs, a run completes or stops in one of these ways: it finds
duplicates or too many mboxen or messages in an mbox (exit code 1 or 2); the database would be too large for the
arithmetic of the program; or it uses the place of an mbox message that was never initialised (`C30_truncated_violation`).
In particular no assertion fails, no access is out of bounds and no loop runs forever. Missing: uninitialised values of
`highest` are taken to be 0 here, otherwise an assertion can fail when a database is loaded
(`C43_uninitialised_violation`). -/
theorem C43_no_crash_partial (hashfn : Nat → Text → Nat) {rs : List Run} {r : Run} {f : Option Text} (hs : ∀ r' ∈ rs ++ [r], Sane r')
    (e : indexRuns hashfn rs none = .ok f) (hj : ∀ w, r.junkHighest w = 0) :
    ∃ fuel0, ∀ fuel ≥ fuel0, (∃ f', indexRun hashfn { r with fuel := fuel } f = .ok f') ∨
      ∃ e, indexRun hashfn { r with fuel := fuel } f = .error e ∧ (e = .exit 1 ∨ e = .exit 2 ∨ e = .overflow ∨ e = .uninitialised) := by
  obtain ⟨db, ix, h, _⟩ := indexRuns_ok rs [] (holds_none []) (by simp) (fun r' h' => hs r' (by simp [h'])) e
  simp only [List.nil_append] at h
  exact indexRun_progress h (fun r' h' => hs r' (by simp [h'])) (hs r (by simp)) hj

end Mairix
