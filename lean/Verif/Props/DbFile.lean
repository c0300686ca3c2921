import Verif.Proofs.RunProgress
import Verif.Spec.Purge

/-!
# C13, C14, C37, C44: the database file
-/

namespace Mairix
open Spec

theorem finished_mem {hashfn : Nat → Text → Nat} {rs : List Run} {r : Run} {key : Nat} {db : Database}
    (h : Finished hashfn rs r key db) : ∃ ix, Mem (rs ++ [r]) (hashfn key) db ix := by
  obtain ⟨f, db0, db1, b, p, e1, e2, e3, e4⟩ := h.stages
  have hs : ∀ r' ∈ rs, Sane r' := fun r' h' => h.sane r' (by simp [h'])
  obtain ⟨db', ix1, h1, _⟩ := indexRuns_ok rs [] (holds_none []) (by simp) hs e1
  simp only [List.nil_append] at h1
  obtain ⟨o1, o2, _, _⟩ := open_ok h1 hs e2
  obtain ⟨ix2, u1, u2, _⟩ := update_ok o1 o2 (h.sane r (by simp)) hs h.once e3
  obtain ⟨ix3, p1, _⟩ := purge_ok u1 u2 (by simp) h.sane e4
  exact ⟨ix3, p1⟩

/-! ## C14: the layout of the file -/

/-- **C14.** For every database a run would write, the stores that make up the file do not overlap, lie inside the
file, and the last byte of the texts and lists stored is the last byte of the file: the length computed
beforehand is exactly the length used. -/
theorem C14_layout {hashfn : Nat → Text → Nat} {rs : List Run} {r : Run} {key : Nat} {db : Database}
    (h : Finished hashfn rs r key db) :
    ∃ ws, allWrites key db = .ok (ws, fileLength db) ∧ ws.Pairwise Apart ∧
      ∀ w ∈ ws, w.place.1 + w.place.2.length ≤ fileLength db := by
  obtain ⟨ix, hm⟩ := finished_mem h
  obtain ⟨ws, e, hs, _⟩ := allWrites_spec key (writable_of hm.good hm.paths)
  obtain ⟨h1, h2⟩ := apart_all hs
  exact ⟨_, e, h1, h2⟩

/-- **C14, writing.** Writing succeeds, whatever was in the file before, if the mbox numbers fit and the file is shorter than 2^31
bytes; the file then has the length computed. -/
theorem C14_write {hashfn : Nat → Text → Nat} {rs : List Run} {r : Run} {key : Nat} {db : Database}
    (h : Finished hashfn rs r key db) (hv : verifyMboxSizes db = true) (hl : fileLength db < 2 ^ 31) (old : Text) :
    ∃ d, writeDatabase key db old = .ok d ∧ d.length = fileLength db := by
  obtain ⟨ix, hm⟩ := finished_mem h
  obtain ⟨d, _, e, h1, _⟩ := writeDatabase_spec key old (writable_of hm.good hm.paths) hv hl
  exact ⟨d, e, h1⟩

/-! ## C13: what is written is read back -/

/-- The two tables have the same words with the same lists of messages. -/
def SameWords (t t' : Table Matches) : Prop := ∀ w l, (w, l) ∈ tableWords t' ↔ (w, l) ∈ tableWords t

/-- The same for the table of identifiers. -/
def SameIds (t t' : Table Matches2) : Prop := ∀ w l k, (w, l, k) ∈ tableIds t' ↔ (w, l, k) ∈ tableIds t

theorem sameWords_of {h h' : Text → Nat} {t t' : Table Matches} {mail : Mail} (r : RepMail h t mail) (r' : RepMail h' t' mail) :
    SameWords t t' := by
  intro w l
  rw [r.words.2, r'.words.2]

theorem sameIds_of {h h' : Text → Nat} {t t' : Table Matches2} {mail : IdMail} (r : RepIds h t mail) (r' : RepIds h' t' mail) :
    SameIds t t' := by
  intro w l k
  rw [r.ids.2, r'.ids.2]

/-- **C13, loading.** If a run writes its database, the file can be opened, and loading it gives the same messages with the
same kinds, paths, flags, times, sizes, dates and thread numbers (as far as they fit 32 bits), the same mboxen with
time, size, checksums and the places of the messages indexed, and the same words and identifiers with the same lists of
messages in all tables. Values never initialised are assumed to be small, see `C43_uninitialised_violation`. -/
theorem C13_load {hashfn : Nat → Text → Nat} {rs : List Run} {r : Run} {key : Nat} {db : Database} {old d : Text}
    (h : Finished hashfn rs r key db) (e : writeDatabase key db old = .ok d) (junk : Text → Nat)
    (hj : db.msgs ≠ [] → ∀ w, junk w < db.msgs.length) :
    ∃ raw db', openDb d = .ok raw ∧ raw.hashKey = key % 2 ^ 32 ∧ loadDatabase hashfn junk raw = .ok db' ∧
      Pairs SavedMsg db.msgs db'.msgs ∧ db'.mboxen.length = db.mboxen.length ∧
      (∀ (fi : Nat) mb, db.mboxen[fi]? = some mb → ∃ mb', db'.mboxen[fi]? = some mb' ∧
        SavedBox (boxIdx db.msgs fi).length mb mb') ∧
      SameWords db.tables.to db'.tables.to ∧ SameWords db.tables.cc db'.tables.cc ∧ SameWords db.tables.from db'.tables.from ∧
      SameWords db.tables.subject db'.tables.subject ∧ SameWords db.tables.body db'.tables.body ∧
      SameWords db.tables.attachmentName db'.tables.attachmentName ∧ SameIds db.tables.msgIds db'.tables.msgIds := by
  obtain ⟨ix, hm⟩ := finished_mem h
  obtain ⟨ws, hw⟩ := write_ok hm e
  obtain ⟨db', e', h1, h2, h3, h4, _⟩ := loadDatabase_spec hw (cstrings_of hm.good hm.words hm.paths) hm.paths.checks hm.good hashfn junk hj
  exact ⟨_, db', openDb_spec hw, rfl, e', h1, h2, h3, sameWords_of hm.good.rep.to h4.rep.to,
    sameWords_of hm.good.rep.cc h4.rep.cc, sameWords_of hm.good.rep.sender h4.rep.sender,
    sameWords_of hm.good.rep.subject h4.rep.subject, sameWords_of hm.good.rep.body h4.rep.body,
    sameWords_of hm.good.rep.attachment h4.rep.attachment, sameIds_of hm.good.rep.ids h4.rep.ids⟩

/-- The table in the opened file has the same words with the same lists. -/
def SameInFile (t : Table Matches) (t' : DbTable) : Prop :=
  t'.map (fun p => (p.1, readAll p.2)) = (tableWords t).map fun p => (some p.1, p.2)

/-- The same for the table of identifiers. -/
def SameIdsInFile (t : Table Matches2) (t' : DbTable2) : Prop :=
  t'.map (fun p => (p.1, readAll p.2.1, readAll p.2.2)) = (tableIds t).map fun p => (some p.1, p.2.1, p.2.2)

theorem sameInFile_of {hash : Text → Nat} {t : Table Matches} {mail : Mail} (hr : RepMail hash t mail) {bs : DbTable}
    (hp : Pairs TokStored (tokensOf t) bs) : SameInFile t bs := by
  have : ∀ (l : List (Entry Matches)) (bs : DbTable), Pairs TokStored l bs → (∀ e ∈ l, ∃ b, Valid e.data b) →
      bs.map (fun p => (p.1, readAll p.2)) = l.map fun e => (some e.text, readAll e.data.bytes) := by
    intro l bs h
    induction h with
    | nil => intro _; rfl
    | @cons e b l bs h1 _ ih =>
      intro hv
      obtain ⟨h2, rest, h3⟩ := h1
      obtain ⟨v, hv1⟩ := hv e (by simp)
      rw [List.map_cons, List.map_cons, ih (fun e he => hv e (by simp [he])), h2, h3, valid_readAll_file hv1, valid_readAll hv1]
  rw [SameInFile, tableWords, List.map_map, this _ _ hp (fun e he => ?_)]
  · rfl
  · obtain ⟨b, _, hv⟩ := hr.sound e he
    exact ⟨b, hv⟩

theorem sameIdsInFile_of {hash : Text → Nat} {t : Table Matches2} {mail : IdMail} (hr : RepIds hash t mail) {bs : DbTable2}
    (hp : Pairs Tok2Stored (tokensOf t) bs) : SameIdsInFile t bs := by
  have : ∀ (l : List (Entry Matches2)) (bs : DbTable2), Pairs Tok2Stored l bs →
      (∀ e ∈ l, (∃ b, Valid e.data.match0 b) ∧ ∃ b, Valid e.data.match1 b) →
      bs.map (fun p => (p.1, readAll p.2.1, readAll p.2.2)) =
        l.map fun e => (some e.text, readAll e.data.match0.bytes, readAll e.data.match1.bytes) := by
    intro l bs h
    induction h with
    | nil => intro _; rfl
    | @cons e b l bs h1 _ ih =>
      intro hv
      obtain ⟨h2, ⟨rest, h3⟩, rest', h4⟩ := h1
      obtain ⟨⟨v, hv1⟩, v', hv2⟩ := hv e (by simp)
      rw [List.map_cons, List.map_cons, ih (fun e he => hv e (by simp [he])), h2, h3, h4, valid_readAll_file hv1, valid_readAll hv1,
        valid_readAll_file hv2, valid_readAll hv2]
  rw [SameIdsInFile, tableIds, List.map_map, this _ _ hp (fun e he => ?_)]
  · rfl
  · obtain ⟨b, _, hv⟩ := hr.sound e he
    exact ⟨⟨_, hv.1⟩, _, hv.2⟩

/-- **C13, searching.** If a run writes its database, the file can be opened, and all that a search can look at is what was
written: kinds, flags, paths, sizes, dates and thread numbers of the messages, the paths of the mboxen, and in every
table the words or identifiers with their lists of messages. -/
theorem C13_search {hashfn : Nat → Text → Nat} {rs : List Run} {r : Run} {key : Nat} {db : Database} {old d : Text}
    (h : Finished hashfn rs r key db) (e : writeDatabase key db old = .ok d) :
    ∃ raw view, openDb d = .ok raw ∧ viewDb raw = .ok view ∧ Pairs (MsgStored db.mboxen) db.msgs view.msgs ∧
      Pairs (fun mb p => ∀ q, mb.path = some q → p = q) db.mboxen view.mboxPaths ∧
      SameInFile db.tables.to view.to ∧ SameInFile db.tables.cc view.cc ∧ SameInFile db.tables.from view.from ∧
      SameInFile db.tables.subject view.subject ∧ SameInFile db.tables.body view.body ∧
      SameInFile db.tables.attachmentName view.attachmentName ∧ SameIdsInFile db.tables.msgIds view.msgIds := by
  obtain ⟨ix, hm⟩ := finished_mem h
  obtain ⟨ws, hw⟩ := write_ok hm e
  have hc := cstrings_of hm.good hm.words hm.paths
  have hg := hm.good
  obtain ⟨s0, _⟩ := table_small hw.small
  obtain ⟨xs, e1, p1⟩ := rdMsgs_spec hw hc
  obtain ⟨ps, e2, p2⟩ := rdMboxPaths_spec hw hc
  obtain ⟨b1, t1, q1⟩ := rdTokens_spec hw hw.file.to hc.to hg.rep.to.ok.n_eq.symm
  obtain ⟨b2, t2, q2⟩ := rdTokens_spec hw hw.file.cc hc.cc hg.rep.cc.ok.n_eq.symm
  obtain ⟨b3, t3, q3⟩ := rdTokens_spec hw hw.file.sender hc.sender hg.rep.sender.ok.n_eq.symm
  obtain ⟨b4, t4, q4⟩ := rdTokens_spec hw hw.file.subject hc.subject hg.rep.subject.ok.n_eq.symm
  obtain ⟨b5, t5, q5⟩ := rdTokens_spec hw hw.file.body hc.body hg.rep.body.ok.n_eq.symm
  obtain ⟨b6, t6, q6⟩ := rdTokens_spec hw hw.file.attachment hc.attachment hg.rep.attachment.ok.n_eq.symm
  obtain ⟨b7, t7, q7⟩ := rdTokens2_spec hw hw.file.ids hc.ids hg.rep.ids.ok.n_eq.symm
  refine ⟨_, ⟨xs, ps, b1, b2, b3, b4, b5, b6, b7⟩, openDb_spec hw, ?_, p1, p2, sameInFile_of hg.rep.to q1, sameInFile_of hg.rep.cc q2, sameInFile_of hg.rep.sender q3,
    sameInFile_of hg.rep.subject q4, sameInFile_of hg.rep.body q5, sameInFile_of hg.rep.attachment q6, sameIdsInFile_of hg.rep.ids q7⟩
  have hn : (rawOf key db d).nMsgs = db.msgs.length := rfl
  have hn' : (rawOf key db d).nMboxen = db.mboxen.length := rfl
  simp only [viewDb, hn, hn', loopBound_lt s0, e1, e2, bind, Except.bind]
  simp only [rawOf, t1, t2, t3, t4, t5, t6, t7]

/-! ## C44: numbers of mboxen and of messages in them -/

/-- **C44.** The number of an mbox and of a message in it are read back as written, wherever they are in the file, if the
database passes the check of its sizes. -/
theorem C44_indices {db : Database} (hv : verifyMboxSizes db = true) {fi mi : Nat} {mb : Mbox} (hf : db.mboxen[fi]? = some mb)
    (hm : mi < mb.msgs.length) (a b : Text) :
    decodeMboxIndices (a ++ encodeMboxIndices fi mi ++ b) a.length = .ok (fi, mi) := by
  simp only [verifyMboxSizes, Bool.and_eq_true, decide_eq_true_eq, List.all_eq_true] at hv
  have h1 := (List.getElem?_eq_some_iff.1 hf).1
  have h2 := hv.2 mb (List.mem_of_getElem? hf)
  have h3 := hv.1
  have hg : ∀ k, (a ++ encodeMboxIndices fi mi ++ b)[a.length + k]? = (encodeMboxIndices fi mi ++ b)[k]? := by
    intro k
    rw [List.append_assoc, List.getElem?_append_right (by omega)]
    congr 1
    omega
  have e0 := hg 0
  rw [Nat.add_zero] at e0
  unfold decodeMboxIndices rd32At
  simp only [Nat.add_assoc, Nat.reduceAdd]
  rw [e0, hg 1, hg 2, hg 3, hg 4, hg 5, hg 6, hg 7]
  simp only [encodeMboxIndices, le32, List.cons_append, List.nil_append, List.getElem?_cons_zero, List.getElem?_cons_succ, bind,
    Except.bind, UInt8.toNat_ofNat']
  congr 2 <;> omega

example : decodeMboxIndices (bs "xy" ++ encodeMboxIndices 70000 3 ++ bs "z") 2 = .ok (70000, 3) := by decide +kernel

/-! ## C37: a corrupt file -/

theorem opened_getTable {data : Text} {k n off : Nat} (e : getTable data k n = .ok off) :
    (off + n) % 4294967296 ≤ data.length / 4 := by
  unfold getTable at e
  obtain ⟨o, _, e⟩ := res_bind_ok e
  split at e
  · cases e
  · cases e; omega

theorem fitsFile_ok {data : Text} {off n : Nat} {u : Unit} (e : fitsFile data off n = .ok u) : 4 * (off + n) ≤ data.length := by
  unfold fitsFile at e
  split at e
  · cases e
  · omega

/-- A table of words lies inside the file. -/
def InsideFile (data : Text) (t : RawTable) : Prop := 4 * (t.tok + t.n) ≤ data.length ∧ 4 * (t.enc + t.n) ≤ data.length

theorem opened_readTable {data : Text} {k : Nat} {t : RawTable} (e : readTable data k = .ok t) : InsideFile data t := by
  unfold readTable at e
  obtain ⟨n, _, e⟩ := res_bind_ok e
  obtain ⟨tok, _, e⟩ := res_bind_ok e
  obtain ⟨_, h1, e⟩ := res_bind_ok e
  obtain ⟨enc, _, e⟩ := res_bind_ok e
  obtain ⟨_, h2, e⟩ := res_bind_ok e
  cases e
  exact ⟨fitsFile_ok h1, fitsFile_ok h2⟩

theorem opened_readTable2 {data : Text} {k : Nat} {t : RawTable2} (e : readTable2 data k = .ok t) :
    4 * (t.tok + t.n) ≤ data.length ∧ 4 * (t.enc0 + t.n) ≤ data.length ∧ 4 * (t.enc1 + t.n) ≤ data.length := by
  unfold readTable2 at e
  obtain ⟨n, _, e⟩ := res_bind_ok e
  obtain ⟨tok, _, e⟩ := res_bind_ok e
  obtain ⟨_, h1, e⟩ := res_bind_ok e
  obtain ⟨enc, _, e⟩ := res_bind_ok e
  obtain ⟨_, h2, e⟩ := res_bind_ok e
  obtain ⟨enc', _, e⟩ := res_bind_ok e
  obtain ⟨_, h3, e⟩ := res_bind_ok e
  cases e
  exact ⟨fitsFile_ok h1, fitsFile_ok h2, fitsFile_ok h3⟩

/-- A table with one number for each of `n` messages or mboxen lies inside the file, or its end is beyond what 32 bits
can express. -/
def InsideOrWraps (data : Text) (n off : Nat) : Prop := 4 * (off + n) ≤ data.length ∨ 2 ^ 32 ≤ off + n

theorem insideOrWraps_of {data : Text} {k n off : Nat} (e : getTable data k n = .ok off) : InsideOrWraps data n off := by
  have := opened_getTable e
  unfold InsideOrWraps
  omega

theorem opened_raw {data : Text} {raw : RawDb} (e : openDb data = .ok raw) :
    raw.data = data ∧ 160 ≤ data.length ∧ data.length < 2 ^ 31 ∧
    (∀ off ∈ [raw.path, raw.mtime, raw.size, raw.date, raw.tid], InsideOrWraps data raw.nMsgs off) ∧
    (∀ off ∈ [raw.mboxPaths, raw.mboxEntries, raw.mboxMtime, raw.mboxSize, raw.mboxChecksum], InsideOrWraps data raw.nMboxen off) ∧
    (∀ t ∈ [raw.to, raw.cc, raw.from, raw.subject, raw.body, raw.attachmentName], InsideFile data t) ∧
    4 * (raw.msgIds.tok + raw.msgIds.n) ≤ data.length ∧ 4 * (raw.msgIds.enc0 + raw.msgIds.n) ≤ data.length ∧
    4 * (raw.msgIds.enc1 + raw.msgIds.n) ≤ data.length := by
  unfold openDb at e
  dsimp only at e
  split at e
  · cases e
  rename_i h0
  obtain ⟨_, _, e⟩ := res_bind_ok e
  obtain ⟨_, h1, e⟩ := res_bind_ok e
  obtain ⟨_, _, e⟩ := res_bind_ok e
  obtain ⟨_, _, e⟩ := res_bind_ok e
  obtain ⟨_, _, e⟩ := res_bind_ok e
  obtain ⟨nMsgs, _, e⟩ := res_bind_ok e
  obtain ⟨types, _, e⟩ := res_bind_ok e
  obtain ⟨path, m1, e⟩ := res_bind_ok e
  obtain ⟨mtime, m2, e⟩ := res_bind_ok e
  obtain ⟨size, m3, e⟩ := res_bind_ok e
  obtain ⟨date, m4, e⟩ := res_bind_ok e
  obtain ⟨tid, m5, e⟩ := res_bind_ok e
  obtain ⟨nMboxen, _, e⟩ := res_bind_ok e
  obtain ⟨mboxPaths, n1, e⟩ := res_bind_ok e
  obtain ⟨mboxEntries, n2, e⟩ := res_bind_ok e
  obtain ⟨mboxMtime, n3, e⟩ := res_bind_ok e
  obtain ⟨mboxSize, n4, e⟩ := res_bind_ok e
  obtain ⟨mboxChecksum, n5, e⟩ := res_bind_ok e
  obtain ⟨hashKey, _, e⟩ := res_bind_ok e
  obtain ⟨t1, k1, e⟩ := res_bind_ok e
  obtain ⟨t2, k2, e⟩ := res_bind_ok e
  obtain ⟨t3, k3, e⟩ := res_bind_ok e
  obtain ⟨t4, k4, e⟩ := res_bind_ok e
  obtain ⟨t5, k5, e⟩ := res_bind_ok e
  obtain ⟨t6, k6, e⟩ := res_bind_ok e
  obtain ⟨t7, k7, e⟩ := res_bind_ok e
  cases e
  refine ⟨rfl, ?_, ?_, ?_, ?_, ?_, opened_readTable2 k7⟩
  · unfold require at h1
    split at h1
    · next h => simpa using h
    · cases h1
  · omega
  · intro off ho
    simp only [List.mem_cons, List.not_mem_nil, or_false] at ho
    rcases ho with rfl | rfl | rfl | rfl | rfl
    · exact insideOrWraps_of m1
    · exact insideOrWraps_of m2
    · exact insideOrWraps_of m3
    · exact insideOrWraps_of m4
    · exact insideOrWraps_of m5
  · intro off ho
    simp only [List.mem_cons, List.not_mem_nil, or_false] at ho
    rcases ho with rfl | rfl | rfl | rfl | rfl
    · exact insideOrWraps_of n1
    · exact insideOrWraps_of n2
    · exact insideOrWraps_of n3
    · exact insideOrWraps_of n4
    · exact insideOrWraps_of n5
  · intro t ht
    simp only [List.mem_cons, List.not_mem_nil, or_false] at ht
    rcases ht with rfl | rfl | rfl | rfl | rfl | rfl
    · exact opened_readTable k1
    · exact opened_readTable k2
    · exact opened_readTable k3
    · exact opened_readTable k4
    · exact opened_readTable k5
    · exact opened_readTable k6

theorem rounds_all {α : Type} {f : Nat → Res α} : ∀ (k i : Nat), (∀ j, i ≤ j → j < i + k → ∃ a, f j = .ok a) → ∃ as, rounds f i k = .ok as := by
  intro k
  induction k with
  | zero => intro i _; exact ⟨[], rfl⟩
  | succ k ih =>
    intro i h
    obtain ⟨a, ha⟩ := h i (by omega) (by omega)
    obtain ⟨as, has⟩ := ih (i + 1) (fun j h1 h2 => h j (by omega) (by omega))
    exact ⟨a :: as, by simp only [rounds, ha, has, bind, Except.bind]⟩

theorem rdTokens_all {data : Text} {t : RawTable} (h : InsideFile data t) : ∃ as, rounds (rdToken data t) 0 t.n = .ok as := by
  apply rounds_all
  intro j _ hj
  obtain ⟨h1, h2⟩ := h
  obtain ⟨a, ha⟩ := rd32_inside (d := data) (k := t.tok + j) (by omega)
  obtain ⟨b, hb⟩ := rd32_inside (d := data) (k := t.enc + j) (by omega)
  exact ⟨_, by simp only [rdToken, ha, hb, bind, Except.bind]; rfl⟩

/-- **C37 (partial).** If a file, whatever its contents, is accepted as a database then the tables of words lie inside the file,
and so do the tables of messages and mboxen unless their end is beyond what 32 bits can express. Missing: this
exception (`C37_wrap_violation`), the table of types (`C37_types_violation`) and the paths of the messages
(`C37_path_violation`). -/
theorem C37_tables_partial {data : Text} {raw : RawDb} (e : openDb data = .ok raw) :
    (∀ off ∈ [raw.path, raw.mtime, raw.size, raw.date, raw.tid], InsideOrWraps data raw.nMsgs off) ∧
    (∀ off ∈ [raw.mboxPaths, raw.mboxEntries, raw.mboxMtime, raw.mboxSize, raw.mboxChecksum], InsideOrWraps data raw.nMboxen off) ∧
    (∀ t ∈ [raw.to, raw.cc, raw.from, raw.subject, raw.body, raw.attachmentName], InsideFile data t) ∧
    4 * (raw.msgIds.tok + raw.msgIds.n) ≤ data.length ∧ 4 * (raw.msgIds.enc0 + raw.msgIds.n) ≤ data.length ∧
    4 * (raw.msgIds.enc1 + raw.msgIds.n) ≤ data.length :=
  (opened_raw e).2.2.2

/-- What `open_db` does not check: counts and offsets so large that their sum does not fit 32 bits, the table of types,
and the paths (which must end inside the file) or mbox numbers of the messages. -/
structure Unchecked (data : Text) (raw : RawDb) : Prop where
  msgs : ∀ off ∈ [raw.path, raw.mtime, raw.size, raw.date, raw.tid], off + raw.nMsgs < 2 ^ 32
  boxes : raw.mboxPaths + raw.nMboxen < 2 ^ 32
  types : raw.types + raw.nMsgs ≤ data.length
  paths : ∀ i, i < raw.nMsgs → ∀ off, rd32 data (raw.path + i) = .ok off → off + 8 ≤ data.length ∧ 0 ∈ data.drop off

/-- **C37, searching (partial).** A search in a file accepted never reads outside the file if what is not checked is right. -/
theorem C37_search_partial {data : Text} {raw : RawDb} (e : openDb data = .ok raw) (hu : Unchecked data raw) :
    ∃ view, viewDb raw = .ok view := by
  obtain ⟨rfl, _, _, h1, h2, h3, h4, h5, h6⟩ := opened_raw e
  have hin : ∀ off ∈ [raw.path, raw.mtime, raw.size, raw.date, raw.tid], ∀ i, i < raw.nMsgs → ∃ v, rd32 raw.data (off + i) = .ok v := by
    intro off ho i hi
    apply rd32_inside
    have a := h1 off ho
    have b := hu.msgs off ho
    unfold InsideOrWraps at a
    omega
  obtain ⟨ms, e1⟩ := rounds_all (f := rdMsg raw) (loopBound raw.nMsgs) 0 (by
    intro i _ hi
    have hi : i < raw.nMsgs := by
      unfold loopBound at hi
      split at hi <;> omega
    have ht := hu.types
    obtain ⟨o, ho⟩ := hin raw.path (by simp) i hi
    obtain ⟨v1, k1⟩ := hin raw.mtime (by simp) i hi
    obtain ⟨v2, k2⟩ := hin raw.size (by simp) i hi
    obtain ⟨v3, k3⟩ := hin raw.date (by simp) i hi
    obtain ⟨v4, k4⟩ := hin raw.tid (by simp) i hi
    obtain ⟨p1, p2⟩ := hu.paths i hi o ho
    have hb : rdByte raw.data (raw.types + i) = .ok raw.data[raw.types + i] := by
      simp only [rdByte, List.getElem?_eq_getElem (show raw.types + i < raw.data.length by omega)]
    have hp : ∀ ty, ∃ x, pathOrIndices raw.data ty o = .ok x := by
      intro ty
      unfold pathOrIndices
      split
      · exact ⟨_, by simp only [cstrAt, tokenAt, p2, if_true, bind, Except.bind]; rfl⟩
      · split
        · exact ⟨_, by
            simp only [decodeMboxIndices, rd32At, List.getElem?_eq_getElem (show o < raw.data.length by omega),
              List.getElem?_eq_getElem (show o + 1 < raw.data.length by omega), List.getElem?_eq_getElem (show o + 2 < raw.data.length by omega),
              List.getElem?_eq_getElem (show o + 3 < raw.data.length by omega), List.getElem?_eq_getElem (show o + 4 < raw.data.length by omega),
              List.getElem?_eq_getElem (show o + 4 + 1 < raw.data.length by omega), List.getElem?_eq_getElem (show o + 4 + 2 < raw.data.length by omega),
              List.getElem?_eq_getElem (show o + 4 + 3 < raw.data.length by omega), bind, Except.bind]
            rfl⟩
        · exact ⟨_, rfl⟩
    obtain ⟨x, hx⟩ := hp (raw.data[raw.types + i] &&& 0x7)
    exact ⟨_, by simp only [rdMsg, hb, ho, hx, k1, k2, k3, k4, bind, Except.bind]; rfl⟩)
  obtain ⟨ps, e2⟩ := rounds_all (f := rdMboxPath raw) raw.nMboxen 0 (by
    intro i _ hi
    have a := h2 raw.mboxPaths (by simp)
    have b := hu.boxes
    unfold InsideOrWraps at a
    obtain ⟨v, hv⟩ := rd32_inside (d := raw.data) (k := raw.mboxPaths + i) (by omega)
    exact ⟨_, by simp only [rdMboxPath, hv, bind, Except.bind]; rfl⟩)
  obtain ⟨b1, q1⟩ := rdTokens_all (h3 raw.to (by simp))
  obtain ⟨b2, q2⟩ := rdTokens_all (h3 raw.cc (by simp))
  obtain ⟨b3, q3⟩ := rdTokens_all (h3 raw.from (by simp))
  obtain ⟨b4, q4⟩ := rdTokens_all (h3 raw.subject (by simp))
  obtain ⟨b5, q5⟩ := rdTokens_all (h3 raw.body (by simp))
  obtain ⟨b6, q6⟩ := rdTokens_all (h3 raw.attachmentName (by simp))
  obtain ⟨b7, q7⟩ := rounds_all (f := rdToken2 raw.data raw.msgIds) raw.msgIds.n 0 (by
    intro j _ hj
    obtain ⟨a, ha⟩ := rd32_inside (d := raw.data) (k := raw.msgIds.tok + j) (by omega)
    obtain ⟨b, hb⟩ := rd32_inside (d := raw.data) (k := raw.msgIds.enc0 + j) (by omega)
    obtain ⟨c, hc⟩ := rd32_inside (d := raw.data) (k := raw.msgIds.enc1 + j) (by omega)
    exact ⟨_, by simp only [rdToken2, ha, hb, hc, bind, Except.bind]; rfl⟩)
  exact ⟨_, by simp only [viewDb, e1, e2, q1, q2, q3, q4, q5, q6, q7, bind, Except.bind]; rfl⟩

/-- A file of 160 bytes: the header of a database, with the first word, the number of messages, the offset of their types and of
their paths as given, and all else 0. -/
def exHeader (magic nMsgs types paths : Nat) : Text :=
  ([magic, 0x44332211, nMsgs, types, paths] ++ List.replicate 35 0).flatMap le32

/-- The file is accepted and its messages can be read. -/
def exRead (d : Text) : Res (List Nat) := do
  let raw ← openDb d
  let view ← viewDb raw
  .ok (view.msgs.map (·.size))

/-- The hypotheses of the theorems above are met by an accepted file with two messages, which are all in the header. -/
example : exRead (exHeader 0x04a5584d 2 20 4) = .ok [0x04a5584d, 0x44332211] := by decide +kernel

/-- Files that are refused: wrong magic number, too short, tables that leave the file. -/
example : exRead (exHeader 0 2 20 4) = .error (.exit 2) ∧ exRead ((exHeader 0x04a5584d 2 20 4).take 159) = .error (.exit 2) ∧
    exRead (exHeader 0x04a5584d 50 20 4) = .error (.exit 2) ∧ exRead (exHeader 0x04a5584d 2 20 39) = .error (.exit 2) := by decide +kernel

/-- **C37 is false:** the sum of the offset and the number of paths is computed with 32 bits, so that a file is accepted
whose table of paths is outside it. -/
theorem C37_wrap_violation : (openDb (exHeader 0x04a5584d 2 20 0xfffffffe)).isOk = true ∧
    exRead (exHeader 0x04a5584d 2 20 0xfffffffe) = .error .outOfBounds := by decide +kernel

/-- **C37 is false:** the table of types is not checked. -/
theorem C37_types_violation : (openDb (exHeader 0x04a5584d 2 160 4)).isOk = true ∧
    exRead (exHeader 0x04a5584d 2 160 4) = .error .outOfBounds := by decide +kernel

/-- **C37 is false:** the offsets of paths are not checked: here the first path is said to be where the second word of the file,
taken as a number, points. -/
theorem C37_path_violation : (openDb (exHeader 0x04a5584d 1 8 1)).isOk = true ∧
    exRead (exHeader 0x04a5584d 1 8 1) = .error .outOfBounds := by decide +kernel

/-- **C37 is false of the magic number:** one of its first three bytes is enough. -/
theorem C37_magic_violation : (openDb (exHeader 0x0400004d 0 0 0)).isOk = true ∧ (openDb (exHeader 0x04005800 0 0 0)).isOk = true ∧
    (openDb (exHeader 0x04a50000 0 0 0)).isOk = true ∧ (openDb (exHeader 0x04000000 0 0 0)).isOk = false := by decide +kernel

end Mairix
