import Verif.Proofs.Output
import Verif.Props.Mbox
import Verif.Props.Search

/-!
# C23, C39, C48, C49, C50: what a search writes
-/

namespace Mairix
open Spec

/-! ## C23: flags in names -/

/-- **C23, reading.** The flags of a maildir message are exactly the letters F, R and S behind the last `:2,` of its name. -/
theorem C23_read (path : Text) :
    ((scanMaildirFlags path).1 = true ↔ MaildirFlag 0x46 path) ∧
    ((scanMaildirFlags path).2.1 = true ↔ MaildirFlag 0x52 path) ∧
    ((scanMaildirFlags path).2.2 = true ↔ MaildirFlag 0x53 path) := scanMaildirFlags_spec path

/-- **C23, writing.** The name made for a result, in a folder without a colon in its name, has exactly the flags of the
message. -/
theorem C23_link {dir : Text} (hd : 0x3a ∉ dir) {i : Nat} (hi : i < 2 ^ 31) {m : DbMsg}
    (hm : m.type = DB_MSG_FILE ∨ m.type = DB_MSG_IMAP ∨ m.type = DB_MSG_MBOX) :
    ∃ name, maildirName dir i m = .ok (some name) ∧
      (MaildirFlag 0x53 name ↔ m.typeAndFlags &&& FLAG_SEEN ≠ 0) ∧
      (MaildirFlag 0x52 name ↔ m.typeAndFlags &&& FLAG_REPLIED ≠ 0) ∧
      (MaildirFlag 0x46 name ↔ m.typeAndFlags &&& FLAG_FLAGGED ≠ 0) := by
  obtain ⟨new, e⟩ := maildirName_ok hi dir m hm
  refine ⟨_, e, ?_⟩
  have hmid : (0x3a : UInt8) ∉ (if new then bs "/new/" else bs "/cur/") ++ (bs "123456789." ++ (digits i ++ bs ".mairix")) := by
    have h1 : (0x3a : UInt8) ∉ digits i := fun h => by have := isDigit_digits h; revert this; decide
    have h2 : (0x3a : UInt8) ∉ (if new then bs "/new/" else bs "/cur/") := by cases new <;> decide
    have h3 : (0x3a : UInt8) ∉ bs "123456789." := by decide
    have h4 : (0x3a : UInt8) ∉ bs ".mairix" := by decide
    simp only [List.mem_append, not_or]
    exact ⟨h2, h3, h1, h4⟩
  have hs := scan_name hd hmid (flagsOf m).1 (flagsOf m).2.1 (flagsOf m).2.2
  simp only [List.append_assoc] at hs
  obtain ⟨a, b, c⟩ := scanMaildirFlags_spec (dir ++ ((if new then bs "/new/" else bs "/cur/") ++ (bs "123456789." ++ (digits i ++ (bs ".mairix" ++
        if (flagsOf m).1 || (flagsOf m).2.1 || (flagsOf m).2.2 then bs ":2," ++ flagLetters (flagsOf m).1 (flagsOf m).2.1 (flagsOf m).2.2 else [])))))
  rw [hs] at a b c
  refine ⟨c.symm.trans ?_, b.symm.trans ?_, a.symm.trans ?_⟩ <;> simp [flagsOf]

/-- **C23, new or old.** The link to a file is made in `new` iff the file is in a directory `new`. -/
theorem C23_new (path : Text) :
    looksLikeMaildirNew path = true ↔ ∃ pre name, pre ≠ [] ∧ path = pre ++ bs "/new/" ++ name ∧ 0x2f ∉ name :=
  looksLikeMaildirNew_iff

/-- A seen and flagged message, in the folder `/m/res`. -/
example : maildirName (bs "/m/res") 17 { typeAndFlags := 1 + 8 + 32, path := bs "/m/in/new/5.x", mbix := 0, msgix := 0, mtime := 0, size := 0, date := 0, tid := 0 }
    = .ok (some (bs "/m/res/new/123456789.17.mairix:2,FS")) ∧ (0x3a : UInt8) ∉ bs "/m/res" := by decide +kernel

/-! ## C48: names are different -/

/-- A message that is neither dead nor of an unknown kind. -/
def KnownKind (m : DbMsg) : Prop := m.type = DB_MSG_FILE ∨ m.type = DB_MSG_IMAP ∨ m.type = DB_MSG_MBOX

theorem maildirName_inj {dir : Text} {i j : Nat} (hi : i < 2 ^ 31) (hj : j < 2 ^ 31) {m m' : DbMsg} {t : Text}
    (h : maildirName dir i m = .ok (some t)) (h' : maildirName dir j m' = .ok (some t)) : i = j := by
  have known : ∀ {i m t}, maildirName dir i m = .ok (some t) → KnownKind m := by
    intro i m t h
    unfold maildirName at h
    unfold KnownKind
    dsimp only at h
    split at h
    · next e => exact .inl e
    split at h
    · next e => exact .inr (.inl e)
    split at h
    · next e => exact .inr (.inr e)
    · cases h
  obtain ⟨new, e⟩ := maildirName_ok hi dir m (known h)
  obtain ⟨new', e'⟩ := maildirName_ok hj dir m' (known h')
  rw [h] at e
  rw [h'] at e'
  have hh := (Option.some.inj (Except.ok.inj e)).symm.trans (Option.some.inj (Except.ok.inj e'))
  have hh := List.append_cancel_left hh
  have hl : ∀ b : Bool, (if b then bs "/new/" else bs "/cur/").length = 5 := by decide
  have hh := (List.append_inj hh ((hl new).trans (hl new').symm)).2
  have hh := List.append_cancel_left hh
  rw [show bs ".mairix" = 0x2e :: bs "mairix" from by decide, List.cons_append, List.cons_append] at hh
  exact digits_inj_append (by decide) hh

/-- **C48, maildir.** If the results are messages of the database, each once, and their numbers fit an `int`, then for every
result a name is made, no two names are the same and no buffer is overrun. -/
theorem C48_maildir {dir : Text} {db : ReadDb} (hn : db.msgs.length ≤ 2 ^ 31) {r : List Nat} (hnd : r.Nodup)
    (hr : ∀ i ∈ r, ∃ m, db.msgs[i]? = some m ∧ KnownKind m) :
    ∃ names : List Text, maildirNames dir db r = .ok (names.map some) ∧ names.length = r.length ∧ names.Nodup := by
  have key : ∀ r : List Nat, (∀ i ∈ r, ∃ m, db.msgs[i]? = some m ∧ KnownKind m) → r.Nodup →
      ∃ names : List Text, maildirNames dir db r = .ok (names.map some) ∧ names.length = r.length ∧ names.Nodup ∧
        ∀ t ∈ names, ∃ i ∈ r, ∃ m, maildirName dir i m = .ok (some t) := by
    intro r
    induction r with
    | nil => intro _ _; exact ⟨[], rfl, rfl, List.nodup_nil, by simp⟩
    | cons i r ih =>
      intro hr hnd
      obtain ⟨m, hm, hk⟩ := hr i (by simp)
      obtain ⟨names, e, hl, hnn, hall⟩ := ih (fun j hj => hr j (by simp [hj])) (List.nodup_cons.1 hnd).2
      have hi : i < 2 ^ 31 := by have := (List.getElem?_eq_some_iff.1 hm).1; omega
      obtain ⟨new, e1⟩ := maildirName_ok hi dir m hk
      generalize hname : dir ++ _ = name at e1
      refine ⟨name :: names, ?_, by rw [List.length_cons, hl, List.length_cons], List.nodup_cons.2 ⟨?_, hnn⟩, ?_⟩
      · simp only [maildirNames, hm, e1, e, bind, Except.bind]
        rfl
      · intro hmem
        obtain ⟨j, hj, m', e2⟩ := hall _ hmem
        obtain ⟨m2, hm2, _⟩ := hr j (by simp [hj])
        have hjl : j < 2 ^ 31 := by have := (List.getElem?_eq_some_iff.1 hm2).1; omega
        have := maildirName_inj hi hjl e1 e2
        subst this
        exact (List.nodup_cons.1 hnd).1 hj
      · intro t ht
        rcases List.mem_cons.1 ht with rfl | ht
        · exact ⟨i, by simp, m, e1⟩
        · obtain ⟨j, hj, h⟩ := hall t ht
          exact ⟨j, by simp [hj], h⟩
  obtain ⟨names, h1, h2, h3, _⟩ := key r hr hnd
  exact ⟨names, h1, h2, h3⟩

/-- **C48, MH.** The results get the names `1`, `2`, and so on. -/
theorem C48_mh {dir : Text} {db : ReadDb} {r : List Nat} (hn : r.length < 2 ^ 31)
    (hr : ∀ i ∈ r, ∃ m, db.msgs[i]? = some m ∧ KnownKind m) :
    ∃ names : List Text, mhNames dir db 0 r = .ok (names.map some) ∧ names.Nodup ∧
      names = (List.range r.length).map fun k => dir ++ bs "/" ++ digits (k + 1) := by
  have key : ∀ (r : List Nat) (n : Nat), n + r.length < 2 ^ 31 → (∀ i ∈ r, ∃ m, db.msgs[i]? = some m ∧ KnownKind m) →
      mhNames dir db n r = .ok ((List.range' n r.length).map fun k => some (dir ++ bs "/" ++ digits (k + 1))) := by
    intro r
    induction r with
    | nil => intro n _ _; rfl
    | cons i r ih =>
      intro n hn hr
      obtain ⟨m, hm, hk⟩ := hr i (by simp)
      rw [List.length_cons] at hn
      have hk' : m.type = DB_MSG_FILE ∨ m.type = DB_MSG_IMAP ∨ m.type = DB_MSG_MBOX := hk
      simp only [mhNames, hm, mhName, if_pos hk', mkMhPath_ok (show n + 1 < 2 ^ 31 by omega), ih (n + 1) (by omega) (fun j hj => hr j (by simp [hj])), bind, Except.bind]
      rw [List.length_cons, List.range'_succ]
      simp [Except.map]
  refine ⟨_, ?_, ?_, rfl⟩
  · rw [key r 0 (by omega) hr, List.map_map, List.range_eq_range']
    rfl
  · rw [List.nodup_iff_pairwise_ne, List.pairwise_map]
    refine List.Pairwise.imp ?_ (List.nodup_iff_pairwise_ne.1 List.nodup_range)
    intro a b hab h
    have := digits_inj (List.append_cancel_left h)
    omega

/-- Results in a different order than the messages. -/
example : maildirNames (bs "r") { msgs := List.replicate 3 ⟨1 + 16, bs "/a/cur/x", 0, 0, 0, 0, 0, 0⟩, mboxPaths := [], to := [], cc := [], «from» := [], subject := [], body := [], attachmentName := [], msgIds := [] } [2, 0]
    = .ok [some (bs "r/cur/123456789.2.mairix:2,R"), some (bs "r/cur/123456789.0.mairix:2,R")] := by decide +kernel

/-- **C48 for a search:** whatever the query and the order, if the search succeeds and the database knows the kind of all its messages, every
result gets a name of its own. `sort` is any function that permutes. -/
theorem C48_search {dir : Text} (db : ReadDb) (scan) (sort : List Nat → List Nat) (hs : ∀ l, (sort l).Perm l) (args : List Text)
    (threads byDate : Bool) (hn : db.msgs.length < 2 ^ 31) (hk : ∀ m ∈ db.msgs, m.type ≠ DB_MSG_DEAD → KnownKind m) {r : List Nat}
    (h : doSearch scan sort db args threads byDate = .ok r) :
    (∃ names : List Text, maildirNames dir db r = .ok (names.map some) ∧ names.length = r.length ∧ names.Nodup) ∧
    (∃ names : List Text, mhNames dir db 0 r = .ok (names.map some) ∧ names.length = r.length ∧ names.Nodup) := by
  obtain ⟨r0, h0, hp⟩ : ∃ r0, doSearch scan sort db args threads false = .ok r0 ∧ r.Perm r0 := by
    simp only [doSearch, bind, Except.bind] at h ⊢
    cases e : allHits scan db args (List.replicate db.msgs.length true) with
    | error f => rw [e] at h; cases h
    | ok hit3 =>
      rw [e] at h
      have key : ∀ x : Res (List Bool), (match x with
          | .error e => .error e
          | .ok v => .ok (if byDate = true then sort (collect 0 db.msgs v) else collect 0 db.msgs v)) = (Except.ok r : Res (List Nat)) →
          ∃ r0, (match x with
          | .error e => .error e
          | .ok v => .ok (if false = true then sort (collect 0 db.msgs v) else collect 0 db.msgs v)) = (Except.ok r0 : Res (List Nat)) ∧ r.Perm r0 := by
        intro x hx
        cases x with
        | error e => cases hx
        | ok v =>
          cases byDate with
          | false => exact ⟨r, hx, List.Perm.refl _⟩
          | true =>
            simp only [if_true, Except.ok.injEq] at hx
            exact ⟨_, rfl, by rw [← hx]; exact hs _⟩
      cases threads with
      | false => exact key (.ok hit3) h
      | true =>
        cases ex : expandThreads db hit3 with
        | error e => simp [ex] at h
        | ok v =>
          simp only [ex, if_true] at h ⊢
          exact key (.ok v) h
  obtain ⟨hlive, hlt⟩ := C25_database_order db scan sort args threads h0
  have hnd : r.Nodup := hp.nodup_iff.2 (by
    rw [List.nodup_iff_pairwise_ne]
    exact hlt.imp fun h => by omega)
  have hr : ∀ i ∈ r, ∃ m, db.msgs[i]? = some m ∧ KnownKind m := by
    intro i hi
    obtain ⟨m, hm, hd⟩ := hlive i (hp.mem_iff.1 hi)
    exact ⟨m, hm, hk m (List.mem_of_getElem? hm) hd⟩
  have hlen : r.length ≤ db.msgs.length := by
    have hsub : r ⊆ List.range db.msgs.length := by
      intro i hi
      obtain ⟨m, hm, _⟩ := hr i hi
      exact List.mem_range.2 (List.getElem?_eq_some_iff.1 hm).1
    simpa using List.Nodup.length_le_of_subset hnd hsub
  refine ⟨C48_maildir (by omega) hnd hr, ?_⟩
  obtain ⟨names, e1, e2, e3⟩ := C48_mh (dir := dir) (by omega) hr
  exact ⟨names, e1, by rw [e3]; simp, e2⟩

/-! ## C39: results in an mbox -/

theorem written_recovered (f : Found) : Recovered f f.written := by
  have key : ∀ path data, ∃ k, k ≤ 2 ∧ bs "X-source-folder: " ++ path ++ bs "\n" ++ data ++ mboxTerminate data =
      bs "X-source-folder: " ++ path ++ bs "\n" ++ data ++ List.replicate k (0x0a : UInt8) := by
    intro path data
    rcases terminate_cases data with e | e | e
    · exact ⟨0, by omega, by rw [e]; rfl⟩
    · exact ⟨1, by omega, by rw [e]; rfl⟩
    · exact ⟨2, by omega, by rw [e]; rfl⟩
  cases f with
  | file path data => exact key path data
  | mbox path data => exact key path data
  | imap data => rfl

theorem pairs_written : ∀ l : List Found, Pairs Recovered l (l.map Found.written)
  | [] => .nil
  | f :: l => .cons (written_recovered f) (pairs_written l)

/-- **C39.** Append any results to an empty mbox, none of which has a From line in it, and read the mbox as mairix does: it
finds as many messages as were appended, in the same order, and each is what was appended, with one header line added and at
most two newlines at the end. -/
theorem C39_split (w : MboxWorld) (hw : w.isFrom = fromCheck) (mb : Mbox) (hmb : mb.nOldValid = 0) (l : List Found)
    (h : ∀ f ∈ l, CleanFound f) :
    ∃ ps, buildNewMessageList w mb (mboxOutput l) = .ok ps ∧
      Pairs Recovered l (ps.map fun p => ((mboxOutput l).drop p.1).take p.2) := by
  obtain ⟨ps, hs, hm⟩ := splits_output l h []
  simp only [List.nil_append, List.length_nil] at hs hm
  obtain ⟨ps', e, h1, _⟩ := C29_split w mb (mboxOutput l) 0 ((C29_start mb (mboxOutput l)).1 hmb)
  have hmm : isMmdf (mboxOutput l) = false := by
    cases l with
    | nil => decide
    | cons f l =>
      have : (mboxOutput (f :: l)).take 5 = bs "From " := by
        rw [mboxOutput, List.flatMap_cons, appended_eq, show artificialFrom = bs "From " ++ bs "mairix@mairix Mon Jan  1 12:34:56 1970\n" from by decide,
          List.append_assoc, List.append_assoc]
        exact List.take_left' (by decide)
      simp only [isMmdf, this]
      rw [show (bs "From " == mmdfSep) = false from by decide, Bool.and_false]
  have h1 := h1 hmm
  rw [hw] at h1
  have := C29_unique hs h1
  subst this
  refine ⟨ps, e, ?_⟩
  rw [hm]
  exact pairs_written l

/-- **C39, empty lines (partial).** After each result from a file or an mbox there is an empty line. Missing: messages of a single byte
(`C39_one_byte_violation`), and messages on IMAP servers that do not end with a newline (`C39_imap_violation`). -/
theorem C39_blank_line_partial (path data : Text) (h : data.length ≠ 1 ∨ data = bs "\n") :
    ∃ x, appendMessage path data = x ++ bs "\n\n" := by
  have hb : bs "\n\n" = [0x0a, 0x0a] := by decide
  have hb1 := header_bytes.1
  rw [hb]
  unfold appendMessage
  by_cases h0 : data.length = 0
  · rw [List.length_eq_zero_iff.1 h0, show mboxTerminate [] = [0x0a] from by decide, hb1]
    exact ⟨artificialFrom ++ (bs "X-source-folder: " ++ path), by simp⟩
  by_cases h1 : data.length = 1
  · rcases h with h | h
    · exact absurd h1 h
    · rw [h, show mboxTerminate (bs "\n") = [] from by decide, hb1]
      exact ⟨artificialFrom ++ (bs "X-source-folder: " ++ path), by simp⟩
  unfold mboxTerminate
  rw [if_neg h0, if_neg h1]
  split
  · exact ⟨_, by rw [hb]⟩
  · next hl =>
    obtain ⟨d, hd⟩ := last_of_getElem? (l := data) (c := 0x0a) (by simpa using hl)
    subst hd
    split
    · exact ⟨artificialFrom ++ (bs "X-source-folder: " ++ path ++ bs "\n") ++ d, by rw [hb1]; simp⟩
    · next hl2 =>
      rw [List.length_append, List.length_singleton] at hl2 h1
      simp only [ne_eq, Decidable.not_not] at hl2
      rw [show d.length + 1 - 2 = d.length - 1 by omega, List.getElem?_append_left (by omega)] at hl2
      obtain ⟨d', hd'⟩ := last_of_getElem? hl2
      subst hd'
      exact ⟨artificialFrom ++ (bs "X-source-folder: " ++ path ++ bs "\n") ++ d', by simp⟩

/-- Two results without From lines. -/
example : CleanFound (.file (bs "/m/1") (bs "Subject: From here\n\nFrom me to you\n>From x@yy Mon Jan  1 12:34:56 1970\n")) ∧ CleanFound (.imap (bs "a")) := by
  refine ⟨⟨by decide, ?_⟩, ?_⟩
  · intro p ⟨_, rest, h1, h2⟩
    have hp : p < 80 := by
      apply Nat.lt_of_not_le
      intro hge
      rw [List.drop_eq_nil_of_le (Nat.le_trans (by decide) hge)] at h1
      cases h1
    have key : ∀ p, p < 80 → ((bs "Subject: From here\n\nFrom me to you\n>From x@yy Mon Jan  1 12:34:56 1970\n").drop p).take 5 = bs "From " →
        fromCheck ((bs "Subject: From here\n\nFrom me to you\n>From x@yy Mon Jan  1 12:34:56 1970\n").drop (p + 5)) = true → p = 36 := by decide +kernel
    have e := key p hp (by rw [h1]; rfl) (by rw [← List.drop_drop, h1]; exact h2)
    subst e
    next hl => revert hl; simp [LineStart]; decide
  · intro p ⟨_, rest, h1, _⟩
    have := congrArg List.length h1
    simp [fromBytes, show (bs "a").length = 1 from by decide] at this
    omega

/-- The same two results, appended. -/
example : mboxOutput [.file (bs "/m/1") (bs "Subject: x\n\nhello"), .imap (bs "a")] =
    bs "From mairix@mairix Mon Jan  1 12:34:56 1970\nX-source-folder: /m/1\nSubject: x\n\nhello\n\nFrom mairix@mairix Mon Jan  1 12:34:56 1970\na\n" := by
  decide +kernel

/-- **C39 is false of empty lines:** a message of one byte that is not a newline is followed by the end of its line only. -/
theorem C39_one_byte_violation : ¬ ∃ x, appendMessage (bs "/m/1") (bs "a") = x ++ bs "\n\n" := by
  rintro ⟨x, h⟩
  have h := congrArg (fun l => l.reverse.take 2) h
  rw [List.reverse_append] at h
  revert h
  rw [show (bs "\n\n").reverse = [0x0a, 0x0a] from by decide]
  simp only [List.cons_append, List.nil_append, List.take_succ_cons, List.take_zero]
  decide +kernel

/-- **C39 is false of empty lines:** a message on an IMAP server is followed by a single newline. -/
theorem C39_imap_violation : ¬ ∃ x, appendData (bs "Subject: x\n\nhello") = x ++ bs "\n\n" := by
  rintro ⟨x, h⟩
  have h := congrArg (fun l => l.reverse.take 2) h
  rw [List.reverse_append] at h
  revert h
  rw [show (bs "\n\n").reverse = [0x0a, 0x0a] from by decide]
  simp only [List.cons_append, List.nil_append, List.take_succ_cons, List.take_zero]
  decide +kernel

/-! ## C49: messages taken out of an mbox -/

/-- **C49.** A message of an mbox is delivered only if the checksum of what is delivered is the one stored when it was indexed, and what is
delivered is the part of the mbox at the place stored, cut off at the end of the mbox. Nothing outside the mbox is read, if the place
and size stored do not overflow 32 bits. -/
theorem C49_deliver (md5 : Text → List UInt8) (mbox : Text) (m : DbMsg) (stored : List UInt8) (hs : m.mtime + m.size < 2 ^ 32) :
    ∃ r, validatedMsg md5 mbox m stored = .ok r ∧
      (∀ data, r = some data ↔ data = (mbox.drop m.mtime).take m.size ∧ md5 data = stored) := by
  have hdata : ∃ n, (n = 0 ∨ m.mtime + n ≤ mbox.length) ∧ (mbox.drop m.mtime).take n = (mbox.drop m.mtime).take m.size ∧
      (if m.mtime ≥ mbox.length then 0 else if (m.mtime + m.size) % 2 ^ 32 ≥ mbox.length then mbox.length - m.mtime else m.size) = n := by
    rw [Nat.mod_eq_of_lt hs]
    split
    · exact ⟨0, .inl rfl, by rw [List.drop_eq_nil_of_le (by omega)]; simp, rfl⟩
    split
    · refine ⟨_, .inr (by omega), ?_, rfl⟩
      rw [List.take_of_length_le (by simp), List.take_of_length_le (by simp; omega)]
    · exact ⟨m.size, .inr (by omega), rfl, rfl⟩
  obtain ⟨n, h1, h2, h3⟩ := hdata
  refine ⟨if stored = md5 ((mbox.drop m.mtime).take m.size) then some ((mbox.drop m.mtime).take m.size) else none, ?_, ?_⟩
  · unfold validatedMsg
    dsimp only
    rw [h3, if_pos h1, h2]
  · intro data
    split
    · next h => simp only [Option.some.injEq]; constructor
                · rintro rfl; exact ⟨rfl, h.symm⟩
                · rintro ⟨rfl, _⟩; rfl
    · next h => constructor
                · intro h; cases h
                · rintro ⟨rfl, h'⟩; exact absurd h'.symm h

/-- An mbox with a message at 5, 6 bytes long, with a checksum that adds up the bytes. -/
example : validatedMsg (fun t => [t.sum]) (bs "FromxHello\nFrom") ⟨2, [], 0, 0, 5, 6, 0, 0⟩ [(bs "Hello\n").sum] = .ok (some (bs "Hello\n")) ∧
    validatedMsg (fun t => [t.sum]) (bs "FromxHallo\nFrom") ⟨2, [], 0, 0, 5, 6, 0, 0⟩ [(bs "Hello\n").sum] = .ok none ∧
    validatedMsg (fun t => [t.sum]) (bs "Fr") ⟨2, [], 0, 0, 5, 6, 0, 0⟩ [(bs "Hello\n").sum] = .ok none := by decide +kernel

/-- **C49, copying (partial).** The copy of a message made in a maildir or MH folder is the message with a header line and without its last byte.
Missing: the last byte is dropped even if it is not the newline that separates messages, see `C49_last_byte_violation`. -/
theorem C49_copy_partial (path data : Text) :
    copiedMessage path (data ++ bs "\n") = bs "X-source-folder: " ++ path ++ bs "\n" ++ data := by
  have hb := header_bytes.1
  simp only [copiedMessage, hb]
  simp

/-- **C49 is false of the last message in an mbox that does not end with a newline:** its last byte is lost. -/
theorem C49_last_byte_violation : copiedMessage (bs "/m/mbox") (bs "Subject: x\n\nhello") =
    bs "X-source-folder: /m/mbox\nSubject: x\n\nhell" := by decide +kernel

end Mairix
