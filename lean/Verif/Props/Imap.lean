import Verif.Proofs.ImapServer
import Verif.Proofs.Colons

/-!
# C66, C67 and C68: listing, fetching and storing messages on an IMAP server
-/

namespace Mairix
open Spec

variable {σ : Type} {exec : Exec σ} {view : σ → Server}

/-! ## C66: listing -/

/-- **C66 (partial).**  On a server that conforms to the standard, whatever else it says, the messages that are listed are those of the
configured folders that are not omitted and not deleted on the server, each once, under its UIDVALIDITY, UID and folder; and nothing
on the server changes.  (Missing: folders that are listed twice; further answers about messages that nobody asked for.) -/
theorem C66_listed_partial (hc : Conforms exec view) {skip : Text → Bool} {s : Sess σ} (hs : s.sel = none) {folders : Text} {l : List Text}
    (hl : SplitsAtColons folders l) (hd : (((dropEmptyLast l).map unescape).filter (!skip ·)).Nodup)
    (hp : ∀ f b, (view s.conn).boxes f = some b → b.Plain) :
    ∃ ps s', buildImapMessageList exec skip s folders = .ok (ps, s') ∧
      ps.Perm ((((dropEmptyLast l).map unescape).filter (!skip ·)).flatMap (view s.conn).names) ∧
      (view s'.conn).boxes = (view s.conn).boxes := by
  obtain ⟨ps, s', h1, h2, h3⟩ := scanFolders_all hc ((dropEmptyLast l).map unescape) s hd hp (by rw [hs]; intro x h; cases h)
  refine ⟨ps, s', ?_, h2, h3⟩
  simp only [buildImapMessageList, splitOnColons_ok hl, bind, Except.bind, h1]

/-- **C66.**  Different messages have different names, whatever characters are in the names of folders. -/
theorem C66_names {v u v' u' : Nat} {f f' : Text} (h : mailName v u f = mailName v' u' f') : v = v' ∧ u = u' ∧ f = f' := by
  have h1 := split_mailName v u f
  rw [h, split_mailName] at h1
  injection h1 with h1
  injection h1 with h2 h1
  injection h1 with h3 h4
  exact ⟨(digits_inj h2).symm, (digits_inj h3).symm, h4.symm⟩

/-- A server with two folders, one of which has a deleted message. -/
def twoBoxes : Server where
  boxes f :=
    if f = bs "INBOX" then some ⟨7, [⟨1, [], bs "one"⟩, ⟨4, [bs "\\Seen", bs "\\Deleted"], bs "gone"⟩, ⟨9, [bs "\\Seen"], bs "nine"⟩]⟩
    else if f = bs "a:b" then some ⟨3, [⟨2, [], bs "two"⟩]⟩
    else if f = bs "out" then some ⟨5, [⟨8, [], bs "old"⟩]⟩
    else none
  selected := none

theorem twoBoxes_plain {f : Text} {b : Box} (h : twoBoxes.boxes f = some b) : b.Plain := by
  simp only [twoBoxes] at h
  split at h
  · cases h; unfold Box.Plain; decide
  · split at h
    · cases h; unfold Box.Plain; decide
    · split at h
      · cases h; unfold Box.Plain; decide
      · cases h

example : ∃ ps s', buildImapMessageList serve (· == bs "out") ⟨twoBoxes, none⟩ (bs "INBOX:out:a\\:b:none") = .ok (ps, s') ∧
    ps.Perm [bs "7:1:INBOX", bs "7:9:INBOX", bs "3:2:a:b"] := by
  have hsp : SplitsAtColons (bs "INBOX:out:a\\:b:none") [bs "INBOX", bs "out", bs "a\\:b", bs "none"] :=
    splits_join [bs "INBOX", bs "out", bs "a:b", bs "none"] (by simp) (by decide)
  obtain ⟨ps, s', h1, h2, -⟩ := C66_listed_partial serve_conforms (skip := (· == bs "out")) (s := ⟨twoBoxes, none⟩) rfl hsp (by decide)
    (fun f b h => twoBoxes_plain h)
  exact ⟨ps, s', h1, h2.trans (.of_eq (by decide +kernel))⟩

/-- The same server, with a line `* SEARCH` in all answers. -/
def chatty : Exec Server := fun s cmd => .ok (some (⟨.untagged, [.atom (bs "SEARCH")]⟩ :: (s.run cmd).1), (s.run cmd).2)

/-- A server whose answer to FETCH breaks off behind that word. -/
def brief : Exec Server := fun s cmd =>
  .ok (some (if cmd.head? = some (.atom (bs "UID")) then reply (bs "OK") [[.atom (bs "1"), .atom (bs "FETCH")]] else (s.run cmd).1), (s.run cmd).2)

/-- **C66, violation.**  A line of one word in the answer to FETCH, as it is the answer to any SEARCH without results, makes mairix read
through a null pointer, and so does a response `* 1 FETCH` without more (imapinterface.c:107-111). -/
theorem C66_null_violation :
    (scanFolder chatty ⟨twoBoxes, none⟩ (bs "INBOX")).map Prod.fst = .error .outOfBounds ∧
    (scanFolder brief ⟨twoBoxes, none⟩ (bs "INBOX")).map Prod.fst = .error .outOfBounds := by decide +kernel

/-! ## C67: fetching -/

/-- **C67 (partial).**  The message that is read under a name is exactly the one on the server with this UIDVALIDITY, UID and folder, and
none if it is not there any more or the numbers of the folder have changed; nothing on the server changes, and in particular no
message becomes seen.  (Missing: folders that do not exist any more, see `C67_stale_violation`.) -/
theorem C67_fetched_partial (hc : Conforms exec view) {s : Sess σ} (hs : Coherent view s) {f : Text} {b : Box}
    (hb : (view s.conn).boxes f = some b) (hd : (b.msgs.map (·.uid)).Nodup) (v u : Nat) :
    ∃ s', fetchRaw exec s (mailName v u f) = .ok (if b.validity = v then (b.msgs.find? (·.uid == u)).map (·.body) else none, s') ∧
      (view s'.conn).boxes = (view s.conn).boxes ∧ Coherent view s' :=
  fetchRaw_some hc (hs.at f) hb hd v u

/-- **C67 (partial).**  What is indexed for a message that was listed is its body. -/
theorem C67_indexed_partial (hc : Conforms exec view) {s : Sess σ} (hs : Coherent view s) {f : Text} {b : Box}
    (hb : (view s.conn).boxes f = some b) (hd : (b.msgs.map (·.uid)).Nodup) {m : MailMsg} (hm : m ∈ b.msgs) :
    ∃ s', rfc822FromImap exec s (mailName b.validity m.uid f) = .ok (m.body, s') ∧ (view s'.conn).boxes = (view s.conn).boxes ∧
      Coherent view s' := by
  obtain ⟨s', h1, h2, h3⟩ := fetchRaw_some hc (hs.at f) hb hd b.validity m.uid
  rw [if_pos rfl, find_uid hd m hm] at h1
  exact ⟨s', by simp only [rfc822FromImap, h1, bind, Except.bind, Option.map], h2, h3⟩

/-- **C67.**  A message in a folder that does not exist any more is not read. -/
theorem C67_absent (hc : Conforms exec view) {s : Sess σ} (hs : Coherent view s) {f : Text} (hb : (view s.conn).boxes f = none) (v u : Nat) :
    ∃ s', fetchRaw exec s (mailName v u f) = .ok (none, s') ∧ (view s'.conn).boxes = (view s.conn).boxes :=
  fetchRaw_none hc (fun x hx e => by
    obtain ⟨-, b, h, -⟩ := hs x hx
    rw [e, hb] at h
    cases h) hb v u

theorem coherent_fresh (c : σ) : Coherent view ⟨c, none⟩ := fun x h => nomatch h

example : ∃ s', rfc822FromImap serve ⟨twoBoxes, none⟩ (bs "7:9:INBOX") = .ok (bs "nine", s') := by
  obtain ⟨s', h, -⟩ := C67_indexed_partial (view := id) serve_conforms (s := ⟨twoBoxes, none⟩) (coherent_fresh _) (f := bs "INBOX")
    (b := ⟨7, [⟨1, [], bs "one"⟩, ⟨4, [bs "\\Seen", bs "\\Deleted"], bs "gone"⟩, ⟨9, [bs "\\Seen"], bs "nine"⟩]⟩) rfl (by decide)
    (m := ⟨9, [bs "\\Seen"], bs "nine"⟩) (by decide)
  exact ⟨s', h⟩

example : ∃ s', fetchRaw serve ⟨twoBoxes, none⟩ (bs "7:5:INBOX") = .ok (none, s') := by
  obtain ⟨s', h, -⟩ := C67_fetched_partial (view := id) serve_conforms (s := ⟨twoBoxes, none⟩) (coherent_fresh _) (f := bs "INBOX")
    (b := ⟨7, [⟨1, [], bs "one"⟩, ⟨4, [bs "\\Seen", bs "\\Deleted"], bs "gone"⟩, ⟨9, [bs "\\Seen"], bs "nine"⟩]⟩) rfl (by decide) 7 5
  exact ⟨s', h⟩

example : ∃ s', fetchRaw serve ⟨twoBoxes, none⟩ (bs "7:5:none") = .ok (none, s') := by
  obtain ⟨s', h, -⟩ := C67_absent (view := id) serve_conforms (s := ⟨twoBoxes, none⟩) (coherent_fresh _) (f := bs "none") rfl 7 5
  exact ⟨s', h⟩

/-- **C67, violation.**  If a message that was listed is gone when it is read, the result of `make_rfc822_from_imap` has never been
set (imapinterface.c:266-274); the same if the server refuses. -/
theorem C67_gone_violation : (rfc822FromImap serve ⟨twoBoxes, none⟩ (bs "7:5:INBOX")).map Prod.fst = .error .uninitialised := by
  decide +kernel

/-- Reading the messages with some names one after the other. -/
def fetchSome (exec : Exec σ) : Sess σ → List Text → Res (List (Option Text))
  | _, [] => .ok []
  | s, p :: ps => do
    let (b, s) ← fetchRaw exec s p
    let bs' ← fetchSome exec s ps
    .ok (b :: bs')

/-- **C67, violation.**  After a folder that does not exist any more no folder is selected on the server, but mairix takes the one before
as still selected (imap.c:1247-1262, 1270-1277): its messages are not read any more. -/
theorem C67_stale_violation :
    fetchSome serve ⟨twoBoxes, none⟩ [bs "7:1:INBOX", bs "2:1:deleted folder", bs "7:9:INBOX"] = .ok [some (bs "one"), none, none] ∧
    fetchSome serve ⟨twoBoxes, none⟩ [bs "7:1:INBOX", bs "7:9:INBOX"] = .ok [some (bs "one"), some (bs "nine")] := by decide +kernel

/-! ## C68: storing results -/

/-- **C68 (partial).**  After a search into a folder that exists, with messages from files, mboxen and other folders of the server, the
folder has exactly the messages that were found and are still there, in order, with their flags and unchanged bodies, behind those it
had before if it was not to be cleared; all other folders are as before.  (Missing: folders of hits that do not exist any more,
see `C68_stale_violation`; results in a folder that is indexed, see `C68_indexed_violation`; see also `C68_created`.) -/
theorem C68_stored_partial (hc : Conforms exec view) {s : Sess σ} (hs : Coherent view s) {out : Text}
    (ho : (view s.conn).boxes out ≠ none) {hits : List FoundMail}
    (hh : ∀ v u f, .remote v u f ∈ hits → f ≠ out ∧ (view s.conn).boxes f ≠ none) (clear : Bool) :
    ∃ s', outputImap exec clear out s (hits.map FoundMail.hit) = .ok s' ∧
      (view s'.conn).contents out =
        (if clear then [] else (view s.conn).contents out) ++ hits.flatMap (FoundMail.mail (view s.conn)) ∧
      ∀ f, f ≠ out → (view s'.conn).boxes f = (view s.conn).boxes f := by
  have hst : ∀ x ∈ hits, Storable (view s.conn) out x := by
    intro x hx
    cases x with
    | file => exact ho
    | mbox => exact ho
    | remote v u f => exact hh v u f hx
  cases clear with
  | false =>
    obtain ⟨s', e, h1, h2, h3⟩ := outputHits_some hc hits s hs hst
    exact ⟨s', by simp only [outputImap, Bool.false_eq_true, if_false, bind, Except.bind, e], by simpa using h2, h3⟩
  | true =>
    obtain ⟨b, hb⟩ := Option.ne_none_iff_exists'.mp ho
    obtain ⟨s1, e1, hc1, hb1⟩ := clearFolder_some hc hs hb
    have hsame : ∀ f, f ≠ out → (view s1.conn).boxes f = (view s.conn).boxes f := fun f hf => by
      rw [hb1]; simp only [Server.put, if_neg hf]
    have hst1 : ∀ x ∈ hits, Storable (view s1.conn) out x := by
      intro x hx
      have h := hst x hx
      have hne : (view s1.conn).boxes out ≠ none := by
        rw [hb1]; simp only [Server.put, if_true]; simp
      cases x with
      | file => exact hne
      | mbox => exact hne
      | remote v u f => exact ⟨h.1, by rw [hsame f h.1]; exact h.2⟩
    obtain ⟨s', e, h1, h2, h3⟩ := outputHits_some hc hits s1 hc1 hst1
    refine ⟨s', by simp only [outputImap, if_true, bind, Except.bind, e1, e], ?_, fun f hf => (h3 f hf).trans (hsame f hf)⟩
    rw [h2]
    have e1 : (view s1.conn).contents out = [] := by
      simp only [Server.contents, hb1, Server.put, if_true, List.map_nil]
    have e2 : hits.flatMap (FoundMail.mail (view s1.conn)) = hits.flatMap (FoundMail.mail (view s.conn)) := by
      rw [List.flatMap_def, List.flatMap_def]
      congr 1
      apply List.map_congr_left
      intro y hy
      exact mail_congr hsame (hst1 y hy)
    rw [e1, e2]
    rfl

/-- **C68.**  If the folder for the results does not exist and all hits are on the server, it is created with them. -/
theorem C68_created (hc : Conforms exec view) {s : Sess σ} (hs : s.sel = none) {out : Text}
    (ho : (view s.conn).boxes out = none) {hits : List FoundMail}
    (hh : ∀ x ∈ hits, ∃ v u f, x = .remote v u f ∧ f ≠ out ∧ (view s.conn).boxes f ≠ none) (clear : Bool) :
    ∃ s', outputImap exec clear out s (hits.map FoundMail.hit) = .ok s' ∧
      (view s'.conn).contents out = hits.flatMap (FoundMail.mail (view s.conn)) ∧
      ∀ f, f ≠ out → (view s'.conn).boxes f = (view s.conn).boxes f := by
  have hst : ∀ x ∈ hits, Storable (view s.conn) out x := by
    intro x hx
    obtain ⟨v, u, f, rfl, h⟩ := hh x hx
    exact h
  have hcon : ∀ {srv : Server}, srv.boxes out = none → srv.contents out = [] := fun h => by simp only [Server.contents, h]
  cases clear with
  | false =>
    obtain ⟨s', e, h1, h2, h3⟩ := outputHits_some hc hits s (fun x h => by rw [hs] at h; cases h) hst
    rw [hcon ho] at h2
    exact ⟨s', by simp only [outputImap, Bool.false_eq_true, if_false, bind, Except.bind, e], h2, h3⟩
  | true =>
    obtain ⟨s1, e1, hb1, hsel⟩ := select_none hc (w := true) (s := s) (f := out) (fun x h => by rw [hs] at h; cases h) ho
    have hst1 : ∀ x ∈ hits, Storable (view s1.conn) out x := by
      intro x hx
      obtain ⟨v, u, f, rfl, h⟩ := hh x hx
      exact ⟨h.1, by rw [hb1]; exact h.2⟩
    obtain ⟨s', e, h1, h2, h3⟩ := outputHits_some hc hits s1 (fun x h => by rw [hsel, hs] at h; cases h) hst1
    refine ⟨s', by simp only [outputImap, if_true, clearFolder, bind, Except.bind, e1, e], ?_, fun f hf => by rw [h3 f hf, hb1]⟩
    rw [h2, hcon (by rw [hb1]; exact ho)]
    have e2 : hits.flatMap (FoundMail.mail (view s1.conn)) = hits.flatMap (FoundMail.mail (view s.conn)) := by
      rw [List.flatMap_def, List.flatMap_def]
      congr 1
      apply List.map_congr_left
      intro y hy
      exact mail_congr (out := out) (fun f _ => by rw [hb1]) (hst1 y hy)
    rw [e2]
    rfl

/-- Hits of all kinds; one of them is not there any more. -/
def someHits : List FoundMail :=
  [.remote 7 9 (bs "INBOX"), .file (bs "From a file") { seen := true, flagged := true }, .remote 3 2 (bs "a:b"), .remote 3 5 (bs "a:b"),
    .remote 6 1 (bs "INBOX"), .mbox (bs "From an mbox") {}, .remote 7 1 (bs "INBOX")]

example : ∃ s', outputImap serve true (bs "out") ⟨twoBoxes, none⟩ (someHits.map FoundMail.hit) = .ok s' ∧
    s'.conn.contents (bs "out") = [([bs "\\Seen"], bs "nine"), ([bs "\\Seen", bs "\\Flagged"], bs "From a file"), ([], bs "two"),
      ([], bs "From an mbox"), ([], bs "one")] := by
  obtain ⟨s', h1, h2, -⟩ := C68_stored_partial (view := id) serve_conforms (s := ⟨twoBoxes, none⟩) (coherent_fresh _) (out := bs "out")
    (by decide) (hits := someHits) (by
      intro v u f h
      simp only [someHits, List.mem_cons, List.not_mem_nil, or_false, FoundMail.remote.injEq, reduceCtorEq, false_or] at h
      rcases h with ⟨-, -, rfl⟩ | ⟨-, -, rfl⟩ | ⟨-, -, rfl⟩ | ⟨-, -, rfl⟩ | ⟨-, -, rfl⟩ <;> decide) true
  exact ⟨s', h1, h2.trans (by decide +kernel)⟩

example : ∃ s', outputImap serve true (bs "new") ⟨twoBoxes, none⟩ [.imap (bs "7:9:INBOX"), .imap (bs "3:2:a:b")] = .ok s' ∧
    s'.conn.contents (bs "new") = [([bs "\\Seen"], bs "nine"), ([], bs "two")] := by
  obtain ⟨s', h1, h2, -⟩ := C68_created (view := id) serve_conforms (s := ⟨twoBoxes, none⟩) rfl (out := bs "new") (by decide)
    (hits := [.remote 7 9 (bs "INBOX"), .remote 3 2 (bs "a:b")]) (by
      intro x hx
      simp only [List.mem_cons, List.not_mem_nil, or_false] at hx
      rcases hx with rfl | rfl
      · exact ⟨_, _, _, rfl, by decide⟩
      · exact ⟨_, _, _, rfl, by decide⟩) true
  exact ⟨s', h1, h2.trans (by decide +kernel)⟩

/-- What a folder has after storing results. -/
def storedIn (exec : Exec Server) (clear : Bool) (out : Text) (hits : List ImapHit) (f : Text) : Res (List (List Text × Text)) :=
  (outputImap exec clear out ⟨twoBoxes, none⟩ hits).map fun s => s.conn.contents f

/-- **C68, violation.**  Messages from files are lost without an error if the folder for the results does not exist: it is selected first,
and only then would `APPEND` lead to its creation (imapinterface.c:381-383, 408-421). -/
theorem C68_new_violation : storedIn serve true (bs "new") [.file (some (bs "From a file")) {}] (bs "new") = .ok [] := by decide +kernel

/-- **C68, violation.**  A search into a folder that is indexed deletes its messages, those that were found as well: there is no check
as for mboxen and directories (mairix.c:745-760). -/
theorem C68_indexed_violation : storedIn serve true (bs "INBOX") [.imap (bs "7:9:INBOX")] (bs "INBOX") = .ok [] := by decide +kernel

/-- **C68, violation.**  After a hit in a folder that does not exist any more, those in the folder before are lost. -/
theorem C68_stale_violation :
    storedIn serve true (bs "out") [.imap (bs "7:1:INBOX"), .imap (bs "2:1:deleted folder"), .imap (bs "7:9:INBOX")] (bs "out") =
      .ok [([], bs "one")] := by decide +kernel

/-- **C68, violation.**  For a message of an mbox that has changed since it was indexed, mairix reads from the null pointer
(search.c:1311-1320; the checks are there for the other kinds of results). -/
theorem C68_mbox_violation : storedIn serve true (bs "out") [.mbox none 20 {}] (bs "out") = .error .outOfBounds := by decide +kernel

/-- A server that does not answer any more when messages are stored. -/
def silent : Exec Server := fun s cmd =>
  .ok (if cmd.head? = some (.atom (bs "APPEND")) ∨ cmd[1]? = some (.atom (bs "COPY")) then none else some (s.run cmd).1, (s.run cmd).2)

/-- **C68, violation.**  If the connection is lost while a message is stored, mairix reads through a null pointer
(imapinterface.c:362, 412; imap.c:837-857). -/
theorem C68_silent_violation :
    storedIn silent true (bs "out") [.imap (bs "7:1:INBOX")] (bs "out") = .error .outOfBounds ∧
    storedIn silent true (bs "out") [.file (some (bs "x")) {}] (bs "out") = .error .outOfBounds := by decide +kernel

end Mairix
