import Verif.Proofs.Terminal
import Verif.Props.Output
import Verif.Props.Stored

/-!
# C80, C81: results on the terminal
-/

namespace Mairix
open Spec

theorem whole_placed {hashfn : Nat → Text → Nat} {mktime : Nat → Nat → Nat → Int} {md5 : Text → List UInt8} (hmd5 : ∀ t, (md5 t).length = 16) {xs : List Indexing} {x : Indexing} {file : Text}
    (hl : ∀ y ∈ xs ++ [x], LibraryOk y) (hd : ∀ y ∈ xs ++ [x], DiscOk y.disc)
    (hc : ∀ y ∈ xs ++ [x], ∃ s items, ∃ N < y.depth, Spec.Means y.config y.disc.fs s items ∧ PathMax y.disc.fs N)
    (e : indexMails hashfn mktime md5 (xs ++ [x]) none = .ok (some file)) {raw view} (h1 : openDb file = .ok raw) (h2 : viewDb raw = .ok view) : Placed view := by
  obtain ⟨rs', g1, g2⟩ := indexMails_runs e
  obtain ⟨rs, r, rfl, -, -⟩ := pairs_snoc g1
  have hsane : ∀ r' ∈ rs ++ [r], Sane r' := by
    intro r' hr'
    obtain ⟨y, hy, ey⟩ := pairs_mem g1 hr'
    obtain ⟨s', items', N, hN, k1, k2⟩ := hc y hy
    exact (indexing_sane hmd5 (hl y hy) (hd y hy) k1 k2 hN ey).1
  obtain ⟨raw', view', info, a1, a2, a3, a4⟩ := C46_history hsane g2
  rw [h1] at a1
  cases a1
  rw [h2] at a2
  cases a2
  exact agrees_placed a4 hsane

/-- The messages of mboxen are in mboxen that are configured now. -/
theorem whole_boxes {hashfn : Nat → Text → Nat} {mktime : Nat → Nat → Nat → Int} {md5 : Text → List UInt8} (hmd5 : ∀ t, (md5 t).length = 16) {xs : List Indexing} {x : Indexing} {file : Text}
    (hl : ∀ y ∈ xs ++ [x], LibraryOk y) (hd : ∀ y ∈ xs ++ [x], DiscOk y.disc)
    (hc : ∀ y ∈ xs ++ [x], ∃ s items, ∃ N < y.depth, Spec.Means y.config y.disc.fs s items ∧ PathMax y.disc.fs N)
    {s : Setting} {items : FolderType → List FolderItem} (hm : Spec.Means x.config x.disc.fs s items)
    (e : indexMails hashfn mktime md5 (xs ++ [x]) none = .ok (some file)) {raw view} (h1 : openDb file = .ok raw) (h2 : viewDb raw = .ok view) {i : Nat} {m : DbMsg} (h3 : view.msgs[i]? = some m)
    (h4 : m.type = DB_MSG_MBOX) : ∃ p, view.mboxPaths[m.mbix]? = some p ∧ Configured s items .mbox p := by
  obtain ⟨rs', g1, g2⟩ := indexMails_runs e
  obtain ⟨rs, r, rfl, -, g4⟩ := pairs_snoc g1
  have hsane : ∀ r' ∈ rs ++ [r], Sane r' := by
    intro r' hr'
    obtain ⟨y, hy, ey⟩ := pairs_mem g1 hr'
    obtain ⟨s', items', N, hN, k1, k2⟩ := hc y hy
    exact (indexing_sane hmd5 (hl y hy) (hd y hy) k1 k2 hN ey).1
  obtain ⟨raw', view', info, a1, a2, a3, a4⟩ := C46_history hsane g2
  rw [h1] at a1
  cases a1
  rw [h2] at a2
  cases a2
  obtain ⟨_, _, N, hN, _, k2⟩ := hc x (by simp)
  obtain ⟨w1, w2⟩ := indexing_extant hm k2 hN g4
  rcases a4.rest i m h3 with ⟨⟨⟨⟩, q⟩, m', k1, -, k3⟩ | k | ⟨-, p, z, k3, -, ⟨y, hy, rfl⟩, -⟩
  · rw [h3] at k1; cases k1; rw [h4] at k3; cases k3
  · rw [h3] at k1; cases k1; rw [h4] at k3; cases k3
  · rw [h4] at k; cases k
  · exact ⟨_, k3, ((w2 y).1 hy).1⟩

theorem hits_file {db : ReadDb} (files : ∀ i e, IsAt db i e → e.kind = .file) {found : List Nat} {hits : List Hit} (h : Pairs (HitIs db) found hits) (p : Text) :
    Hit.file p ∈ hits ↔ ∃ i ∈ found, IsAt db i ⟨.file, p⟩ := by
  constructor
  · intro hp
    obtain ⟨i, hi, k, hk⟩ := pairs_mem h hp
    have := files _ _ hk
    simp only at this
    subst this
    exact ⟨i, hi, hk⟩
  · rintro ⟨i, hi, hk⟩
    obtain ⟨a, ha, h1⟩ := pairs_mem' h hi
    obtain ⟨m, k1, k2, k3⟩ := hk
    cases a with
    | file q =>
      obtain ⟨k, m', j1, j2, j3⟩ := h1
      rw [k1] at j1
      cases j1
      simp only at k2 j2
      rw [← j2, k2] at ha
      exact ha
    | box q a b =>
      obtain ⟨n, -, m', j1, j2, -⟩ := h1
      rw [k1] at j1
      cases j1
      simp only at k3
      rw [k3] at j2
      cases j2

theorem hits_box {db : ReadDb} {found : List Nat} {hits : List Hit} (h : Pairs (HitIs db) found hits) (p : Text) (a n : Nat) :
    Hit.box p a (a + n) ∈ hits ↔ ∃ i ∈ found, IsInBox db i p (a, n) := by
  constructor
  · intro hp
    obtain ⟨i, hi, k, hk, h1⟩ := pairs_mem h hp
    have : k = n := by omega
    subst this
    exact ⟨i, hi, h1⟩
  · rintro ⟨i, hi, m, k1, k2, k3, k4⟩
    obtain ⟨x, hx, h1⟩ := pairs_mem' h hi
    cases x with
    | file q =>
      obtain ⟨⟨⟩, m', j1, j2, j3⟩ := h1 <;>
      · rw [k1] at j1
        cases j1
        rw [k2] at j3
        cases j3
    | box q b c =>
      obtain ⟨n', j0, m', j1, j2, j3, j4⟩ := h1
      rw [k1] at j1
      cases j1
      rw [k3] at j3
      cases j3
      rw [k4] at j4
      cases j4
      rw [← j0]
      exact hx

/-- **C80.** After any number of indexing runs that completed, starting without a database, whatever the arguments: a search with `-r` that finds messages writes one line for each of them, in their order, and nothing else: the
path of its file (or its name on the IMAP server), or the path of its mbox and the numbers of its first byte there and of the one after its last. -/
theorem C80_listed {hashfn : Nat → Text → Nat} {rs : List Run} {r : Run} {d : Text} (hs : ∀ r' ∈ rs ++ [r], Sane r') (e : indexRuns hashfn (rs ++ [r]) none = .ok (some d)) :
    ∃ raw view, openDb d = .ok raw ∧ viewDb raw = .ok view ∧
      ∀ {scan} {sort : List Nat → List Nat} {args : List Text} {threads sorted : Bool} {found : List Nat}, (∀ l, (sort l).Perm l) → doSearch scan sort view args threads sorted = .ok found →
        ∃ hits : List Hit, searchRaw scan sort d args threads sorted = .ok (hits.flatMap Hit.line) ∧ Pairs (HitIs view) found hits := by
  obtain ⟨raw, view, info, a1, a2, a3, a4⟩ := C46_history hs e
  refine ⟨raw, view, a1, a2, ?_⟩
  intro scan sort args threads sorted found hsort hf
  obtain ⟨hits, h1, h2⟩ := raw_shown (agrees_placed a4 hs) hsort hf
  exact ⟨hits, searchRaw_ok a1 a2 hf h2, h1⟩

/-- **C80, from the files on.** After any number of whole indexing runs that completed, starting without a database (with the conditions of C57): a search with `-r` writes lines, and the message files among them are, each
once, messages in the folders that are configured now, and of those whose files have a meaning as messages exactly the ones that satisfy the query. (Missing: as for C57.) -/
theorem C80_files_partial {hashfn : Nat → Text → Nat} {mktime : Nat → Nat → Nat → Int} {md5 : Text → List UInt8} (hmd5 : ∀ t, (md5 t).length = 16) {xs : List Indexing} {x : Indexing} {file : Text}
    (hl : ∀ y ∈ xs ++ [x], LibraryOk y) (hd : ∀ y ∈ xs ++ [x], DiscOk y.disc)
    (hc : ∀ y ∈ xs ++ [x], ∃ s items, ∃ N < y.depth, Spec.Means y.config y.disc.fs s items ∧ PathMax y.disc.fs N)
    {s : Setting} {items : FolderType → List FolderItem} (hm : Spec.Means x.config x.disc.fs s items)
    (hu : ∀ y ∈ xs, Unchanged y.disc x.disc) (hf : x.fast = false) (e : indexMails hashfn mktime md5 (xs ++ [x]) none = .ok (some file))
    {scan dateRange} (hsc : ScansDates scan dateRange) {cs : List Cond} {args : List Text} (hq : QueryWrittenAs dateRange cs args) (hfit : ∀ c ∈ cs, Cond.Fits c) (sort : List Nat → List Nat)
    (hsort : ∀ l, (sort l).Perm l) :
    ∃ hits : List Hit, searchRaw scan sort file args false false = .ok (hits.flatMap Hit.line) ∧
      (∀ p, Hit.file p ∈ hits → MessageFile s items p) ∧ (∀ p, hits.count (.file p) ≤ 1) ∧
      ∀ p m, MessageFile s items p → FileMeans mktime x.disc p m → ∀ y, Tells m p (x.disc.size p) y → (Hit.file p ∈ hits ↔ ∀ c ∈ cs, c.Holds y) := by
  obtain ⟨raw, view, info, a1, a2, a3, a4, a5, a6, a7⟩ := whole_view hmd5 hl hd hc hm hu hf e
  obtain ⟨raw', view', b1, b2, b3⟩ := C57_found_partial hmd5 hl hd hc hm hu hf e
  rw [a1] at b1
  cases b1
  rw [a2] at b2
  cases b2
  obtain ⟨found, c1, c2, c3⟩ := b3 hsc hq hfit sort
  obtain ⟨hits, h1, h2⟩ := raw_shown (whole_placed hmd5 hl hd hc e a1 a2) hsort c1
  refine ⟨hits, searchRaw_ok a1 a2 c1 h2, ?_, ?_, ?_⟩
  · intro p hp
    obtain ⟨i, hi, hat⟩ := (hits_file a5 h1 p).1 hp
    exact c2 i hi p hat
  · intro p
    exact hitIs_file_unique a4 a5 (found_live hsort c1).1 h1
  · intro p m hp hmean y hy
    rw [hits_file a5 h1]
    exact c3 p m hp hmean y hy

theorem placeOf_text {ms : List Posted} {k : Nat} {m : Posted} (hk : ms[k]? = some m) : (boxBytes ms).drop (placeOf ms k m).1 = m.text ++ boxBytes (ms.drop (k + 1)) := by
  have hsplit : ms = ms.take k ++ m :: ms.drop (k + 1) := by
    conv => lhs; rw [← List.take_append_drop k ms]
    obtain ⟨hlt, hget⟩ := List.getElem?_eq_some_iff.1 hk
    rw [List.drop_eq_getElem_cons hlt, hget]
  have hbytes : boxBytes ms = (boxBytes (ms.take k) ++ bs "From " ++ m.line ++ [0x0a]) ++ (m.text ++ boxBytes (ms.drop (k + 1))) := by
    conv => lhs; rw [hsplit]
    simp [boxBytes, Posted.bytes]
  rw [hbytes, List.drop_left' (by simp only [placeOf, List.length_append, List.length_singleton])]

/-- **C80, mboxen.** Under the conditions of C77 the lines for messages of the mbox are exactly those of the messages delivered so far that satisfy the query, with the place of their text in the file. -/
theorem C80_mbox_partial {hashfn : Nat → Text → Nat} {mktime : Nat → Nat → Nat → Int} {md5 : Text → List UInt8} (hmd5 : ∀ t, (md5 t).length = 16) {xs : List Indexing} {x : Indexing} {file : Text}
    (hl : ∀ y ∈ xs ++ [x], LibraryOk y) (hd : ∀ y ∈ xs ++ [x], DiscOk y.disc)
    (hc : ∀ y ∈ xs ++ [x], ∃ s items, ∃ N < y.depth, Spec.Means y.config y.disc.fs s items ∧ PathMax y.disc.fs N)
    {s : Setting} {items : FolderType → List FolderItem} (hm : Spec.Means x.config x.disc.fs s items)
    (hafter : ∀ y ∈ xs, y.disc.after = x.disc.after) {p : Text} {boxes : List (List Posted)} {ms : List Posted}
    (hb : Pairs (fun y ms => MboxNow y.disc p ms) (xs ++ [x]) (boxes ++ [ms])) (hx : MboxAt x.disc p ms)
    (hgrow : (boxes ++ [ms]).Pairwise (· <+: ·)) (hms : ∀ m ∈ ms, m.Ok mktime) (hp : Configured s items .mbox p)
    (e : indexMails hashfn mktime md5 (xs ++ [x]) none = .ok (some file))
    {scan dateRange} (hsc : ScansDates scan dateRange) {cs : List Cond} {args : List Text} (hq : QueryWrittenAs dateRange cs args) (hfit : ∀ c ∈ cs, Cond.Fits c) (sort : List Nat → List Nat)
    (hsort : ∀ l, (sort l).Perm l) :
    ∃ hits : List Hit, searchRaw scan sort file args false false = .ok (hits.flatMap Hit.line) ∧
      (∀ a b, Hit.box p a b ∈ hits → ∃ k m, ms[k]? = some m ∧ (boxBytes ms).drop a = m.text ++ boxBytes (ms.drop (k + 1)) ∧ b = a + m.text.length) ∧
      ∀ k m, ms[k]? = some m → ∀ y, TellsPosted m p y → (Hit.box p (placeOf ms k m).1 ((placeOf ms k m).1 + m.text.length) ∈ hits ↔ ∀ c ∈ cs, c.Holds y) := by
  obtain ⟨raw, view, a1, a2, a3⟩ := C77_found_partial hmd5 hl hd hc hm hafter hb hx hgrow hms hp e
  obtain ⟨found, c1, c2, c3⟩ := a3 hsc hq hfit sort
  obtain ⟨hits, h1, h2⟩ := raw_shown (whole_placed hmd5 hl hd hc e a1 a2) hsort c1
  refine ⟨hits, searchRaw_ok a1 a2 c1 h2, ?_, ?_⟩
  · intro a b hab
    obtain ⟨i, hi, n, hn, hin⟩ := pairs_mem h1 hab
    obtain ⟨k, m, hk, hpl⟩ := c2 i hi _ hin
    obtain ⟨rfl, rfl⟩ := Prod.mk.injEq .. ▸ hpl
    exact ⟨k, m, hk, placeOf_text hk, hn⟩
  · intro k m hk y hy
    rw [hits_box h1]
    exact c3 k m hk y hy

/-! ## C81: excerpts -/

theorem headerLines_of (gmtime : Int → GmDate) (h : Headers) : ExcerptOf h (gmText (gmtime h.date)) (headerLines gmtime h) := by
  have hf : ∀ (name : String) (v : Option Text), fieldLine (bs name) v = ((v.map fun v => bs name ++ v).toList).flatMap (· ++ bs "\n") := by
    intro name v
    cases v <;> simp [fieldLine]
  simp only [ExcerptOf, headerLines, hf, List.flatMap_append, List.flatMap_cons, List.flatMap_nil, List.append_nil, List.append_assoc]

theorem mboxMsgData_ok (md5 : Text → List UInt8) (disc : Disc) {raw : RawDb} {db : ReadDb} (hp : Placed db) (hck : Checked raw db) {i : Nat} {m : DbMsg} (hm : db.msgs[i]? = some m)
    (h3 : m.type = DB_MSG_MBOX) : ∃ o, mboxMsgData md5 disc raw db m = .ok o := by
  have hpl : ∃ p, db.mboxPaths[m.mbix]? = some p ∧ m.mtime + m.size < 2 ^ 31 := by
    rcases hp i m hm (by rw [h3]; decide) with ⟨⟨⟨⟩, q⟩, m', k1, k2, k3⟩ | ⟨_, h⟩
    · rw [hm] at k1
      cases k1
      rw [h3] at k3
      cases k3
    · rw [hm] at k1
      cases k1
      rw [h3] at k3
      cases k3
    · exact h
  obtain ⟨p, h4, h5⟩ := hpl
  obtain ⟨c, h6⟩ := hck i m hm h3
  unfold mboxMsgData
  rw [h4]
  dsimp only
  cases disc.map p with
  | data va =>
    obtain ⟨t, h7, h8⟩ := C49_deliver md5 va m c (by omega)
    exact ⟨t, by simp only [h6, h7, bind, Except.bind]⟩
  | empty => exact ⟨none, rfl⟩
  | failed => exact ⟨none, rfl⟩

theorem foundMessage_ok {mktime : Nat → Nat → Nat → Int} {md5 : Text → List UInt8} {disc : Disc} {imap : Text → Option Rfc822} {raw : RawDb} {db : ReadDb} (hp : Placed db) (hck : Checked raw db)
    {i : Nat} {m : DbMsg} (hm : db.msgs[i]? = some m) : ∃ r, foundMessage mktime md5 disc imap raw db m = .ok r ∧ (∀ p, IsAt db i ⟨.file, p⟩ → r = disc.makeRfc822 mktime p) ∧
      (m.type = DB_MSG_MBOX → ∀ t, mboxMsgData md5 disc raw db m = .ok (some t) → r = (outcome (parseMessage mktime t (disc.after t))).1) := by
  unfold foundMessage
  by_cases h1 : m.type = DB_MSG_FILE
  · refine ⟨_, by rw [if_pos h1], ?_, ?_⟩
    · rintro p ⟨m', k1, k2, k3⟩
      rw [hm] at k1
      cases k1
      simp only at k2
      rw [k2]
    · intro k2
      rw [h1] at k2
      cases k2
  rw [if_neg h1]
  have hnf : ∀ p, ¬ IsAt db i ⟨.file, p⟩ := by
    rintro p ⟨m', k1, k2, k3⟩
    rw [hm] at k1
    cases k1
    exact h1 k3
  by_cases h2 : m.type = DB_MSG_IMAP
  · refine ⟨_, by rw [if_pos h2], fun p h => absurd h (hnf p), ?_⟩
    intro k2
    rw [h2] at k2
    cases k2
  rw [if_neg h2]
  by_cases h3 : m.type = DB_MSG_MBOX
  · rw [if_pos h3]
    obtain ⟨o, ho⟩ := mboxMsgData_ok md5 disc hp hck hm h3
    simp only [ho, bind, Except.bind]
    refine ⟨_, rfl, fun p h => absurd h (hnf p), ?_⟩
    intro _ t ht
    cases ht
    rfl
  · rw [if_neg h3]
    exact ⟨_, rfl, fun p h => absurd h (hnf p), fun h => absurd h h3⟩

/-- The excerpt of a result is what is known of it then. -/
def PartIs (mktime : Nat → Nat → Nat → Int) (md5 : Text → List UInt8) (gmtime : Int → GmDate) (disc : Disc) (raw : RawDb) (db : ReadDb) (i : Nat) (x : Hit × Text) : Prop :=
  HitIs db i x.1 ∧ (∀ p, IsAt db i ⟨.file, p⟩ → ∀ r, disc.makeRfc822 mktime p = some r → ExcerptOf r.hdrs (gmText (gmtime r.hdrs.date)) x.2) ∧
    ∀ m, db.msgs[i]? = some m → m.type = DB_MSG_MBOX → ∀ t, mboxMsgData md5 disc raw db m = .ok (some t) →
      ∀ r, (outcome (parseMessage mktime t (disc.after t))).1 = some r → ExcerptOf r.hdrs (gmText (gmtime r.hdrs.date)) x.2

/-- What is written for a result. -/
def partText (x : Hit × Text) : Text := List.replicate 33 0x2d ++ [0x0a] ++ x.1.line ++ x.2

theorem excerpt_shown {mktime : Nat → Nat → Nat → Int} {md5 : Text → List UInt8} (gmtime : Int → GmDate) {disc : Disc} {imap : Text → Option Rfc822} {raw : RawDb}
    {db : ReadDb} (hp : Placed db) (hck : Checked raw db) {scan} {sort : List Nat → List Nat} {args : List Text} {threads sorted : Bool} {found : List Nat} (hsort : ∀ l, (sort l).Perm l)
    (h : doSearch scan sort db args threads sorted = .ok found) :
    ∃ parts, Pairs (PartIs mktime md5 gmtime disc raw db) found parts ∧
      excerptOutput gmtime (foundMessage mktime md5 disc imap raw db) db found = .ok (parts.flatMap partText) := by
  apply writeEach_ok
  intro i hi
  obtain ⟨m, h1, h2⟩ := (found_live hsort h).2 i hi
  obtain ⟨a, h3, h4⟩ := placeLine_ok hp h1 h2
  obtain ⟨r, h5, h6, h7⟩ := foundMessage_ok (mktime := mktime) (md5 := md5) (disc := disc) (imap := imap) hp hck h1
  have htype : m.type = DB_MSG_FILE ∨ m.type = DB_MSG_IMAP ∨ m.type = DB_MSG_MBOX := by
    rcases hp i m h1 h2 with ⟨⟨⟨⟩, q⟩, m', k1, k2, k3⟩ | ⟨h, _⟩
    · rw [h1] at k1
      cases k1
      exact .inl k3
    · rw [h1] at k1
      cases k1
      exact .inr (.inl k3)
    · exact .inr (.inr h)
  refine ⟨m, (a, shownHeaders gmtime r), h1, ⟨h3, ?_, ?_⟩, ?_⟩
  · intro p hp r' hr'
    rw [h6 p hp, hr']
    exact headerLines_of gmtime _
  · intro m' hm' hbox t ht r' hr'
    rw [h1] at hm'
    cases hm'
    rw [h7 hbox t ht, hr']
    exact headerLines_of gmtime _
  · unfold excerptOne
    rw [if_pos htype]
    simp only [h4, h5, bind, Except.bind, partText, show excerptRule = List.replicate 33 0x2d ++ [0x0a] from by decide]

theorem hitIs_unique {db : ReadDb} {i : Nat} : ∀ {a b : Hit}, HitIs db i a → HitIs db i b → a = b
  | .file _, .file _, ⟨_, _, h1, h2, _⟩, ⟨_, _, h3, h4, _⟩ => by rw [h1] at h3; cases h3; simp only at h2 h4; rw [← h2, ← h4]
  | .file _, .box _ _ _, ⟨k, _, h1, h2, h3⟩, ⟨_, _, _, h4, h5, _⟩ => by rw [h1] at h4; cases h4; cases k <;> · simp only at h3; rw [h3] at h5; cases h5
  | .box _ _ _, .file _, ⟨_, _, _, h4, h5, _⟩, ⟨k, _, h1, h2, h3⟩ => by rw [h1] at h4; cases h4; cases k <;> · simp only at h3; rw [h3] at h5; cases h5
  | .box _ _ _, .box _ _ _, ⟨_, h1, _, h2, _, h3, h4⟩, ⟨_, h5, _, h6, _, h7, h8⟩ => by
    rw [h2] at h6
    cases h6
    rw [h3] at h7
    cases h7
    rw [h4] at h8
    cases h8
    rw [h1, h5]

theorem raw_of_hits {db : ReadDb} (hpl : Placed db) {found : List Nat} (hlive : ∀ i ∈ found, ∃ m, db.msgs[i]? = some m ∧ m.type ≠ DB_MSG_DEAD) {hits : List Hit} (h : Pairs (HitIs db) found hits) :
    rawOutput db found = .ok (hits.flatMap Hit.line) := by
  unfold rawOutput
  induction h with
  | nil => rfl
  | @cons i a found hits g1 g2 ih =>
    obtain ⟨m, k1, k2⟩ := hlive i (by simp)
    obtain ⟨a', k3, k4⟩ := placeLine_ok hpl k1 k2
    obtain rfl := hitIs_unique k3 g1
    simp only [writeEach, k1, k4, ih fun j hj => hlive j (by simp [hj]), bind, Except.bind, List.flatMap_cons]

theorem makeRfc822_read {mktime : Nat → Nat → Nat → Int} {d : Disc} (hd : DiscOk d) {p : Text} {m : Rfc822} (h : FileMeans mktime d p m) : d.makeRfc822 mktime p = some m := by
  exact ((disc_read hd h m).2 rfl).2

/-- **C81.** After any number of whole indexing runs that completed, starting without a database (with the conditions of C57): a search with `-x` writes a part for each result, beginning with a line of dashes and the line
that a search with `-r` writes (see C80); the rest of it is, for a file with a meaning as a message, the header fields of this message, and the day of its date as `gmtime` sees it. -/
theorem C81_files_partial {hashfn : Nat → Text → Nat} {mktime : Nat → Nat → Nat → Int} {md5 : Text → List UInt8} (hmd5 : ∀ t, (md5 t).length = 16) {xs : List Indexing} {x : Indexing} {file : Text}
    (hl : ∀ y ∈ xs ++ [x], LibraryOk y) (hd : ∀ y ∈ xs ++ [x], DiscOk y.disc)
    (hc : ∀ y ∈ xs ++ [x], ∃ s items, ∃ N < y.depth, Spec.Means y.config y.disc.fs s items ∧ PathMax y.disc.fs N)
    {s : Setting} {items : FolderType → List FolderItem} (hm : Spec.Means x.config x.disc.fs s items)
    (hu : ∀ y ∈ xs, Unchanged y.disc x.disc) (hf : x.fast = false) (e : indexMails hashfn mktime md5 (xs ++ [x]) none = .ok (some file))
    {scan dateRange} (hsc : ScansDates scan dateRange) {cs : List Cond} {args : List Text} (hq : QueryWrittenAs dateRange cs args) (hfit : ∀ c ∈ cs, Cond.Fits c) (sort : List Nat → List Nat)
    (hsort : ∀ l, (sort l).Perm l) (gmtime : Int → GmDate) (imap : Text → Option Rfc822) :
    ∃ parts : List (Hit × Text), searchExcerpt scan sort gmtime mktime md5 x.disc imap file args false false = .ok (parts.flatMap fun x => List.replicate 33 0x2d ++ [0x0a] ++ x.1.line ++ x.2) ∧
      searchRaw scan sort file args false false = .ok ((parts.map (·.1)).flatMap Hit.line) ∧
      (∀ p m, MessageFile s items p → FileMeans mktime x.disc p m → ∀ y, Tells m p (x.disc.size p) y → (Hit.file p ∈ parts.map (·.1) ↔ ∀ c ∈ cs, c.Holds y)) ∧
      ∀ p t, (Hit.file p, t) ∈ parts → MessageFile s items p ∧ ∀ m, FileMeans mktime x.disc p m → ExcerptOf m.hdrs (gmText (gmtime m.hdrs.date)) t := by
  obtain ⟨raw, view, info, a1, a2, a3, a4, a5, a6, a7⟩ := whole_view hmd5 hl hd hc hm hu hf e
  obtain ⟨raw', view', b1, b2, b3⟩ := C57_found_partial hmd5 hl hd hc hm hu hf e
  rw [a1] at b1
  cases b1
  rw [a2] at b2
  cases b2
  obtain ⟨found, c1, c2, c3⟩ := b3 hsc hq hfit sort
  have hpl := whole_placed hmd5 hl hd hc e a1 a2
  obtain ⟨parts, h1, h2⟩ := excerpt_shown (mktime := mktime) (md5 := md5) gmtime (disc := x.disc) (imap := imap) hpl (whole_checked hmd5 hl hd hc e a1 a2) hsort c1
  have hhits : Pairs (HitIs view) found (parts.map (·.1)) := by
    clear h2 c1 c2 c3
    induction h1 with
    | nil => exact .nil
    | cons g1 _ ih => exact .cons g1.1 ih
  refine ⟨parts, by simp only [searchExcerpt, a1, a2, c1, h2, bind, Except.bind]; rfl, ?_, ?_, ?_⟩
  · exact searchRaw_ok a1 a2 c1 (raw_of_hits hpl (found_live hsort c1).2 hhits)
  · intro p m hp hmean y hy
    rw [hits_file a5 hhits]
    exact c3 p m hp hmean y hy
  · intro p t hpt
    obtain ⟨i, hi, g1, g2, -⟩ := pairs_mem h1 hpt
    obtain ⟨k, g1⟩ := g1
    have := a5 _ _ g1
    simp only at this
    subst this
    exact ⟨c2 i hi p g1, fun m hmean => g2 p g1 m (makeRfc822_read (hd x (by simp)) hmean)⟩

/-- **C81, mboxen.** Under the conditions of C77 each message of the mbox that is a result is shown with its place, as by `C80_mbox_partial`, and with its headers. -/
theorem C81_mbox_partial {hashfn : Nat → Text → Nat} {mktime : Nat → Nat → Nat → Int} {md5 : Text → List UInt8} (hmd5 : ∀ t, (md5 t).length = 16) {xs : List Indexing} {x : Indexing} {file : Text}
    (hl : ∀ y ∈ xs ++ [x], LibraryOk y) (hd : ∀ y ∈ xs ++ [x], DiscOk y.disc)
    (hc : ∀ y ∈ xs ++ [x], ∃ s items, ∃ N < y.depth, Spec.Means y.config y.disc.fs s items ∧ PathMax y.disc.fs N)
    {s : Setting} {items : FolderType → List FolderItem} (hm : Spec.Means x.config x.disc.fs s items)
    (hafter : ∀ y ∈ xs, y.disc.after = x.disc.after) {p : Text} {boxes : List (List Posted)} {ms : List Posted}
    (hb : Pairs (fun y ms => MboxNow y.disc p ms) (xs ++ [x]) (boxes ++ [ms])) (hx : MboxAt x.disc p ms)
    (hgrow : (boxes ++ [ms]).Pairwise (· <+: ·)) (hms : ∀ m ∈ ms, m.Ok mktime) (hp : Configured s items .mbox p)
    (e : indexMails hashfn mktime md5 (xs ++ [x]) none = .ok (some file))
    {scan dateRange} (hsc : ScansDates scan dateRange) {cs : List Cond} {args : List Text} (hq : QueryWrittenAs dateRange cs args) (hfit : ∀ c ∈ cs, Cond.Fits c) (sort : List Nat → List Nat)
    (hsort : ∀ l, (sort l).Perm l) (gmtime : Int → GmDate) (imap : Text → Option Rfc822) :
    ∃ parts : List (Hit × Text), searchExcerpt scan sort gmtime mktime md5 x.disc imap file args false false = .ok (parts.flatMap fun x => List.replicate 33 0x2d ++ [0x0a] ++ x.1.line ++ x.2) ∧
      searchRaw scan sort file args false false = .ok ((parts.map (·.1)).flatMap Hit.line) ∧
      (∀ k m, ms[k]? = some m → ∀ y, TellsPosted m p y →
        (Hit.box p (placeOf ms k m).1 ((placeOf ms k m).1 + m.text.length) ∈ parts.map (·.1) ↔ ∀ c ∈ cs, c.Holds y)) ∧
      ∀ a b t, (Hit.box p a b, t) ∈ parts → ∃ k m, ms[k]? = some m ∧ (boxBytes ms).drop a = m.text ++ boxBytes (ms.drop (k + 1)) ∧ b = a + m.text.length ∧
        ExcerptOf m.meaning.hdrs (gmText (gmtime m.meaning.hdrs.date)) t := by
  obtain ⟨raw, view, a1, a2, a3⟩ := C77_found_partial hmd5 hl hd hc hm hafter hb hx hgrow hms hp e
  obtain ⟨found, c1, c2, c3⟩ := a3 hsc hq hfit sort
  have hpl := whole_placed hmd5 hl hd hc e a1 a2
  obtain ⟨parts, h1, h2⟩ := excerpt_shown (mktime := mktime) (md5 := md5) gmtime (disc := x.disc) (imap := imap) hpl (whole_checked hmd5 hl hd hc e a1 a2) hsort c1
  have hhits : Pairs (HitIs view) found (parts.map (·.1)) := by
    clear h2 c1 c2 c3
    induction h1 with
    | nil => exact .nil
    | cons g1 _ ih => exact .cons g1.1 ih
  refine ⟨parts, by simp only [searchExcerpt, a1, a2, c1, h2, bind, Except.bind]; rfl, ?_, ?_, ?_⟩
  · exact searchRaw_ok a1 a2 c1 (raw_of_hits hpl (found_live hsort c1).2 hhits)
  · intro k m hk y hy
    rw [hits_box hhits]
    exact c3 k m hk y hy
  · intro a b t hpt
    obtain ⟨i, hi, g1, g2, g3⟩ := pairs_mem h1 hpt
    obtain ⟨n, rfl, m0, k1, k2, k3, k4⟩ := g1
    obtain ⟨k, y, j1, j2, j3⟩ := posted_data hmd5 hl hd hc hm hafter hb hx hgrow hms hp e a1 a2 k1 k2 k3
    rw [k4] at j2
    obtain ⟨rfl, rfl⟩ := Prod.mk.injEq .. ▸ j2
    have hmem := List.mem_of_getElem? j1
    refine ⟨k, y, j1, placeOf_text j1, rfl, ?_⟩
    refine g3 m0 k1 k2 y.text j3 y.meaning ?_
    rw [C47_parse_partial (hms y hmem).means]
    rfl

end Mairix
