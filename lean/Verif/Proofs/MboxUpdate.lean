import Verif.Spec.MboxUpdate
import Verif.Proofs.Update
import Verif.Proofs.MboxScan
import Verif.Props.Threading

/-! The mbox part of an update. -/

namespace Mairix
open Spec

theorem tryChunks_spec {w : MboxWorld} {va : Text} {s : Nat} (hs : s ≤ va.length) : ∀ (chunks : List (Nat × Nat)) (trials : Nat),
    trials < 100 → (∀ c ∈ chunks, c.1 + c.2 ≤ va.length) →
    (tryChunks w va s trials chunks = .ok none ∧
      ∀ (i : Nat) c', trials + i < 100 → chunks[i]? = some c' → (w.parse (between va s (c'.1 + c'.2))).2 = true) ∨
    ∃ j c, chunks[j]? = some c ∧ trials + j < 100 ∧
      (∀ (i : Nat) c', i < j → chunks[i]? = some c' → (w.parse (between va s (c'.1 + c'.2))).2 = true) ∧
      (w.parse (between va s (c.1 + c.2))).2 = false ∧
      tryChunks w va s trials chunks = .ok (some (c.1 + c.2 - s, (w.parse (between va s (c.1 + c.2))).1, chunks.drop (j + 1))) := by
  intro chunks
  induction chunks with
  | nil => intro t _ _; exact .inl ⟨rfl, by simp⟩
  | cons c rest ih =>
    intro t ht hin
    obtain ⟨cs, cl⟩ := c
    have h0 : cs + cl ≤ va.length := hin _ (List.mem_cons_self ..)
    have hsl : slice va s (cs + cl - s) = .ok (between va s (cs + cl)) := by
      unfold slice between
      rw [if_pos (by omega)]
    simp only [tryChunks, hsl, bind, Except.bind]
    cases hp : (w.parse (between va s (cs + cl))).2 with
    | false =>
      right
      exact ⟨0, (cs, cl), rfl, by omega, by simp, hp, by simp⟩
    | true =>
      simp only [if_true]
      by_cases ht' : t + 1 < 100
      · rw [if_pos ht']
        rcases ih (t + 1) ht' (fun c hc => hin c (List.mem_cons_of_mem _ hc)) with ⟨e, h⟩ | ⟨j, c, h1, h2, h3, h4, h5⟩
        · left
          refine ⟨e, ?_⟩
          intro i c' hi hc'
          cases i with
          | zero => simp only [List.getElem?_cons_zero, Option.some.injEq] at hc'; subst hc'; exact hp
          | succ i => exact h i c' (by omega) (by simpa using hc')
        · right
          refine ⟨j + 1, c, by simpa using h1, by omega, ?_, h4, by simpa using h5⟩
          intro i c' hi hc'
          cases i with
          | zero => simp only [List.getElem?_cons_zero, Option.some.injEq] at hc'; subst hc'; exact hp
          | succ i => exact h3 i c' (by omega) (by simpa using hc')
      · rw [if_neg ht']
        left
        refine ⟨rfl, ?_⟩
        intro i c' hi hc'
        have : i = 0 := by omega
        subst this
        simp only [List.getElem?_cons_zero, Option.some.injEq] at hc'; subst hc'; exact hp

/-- What the index knows of a message parsed to `r8`. -/
def IndexedAsR8 (r8 : Option Rfc822) (x : MsgWords) : Prop :=
  (∀ f v, v ∈ x.words f ↔ ∃ r, r8 = some r ∧ HasWord r f v) ∧
  ∀ v own, (v, own) ∈ x.ids ↔ ∃ r, r8 = some r ∧ HasId r own v

theorem tokeniseIfAny_spec {hash : Text → Nat} {d : Tables} {ix : List MsgWords} (h : TablesRep hash d ix)
    (hl : ix.length < maxMsgs) (r8 : Option Rfc822) :
    ∃ d' x, tokeniseIfAny hash ix.length d r8 = .ok d' ∧ TablesRep hash d' (ix ++ [x]) ∧ IndexedAsR8 r8 x := by
  cases r8 with
  | none => exact ⟨d, noWords, rfl, h.newMessage, by simp [noWords], by simp [noWords]⟩
  | some r =>
    obtain ⟨d', x, e, h1, h2, h3⟩ := tokenise_new h hl r
    exact ⟨d', x, e, h1, by simp [h2], by simp [h3]⟩

/-- The record kept in the mbox for a message. -/
def boxRecord (w : MboxWorld) (va : Text) (g : (Nat × Nat) × Option Rfc822) : MboxMsg :=
  { pos := some g.1, check := w.md5 (between va g.1.1 (g.1.1 + g.1.2)) }

theorem isBoxEntry_mboxMsg (junk : Msg) (fi j : Nat) (r8 : Option Rfc822) : IsBoxEntry fi j r8 (mboxMsg junk fi j r8) := by
  cases r8 with
  | none => exact ⟨rfl, by simp⟩
  | some r => exact ⟨rfl, by rintro r' h; cases h; exact ⟨rfl, rfl, rfl, rfl⟩⟩

theorem slice_between {va : Text} {s l : Nat} (h : s + l ≤ va.length) : slice va s l = .ok (between va s (s + l)) := by
  unfold slice between
  rw [if_pos h, Nat.add_sub_cancel_left]

theorem addChunks_spec {hash : Text → Nat} {w : MboxWorld} {junk : Nat → Msg} {va : Text} {fi : Nat} :
    ∀ (fuel j : Nat) (chunks : List (Nat × Nat)) (msgs : List Msg) (d : Tables) (ix : List MsgWords),
    chunks.length < fuel → (∀ c ∈ chunks, c.1 + c.2 ≤ va.length) → TablesRep hash d ix → ix.length = msgs.length →
    ix.length + chunks.length ≤ maxMsgs →
    ∃ gs ms d' xs, addChunks hash w junk va fi fuel j chunks msgs d = .ok (gs.map (boxRecord w va), msgs ++ ms, d') ∧
      Grouped w va chunks gs ∧ BoxEntries fi j gs ms ∧ TablesRep hash d' (ix ++ xs) ∧
      Pairs (fun (g : (Nat × Nat) × Option Rfc822) x => IndexedAsR8 g.2 x) gs xs ∧ gs.length ≤ chunks.length := by
  intro fuel
  induction fuel with
  | zero => intro j chunks msgs d ix h; omega
  | succ fuel ih =>
    intro j chunks msgs d ix hf hin hd hix hmax
    cases chunks with
    | nil => exact ⟨[], [], d, [], by simp [addChunks], .nil, .nil, by simpa using hd, .nil, by simp⟩
    | cons c rest =>
      obtain ⟨s, l⟩ := c
      have h0 : s + l ≤ va.length := hin _ (List.mem_cons_self ..)
      have hrest : ∀ c ∈ rest, c.1 + c.2 ≤ va.length := fun c hc => hin c (List.mem_cons_of_mem _ hc)
      simp only [List.length_cons] at hf hmax
      -- what is taken
      have htake : ∃ len r8 rest', takeChunk w va s l rest = .ok (len, r8, rest') ∧ s + len ≤ va.length ∧
          (∀ c ∈ rest', c.1 + c.2 ≤ va.length) ∧ rest'.length ≤ rest.length ∧
          ∀ more, Grouped w va rest' more → Grouped w va ((s, l) :: rest) (((s, len), r8) :: more) := by
        rcases tryChunks_spec (w := w) (s := s) (va := va) (by omega) ((s, l) :: rest) 0 (by omega) hin with
          ⟨e, h⟩ | ⟨j, c, h1, h2, h3, h4, h5⟩
        · refine ⟨l, (w.parse (between va s (s + l))).1, rest, ?_, h0, hrest, Nat.le_refl _, ?_⟩
          · simp only [takeChunk, e, bind, Except.bind, slice_between h0]
          · intro more hm
            exact .alone (fun i c' hi => h i c' (by omega)) hm
        · refine ⟨c.1 + c.2 - s, (w.parse (between va s (c.1 + c.2))).1, rest.drop j, ?_, ?_, ?_, ?_, ?_⟩
          · simp only [takeChunk, h5, bind, Except.bind, List.drop_succ_cons]
          · have := hin c (List.mem_of_getElem? h1); omega
          · intro c' hc'; exact hrest c' (List.mem_of_mem_drop hc')
          · simp
          · intro more hm
            exact .joined h1 (by omega) h3 h4 hm
      obtain ⟨len, r8, rest', e1, hlen, hin', hle, hg⟩ := htake
      obtain ⟨d1, x, e2, hd1, hx⟩ := tokeniseIfAny_spec hd (by omega) r8
      obtain ⟨gs, ms, d', xs, e3, i1, i2, i3, i4, i5⟩ := ih (j + 1) rest' (msgs ++ [mboxMsg (junk msgs.length) fi j r8]) d1
        (ix ++ [x]) (by omega) hin' hd1 (by simp [hix]) (by simp; omega)
      refine ⟨((s, len), r8) :: gs, mboxMsg (junk msgs.length) fi j r8 :: ms, d', x :: xs, ?_, hg _ i1,
        .cons (isBoxEntry_mboxMsg _ _ _ _) i2, by simpa using i3, .cons hx i4, by simp; omega⟩
      rw [hix] at e2
      simp only [addChunks, e1, bind, Except.bind, slice_between hlen, e2, e3]
      simp [boxRecord]

/-- What happens to one mbox: its new parts become messages `ms`, about which the index knows `xs`. -/
def BoxDone (w : MboxWorld) (fi : Nat) (mb mb' : Mbox) (ms : List Msg) (xs : List MsgWords) : Prop :=
  (mb.newMsgs = [] ∧ mb' = mb ∧ ms = [] ∧ xs = []) ∨
  (mb.newMsgs ≠ [] ∧ ∃ p va gs, mb.path = some p ∧ w.contents p = .data va ∧ Grouped w va mb.newMsgs gs ∧
    mb' = { mb with msgs := mb.msgs.take mb.nOldValid ++ gs.map (boxRecord w va), newMsgs := [] } ∧
    BoxEntries fi mb.nOldValid gs ms ∧ Pairs (fun (g : (Nat × Nat) × Option Rfc822) x => IndexedAsR8 g.2 x) gs xs)

/-- The same for all mboxen from number `fi` on. -/
inductive BoxesDone (w : MboxWorld) : Nat → List Mbox → List Mbox → List Msg → List MsgWords → Prop
  | nil {fi} : BoxesDone w fi [] [] [] []
  | cons {fi mb mb' mbs mbs' ms ms' xs xs'} : BoxDone w fi mb mb' ms xs → BoxesDone w (fi + 1) mbs mbs' ms' xs' →
      BoxesDone w fi (mb :: mbs) (mb' :: mbs') (ms ++ ms') (xs ++ xs')

/-- The new parts of the mbox are parts of the file. -/
def Ready (w : MboxWorld) (mb : Mbox) : Prop :=
  mb.newMsgs ≠ [] → ∃ p va, mb.path = some p ∧ w.contents p = .data va ∧ ∀ c ∈ mb.newMsgs, c.1 + c.2 ≤ va.length

def countNew (mbs : List Mbox) : Nat := (mbs.map (·.newMsgs.length)).sum

theorem grouped_length {w : MboxWorld} {va : Text} {chunks : List (Nat × Nat)} {gs : List ((Nat × Nat) × Option Rfc822)}
    (h : Grouped w va chunks gs) : gs.length ≤ chunks.length := by
  induction h with
  | nil => simp
  | joined _ _ _ _ _ ih => simp at ih ⊢; omega
  | alone _ _ ih => simp at ih ⊢; omega

theorem boxEntries_length {fi j : Nat} {gs : List ((Nat × Nat) × Option Rfc822)} {ms : List Msg}
    (h : BoxEntries fi j gs ms) : gs.length = ms.length := by
  induction h with
  | nil => rfl
  | cons _ _ ih => simp [ih]

theorem addMboxes_spec {hash : Text → Nat} {w : MboxWorld} {junk : Nat → Msg} : ∀ (mbs : List Mbox) (fi : Nat)
    (msgs : List Msg) (d : Tables) (ix : List MsgWords), (∀ mb ∈ mbs, Ready w mb) → TablesRep hash d ix →
    ix.length = msgs.length → ix.length + countNew mbs ≤ maxMsgs →
    ∃ mbs' ms d' xs, addMboxes hash w junk fi mbs msgs d = .ok (mbs', msgs ++ ms, d') ∧
      BoxesDone w fi mbs mbs' ms xs ∧ TablesRep hash d' (ix ++ xs) ∧ xs.length = ms.length ∧
      ms.length ≤ countNew mbs := by
  intro mbs
  induction mbs with
  | nil =>
    intro fi msgs d ix _ hd _ _
    exact ⟨[], [], d, [], by simp [addMboxes], .nil, by simpa using hd, rfl, by simp⟩
  | cons mb mbs ih =>
    intro fi msgs d ix hr hd hix hmax
    have hc : countNew (mb :: mbs) = mb.newMsgs.length + countNew mbs := by simp [countNew]
    rw [hc] at hmax ⊢
    have hr' : ∀ mb ∈ mbs, Ready w mb := fun m hm => hr m (List.mem_cons_of_mem _ hm)
    have hone : ∃ mb' ms d1 xs, addMbox hash w junk fi mb msgs d = .ok (mb', msgs ++ ms, d1) ∧
        BoxDone w fi mb mb' ms xs ∧ TablesRep hash d1 (ix ++ xs) ∧ xs.length = ms.length ∧ ms.length ≤ mb.newMsgs.length := by
      by_cases hn : mb.newMsgs = []
      · refine ⟨mb, [], d, [], by simp [addMbox, hn], .inl ⟨hn, rfl, rfl, rfl⟩, by simpa using hd, rfl, by simp⟩
      · obtain ⟨p, va, hp, hc, hin⟩ := hr mb (List.mem_cons_self ..) hn
        obtain ⟨gs, ms, d1, xs, e, h1, h2, h3, h4, h5⟩ := addChunks_spec (w := w) (junk := junk) (va := va) (fi := fi)
          (mb.newMsgs.length + 1) mb.nOldValid mb.newMsgs msgs d ix (by omega) hin hd hix (by omega)
        have hl1 := boxEntries_length h2
        have hl2 := pairs_length h4
        refine ⟨_, ms, d1, xs, ?_, .inr ⟨hn, p, va, gs, hp, hc, h1, rfl, h2, h4⟩, h3, by omega, by omega⟩
        simp only [addMbox, hn, if_false, hp, hc, e, bind, Except.bind]
    obtain ⟨mb', ms, d1, xs, e1, b1, t1, l1, c1⟩ := hone
    obtain ⟨mbs', ms', d', xs', e2, b2, t2, l2, c2⟩ := ih (fi + 1) (msgs ++ ms) d1 (ix ++ xs) hr' t1
      (by simp [hix, l1]) (by simp [l1]; omega)
    refine ⟨mb' :: mbs', ms ++ ms', d', xs ++ xs', ?_, .cons b1 b2, by simpa using t2, by simp [l1, l2], by simp; omega⟩
    simp only [addMboxes, e1, e2, bind, Except.bind]
    simp

/-- The message without its thread number. -/
def noTid (m : Msg) : Msg := { m with tid := 0 }

/-- The threads the thread numbers stand for are those of the ids. -/
def ThreadsRight (msgs : List Msg) (ix : List MsgWords) : Prop :=
  (∀ (i j : Nat) mi mj, msgs[i]? = some mi → msgs[j]? = some mj →
    (mi.tid = mj.tid ↔ Chain (ShareId (idsMentioned (ix.map (·.ids)))) i j)) ∧
  ∀ m ∈ msgs, m.tid < msgs.length

theorem setTids_getElem? : ∀ (ms : List Msg) (ts : List Nat) (i : Nat), ts.length = ms.length →
    ∀ m, (setTids ms ts)[i]? = some m → ts[i]? = some m.tid := by
  intro ms
  induction ms with
  | nil => intro ts i _ m h; simp [setTids] at h
  | cons m0 ms ih =>
    intro ts i hl m h
    cases ts with
    | nil => simp at hl
    | cons t ts =>
      simp only [setTids] at h
      cases i with
      | zero => simp at h; subst h; simp
      | succ i => simp at h hl; simpa using ih ts i hl m h

theorem setTids_length : ∀ (ms : List Msg) (ts : List Nat), (setTids ms ts).length = ms.length := by
  intro ms
  induction ms with
  | nil => intro ts; cases ts <;> rfl
  | cons m0 ms ih => intro ts; cases ts <;> simp [setTids, ih]

theorem rethread_spec {hash : Text → Nat} {db : Database} {ix : List MsgWords} (h : TablesRep hash db.tables ix)
    (hl : ix.length = db.msgs.length) :
    ∃ msgs', rethread db = .ok { db with msgs := msgs' } ∧ msgs'.map noTid = db.msgs.map noTid ∧ ThreadsRight msgs' ix := by
  obtain ⟨tids, e, h1, h2, first, h3, h4⟩ := findThreading_rep h.ids (db.msgs.map (·.tid)) (by simp [hl])
  have hlt := tids_lt h1 h2 h3 h4
  have hlen : tids.length = db.msgs.length := by rw [h1]; simp [hl]
  refine ⟨setTids db.msgs tids, by simp only [rethread, e, bind, Except.bind], setTids_map _ (fun _ _ => rfl) _ _, ?_, ?_⟩
  · intro i j mi mj hi hj
    exact h2 i j _ _ (setTids_getElem? _ _ i hlen _ hi) (setTids_getElem? _ _ j hlen _ hj)
  · intro m hm
    rw [setTids_length]
    obtain ⟨i, hi, rfl⟩ := List.mem_iff_getElem.1 hm
    have := setTids_getElem? _ _ i hlen _ (List.getElem?_eq_getElem hi)
    have := hlt _ (List.mem_of_getElem? this)
    simp only [List.length_map] at this
    omega

/-- What an update does, apart from thread numbers: `new` are the entries for new files and IMAP messages,
`box` those for new messages in mboxen, `xs` and `ys` what the index knows of them. -/
structure Updates (hash : Text → Nat) (w : World) (mw : MboxWorld) (fast : Bool) (l : List Listed) (db db' : Database)
    (ix : List MsgWords) (new box : List Msg) (xs ys : List MsgWords) : Prop where
  msgs : db'.msgs.map noTid = (db.msgs.map (aged w fast l db.mboxen) ++ new ++ box).map noTid
  new : Pairs (IsEntry w) (newPlaces w fast l db.mboxen db.msgs) new
  box : BoxesDone mw 0 db.mboxen db'.mboxen box ys
  known : Pairs (IndexedAs w) (newPlaces w fast l db.mboxen db.msgs) xs
  rep : TablesRep hash db'.tables (ix ++ xs ++ ys)

/-- Whether the update finds something new (or, among the listed, something that cannot be indexed). -/
def findsNew (w : World) (fast : Bool) (l : List Listed) (db : Database) : Bool :=
  (l.any fun e => decide (e ∉ keptPlaces w fast l db.mboxen db.msgs)) || db.mboxen.any (·.newMsgs ≠ [])

/-- Whether a live message does not stay. -/
def loses (w : World) (fast : Bool) (l : List Listed) (db : Database) : Bool :=
  db.msgs.any fun m => decide (m.src ≠ .dead) && !stays w fast l db.mboxen m

theorem boxesDone_length {w : MboxWorld} {fi : Nat} {mbs mbs' : List Mbox} {ms : List Msg} {xs : List MsgWords}
    (h : BoxesDone w fi mbs mbs' ms xs) : ms.length = xs.length ∧ mbs.length = mbs'.length := by
  induction h with
  | nil => simp
  | cons h1 _ ih =>
    rcases h1 with ⟨_, _, rfl, rfl⟩ | ⟨_, _, _, gs, _, _, _, _, a, b⟩
    · simp [ih]
    · have := boxEntries_length a
      have := pairs_length b
      simp; omega

theorem updateDatabase_spec {hash : Text → Nat} {w : World} {mw : MboxWorld} {junk : Nat → Msg} {fast : Bool}
    {l : List Listed} {db : Database} {ix : List MsgWords} (hs : l.Pairwise ListedBefore)
    (hrefs : RefsOk db.mboxen db.msgs) (hready : ∀ mb ∈ db.mboxen, Ready mw mb) (hd : TablesRep hash db.tables ix)
    (hl : ix.length = db.msgs.length) (hmax : db.msgs.length + l.length + countNew db.mboxen ≤ maxMsgs) :
    ∃ db' new box xs ys, updateDatabase hash (addMboxMessages hash mw junk) w fast l db =
        .ok (db', findsNew w fast l db || loses w fast l db) ∧
      Updates hash w mw fast l db db' ix new box xs ys ∧
      (findsNew w fast l db = true → ThreadsRight db'.msgs (ix ++ xs ++ ys)) ∧
      (findsNew w fast l db = false → db'.msgs = db.msgs.map (aged w fast l db.mboxen) ∧ db'.mboxen = db.mboxen ∧
        db'.tables = db.tables) := by
  obtain ⟨used, e1, hu⟩ := matchAll_spec (w := w) (fast := fast) hs db.mboxen db.msgs
  have e2 := weedAll_spec (w := w) (fast := fast) (l := l) db.msgs hrefs
  obtain ⟨ms, e3, hms⟩ := addNew_spec (w := w) (kept := keptPlaces w fast l db.mboxen db.msgs) l 0 (by simpa using hu)
  have hnp : (newPlaces w fast l db.mboxen db.msgs).length ≤ l.length := List.length_filter_le _ _
  obtain ⟨ms', d1, xs, e4, hm', hd1, hx⟩ := scanAll_spec _ ms db.tables ix hms hd (by
    have : (List.filter (fun e => decide (e ∉ keptPlaces w fast l db.mboxen db.msgs) && addable w e) l).length ≤ l.length :=
      List.length_filter_le _ _
    omega)
  have lms := pairs_length hms
  have lms' := pairs_length hm'
  have lxs := pairs_length hx
  have hxl : xs.length ≤ l.length := by rw [← lxs]; exact hnp
  have hwl : ix.length = (db.msgs.map (aged w fast l db.mboxen)).length := by simp [hl]
  -- scanning is skipped only if there is nothing to scan
  have e5 : scanIf (l.any fun e => decide (e ∉ keptPlaces w fast l db.mboxen db.msgs)) hash w
      (db.msgs.map (aged w fast l db.mboxen)).length ms db.tables = .ok (ms', d1) := by
    unfold scanIf
    cases hany : (l.any fun e => decide (e ∉ keptPlaces w fast l db.mboxen db.msgs)) with
    | true => rw [if_pos rfl, ← hwl]; exact e4
    | false =>
      have hnil : ms = [] := by
        have : (l.filter fun e => decide (e ∉ keptPlaces w fast l db.mboxen db.msgs) && addable w e) = [] := by
          rw [List.filter_eq_nil_iff]
          intro e he
          rw [List.any_eq_false] at hany
          have := hany e he
          simp at this
          simp [this]
        rw [this] at hms
        cases hms; rfl
      subst hnil
      simp only [scanAll] at e4
      simpa using e4
  obtain ⟨mbs', box, d2, ys, e6, hbox, hd2, hly, hcnt⟩ := addMboxes_spec (hash := hash) (w := mw) (junk := junk) db.mboxen 0
    (db.msgs.map (aged w fast l db.mboxen) ++ ms') d1 (ix ++ xs) hready hd1 (by simp [hl]; omega) (by simp; omega)
  let db1 : Database := { mboxen := mbs', msgs := db.msgs.map (aged w fast l db.mboxen) ++ ms' ++ box, tables := d2 }
  have e7 : addMboxMessages hash mw junk { db with msgs := db.msgs.map (aged w fast l db.mboxen) ++ ms', tables := d1 } =
      .ok (db1, db.mboxen.any (·.newMsgs ≠ [])) := by
    simp only [addMboxMessages, e6, bind, Except.bind, db1]
  have hup : updateDatabase hash (addMboxMessages hash mw junk) w fast l db =
      (rethreadIf (findsNew w fast l db) db1).bind fun db' => .ok (db', findsNew w fast l db || loses w fast l db) := by
    simp only [updateDatabase, e1, e2, e3, bind, Except.bind]
    simp only [e5]
    simp only [e7]
    rfl
  rw [hup]
  have hix : (ix ++ xs ++ ys).length = db1.msgs.length := by simp [db1, hl]; omega
  cases hf : findsNew w fast l db with
  | false =>
    have hf' := hf
    unfold findsNew at hf'
    rw [Bool.or_eq_false_iff] at hf'
    have hnp0 : newPlaces w fast l db.mboxen db.msgs = [] := by
      unfold newPlaces
      rw [List.filter_eq_nil_iff]
      intro e he
      have := (List.any_eq_false.1 hf'.1) e he
      simp at this
      simp [this]
    have hms0 : ms' = [] ∧ xs = [] := by
      change Pairs (IsEntry w) (newPlaces w fast l db.mboxen db.msgs) ms' at hm'
      change Pairs (IndexedAs w) (newPlaces w fast l db.mboxen db.msgs) xs at hx
      rw [hnp0] at hm' hx
      cases hm'; cases hx
      exact ⟨rfl, rfl⟩
    have hb0 : box = [] ∧ ys = [] ∧ mbs' = db.mboxen ∧ d2 = d1 := by
      have key : ∀ (mbs : List Mbox) (fi : Nat) (msgs : List Msg) (d : Tables), mbs.any (·.newMsgs ≠ []) = false →
          addMboxes hash mw junk fi mbs msgs d = .ok (mbs, msgs, d) := by
        intro mbs
        induction mbs with
        | nil => intro fi msgs d _; rfl
        | cons mb mbs ih =>
          intro fi msgs d h
          simp only [List.any_cons, Bool.or_eq_false_iff] at h
          have h0 : mb.newMsgs = [] := by simpa using h.1
          simp only [addMboxes, addMbox, h0, if_true, bind, Except.bind, ih (fi + 1) msgs d h.2]
      have := key db.mboxen 0 (db.msgs.map (aged w fast l db.mboxen) ++ ms') d1 hf'.2
      rw [this] at e6
      simp only [Except.ok.injEq, Prod.mk.injEq] at e6
      obtain ⟨a, b, c⟩ := e6
      have hbn : box = [] := by
        have := congrArg List.length b
        simp at this
        exact this
      refine ⟨hbn, ?_, a.symm, c.symm⟩
      have := (boxesDone_length hbox).1
      rw [hbn] at this
      exact List.eq_nil_of_length_eq_zero this.symm
    have hd0 : d1 = db.tables := by
      rw [hf'.1] at e5
      simp only [scanIf, Bool.false_eq_true, if_false, Except.ok.injEq, Prod.mk.injEq] at e5
      exact e5.2.symm
    obtain ⟨rfl, rfl⟩ := hms0
    obtain ⟨rfl, rfl, rfl, rfl⟩ := hb0
    subst hd0
    refine ⟨db1, [], [], [], [], by simp [rethreadIf, Except.bind], ⟨by simp [db1], hm', hbox, hx, hd2⟩, by simp, ?_⟩
    intro _
    exact ⟨by simp [db1], rfl, rfl⟩
  | true =>
    obtain ⟨msgs', e8, h8, h9⟩ := rethread_spec (db := db1) hd2 hix
    refine ⟨{ db1 with msgs := msgs' }, ms', box, xs, ys, by simp [rethreadIf, e8, Except.bind], ⟨h8, hm', hbox, hx, hd2⟩,
      fun _ => h9, by simp⟩

end Mairix
