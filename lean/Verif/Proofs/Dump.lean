import Verif.Proofs.DbView
import Verif.Proofs.CullFuel
import Verif.Model.Dump
import Verif.Spec.Dump

/-! What is printed of the file that was written. -/

namespace Mairix
open Spec

theorem formatD_small {n : Nat} (h : n < 2 ^ 31) : formatD n = digits n := by rw [formatD, if_pos h]

theorem formatD_signed (n : Nat) : formatD n = signed n := rfl

theorem padTo_column {w n : Nat} (h : n < 2 ^ 31) : padTo w 0x20 (formatD n) = column w n := by rw [formatD_small h]; rfl

theorem hex8_eq (n : Nat) : formatHex n = hex8 n := rfl

/-! ## Loops -/

theorem rounds_numbered {α : Type} {g : Nat → Res α} {f : Nat → Res Text} {t : Nat → α → Text} : ∀ (k i : Nat) {xs : List α},
    rounds g i k = .ok xs → (∀ j x, i ≤ j → j < i + k → x ∈ xs → g j = .ok x → f j = .ok (t j x)) →
    ∃ ys, rounds f i k = .ok ys ∧ ys.flatten = numbered t i xs := by
  intro k
  induction k with
  | zero => intro i xs h _; cases h; exact ⟨[], rfl, rfl⟩
  | succ k ih =>
    intro i xs h hf
    rw [rounds] at h
    obtain ⟨a, h1, h⟩ := res_bind_ok h
    obtain ⟨as, h2, h⟩ := res_bind_ok h
    cases h
    obtain ⟨ys, h3, h4⟩ := ih (i + 1) h2 (fun j x h5 h6 h7 h8 => hf j x (by omega) (by omega) (List.mem_cons_of_mem _ h7) h8)
    refine ⟨t i a :: ys, ?_, ?_⟩
    · simp only [rounds, hf i a (Nat.le_refl _) (by omega) (by simp) h1, h3, bind, Except.bind]
    · rw [List.flatten_cons, h4, numbered]

theorem numbered_map {α β : Type} (g : α → β) (f : Nat → β → Text) : ∀ (l : List α) (i : Nat),
    numbered f i (l.map g) = numbered (fun j a => f j (g a)) i l
  | [], _ => rfl
  | a :: l, i => by rw [List.map_cons, numbered, numbered, numbered_map g f l]

/-! ## Numbers -/

def numberText (j : Nat) : Text := digits j ++ bs " "

theorem inLines_eq (l : List Nat) : inLines l = if l.length ≤ 16 then l.flatMap numberText
    else (l.take 16).flatMap numberText ++ bs "\n" ++ inLines (l.drop 16) := by
  rw [inLines]; rfl

theorem dumpNumbers_eq : ∀ (l : List Nat) (k : Nat), k ≤ 16 → (∀ j ∈ l, j < 2 ^ 31) →
    dumpNumbers k l = if l.length ≤ 16 - k then l.flatMap numberText
      else (l.take (16 - k)).flatMap numberText ++ bs "\n" ++ inLines (l.drop (16 - k)) := by
  intro l
  induction l with
  | nil => intro k _ _; simp [dumpNumbers]
  | cons j js ih =>
    intro k hk hs
    have hj := hs j (by simp)
    have e : formatD (j % 2 ^ 32) ++ bs " " = numberText j := by
      rw [Nat.mod_eq_of_lt (by omega), formatD_small hj]; rfl
    have hs' : ∀ x ∈ js, x < 2 ^ 31 := fun x hx => hs x (List.mem_cons_of_mem _ hx)
    rw [dumpNumbers]
    split
    · have : k = 16 := by omega
      subst this
      have hr : (if (j :: js).length ≤ 16 - 16 then (j :: js).flatMap numberText
          else ((j :: js).take (16 - 16)).flatMap numberText ++ bs "\n" ++ inLines ((j :: js).drop (16 - 16))) = bs "\n" ++ inLines (j :: js) := by
        rw [if_neg (by simp)]; rfl
      rw [hr, ih 1 (by omega) hs', e, inLines_eq (j :: js), List.append_assoc]
      by_cases h : js.length ≤ 15
      · rw [if_pos (by omega), if_pos (by simp only [List.length_cons]; omega), List.flatMap_cons]
      · rw [if_neg (by omega), if_neg (by simp only [List.length_cons]; omega)]
        simp only [List.take_succ_cons, List.drop_succ_cons, List.flatMap_cons, List.append_assoc, Nat.reduceSub]
    · rw [ih (k + 1) (by omega) hs', e]
      have h16 : 16 - k = (16 - (k + 1)) + 1 := by omega
      rw [h16]
      by_cases h : js.length ≤ 16 - (k + 1)
      · rw [if_pos h, if_pos (by simp only [List.length_cons]; omega), List.flatMap_cons]
      · rw [if_neg h, if_neg (by simp only [List.length_cons]; omega)]
        simp only [List.take_succ_cons, List.drop_succ_cons, List.flatMap_cons, List.append_assoc]

theorem dumpNumbers_inLines {l : List Nat} (h : ∀ j ∈ l, j < 2 ^ 31) : dumpNumbers 0 l = inLines l := by
  rw [dumpNumbers_eq l 0 (by omega) h, inLines_eq l]

/-! ## Tables -/

/-- A table of the file as it is printed. -/
def printedTable (bs : List (Option Text × List UInt8)) : List (Text × List Nat) := bs.map fun b => (b.1.getD [], readAll b.2)

theorem tokenChain_spec {data : Text} {n tok enc : Nat} {bl : List (Option Text × List UInt8)}
    (e : rounds (rdToken data ⟨n, tok, enc⟩) 0 n = .ok bl) (hn : n < 2 ^ 31) (hl : bl.length = n)
    (hb : ∀ b ∈ bl, (∃ w, b.1 = some w) ∧ ∀ j ∈ readAll b.2, j < 2 ^ 31) :
    dumpTokenChain data n tok enc = .ok (tableLines (printedTable bl)) := by
  obtain ⟨ys, h1, h2⟩ := rounds_numbered (f := dumpEntry data tok enc)
    (t := fun j b => wordLines j (b.1.getD [], readAll b.2)) n 0 e (by
      intro j b _ hj hm hg
      obtain ⟨⟨w, hw⟩, hs⟩ := hb b hm
      rw [rdToken] at hg
      obtain ⟨off, h1, hg⟩ := res_bind_ok hg
      obtain ⟨o, h2, hg⟩ := res_bind_ok hg
      cases hg
      simp only at hw hs
      simp only [dumpEntry, h1, h2, bind, Except.bind, hw, dumpToken, wordLines, Option.getD_some, dumpNumbers_inLines hs,
        formatD_small (by omega : j < 2 ^ 31), List.append_assoc])
  simp only [dumpTokenChain, h1, bind, Except.bind, formatD_small hn]
  rw [tableLines, printedTable, numbered_map, h2, List.length_map, hl]

theorem listing_pairwise (mail : Mail) (w : Text) : (listing mail w).Pairwise (· < ·) :=
  List.Pairwise.filter _ List.pairwise_lt_range

theorem listing_bound {mail : Mail} {w : Text} {i : Nat} (h : i ∈ listing mail w) : i < mail.length := by
  obtain ⟨ws, h1, _⟩ := mem_listing.1 h
  exact (List.getElem?_eq_some_iff.1 h1).1

theorem printed_mail {hash : Text → Nat} {t : Table Matches} {mail : Mail} (hr : RepMail hash t mail)
    {bl : List (Option Text × List UInt8)} (hp : Pairs TokStored (tokensOf t) bl) :
    printedTable bl = (tokensOf t).map fun e => (e.text, listing mail e.text) := by
  have : ∀ (es : List (Entry Matches)) bl, Pairs TokStored es bl → (∀ e ∈ es, Valid e.data (listing mail e.text)) →
      printedTable bl = es.map fun e => (e.text, listing mail e.text) := by
    intro es bl hp
    induction hp with
    | nil => intro _; rfl
    | @cons e b es bl h _ ih =>
      intro hv
      obtain ⟨h2, rest, h3⟩ := h
      show (b.1.getD [], readAll b.2) :: printedTable bl = _
      rw [List.map_cons, ih (fun e he => hv e (by simp [he])), h2, h3, valid_readAll_file (hv e (by simp))]
      rfl
  refine this _ _ hp ?_
  intro e he
  obtain ⟨b, hb, hv⟩ := hr.sound e he
  rw [(listOpt_some.1 hb).1]; exact hv

theorem orderly_map {α : Type} {es : List (Entry α)} (hn : (es.map Entry.text).Nodup) (mail : Mail) {n : Nat} (h : mail.length = n) :
    Orderly (es.map fun e => (e.text, listing mail e.text)) n := by
  subst h
  refine ⟨by rw [List.map_map]; exact hn, ?_⟩
  intro e he
  obtain ⟨x, _, rfl⟩ := List.mem_map.1 he
  exact ⟨listing_pairwise _ _, fun i hi => listing_bound hi⟩

theorem under_map {α : Type} {es : List (Entry α)} {mail : Mail} (hc : ∀ w, listing mail w ≠ [] → ∃ e ∈ es, e.text = w) (w : Text) (i : Nat) :
    Under (es.map fun e => (e.text, listing mail e.text)) w i ↔ ∃ ws, mail[i]? = some ws ∧ w ∈ ws := by
  rw [← mem_listing]
  constructor
  · rintro ⟨l, h1, h2⟩
    obtain ⟨x, _, h3⟩ := List.mem_map.1 h1
    cases h3
    exact h2
  · intro h
    obtain ⟨e, he, rfl⟩ := hc w (by intro h0; rw [h0] at h; cases h)
    exact ⟨_, List.mem_map.2 ⟨e, he, rfl⟩, h⟩

theorem mail_complete {hash : Text → Nat} {t : Table Matches} {mail : Mail} (hr : RepMail hash t mail) :
    ∀ w, listing mail w ≠ [] → ∃ e ∈ tokensOf t, e.text = w :=
  fun w h => hr.complete w _ (listOpt_some.2 ⟨rfl, h⟩)

theorem mail_used {hash : Text → Nat} {t : Table Matches} {mail : Mail} (hr : RepMail hash t mail) :
    ∀ e ∈ (tokensOf t).map fun e => (e.text, listing mail e.text), e.2 ≠ [] := by
  intro e he
  obtain ⟨x, hx, rfl⟩ := List.mem_map.1 he
  obtain ⟨b, hb, _⟩ := hr.sound x hx
  exact (listOpt_some.1 hb).2

theorem dump_table {d : Text} {t : Table Matches} {tok enc : Nat} {bl : List (Option Text × List UInt8)}
    (e : rounds (rdToken d ⟨t.n, tok, enc⟩) 0 t.n = .ok bl) (hp : Pairs TokStored (tokensOf t) bl)
    {hash : Text → Nat} {mail : Mail} (hr : RepMail hash t mail) (hn : t.n < 2 ^ 31) (hl : mail.length < 2 ^ 31) :
    dumpTokenChain d t.n tok enc = .ok (tableLines ((tokensOf t).map fun e => (e.text, listing mail e.text))) := by
  rw [tokenChain_spec e hn (by rw [← pairs_length hp]; exact hr.ok.n_eq.symm) ?_, printed_mail hr hp]
  intro b hb
  obtain ⟨x, hx, h1, rest, h2⟩ := pairs_right hp hb
  obtain ⟨l, h3, hv⟩ := hr.sound x hx
  refine ⟨⟨_, h1⟩, ?_⟩
  rw [h2, valid_readAll_file hv, ← (listOpt_some.1 h3).1]
  intro j hj
  have := listing_bound hj
  omega

/-! ## Identifiers -/

theorem rounds_mono {α β : Type} {f : Nat → Res α} {g : Nat → Res β} {h : α → β} (hh : ∀ i a, f i = .ok a → g i = .ok (h a)) :
    ∀ (k i : Nat) {xs : List α}, rounds f i k = .ok xs → rounds g i k = .ok (xs.map h) := by
  intro k
  induction k with
  | zero => intro i xs e; cases e; rfl
  | succ k ih =>
    intro i xs e
    rw [rounds] at e
    obtain ⟨a, h1, e⟩ := res_bind_ok e
    obtain ⟨as, h2, e⟩ := res_bind_ok e
    cases e
    simp only [rounds, hh i a h1, ih (i + 1) h2, bind, Except.bind, List.map_cons]

theorem rdToken2_fst {d : Text} {n tok enc0 enc1 i : Nat} {b} (e : rdToken2 d ⟨n, tok, enc0, enc1⟩ i = .ok b) :
    rdToken d ⟨n, tok, enc0⟩ i = .ok (b.1, b.2.1) ∧ rdToken d ⟨n, tok, enc1⟩ i = .ok (b.1, b.2.2) := by
  rw [rdToken2] at e
  obtain ⟨x, h1, e⟩ := res_bind_ok e
  obtain ⟨y, h2, e⟩ := res_bind_ok e
  obtain ⟨z, h3, e⟩ := res_bind_ok e
  cases e
  simp only at h1 h2 h3
  simp only [rdToken, h1, h2, h3, bind, Except.bind, and_self]

/-- The two lists of each identifier. -/
def printedIds (t : Table Matches2) (mail : Mail) : List (Text × List Nat) := (tokensOf t).map fun e => (e.text, listing mail e.text)

theorem printed_ids {es : List (Entry Matches2)} {bl : List (Option Text × List UInt8 × List UInt8)} {m0 m1 : Mail}
    (hp : Pairs Tok2Stored es bl) :
    (∀ e ∈ es, Valid e.data.match0 (listing m0 e.text) ∧ Valid e.data.match1 (listing m1 e.text)) →
    printedTable (bl.map fun b => (b.1, b.2.1)) = es.map (fun e => (e.text, listing m0 e.text)) ∧
    printedTable (bl.map fun b => (b.1, b.2.2)) = es.map (fun e => (e.text, listing m1 e.text)) := by
  induction hp with
  | nil => intro _; exact ⟨rfl, rfl⟩
  | @cons e b es bl h _ ih =>
    intro hv
    obtain ⟨h2, ⟨rest, h3⟩, rest', h4⟩ := h
    obtain ⟨i1, i2⟩ := ih (fun e he => hv e (by simp [he]))
    obtain ⟨v1, v2⟩ := hv e (by simp)
    constructor
    · show (b.1.getD [], readAll b.2.1) :: printedTable (bl.map _) = _
      rw [List.map_cons, i1, h2, h3, valid_readAll_file v1]; rfl
    · show (b.1.getD [], readAll b.2.2) :: printedTable (bl.map _) = _
      rw [List.map_cons, i2, h2, h4, valid_readAll_file v2]; rfl

theorem dump_ids {d : Text} {t : Table Matches2} {tok enc0 enc1 : Nat} {bl : List (Option Text × List UInt8 × List UInt8)}
    (e : rounds (rdToken2 d ⟨t.n, tok, enc0, enc1⟩) 0 t.n = .ok bl) (hp : Pairs Tok2Stored (tokensOf t) bl)
    {hash : Text → Nat} {mail : IdMail} (hr : RepIds hash t mail) (hn : t.n < 2 ^ 31) (hl : mail.length < 2 ^ 31) :
    dumpTokenChain d t.n tok enc0 = .ok (tableLines (printedIds t (idsMentioned mail))) ∧
    dumpTokenChain d t.n tok enc1 = .ok (tableLines (printedIds t (idsOwn mail))) := by
  have hlen : bl.length = t.n := by rw [← pairs_length hp]; exact hr.ok.n_eq.symm
  have hv : ∀ x ∈ tokensOf t, Valid x.data.match0 (listing (idsMentioned mail) x.text) ∧ Valid x.data.match1 (listing (idsOwn mail) x.text) := by
    intro x hx
    obtain ⟨b, hb, h1, h2⟩ := hr.sound x hx
    obtain ⟨h3, h4, _⟩ := idLists_some.1 hb
    rw [← h3, ← h4]; exact ⟨h1, h2⟩
  obtain ⟨p1, p2⟩ := printed_ids hp hv
  constructor
  · rw [tokenChain_spec (rounds_mono (fun i a h => (rdToken2_fst h).1) _ _ e) hn (by rw [List.length_map, hlen]) ?_, p1]; rfl
    intro b hb
    obtain ⟨c, hc, rfl⟩ := List.mem_map.1 hb
    obtain ⟨x, hx, h1, ⟨rest, h2⟩, _⟩ := pairs_right hp hc
    refine ⟨⟨_, h1⟩, ?_⟩
    simp only
    rw [h2, valid_readAll_file (hv x hx).1]
    intro j hj
    have := listing_bound hj
    simp only [idsMentioned, List.length_map] at this
    omega
  · rw [tokenChain_spec (rounds_mono (fun i a h => (rdToken2_fst h).2) _ _ e) hn (by rw [List.length_map, hlen]) ?_, p2]; rfl
    intro b hb
    obtain ⟨c, hc, rfl⟩ := List.mem_map.1 hb
    obtain ⟨x, hx, h1, _, rest, h2⟩ := pairs_right hp hc
    refine ⟨⟨_, h1⟩, ?_⟩
    simp only
    rw [h2, valid_readAll_file (hv x hx).2]
    intro j hj
    have := listing_bound hj
    simp only [idsOwn, List.length_map] at this
    omega

theorem ids_complete {hash : Text → Nat} {t : Table Matches2} {mail : IdMail} (hr : RepIds hash t mail) :
    ∀ w, listing (idsMentioned mail) w ≠ [] → ∃ e ∈ tokensOf t, e.text = w :=
  fun w h => hr.complete w (listing (idsMentioned mail) w, listing (idsOwn mail) w) (idLists_some.2 ⟨rfl, rfl, h⟩)

theorem own_complete {hash : Text → Nat} {t : Table Matches2} {mail : IdMail} (hr : RepIds hash t mail) :
    ∀ w, listing (idsOwn mail) w ≠ [] → ∃ e ∈ tokensOf t, e.text = w := by
  intro w h
  obtain ⟨i, hi⟩ := List.exists_mem_of_ne_nil _ h
  refine ids_complete hr w ?_
  intro h0
  have := own_sub hi
  rw [h0] at this
  cases this

theorem ids_used {hash : Text → Nat} {t : Table Matches2} {mail : IdMail} (hr : RepIds hash t mail) :
    ∀ e ∈ printedIds t (idsMentioned mail), e.2 ≠ [] := by
  intro e he
  obtain ⟨x, hx, rfl⟩ := List.mem_map.1 he
  obtain ⟨b, hb, _⟩ := hr.sound x hx
  obtain ⟨h3, _, h5⟩ := idLists_some.1 hb
  rw [h3] at h5
  exact h5

/-! ## Messages -/

/-- A message as it is printed. -/
def shownPlace (m : DbMsg) : Shown :=
  if m.type = DB_MSG_FILE then .file m.path m.size m.tid
  else if m.type = DB_MSG_IMAP then .imap m.path m.tid
  else if m.type = DB_MSG_MBOX then .mbox m.mbix m.msgix m.mtime m.size m.tid
  else .dead

def shownOf (m : DbMsg) : ShownMsg :=
  { place := shownPlace m
    seen := m.typeAndFlags &&& FLAG_SEEN != 0
    replied := m.typeAndFlags &&& FLAG_REPLIED != 0
    flagged := m.typeAndFlags &&& FLAG_FLAGGED != 0 }

theorem dumpPlace_eq {m : DbMsg} (h : m.type = DB_MSG_DEAD ∨ m.type = DB_MSG_FILE ∨ m.type = DB_MSG_IMAP ∨ m.type = DB_MSG_MBOX) :
    dumpPlace m = (shownPlace m).text := by
  rcases h with h | h | h | h <;>
    simp only [dumpPlace, shownPlace, h, DB_MSG_DEAD, DB_MSG_FILE, DB_MSG_IMAP, DB_MSG_MBOX] <;> rfl

theorem stored_type {mboxen : List Mbox} {m : Msg} {x : DbMsg} (h : MsgStored mboxen m x) :
    x.type = DB_MSG_DEAD ∨ x.type = DB_MSG_FILE ∨ x.type = DB_MSG_IMAP ∨ x.type = DB_MSG_MBOX := by
  have : x.type = typeByte m.src := by
    show x.typeAndFlags &&& 0x7 = _
    rw [h.1]; exact type_of_byte m
  rw [this]
  cases m.src <;> simp [typeByte]

theorem dump_messages {r : RawDb} {k : Nat} {xs : List DbMsg} (e : rounds (rdMsg r) 0 k = .ok xs) (hk : k < 2 ^ 31)
    (hx : ∀ x ∈ xs, x.type = DB_MSG_DEAD ∨ x.type = DB_MSG_FILE ∨ x.type = DB_MSG_IMAP ∨ x.type = DB_MSG_MBOX) :
    ∃ ys, rounds (dumpMessage r) 0 k = .ok ys ∧ ys.flatten = numbered messageLine 0 (xs.map shownOf) := by
  obtain ⟨ys, h1, h2⟩ := rounds_numbered (f := dumpMessage r) (t := fun j x => messageLine j (shownOf x)) k 0 e (by
    intro j x _ hj hm hg
    simp only [dumpMessage, hg, bind, Except.bind, dumpMessageText, padTo_column (by omega : j < 2 ^ 31), dumpPlace_eq (hx x hm)]
    rfl)
  exact ⟨ys, h1, by rw [h2, numbered_map]⟩

/-! ## Mboxen -/

theorem mem_sum_le {f : Mbox → Nat} : ∀ {l : List Mbox} {mb : Mbox}, mb ∈ l → f mb ≤ (l.map f).sum
  | x :: l, mb, h => by
    rw [List.map_cons, List.sum_cons]
    rcases List.mem_cons.1 h with rfl | h
    · omega
    · have := mem_sum_le (f := f) h; omega

theorem box_small {db : Database} (h : fileLength db < 2 ^ 31) {mb : Mbox} (hm : mb ∈ db.mboxen) : mb.msgs.length < 2 ^ 31 := by
  have h1 := mem_sum_le (f := mboxCharLength) hm
  have h2 : mb.msgs.length * 16 ≤ mboxCharLength mb := Nat.le_add_right _ _
  have h3 : (db.mboxen.map mboxCharLength).sum ≤ charLength db := by simp only [charLength]; omega
  have h4 : charLength db ≤ fileLength db := Nat.le_add_right _ _
  omega

/-- An mbox as it is printed. -/
def shownBox (mb : Mbox) : Option (Nat × Text) := mb.path.map fun p => (mb.msgs.length, p)

theorem dumpBox_spec {key : Nat} {db : Database} {d : Text} {ws : List Write} (h : Written key db d ws) (hc : CStrings db)
    {i : Nat} {mb : Mbox} (hm : db.mboxen[i]? = some mb) : dumpBox (rawOf key db d) i = .ok (boxLine i (shownBox mb)) := by
  have hmem := List.mem_of_getElem? hm
  obtain ⟨h1, h2, h3, h4⟩ := h.file.mboxen i mb hm
  have hi := (List.getElem?_eq_some_iff.1 hm).1
  obtain ⟨_, s1, _⟩ := table_small h.small
  have hb := box_small h.small hmem
  cases hp : mb.path with
  | none =>
    rw [hp] at h4
    simp only [dumpBox, rawOf, rd32_at (h.word h4), bind, Except.bind, dumpBoxEntry, shownBox, hp, Option.map_none, dumpBoxText,
      boxLine, padTo_column (by omega : i < 2 ^ 31)]
    rfl
  | some p =>
    rw [hp] at h4
    obtain ⟨o, a, b⟩ := h4
    have : o ≠ 0 := by
      rintro rfl
      rcases h.file.blocks _ _ b with ⟨_, h'⟩ | h'
      · have := congrArg List.getLast? h'
        simp at this
      · omega
    simp only [dumpBox, rawOf, h.offset a b (by simp), bind, Except.bind, dumpBoxEntry, if_pos this, rd32_at (h.word h1), cstrAt,
      tokenAt_at (h.block b) (hc.mbox mb hmem p hp), shownBox, hp, Option.map_some, dumpBoxText, boxLine,
      padTo_column (by omega : i < 2 ^ 31), Nat.mod_eq_of_lt (by omega : mb.msgs.length < 2 ^ 32), formatD_small hb]

theorem rounds_direct {α : Type} {f : Nat → Res Text} {t : Nat → α → Text} : ∀ (l : List α) (i : Nat),
    (∀ (j : Nat) a, l[j]? = some a → f (i + j) = .ok (t (i + j) a)) →
    ∃ ys, rounds f i l.length = .ok ys ∧ ys.flatten = numbered t i l := by
  intro l
  induction l with
  | nil => intro i _; exact ⟨[], rfl, rfl⟩
  | cons a l ih =>
    intro i h
    obtain ⟨ys, h1, h2⟩ := ih (i + 1) (by
      intro j b hb
      have := h (j + 1) b (by simpa using hb)
      rwa [show i + (j + 1) = i + 1 + j by omega] at this)
    refine ⟨t i a :: ys, ?_, ?_⟩
    · have := h 0 a rfl
      simp only [Nat.add_zero] at this
      simp only [List.length_cons, rounds, this, h1, bind, Except.bind]
    · rw [List.flatten_cons, h2, numbered]

theorem dumpBoxes_spec {key : Nat} {db : Database} {d : Text} {ws : List Write} (h : Written key db d ws) (hc : CStrings db) :
    dumpBoxes (rawOf key db d) = .ok (if db.mboxen.map shownBox = [] then [] else
      bs "\nMBOX INFORMATION\n" ++ digits (db.mboxen.map shownBox).length ++ bs " mboxen\n" ++
        numbered boxLine 0 (db.mboxen.map shownBox) ++ bs "\n") := by
  obtain ⟨_, s1, _⟩ := table_small h.small
  have hn : (rawOf key db d).nMboxen = db.mboxen.length := rfl
  rw [dumpBoxes, hn, loopBound_lt s1, List.length_map]
  by_cases he : db.mboxen = []
  · rw [he]; rfl
  · rw [if_pos (List.length_pos_iff.2 he), if_neg (by simpa using he)]
    obtain ⟨ys, h1, h2⟩ := rounds_direct (f := dumpBox (rawOf key db d)) (t := fun i mb => boxLine i (shownBox mb)) db.mboxen 0 (by
      intro j mb hj; rw [Nat.zero_add]; exact dumpBox_spec h hc hj)
    simp only [h1, bind, Except.bind, h2, numbered_map, formatD_small s1]

/-! ## The whole -/

/-- What is printed of a database. -/
def dumpOf (key : Nat) (db : Database) (ix : List MsgWords) (xs : List DbMsg) : Dump where
  messages := xs.map shownOf
  boxes := db.mboxen.map shownBox
  key := key % 2 ^ 32
  words
    | .to => (tokensOf db.tables.to).map fun e => (e.text, listing (ix.map (·.words .to)) e.text)
    | .cc => (tokensOf db.tables.cc).map fun e => (e.text, listing (ix.map (·.words .cc)) e.text)
    | .sender => (tokensOf db.tables.from).map fun e => (e.text, listing (ix.map (·.words .sender)) e.text)
    | .subject => (tokensOf db.tables.subject).map fun e => (e.text, listing (ix.map (·.words .subject)) e.text)
    | .body => (tokensOf db.tables.body).map fun e => (e.text, listing (ix.map (·.words .body)) e.text)
    | .attachment => (tokensOf db.tables.attachmentName).map fun e => (e.text, listing (ix.map (·.words .attachment)) e.text)
    | .path => []
  mentioned := printedIds db.tables.msgIds (idsMentioned (ix.map (·.ids)))
  own := printedIds db.tables.msgIds (idsOwn (ix.map (·.ids)))

theorem dump_spec {key : Nat} {db : Database} {d : Text} {ws : List Write} (h : Written key db d ws) (hc : CStrings db)
    {hash : Text → Nat} {ix : List MsgWords} (hg : GoodDb hash db ix) (name : Text) {view : ReadDb}
    (hv : viewDb (rawOf key db d) = .ok view) :
    dumpDatabase name d = .ok ((dumpOf key db ix view.msgs).text name) := by
  obtain ⟨s0, s1, s2, s3, s4, s5, s6, s7, s8⟩ := table_small h.small
  obtain ⟨xs, e1, p1⟩ := rdMsgs_spec h hc
  obtain ⟨b1, t1, q1⟩ := rdTokens_spec h h.file.to hc.to hg.rep.to.ok.n_eq.symm
  obtain ⟨b2, t2, q2⟩ := rdTokens_spec h h.file.cc hc.cc hg.rep.cc.ok.n_eq.symm
  obtain ⟨b3, t3, q3⟩ := rdTokens_spec h h.file.sender hc.sender hg.rep.sender.ok.n_eq.symm
  obtain ⟨b4, t4, q4⟩ := rdTokens_spec h h.file.subject hc.subject hg.rep.subject.ok.n_eq.symm
  obtain ⟨b5, t5, q5⟩ := rdTokens_spec h h.file.body hc.body hg.rep.body.ok.n_eq.symm
  obtain ⟨b6, t6, q6⟩ := rdTokens_spec h h.file.attachment hc.attachment hg.rep.attachment.ok.n_eq.symm
  obtain ⟨b7, t7, q7⟩ := rdTokens2_spec h h.file.ids hc.ids hg.rep.ids.ok.n_eq.symm
  have hxs : view.msgs = xs := by
    rw [viewDb] at hv
    obtain ⟨xs', h1, hv⟩ := res_bind_ok hv
    rw [show (rawOf key db d).nMsgs = db.msgs.length from rfl, loopBound_lt s0, e1] at h1
    cases h1
    iterate 8 obtain ⟨_, _, hv⟩ := res_bind_ok hv
    cases hv; rfl
  subst hxs
  have hlen : ix.length < 2 ^ 31 := by rw [hg.length]; exact s0
  have hl : ∀ g : MsgWords → List Text, (ix.map g).length < 2 ^ 31 := fun g => by rw [List.length_map]; exact hlen
  obtain ⟨ys, y1, y2⟩ := dump_messages e1 s0 (by
    intro x hx
    obtain ⟨m, _, hm⟩ := pairs_right p1 hx
    exact stored_type hm)
  obtain ⟨i1, i2⟩ := dump_ids t7 q7 hg.rep.ids s8 (by rw [List.length_map]; exact hlen)
  have c1 := dump_table t1 q1 hg.rep.to s2 (hl _)
  have c2 := dump_table t2 q2 hg.rep.cc s3 (hl _)
  have c3 := dump_table t3 q3 hg.rep.sender s4 (hl _)
  have c4 := dump_table t4 q4 hg.rep.subject s5 (hl _)
  have c5 := dump_table t5 q5 hg.rep.body s6 (hl _)
  have c6 := dump_table t6 q6 hg.rep.attachment s7 (hl _)
  have hn : (rawOf key db d).nMsgs = db.msgs.length := rfl
  have hm : (view.msgs.map shownOf).length = db.msgs.length := by rw [List.length_map, ← pairs_length p1]
  simp only [dumpDatabase, openDb_spec h, bind, Except.bind, hn, loopBound_lt s0, y1, dumpBoxes_spec h hc, dumpToktable, dumpToktable2]
  simp only [rawOf, c1, c2, c3, c4, c5, c6, i1, i2]
  rw [y2, formatD_small s0, ← hm]
  rfl

/-- What is printed with number `i` are the words of message `i`. -/
theorem told_words {hash : Text → Nat} {key : Nat} {db : Database} {ix : List MsgWords} {xs : List DbMsg} (hg : GoodDb hash db ix) {i : Nat}
    {mw : MsgWords} (hi : ix[i]? = some mw) {found : Rfc822 → Prop} (hw : ∀ f v, v ∈ mw.words f ↔ ∃ m, found m ∧ HasWord m f v)
    (hid : ∀ v own, (v, own) ∈ mw.ids ↔ ∃ m, found m ∧ HasId m own v) : ToldWords (dumpOf key db ix xs) i found where
  words := by
    have key : ∀ (t : Table Matches) (g : MsgWords → List Text), RepMail hash t (ix.map g) → ∀ v,
        Under ((tokensOf t).map fun e => (e.text, listing (ix.map g) e.text)) v i ↔ v ∈ g mw := by
      intro t g hr v
      rw [under_map (mail_complete hr)]
      simp [hi]
    intro f v hf
    rw [← hw f v]
    cases f with
    | to => exact key _ _ hg.rep.to v
    | cc => exact key _ _ hg.rep.cc v
    | sender => exact key _ _ hg.rep.sender v
    | subject => exact key _ _ hg.rep.subject v
    | body => exact key _ _ hg.rep.body v
    | attachment => exact key _ _ hg.rep.attachment v
    | path => exact absurd rfl hf
  own := by
    intro v
    show Under (printedIds _ _) v i ↔ _
    rw [← hid v true, printedIds, under_map (own_complete hg.rep.ids)]
    simp [idsOwn, hi]
  mentioned := by
    intro v
    show Under (printedIds _ _) v i ↔ _
    rw [printedIds, under_map (ids_complete hg.rep.ids)]
    simp only [idsMentioned, List.getElem?_map, hi, Option.map_some, Option.some.injEq, exists_eq_left', List.mem_map]
    constructor
    · rintro ⟨⟨v', own⟩, h, rfl⟩
      obtain ⟨m, h1, h2⟩ := (hid _ own).1 h
      exact ⟨m, own, h1, h2⟩
    · rintro ⟨m, own, h1, h2⟩
      exact ⟨(v, own), (hid v own).2 ⟨m, h1, h2⟩, rfl⟩

end Mairix
