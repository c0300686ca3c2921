import Verif.Proofs.Dump
import Verif.Props.RunExamples

/-!
# C78: the dump
-/

namespace Mairix
open Spec

theorem shown_names {mbs : List Mbox} {m : Msg} {y : DbMsg} (h : MsgStored mbs m y) (e : Listed) : (shownOf y).Names e ↔ Place m = some e := by
  have hty : y.type = typeByte m.src := by rw [DbMsg.type, h.1, type_of_byte]
  obtain ⟨_, _, h4⟩ := h
  obtain ⟨k, p⟩ := e
  cases hs : m.src with
  | file q mt sz =>
    rw [hs] at h4 hty
    have hty : y.type = DB_MSG_FILE := hty
    have : shownPlace y = .file y.path y.size y.tid := by rw [shownPlace, if_pos hty]
    simp only [ShownMsg.Names, shownOf, this, place_file hs, Option.some.injEq, Listed.mk.injEq, h4.1]
    exact ⟨fun h => ⟨h.1.symm, h.2.symm⟩, fun h => ⟨h.1.symm, h.2.symm⟩⟩
  | imap q =>
    rw [hs] at h4 hty
    have hty : y.type = DB_MSG_IMAP := hty
    have : shownPlace y = .imap y.path y.tid := by rw [shownPlace, if_neg (by rw [hty]; decide), if_pos hty]
    simp only [ShownMsg.Names, shownOf, this, place_imap hs, Option.some.injEq, Listed.mk.injEq, h4.1]
    exact ⟨fun h => ⟨h.1.symm, h.2.symm⟩, fun h => ⟨h.1.symm, h.2.symm⟩⟩
  | mbox fi mi =>
    rw [hs] at hty
    have hty : y.type = DB_MSG_MBOX := hty
    have : shownPlace y = .mbox y.mbix y.msgix y.mtime y.size y.tid := by
      rw [shownPlace, if_neg (by rw [hty]; decide), if_neg (by rw [hty]; decide), if_pos hty]
    have hpl : Place m = none := by
      cases hq : Place m with
      | none => rfl
      | some e => rcases place_src hq with ⟨_, _, _, h⟩ | ⟨_, h⟩ <;> (rw [hs] at h; cases h)
    simp [ShownMsg.Names, shownOf, this, hpl]
  | dead =>
    rw [hs] at hty
    have hty : y.type = DB_MSG_DEAD := hty
    have : shownPlace y = .dead := by
      rw [shownPlace, if_neg (by rw [hty]; decide), if_neg (by rw [hty]; decide), if_neg (by rw [hty]; decide)]
    have hpl : Place m = none := by
      cases hq : Place m with
      | none => rfl
      | some e => rcases place_src hq with ⟨_, _, _, h⟩ | ⟨_, h⟩ <;> (rw [hs] at h; cases h)
    simp [ShownMsg.Names, shownOf, this, hpl]

theorem shown_box {mbs : List Mbox} {m : Msg} {y : DbMsg} (h : MsgStored mbs m y) {b n o s t : Nat} (hp : (shownOf y).place = .mbox b n o s t) :
    m.src = .mbox b n ∧ y.mtime = o ∧ y.size = s := by
  have hty : y.type = typeByte m.src := by rw [DbMsg.type, h.1, type_of_byte]
  obtain ⟨_, _, h4⟩ := h
  simp only [shownOf, shownPlace] at hp
  split at hp
  · cases hp
  · split at hp
    · cases hp
    · split at hp
      · rename_i h1 h2 h3
        rw [hty] at h1 h2 h3
        cases hp
        cases hs : m.src with
        | file q mt sz => rw [hs] at h1; exact absurd rfl h1
        | imap q => rw [hs] at h2; exact absurd rfl h2
        | dead => rw [hs] at h3; exact absurd h3 (by decide)
        | mbox fi mi =>
          rw [hs] at h4
          rw [h4.1, h4.2.1]
          exact ⟨rfl, rfl, rfl⟩
      · cases hp

theorem dump_agrees {hist : List Run} {r : Run} {hash : Text → Nat} {key : Nat} {db : Database} {ix : List MsgWords} {xs : List DbMsg}
    (hm : Mem hist hash db ix) (hc : Current r db) (hs : ∀ r' ∈ hist, Sane r') (hx : Pairs (MsgStored db.mboxen) db.msgs xs) :
    DumpAgrees hist r (dumpOf key db ix xs) := by
  have hmsg : ∀ (i : Nat) m, (xs.map shownOf)[i]? = some m → ∃ y m', xs[i]? = some y ∧ db.msgs[i]? = some m' ∧ m = shownOf y ∧
      MsgStored db.mboxen m' y := by
    intro i m h
    rw [List.getElem?_map, Option.map_eq_some_iff] at h
    obtain ⟨y, h1, rfl⟩ := h
    obtain ⟨m', h2, h3⟩ := pairs_get' hx i y h1
    exact ⟨y, m', h1, h2, rfl, h3⟩
  have hlen : (xs.map shownOf).length = ix.length := by rw [List.length_map, ← pairs_length hx, hm.good.length]
  refine ⟨?_, ?_, ?_, ?_, ?_, ?_, ?_⟩
  · intro i j m m' e h1 h2 h3 h4
    obtain ⟨y, n, a1, a2, rfl, a4⟩ := hmsg i m h1
    obtain ⟨y', n', b1, b2, rfl, b4⟩ := hmsg j m' h2
    exact place_unique hm.good.places i j n n' e a2 b2 ((shown_names a4 e).1 h3) ((shown_names b4 e).1 h4)
  · intro m h e h3
    obtain ⟨i, h1⟩ := List.getElem?_of_mem h
    obtain ⟨y, n, a1, a2, rfl, a4⟩ := hmsg i m h1
    exact hc.listed n (List.mem_of_getElem? a2) e ((shown_names a4 e).1 h3)
  · intro e he ha
    obtain ⟨m, h1, h2⟩ := hc.all e he ha
    obtain ⟨y, h3, h4⟩ := pairs_left hx h1
    exact ⟨shownOf y, List.mem_map_of_mem h3, (shown_names h4 e).2 h2⟩
  · intro i m e h1 h3
    obtain ⟨y, n, a1, a2, rfl, a4⟩ := hmsg i m h1
    have hp := (shown_names a4 e).1 h3
    obtain ⟨mw, h5, h6⟩ := pairs_get hm.prov i n a2
    obtain ⟨r', g1, g2, g3⟩ := h6.place e hp
    refine ⟨r', g1, ⟨told_words hm.good h5 g3.1 g3.2, ?_, ?_, ?_, ?_⟩, ?_⟩
    · intro p size tid t s hpl hst
      have hn := h3
      simp only [ShownMsg.Names, hpl] at hn
      obtain ⟨hk, rfl⟩ := hn
      have hsrc := g2.src
      obtain ⟨k, q⟩ := e
      simp only at hk hst hpl
      subst hk
      obtain ⟨t1, s1, mt, sz, b1, b2, b3, b4⟩ := hsrc
      simp only at b1
      rw [b1] at hst
      cases hst
      obtain ⟨_, _, c⟩ := a4
      rw [b2] at c
      have : size = y.size := by
        simp only [shownOf, shownPlace] at hpl
        split at hpl
        · cases hpl; rfl
        · split at hpl
          · cases hpl
          · split at hpl <;> cases hpl
      rw [this, c.2.2.1, b4]
    all_goals
      first
      | (show (_ != 0) = true ↔ _)
      | skip
    · rw [a4.1, seen_of_byte]
      by_cases hr : ∃ x, Reads r'.world e x
      · obtain ⟨x, hx⟩ := hr
        exact ⟨fun h => ⟨⟨x, hx⟩, (g2.read x hx).2.1.1 h⟩, fun h => (g2.read x hx).2.1.2 h.2⟩
      · have := g2.notRead (fun x hx => hr ⟨x, hx⟩)
        exact ⟨fun h => (by rw [this.2.1] at h; cases h), fun h => absurd h.1 hr⟩
    · rw [a4.1, replied_of_byte]
      by_cases hr : ∃ x, Reads r'.world e x
      · obtain ⟨x, hx⟩ := hr
        exact ⟨fun h => ⟨⟨x, hx⟩, (g2.read x hx).2.2.1.1 h⟩, fun h => (g2.read x hx).2.2.1.2 h.2⟩
      · have := g2.notRead (fun x hx => hr ⟨x, hx⟩)
        exact ⟨fun h => (by rw [this.2.2.1] at h; cases h), fun h => absurd h.1 hr⟩
    · rw [a4.1, flagged_of_byte]
      by_cases hr : ∃ x, Reads r'.world e x
      · obtain ⟨x, hx⟩ := hr
        exact ⟨fun h => ⟨⟨x, hx⟩, (g2.read x hx).2.2.2.1 h⟩, fun h => (g2.read x hx).2.2.2.2 h.2⟩
      · have := g2.notRead (fun x hx => hr ⟨x, hx⟩)
        exact ⟨fun h => (by rw [this.2.2.2] at h; cases h), fun h => absurd h.1 hr⟩
    · intro hf hk
      have := g2.src
      obtain ⟨k, p⟩ := e
      simp only at hk
      subst hk
      obtain ⟨t, s, mt, sz, a, b, c, _⟩ := this
      obtain ⟨t', s', a', c'⟩ := hc.fresh hf n (List.mem_of_getElem? a2) p mt sz b
      exact ⟨t, s, t', s', a, a', by rw [← c, c']⟩
  · intro i m b nn o s t h1 hpl
    obtain ⟨y, n, a1, a2, rfl, a4⟩ := hmsg i m h1
    obtain ⟨hsrc, rfl, rfl⟩ := shown_box a4 hpl
    obtain ⟨mw, h5, h6⟩ := pairs_get hm.prov i n a2
    obtain ⟨r', g1, mb, p, va, c, s, l, c1, c2, c3, c4, c5, c6, c7, c8, c9⟩ := h6.box b nn hsrc
    obtain ⟨mb', p', w1, w2, w3⟩ := hc.boxes n (List.mem_of_getElem? a2) b nn hsrc
    rw [c1] at w1
    cases w1
    rw [c2] at w2
    cases w2
    obtain ⟨_, _, d0⟩ := a4
    rw [hsrc] at d0
    obtain ⟨_, _, _, mb', c', s', l', b4, b5, b6, b7, b8⟩ := d0
    rw [c1] at b4
    cases b4
    rw [c4] at b5
    cases b5
    rw [c5] at b6
    cases b6
    have hlt := (hs r' g1).contents p va c3
    rw [Nat.mod_eq_of_lt (by omega)] at b7 b8
    refine ⟨mb.msgs.length, p, ?_, (List.getElem?_eq_some_iff.1 c4).1, w3, r', g1, va, c3, by rw [b7, b8]; exact c6, ?_⟩
    · show (db.mboxen.map shownBox)[b]? = _
      rw [List.getElem?_map, c1]
      simp [shownBox, c2]
    · rw [b7, b8]
      exact told_words hm.good h5 c9.1 c9.2
  · show (∀ f, Orderly _ (xs.map shownOf).length) ∧ Orderly _ (xs.map shownOf).length ∧ Orderly _ (xs.map shownOf).length
    rw [hlen]
    refine ⟨?_, orderly_map hm.good.rep.ids.ok.nodup _ (by simp [idsMentioned]), orderly_map hm.good.rep.ids.ok.nodup _ (by simp [idsOwn])⟩
    intro f
    cases f with
    | to => exact orderly_map hm.good.rep.to.ok.nodup _ (List.length_map _)
    | cc => exact orderly_map hm.good.rep.cc.ok.nodup _ (List.length_map _)
    | sender => exact orderly_map hm.good.rep.sender.ok.nodup _ (List.length_map _)
    | subject => exact orderly_map hm.good.rep.subject.ok.nodup _ (List.length_map _)
    | body => exact orderly_map hm.good.rep.body.ok.nodup _ (List.length_map _)
    | attachment => exact orderly_map hm.good.rep.attachment.ok.nodup _ (List.length_map _)
    | path => exact ⟨List.nodup_nil, fun e he => (by cases he)⟩
  · refine ⟨?_, ids_used hm.good.rep.ids⟩
    intro f
    cases f with
    | to => exact mail_used hm.good.rep.to
    | cc => exact mail_used hm.good.rep.cc
    | sender => exact mail_used hm.good.rep.sender
    | subject => exact mail_used hm.good.rep.subject
    | body => exact mail_used hm.good.rep.body
    | attachment => exact mail_used hm.good.rep.attachment
    | path => exact fun e he => by cases he

/-- **C78.** After any number of indexing runs that completed, starting without a database, `--dump` prints a text in the
form `Dump.text` that agrees with the mail: exactly the messages listed in the last run, each once with its path, size
and flags, the messages of mboxen with the place where they are, and in each table each word once, followed by the
numbers of exactly the messages that have it, in order. -/
theorem C78_dump {hashfn : Nat → Text → Nat} {rs : List Run} {r : Run} {d : Text} (hs : ∀ r' ∈ rs ++ [r], Sane r')
    (e : indexRuns hashfn (rs ++ [r]) none = .ok (some d)) :
    ∃ dump : Dump, (∀ name, dumpDatabase name d = .ok (dump.text name)) ∧ DumpAgrees (rs ++ [r]) r dump := by
  obtain ⟨db, ix, h, hcur⟩ := indexRuns_ok (rs ++ [r]) [] (holds_none []) (by simp) hs e
  rw [List.nil_append] at h
  obtain ⟨⟨hash, hm⟩, key, ws, hw⟩ := h
  have hcs := cstrings_of hm.good hm.words hm.paths
  obtain ⟨view, info, v1, v2, v3, v4, _, _, v5, v6⟩ := viewDb_spec hw hcs hm.good
  exact ⟨dumpOf key db ix view.msgs, fun name => dump_spec hw hcs hm.good name v1, dump_agrees hm (hcur r (by simp)) hs v5⟩

/-- The dump after the runs. -/
def dumpAfter (rs : List Run) : Res Text := do
  match ← indexRuns exHash rs none with
  | none => .ok []
  | some d => dumpDatabase (bs "/h/db") d

/-- The two runs of Props/RunExamples.lean meet the conditions of `C78_dump`; this is how the dump begins. -/
example : (∀ r ∈ [exRun1] ++ [exRun2], Sane r) ∧
    (dumpAfter ([exRun1] ++ [exRun2])).map (·.take 304) = .ok (bs "Dump of /h/db\n3 messages\n     0: MBOX 0, msg 0, offset=7, size=17, tid=2\n     1: FILE /d/cur/b, size=70, tid=2\n     2: FILE /d/cur/c, size=40, tid=1\n\n\nMBOX INFORMATION\n1 mboxen\n   0: 1 msgs in /m\n\nHash key 0000004d\n\n--------------------------------\nContents of <To> table\n4 entries\nWord 0 : <x>\n  0 1 2 \n") :=
  ⟨exRuns_sane, by decide +kernel⟩

/-- The numbers of more than sixteen messages. -/
example : inLines (List.range 18) = bs "0 1 2 3 4 5 6 7 8 9 10 11 12 13 14 15 \n16 17 " ∧
    dumpNumbers 0 (List.range 18) = inLines (List.range 18) :=
  ⟨by decide +kernel, dumpNumbers_inLines (by decide)⟩

end Mairix
