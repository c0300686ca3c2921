import Verif.Proofs.Integrity
import Verif.Proofs.DbView
import Verif.Proofs.Bytes

/-! The texts in the database are C strings. -/

namespace Mairix
open Spec

theorem addrChar_ne_zero {c : UInt8} (h : AddrChar c) : c ≠ 0 := by
  rintro rfl
  rcases h with (⟨h, _⟩ | ⟨h, _⟩ | ⟨h, _⟩ | h) | h | h | h | h <;> exact absurd h (by decide)

theorem lower_zero {w : Text} (h : 0 ∉ w) : 0 ∉ lower w := by
  unfold lower
  intro h'
  obtain ⟨c, hc, e⟩ := List.mem_map.1 h'
  have : ∀ c : UInt8, toLower c = 0 → c = 0 := forall_byte (by decide +kernel)
  exact h (this c e ▸ hc)

theorem run_zero {P : UInt8 → Prop} {s w : Text} (h : MaximalRun P s w) (hP : ∀ c, P c → c ≠ 0) : 0 ∉ w := by
  obtain ⟨a, b, _, _, h, _⟩ := h
  exact fun h0 => hP 0 (h 0 h0) rfl

theorem wordRun_zero {s w : Text} (h : MaximalRun WordChar s w) : 0 ∉ lower w :=
  lower_zero (run_zero h fun _ h => addrChar_ne_zero (.inl h))

theorem addrRun_zero {s w : Text} (h : MaximalRun AddrChar s w) : 0 ∉ lower w :=
  lower_zero (run_zero h fun _ h => addrChar_ne_zero h)

mutual
theorem hasWord_zero : (m : Rfc822) → CText m → ∀ f w, HasWord m f w → 0 ∉ w
  | .mk h atts, hc, f, w, hw => by
    cases hw with
    | to _ h => exact h.elim wordRun_zero addrRun_zero
    | cc _ h => exact h.elim wordRun_zero addrRun_zero
    | sender _ h => exact h.elim wordRun_zero addrRun_zero
    | subject _ h => exact wordRun_zero h
    | part h => exact partHasWord_zero atts hc.2.2.2 f w h
theorem partHasWord_zero : (a : Attachments) → CTextParts a → ∀ f w, PartHasWord a f w → 0 ∉ w
  | .nil, _, f, w, hw => by cases hw
  | .cons b n rest, hc, f, w, hw => by
    cases hw with
    | plain h => exact wordRun_zero h
    | html h => exact wordRun_zero h
    | embedded h => exact hasWord_zero _ hc.1 f w h
    | filename => exact lower_zero (hc.2.1 _ rfl)
    | rest h => exact partHasWord_zero rest hc.2.2 f w h
end

theorem angledTerms_zero {s : Text} {ts : List Text} (h : AngledTerms s ts) : 0 ∉ s → ∀ t ∈ ts, 0 ∉ t := by
  induction h with
  | none => intro _ t ht; cases ht
  | term h1 h2 h3 ih =>
    intro hs t ht
    simp only [List.mem_append, List.mem_cons, not_or] at hs
    rcases List.mem_cons.1 ht with rfl | ht
    · exact hs.1.2.2
    · exact ih hs.2.2 t ht

theorem angled_zero {s id : Text} (h : Angled s id) (hs : 0 ∉ s) : 0 ∉ lower id := by
  obtain ⟨ts, h, hi⟩ := h
  exact lower_zero (angledTerms_zero h hs id hi)

mutual
theorem hasId_zero : (m : Rfc822) → CText m → ∀ own w, HasId m own w → 0 ∉ w
  | .mk h atts, hc, own, w, hw => by
    cases hw with
    | own a b => exact angled_zero b (hc.1 _ a)
    | replyTo a b => exact angled_zero b (hc.2.1 _ a)
    | reference a b => exact angled_zero b (hc.2.2.1 _ a)
    | part h => exact partHasId_zero atts hc.2.2.2 own w h
theorem partHasId_zero : (a : Attachments) → CTextParts a → ∀ own w, PartHasId a own w → 0 ∉ w
  | .nil, _, own, w, hw => by cases hw
  | .cons b n rest, hc, own, w, hw => by
    cases hw with
    | embedded h => exact hasId_zero _ hc.1 own w h
    | rest h => exact partHasId_zero rest hc.2.2 own w h
end

/-- The words of the index are C strings. -/
def WordsC (ix : List MsgWords) : Prop :=
  ∀ x ∈ ix, (∀ f w, w ∈ x.words f → 0 ∉ w) ∧ ∀ w own, (w, own) ∈ x.ids → 0 ∉ w

/-- The paths in the database are C strings, and the checksums have 16 bytes. -/
structure PathsC (db : Database) : Prop where
  file : ∀ m ∈ db.msgs, ∀ p mt sz, m.src = .file p mt sz → 0 ∉ p
  imap : ∀ m ∈ db.msgs, ∀ p, m.src = .imap p → 0 ∉ p
  mbox : ∀ mb ∈ db.mboxen, ∀ p, mb.path = some p → 0 ∉ p
  checks : ∀ mb ∈ db.mboxen, ∀ e ∈ mb.msgs, e.check.length = 16

theorem table_zero {hash : Text → Nat} {t : Table Matches} {ix : List MsgWords} {f : Field}
    (h : RepMail hash t (ix.map (·.words f))) (hw : WordsC ix) : ∀ e ∈ tokensOf t, 0 ∉ e.text := by
  intro e he
  obtain ⟨b, hb, _⟩ := h.sound e he
  obtain ⟨rfl, hne⟩ := listOpt_some.1 hb
  obtain ⟨i, hi⟩ := List.exists_mem_of_ne_nil _ hne
  rw [mem_listing] at hi
  obtain ⟨ws, h1, h2⟩ := hi
  rw [List.getElem?_map, Option.map_eq_some_iff] at h1
  obtain ⟨x, h1, rfl⟩ := h1
  exact (hw x (List.mem_of_getElem? h1)).1 f _ h2

theorem ids_zero {hash : Text → Nat} {t : Table Matches2} {ix : List MsgWords}
    (h : RepIds hash t (ix.map (·.ids))) (hw : WordsC ix) : ∀ e ∈ tokensOf t, 0 ∉ e.text := by
  intro e he
  obtain ⟨b, hb, _⟩ := h.sound e he
  unfold idLists at hb
  split at hb
  · cases hb
  · next hne =>
    obtain ⟨i, hi⟩ := List.exists_mem_of_ne_nil _ hne
    rw [mem_listing] at hi
    obtain ⟨ws, h1, h2⟩ := hi
    rw [idsMentioned, List.map_map, List.getElem?_map, Option.map_eq_some_iff] at h1
    obtain ⟨x, h1, rfl⟩ := h1
    obtain ⟨⟨v, own⟩, h3, h4⟩ := List.mem_map.1 h2
    simp only at h4
    rw [← h4]
    exact (hw x (List.mem_of_getElem? h1)).2 v own h3

/-- A good database whose texts are C strings can be written. -/
theorem cstrings_of {hash : Text → Nat} {db : Database} {ix : List MsgWords} (h : GoodDb hash db ix) (hw : WordsC ix)
    (hp : PathsC db) : CStrings db where
  file := hp.file
  imap := hp.imap
  mbox := hp.mbox
  to := table_zero h.rep.to hw
  cc := table_zero h.rep.cc hw
  sender := table_zero h.rep.sender hw
  subject := table_zero h.rep.subject hw
  body := table_zero h.rep.body hw
  attachment := table_zero h.rep.attachment hw
  ids := ids_zero h.rep.ids hw

theorem mem_boxIdx {msgs : List Msg} {fi mi : Nat} {m : Msg} (hm : m ∈ msgs) (h : m.src = .mbox fi mi) :
    mi ∈ boxIdx msgs fi := by
  unfold boxIdx
  exact List.mem_filterMap.2 ⟨m, hm, by simp [boxNo, h]⟩

theorem writable_of {hash : Text → Nat} {db : Database} {ix : List MsgWords} (h : GoodDb hash db ix) (hp : PathsC db) :
    Writable db where
  to := h.rep.to.ok.n_eq.symm
  cc := h.rep.cc.ok.n_eq.symm
  sender := h.rep.sender.ok.n_eq.symm
  subject := h.rep.subject.ok.n_eq.symm
  body := h.rep.body.ok.n_eq.symm
  attachment := h.rep.attachment.ok.n_eq.symm
  ids := h.rep.ids.ok.n_eq.symm
  srcs := by
    intro m hm fi mi hs
    obtain ⟨k, hk, hk'⟩ := h.boxes fi
    have hmi := mem_boxIdx hm hs
    rw [hk, List.mem_range] at hmi
    obtain ⟨mb, h1, _, _, h2⟩ := hk' (by omega)
    obtain ⟨e, h3, h4⟩ := h2 mi hmi
    exact ⟨mb, e, h1, h3, h4⟩
  checks := hp.checks

end Mairix
