import Verif.Proofs.RunSpec
import Verif.Proofs.DbView
import Verif.Spec.Mail

/-! What a search sees after a history of runs. -/

namespace Mairix
open Spec

theorem isAt_place {mbs : List Mbox} {m : Msg} {y : DbMsg} (h : MsgStored mbs m y) (e : Listed) :
    (y.path = e.path ∧ y.type = match e.kind with | .file => DB_MSG_FILE | .imap => DB_MSG_IMAP) ↔ Place m = some e := by
  obtain ⟨hb, _, h4⟩ := h
  have hty : y.type = typeByte m.src := by rw [DbMsg.type, hb, type_of_byte]
  obtain ⟨k, p⟩ := e
  rw [hty]
  cases hsrc : m.src with
  | file q mt sz =>
    rw [hsrc] at h4
    rw [place_file hsrc, h4.1]
    cases k with
    | file => simp [typeByte]
    | imap => simp only [typeByte, Option.some.injEq, Listed.mk.injEq, reduceCtorEq, false_and, iff_false, not_and]; intro _; decide
  | imap q =>
    rw [hsrc] at h4
    rw [place_imap hsrc, h4.1]
    cases k with
    | file => simp only [typeByte, Option.some.injEq, Listed.mk.injEq, reduceCtorEq, false_and, iff_false, not_and]; intro _; decide
    | imap => simp [typeByte]
  | mbox fi mi =>
    have : Place m = none := by
      obtain ⟨s, _, _, _, _, _⟩ := m
      simp only at hsrc; subst hsrc; rfl
    rw [this]
    simp only [typeByte, reduceCtorEq, iff_false, not_and]
    intro _
    cases k <;> decide
  | dead =>
    have : Place m = none := by
      obtain ⟨s, _, _, _, _, _⟩ := m
      simp only at hsrc; subst hsrc; rfl
    rw [this]
    simp only [typeByte, reduceCtorEq, iff_false, not_and]
    intro _
    cases k <;> decide

theorem bool_iff_false {b : Bool} {P : Prop} (h : b = false) (hp : ¬ P) : b = true ↔ P := by simp [h, hp]

theorem describes_of {w : World} {e : Listed} {mbs : List Mbox} {m : Msg} {mw : MsgWords} {x : Info} (hp : Place m = some e)
    (h1 : EntryOf w e m) (h2 : IndexedAs w e mw) (hx : InfoOf mbs m mw x) : Describes w e x where
  words := by intro f v; rw [hx.words]; exact h2.1 f v
  ids := by
    intro v
    rw [hx.ids, List.mem_map]
    constructor
    · rintro ⟨⟨v', own⟩, h, rfl⟩
      obtain ⟨h, ho⟩ := List.mem_filter.1 h
      simp only at ho
      subst ho
      exact (h2.2 v' true).1 h
    · intro h
      exact ⟨(v, true), List.mem_filter.2 ⟨(h2.2 v true).2 h, rfl⟩, rfl⟩
  path := by
    rw [hx.path]
    rcases place_src hp with ⟨_, mt, sz, hs⟩ | ⟨_, hs⟩ <;> rw [hs] <;> rfl
  date := by
    intro r hr
    rw [hx.date (place_live hp), (h1.read r hr).1]
  size := by
    intro t s hk hst
    have hs := hx.size
    have h3 := h1.src
    obtain ⟨k, p⟩ := e
    simp only at hk
    subst hk
    obtain ⟨t', s', mt', sz', a, b, c, d⟩ := h3
    rw [hst] at a
    cases a
    rw [b] at hs
    simp only [SizeOf] at hs
    rw [hs, d]
  seen := by
    rw [hx.seen]
    by_cases hr : ∃ r, Reads w e r
    · obtain ⟨r, hr⟩ := hr
      rw [(h1.read r hr).2.1]
      exact ⟨fun h => ⟨⟨r, hr⟩, h⟩, fun h => h.2⟩
    · exact bool_iff_false (h1.notRead fun r h => hr ⟨r, h⟩).2.1 (fun h => hr h.1)
  replied := by
    rw [hx.replied]
    by_cases hr : ∃ r, Reads w e r
    · obtain ⟨r, hr⟩ := hr
      rw [(h1.read r hr).2.2.1]
      exact ⟨fun h => ⟨⟨r, hr⟩, h⟩, fun h => h.2⟩
    · exact bool_iff_false (h1.notRead fun r h => hr ⟨r, h⟩).2.2.1 (fun h => hr h.1)
  flagged := by
    rw [hx.flagged]
    by_cases hr : ∃ r, Reads w e r
    · obtain ⟨r, hr⟩ := hr
      rw [(h1.read r hr).2.2.2]
      exact ⟨fun h => ⟨⟨r, hr⟩, h⟩, fun h => h.2⟩
    · exact bool_iff_false (h1.notRead fun r h => hr ⟨r, h⟩).2.2.2 (fun h => hr h.1)

/-- If the texts are the same, so is the description. -/
theorem describes_congr {w w' : World} {e : Listed} {x : Info} (h : Describes w e x) (hr : w.read e.kind e.path = w'.read e.kind e.path)
    (hs : ∀ t' s', e.kind = .file → w'.stat e.path = .file t' s' → ∃ t s, w.stat e.path = .file t s ∧ s = s') : Describes w' e x := by
  have key : ∀ r, Reads w e r ↔ Reads w' e r := by
    intro r; unfold Reads; rw [hr]
  constructor
  · intro f v; simp only [h.words, key]
  · intro v; simp only [h.ids, key]
  · exact h.path
  · intro m hm; exact h.date m ((key m).2 hm)
  · intro t' s' hk hst
    obtain ⟨t, s, h1, rfl⟩ := hs t' s' hk hst
    exact h.size t s hk h1
  · simp only [h.seen, key]
  · simp only [h.replied, key]
  · simp only [h.flagged, key]

theorem place_unique : ∀ {l : List Msg}, (l.filterMap Place).Nodup → ∀ (i j : Nat) m m' e, l[i]? = some m → l[j]? = some m' →
    Place m = some e → Place m' = some e → i = j := by
  intro l
  induction l with
  | nil => intro _ i j m m' e h; simp at h
  | cons a l ih =>
    intro hn i j m m' e hi hj hm hm'
    have hn' : (l.filterMap Place).Nodup := by
      rw [List.filterMap_cons] at hn
      split at hn
      · exact hn
      · exact (List.nodup_cons.1 hn).2
    have hclash : ∀ (k : Nat) b, l[k]? = some b → Place b = some e → Place a ≠ some e := by
      intro k b hk hb ha
      rw [List.filterMap_cons, ha] at hn
      exact (List.nodup_cons.1 hn).1 (List.mem_filterMap.2 ⟨b, List.mem_of_getElem? hk, hb⟩)
    cases i with
    | zero =>
      cases j with
      | zero => rfl
      | succ j =>
        simp at hi hj
        subst hi
        exact absurd hm (hclash j m' hj hm')
    | succ i =>
      cases j with
      | zero =>
        simp at hi hj
        subst hj
        exact absurd hm' (hclash i m hi hm)
      | succ j =>
        simp at hi hj
        rw [ih hn' i j m m' e hi hj hm hm']

end Mairix
