import Verif.Proofs.Listing

/-! The word table represents the mail: each operation preserves it. -/

namespace Mairix
open Spec

def listOpt (l : List Nat) : Option (List Nat) := if l = [] then none else some l

theorem listOpt_some {l b : List Nat} : listOpt l = some b ↔ l = b ∧ l ≠ [] := by
  unfold listOpt; split
  · next h => simp [h]
  · next h => simp [h]

theorem listOpt_none {l : List Nat} : listOpt l = none ↔ l = [] := by
  unfold listOpt; split
  · next h => simp [h]
  · next h => simp [h]

/-- The table `t` is the index of `mail`. -/
def RepMail (hash : Text → Nat) (t : Table Matches) (mail : Mail) : Prop :=
  Rep hash Valid t (fun w => listOpt (listing mail w))

theorem Rep.congr {α β : Type} {hash : Text → Nat} {R : α → β → Prop} {t : Table α} {f g : Text → Option β}
    (h : Rep hash R t f) (he : ∀ w, f w = g w) : Rep hash R t g := by
  have : f = g := funext he
  rwa [← this]

theorem RepMail.new (hash : Text → Nat) : RepMail hash newTable [] :=
  (Rep.new hash Valid).congr (by intro w; simp [listing, listOpt])

theorem RepMail.newMessage {hash : Text → Nat} {t : Table Matches} {mail : Mail}
    (h : RepMail hash t mail) : RepMail hash t (mail ++ [[]]) :=
  Rep.congr h (by intro w; rw [listing_new])

theorem RepMail.addWord {hash : Text → Nat} {t : Table Matches} {mail mail' : Mail}
    (h : RepMail hash t mail) {w : Text} (hw : addWord (lower w) mail = some mail')
    (hsmall : mail.length ≤ maxMsgs) :
    ∃ t', addToken hash t w (mail.length - 1) = .ok t' ∧ RepMail hash t' mail' := by
  obtain ⟨ms, ws, h1, h2⟩ := addWord_eq hw
  subst h1 h2
  have hlen : (ms ++ [ws]).length - 1 = ms.length := by simp
  rw [hlen]
  have hsm : ms.length + 1 ≤ maxMsgs := by simpa using hsmall
  have hle : ∀ x ∈ listing (ms ++ [ws]) (lower w), x ≤ ms.length := by
    intro x hx; have := listing_lt x hx; simp at this; omega
  have key : ∀ d l, l = listing (ms ++ [ws]) (lower w) → Valid d l →
      ∃ d', addIndex d ms.length = .ok d' ∧ Valid d' (addAbs l ms.length) := by
    intro d l hl hv
    subst hl
    obtain ⟨d', a, b, _⟩ := addIndex_valid hv (i := ms.length) hle (by unfold maxMsgs at hsm; omega)
    exact ⟨d', a, b⟩
  obtain ⟨t1, i, t', h3, h4, h5⟩ := Rep.add h (fresh := initMatches) (text := lower w)
    (upd := fun m => addIndex m ms.length)
    (a := fun o => addAbs (o.getD []) ms.length)
    (fun hn => by
      have hn' := listOpt_none.mp hn
      obtain ⟨d', a, b⟩ := key initMatches [] hn'.symm valid_init
      exact ⟨d', a, b⟩)
    (fun d b hb hv => by
      obtain ⟨e1, e2⟩ := listOpt_some.mp hb
      exact key d b e1.symm hv)
  refine ⟨t', ?_, ?_⟩
  · unfold addToken
    simp only [h3, bind, Except.bind]
    exact h4
  · refine Rep.congr h5 ?_
    intro w'
    split
    · next heq =>
      subst heq
      rw [listing_addWord_self]
      have hne : addAbs (listing (ms ++ [ws]) (lower w)) ms.length ≠ [] := by
        unfold addAbs
        split
        · next hm => intro hc; rw [hc] at hm; simp at hm
        · simp
      have : (listOpt (listing (ms ++ [ws]) (lower w))).getD [] = listing (ms ++ [ws]) (lower w) := by
        unfold listOpt; split
        · next hc => simp [hc]
        · rfl
      simp only [this]
      exact (listOpt_some.mpr ⟨rfl, hne⟩).symm
    · next heq => rw [listing_addWord_ne heq]

/-- What the file holds of a table: for each word its text and the bytes from the start of its list
to the end of the file; `tail w` are the bytes after the terminator. -/
def fileTokens (t : Table Matches) (tail : Text → List UInt8) : List (Text × List UInt8) :=
  (ents t.slots).map fun e => (e.text, e.data.bytes ++ 0xff :: tail e.text)

theorem RepMail.reload' {hash : Text → Nat} {t : Table Matches} {mail : Mail}
    (h : RepMail hash t mail) (hash' : Text → Nat) (junk : Text → Nat) (tail : Text → List UInt8)
    (toks : List (Text × List UInt8)) (hperm : toks.Perm (fileTokens t tail)) :
    ∃ t', loadTable hash' mail.length junk toks = .ok t' ∧
      RepMail hash' t' mail := by
  have hmem : ∀ p ∈ toks.map (fun p => (p.1, readerCopy (junk p.1) p.2)), ∃ e ∈ ents t.slots,
      p = (e.text, readerCopy (junk e.text) (e.data.bytes ++ 0xff :: tail e.text)) := by
    intro p hp
    obtain ⟨q, hq, rfl⟩ := List.mem_map.mp hp
    have hq2 := hperm.mem_iff.mp hq
    unfold fileTokens at hq2
    obtain ⟨e, he, rfl⟩ := List.mem_map.mp hq2
    exact ⟨e, he, rfl⟩
  refine Rep.import (hash := hash') (check := true) (toks := _) ?_ ?_ ?_ ?_
  · have : ((toks.map (fun p => (p.1, readerCopy (junk p.1) p.2))).map Prod.fst).Perm ((ents t.slots).map Entry.text) := by
      rw [List.map_map]
      have := hperm.map Prod.fst
      unfold fileTokens at this
      rw [List.map_map] at this
      exact this
    exact this.nodup_iff.mpr h.ok.nodup
  · intro p hp
    obtain ⟨e, he, rfl⟩ := hmem p hp
    obtain ⟨b, hb, hv⟩ := h.sound e he
    obtain ⟨e1, e2⟩ := listOpt_some.mp hb
    obtain ⟨_, _, hh⟩ := readerCopy_valid hv (junk e.text) (tail e.text)
    simp only [hh]
    rw [← e1]
    cases hl : (listing mail e.text).getLast? with
    | none => exact absurd (List.getLast?_eq_none_iff.mp hl) e2
    | some x =>
      simp only [Option.getD_some, decide_eq_true_eq]
      exact listing_lt x (List.mem_of_getLast? hl)
  · intro p hp
    obtain ⟨e, he, rfl⟩ := hmem p hp
    obtain ⟨b, hb, hv⟩ := h.sound e he
    exact ⟨b, hb, (readerCopy_valid hv _ _).1⟩
  · intro w b hw
    obtain ⟨e, he, rfl⟩ := h.complete w b hw
    refine ⟨(e.text, readerCopy (junk e.text) (e.data.bytes ++ 0xff :: tail e.text)), ?_, rfl⟩
    refine List.mem_map.mpr ⟨(e.text, e.data.bytes ++ 0xff :: tail e.text), ?_, rfl⟩
    exact hperm.mem_iff.mpr (List.mem_map.mpr ⟨e, he, rfl⟩)

theorem RepMail.purge {hash : Text → Nat} {t : Table Matches} {mail : Mail}
    (h : RepMail hash t mail) {keep : List Bool} (hk : keep.length = mail.length)
    (hsmall : mail.length ≤ maxMsgs) :
    ∃ fuel0, ∀ fuel ≥ fuel0, ∃ t', purgeTable fuel keep t = .ok t' ∧
      RepMail hash t' (keepOnly keep mail) := by
  obtain ⟨fuel0, hf⟩ := Rep.recode h (g := recodeEncoding keep.length (newIdxOf keep))
    (dead := fun m => m.bytes.length == 0)
    (a := fun l => listOpt (l.filterMap (newIdxOf keep)))
    (fun d b hb hv => by
      obtain ⟨w, hw⟩ := hb
      obtain ⟨e1, e2⟩ := listOpt_some.mp hw
      obtain ⟨d', h1, h2⟩ := recodeEncoding_valid (keep := keep) hv
        (fun x hx => by rw [hk]; exact listing_lt x (e1 ▸ hx)) (by rw [hk]; exact hsmall)
      refine ⟨d', h1, ?_⟩
      cases hl : listOpt (List.filterMap (newIdxOf keep) b) with
      | none =>
        simp only []
        have := listOpt_none.mp hl
        rw [this] at h2
        have := h2.empty.mpr rfl
        simp [this]
      | some b' =>
        obtain ⟨e3, e4⟩ := listOpt_some.mp hl
        subst e3
        refine ⟨?_, h2⟩
        have : d'.bytes ≠ [] := fun hc => e4 (h2.empty.mp hc)
        simpa using this)
  refine ⟨fuel0, fun fuel hge => ?_⟩
  obtain ⟨t', h1, h2⟩ := hf fuel hge
  refine ⟨t', h1, Rep.congr h2 ?_⟩
  intro w
  rw [listing_purge hk]
  unfold listOpt
  split
  · next h0 => simp [h0]
  · rfl

theorem closeGaps_mono {α : Type} : ∀ (f : Nat) (slots s' : List (Option (Entry α))),
    closeGaps f slots = .ok s' → ∀ g, f ≤ g → closeGaps g slots = .ok s' := by
  intro f
  induction f with
  | zero => intro slots s' h; simp [closeGaps] at h
  | succ f ihf =>
    intro slots s' h g hg
    obtain ⟨g, rfl⟩ : ∃ g', g = g' + 1 := ⟨g - 1, by omega⟩
    simp only [closeGaps, bind, Except.bind] at h ⊢
    cases hp : closePass (List.range slots.length) slots false with
    | error e => rw [hp] at h; simp at h
    | ok p =>
      obtain ⟨s1, moved⟩ := p
      rw [hp] at h
      simp only at h ⊢
      split at h
      · next hmv => rw [if_pos hmv]; exact ihf _ _ h _ (by omega)
      · next hmv => rw [if_neg hmv]; exact h

theorem closeIfDead_mono {α : Type} {f k : Nat} {slots s' : List (Option (Entry α))}
    (h : closeIfDead f k slots = .ok s') {g : Nat} (hg : f ≤ g) : closeIfDead g k slots = .ok s' := by
  unfold closeIfDead at h ⊢
  split at h
  · next hk => rw [if_pos hk]; exact closeGaps_mono _ _ _ h _ hg
  · next hk => rw [if_neg hk]; exact h

/-- More iterations of the `for (;;)` loop do not change a result. -/
theorem recodeTable_mono {α : Type} {f : Nat} {r : α → Res α} {dead : α → Bool} {t t' : Table α}
    (h : recodeTable f r dead t = .ok t') {g : Nat} (hg : f ≤ g) : recodeTable g r dead t = .ok t' := by
  unfold recodeTable at h ⊢
  simp only [bind, Except.bind] at h ⊢
  cases hp : recodeSlots r dead t.slots with
  | error e => rw [hp] at h; cases h
  | ok p =>
    rw [hp] at h
    simp only at h ⊢
    cases hc : closeIfDead f p.2 p.1 with
    | error e => rw [hc] at h; cases h
    | ok s2 => rw [hc] at h; rw [closeIfDead_mono hc hg]; exact h

/-- The words of a table with their message lists. -/
def tableWords (t : Table Matches) : List (Text × List Nat) :=
  (ents t.slots).map fun e => (e.text, readAll e.data.bytes)

theorem RepMail.words {hash : Text → Nat} {t : Table Matches} {mail : Mail}
    (h : RepMail hash t mail) :
    ((tableWords t).map Prod.fst).Nodup ∧
    ∀ w l, (w, l) ∈ tableWords t ↔ l ≠ [] ∧ IsListing mail w l := by
  constructor
  · unfold tableWords
    rw [List.map_map]
    exact h.ok.nodup
  · intro w l
    unfold tableWords
    rw [List.mem_map]
    constructor
    · rintro ⟨e, he, h1⟩
      obtain ⟨b, hb, hv⟩ := h.sound e he
      obtain ⟨e1, e2⟩ := listOpt_some.mp hb
      rw [valid_readAll hv] at h1
      cases h1
      subst e1
      exact ⟨e2, listing_isListing _ _⟩
    · rintro ⟨h1, h2⟩
      have h3 := isListing_eq h2
      obtain ⟨e, he, h4⟩ := h.complete w l (listOpt_some.mpr ⟨h3.symm, by rw [← h3]; exact h1⟩)
      obtain ⟨b, hb, hv⟩ := h.sound e he
      obtain ⟨e1, e2⟩ := listOpt_some.mp hb
      refine ⟨e, he, ?_⟩
      rw [valid_readAll hv, h4, ← e1, h4, ← h3]

end Mairix
