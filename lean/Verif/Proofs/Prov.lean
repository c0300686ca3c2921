import Verif.Proofs.Strings
import Verif.Proofs.LoadJunk

/-! Where the entries of the index come from. -/

namespace Mairix
open Spec

/-- The entry `m` with the words `mw` was made in run `r` for message number `mi` of mbox number `fi`. -/
def BoxEntryOf (r : Run) (mbs : List Mbox) (fi mi : Nat) (m : Msg) (mw : MsgWords) : Prop :=
  ∃ mb p va c s l, mbs[fi]? = some mb ∧ mb.path = some p ∧ r.mboxWorld.contents p = .data va ∧ mb.msgs[mi]? = some c ∧
    c.pos = some (s, l) ∧ s + l ≤ va.length ∧ c.check = r.mboxWorld.md5 (between va s (s + l)) ∧
    (∀ q, (r.mboxWorld.parse (between va s (s + l))).1 = some q → u32 m.date = u32 q.hdrs.date ∧ m.seen = q.hdrs.seen ∧
      m.replied = q.hdrs.replied ∧ m.flagged = q.hdrs.flagged) ∧
    IndexedAsR8 (r.mboxWorld.parse (between va s (s + l))).1 mw

/-- There was an mbox in one of the runs, or a message that was listed in a run was not listed, or had another time, in a later run. (Times that do not fit in the database always look like others.) -/
def Lost (hist : List Run) : Prop :=
  (∃ r ∈ hist, r.extant ≠ []) ∨ ∃ r' r, [r', r].Sublist hist ∧ ∃ e ∈ r'.listed, e ∉ r.listed ∨
    ∃ t s, e.kind = .file ∧ r'.world.stat e.path = .file t s ∧ ¬ ((∃ s', r.world.stat e.path = .file t s') ∧ 0 ≤ t ∧ t < 2 ^ 32)

theorem lost_more {hist hist' : List Run} (h : Lost hist) (hs : hist.Sublist hist') : Lost hist' := by
  rcases h with ⟨r, h1, h2⟩ | ⟨r', r, h1, h2⟩
  · exact .inl ⟨r, hs.subset h1, h2⟩
  · exact .inr ⟨r', r, h1.trans hs, h2⟩

/-- The entry was made in one of the runs. -/
structure Prov (hist : List Run) (mbs : List Mbox) (m : Msg) (mw : MsgWords) : Prop where
  place : ∀ e, Place m = some e → ∃ r ∈ hist, EntryOf r.world e m ∧ IndexedAs r.world e mw
  box : ∀ fi mi, m.src = .mbox fi mi → ∃ r ∈ hist, BoxEntryOf r mbs fi mi m mw
  listed : ∀ e, Place m = some e → ∃ r ∈ hist, e ∈ r.listed ∧ ∀ p mt sz, m.src = .file p mt sz → ∃ t s, r.world.stat p = .file t s ∧ (mt = t ∨ mt = (u32 t : Nat))
  boxed : ∀ fi mi, m.src = .mbox fi mi → ∃ r ∈ hist, r.extant ≠ []
  died : m.src = .dead → Lost hist

theorem u32_u32 (v : Int) : u32 (u32 v : Nat) = u32 v := by
  unfold u32; omega

theorem u32_mod (v : Int) : u32 v % 2 ^ 32 = u32 v := Nat.mod_eq_of_lt (u32_lt v)

theorem entryOf_isEntry {w : World} {e : Listed} {m : Msg} (h : IsEntry w e m) : EntryOf w e m where
  src := by
    obtain ⟨k, p⟩ := e
    have := h.src
    cases k with
    | imap => exact this
    | file =>
      obtain ⟨mt, sz, a, b⟩ := this
      exact ⟨mt, sz, mt, sz, a, b, rfl, rfl⟩
  read := fun r hr => ⟨congrArg u32 (h.read r hr).1, (h.read r hr).2⟩
  notRead := fun hr => ⟨by rw [(h.notRead hr).1]; rfl, (h.notRead hr).2⟩

theorem place_src {m : Msg} {e : Listed} (h : Place m = some e) :
    (e.kind = .file ∧ ∃ mt sz, m.src = .file e.path mt sz) ∨ (e.kind = .imap ∧ m.src = .imap e.path) := by
  obtain ⟨s, _, _, _, _, _⟩ := m
  cases s <;> simp [Place] at h
  · subst h; exact .inl ⟨rfl, _, _, rfl⟩
  · subst h; exact .inr ⟨rfl, rfl⟩

theorem place_file {m : Msg} {p : Text} {mt : Int} {sz : Nat} (h : m.src = .file p mt sz) : Place m = some ⟨.file, p⟩ := by
  obtain ⟨s, _, _, _, _, _⟩ := m
  simp only at h
  subst h
  rfl

theorem place_imap {m : Msg} {p : Text} (h : m.src = .imap p) : Place m = some ⟨.imap, p⟩ := by
  obtain ⟨s, _, _, _, _, _⟩ := m
  simp only at h
  subst h
  rfl

theorem saved_place {m m' : Msg} (h : SavedMsg m m') : Place m' = Place m := by
  have hs := h.src
  cases hm : m.src with
  | dead =>
    rw [hm] at hs
    obtain ⟨s, _, _, _, _, _⟩ := m
    obtain ⟨s', _, _, _, _, _⟩ := m'
    simp only [savedSrc] at hm hs
    subst hm hs
    rfl
  | file p mt sz =>
    rw [hm] at hs
    rw [place_file hm, place_file hs]
  | imap p =>
    rw [hm] at hs
    rw [place_imap hm, place_imap hs]
  | mbox fi mi =>
    rw [hm] at hs
    obtain ⟨s, _, _, _, _, _⟩ := m
    obtain ⟨s', _, _, _, _, _⟩ := m'
    simp only [savedSrc] at hm hs
    subst hm hs
    rfl

theorem place_live {m : Msg} {e : Listed} (h : Place m = some e) : m.src ≠ .dead := by
  rcases place_src h with ⟨_, _, _, h⟩ | ⟨_, h⟩ <;> rw [h] <;> simp

theorem entryOf_saved {w : World} {e : Listed} {m m' : Msg} (h : EntryOf w e m) (hp : Place m = some e) (hs : SavedMsg m m') :
    EntryOf w e m' where
  src := by
    have h1 := h.src
    have h2 := hs.src
    split at h1
    · rw [h1] at h2; exact h2
    · obtain ⟨mt, sz, mt', sz', a, b, c, d⟩ := h1
      rw [b] at h2
      exact ⟨mt, sz, _, _, a, h2, by rw [u32_u32]; exact c, by rw [Nat.mod_mod]; exact d⟩
  read := fun r hr => by
    rw [hs.date (place_live hp), hs.seen, hs.replied, hs.flagged, u32_u32]
    exact h.read r hr
  notRead := fun hr => by
    rw [hs.date (place_live hp), hs.seen, hs.replied, hs.flagged, u32_u32]
    exact h.notRead hr

theorem boxEntryOf_congr {r : Run} {mbs mbs' : List Mbox} {fi fi' mi : Nat} {m m' : Msg} {mw : MsgWords}
    (h : BoxEntryOf r mbs fi mi m mw) (hd : u32 m'.date = u32 m.date) (h1 : m'.seen = m.seen) (h2 : m'.replied = m.replied)
    (h3 : m'.flagged = m.flagged)
    (hb : ∀ mb c s l, mbs[fi]? = some mb → mb.msgs[mi]? = some c → c.pos = some (s, l) → s + l < 2 ^ 31 → ∃ mb' c',
      mbs'[fi']? = some mb' ∧ mb'.path = mb.path ∧ mb'.msgs[mi]? = some c' ∧ c'.pos = some (s, l) ∧ c'.check = c.check)
    (hc : ∀ p va, r.mboxWorld.contents p = .data va → va.length < 2 ^ 31) : BoxEntryOf r mbs' fi' mi m' mw := by
  obtain ⟨mb, p, va, c, s, l, a1, a2, a3, a4, a5, a6, a7, a8, a9⟩ := h
  obtain ⟨mb', c', b1, b2, b3, b4, b5⟩ := hb mb c s l a1 a4 a5 (Nat.lt_of_le_of_lt a6 (hc p va a3))
  refine ⟨mb', p, va, c', s, l, b1, by rw [b2, a2], a3, b3, b4, a6, by rw [b5, a7], ?_, a9⟩
  intro q hq
  rw [hd, h1, h2, h3]
  exact a8 q hq

theorem prov_saved {hist : List Run} {mbs mbs' : List Mbox} {m m' : Msg} {mw : MsgWords} (h : Prov hist mbs m mw)
    (hs : SavedMsg m m')
    (hb : ∀ fi mi, m.src = .mbox fi mi → ∀ mb, mbs[fi]? = some mb → ∃ mb' k, mbs'[fi]? = some mb' ∧ SavedBox k mb mb' ∧ mi < k)
    (hc : ∀ r ∈ hist, ∀ p va, r.mboxWorld.contents p = .data va → va.length < 2 ^ 31) : Prov hist mbs' m' mw where
  place := by
    intro e he
    rw [saved_place hs] at he
    obtain ⟨r, hr, a, b⟩ := h.place e he
    exact ⟨r, hr, entryOf_saved a he hs, b⟩
  box := by
    intro fi mi he
    have hm : m.src = .mbox fi mi := by
      have := hs.src
      rw [he] at this
      cases hm : m.src <;> simp [hm, savedSrc] at this
      rw [this.1, this.2]
    obtain ⟨r, hr, a⟩ := h.box fi mi hm
    refine ⟨r, hr, boxEntryOf_congr a ?_ hs.seen hs.replied hs.flagged ?_ (hc r hr)⟩
    · rw [hs.date (by rw [hm]; simp), u32_u32]
    · intro mb c s l h1 h2 h3 h4
      obtain ⟨mb', k, b1, b2, b3⟩ := hb fi mi hm mb h1
      obtain ⟨c', c1, c2, _, c3⟩ := b2.each mi c h2
      obtain ⟨s', l', d1, d2⟩ := c3 b3
      rw [h3] at d1
      cases d1
      refine ⟨mb', c', b1, b2.path, c1, ?_, c2⟩
      rw [d2, Nat.mod_eq_of_lt (by omega), Nat.mod_eq_of_lt (by omega)]
  listed := by
    intro e he
    rw [saved_place hs] at he
    obtain ⟨r, hr, a, b⟩ := h.listed e he
    refine ⟨r, hr, a, fun p mt sz hm => ?_⟩
    have hsrc := hs.src
    rw [hm] at hsrc
    cases hm0 : m.src with
    | file p0 mt0 sz0 =>
      rw [hm0] at hsrc
      simp only [savedSrc, Src.file.injEq] at hsrc
      obtain ⟨rfl, rfl, rfl⟩ := hsrc
      obtain ⟨t, s, c1, c2⟩ := b _ _ _ hm0
      refine ⟨t, s, c1, .inr ?_⟩
      rcases c2 with rfl | rfl
      · rfl
      · rw [u32_u32]
    | _ => rw [hm0] at hsrc; cases hsrc
  boxed := by
    intro fi mi he
    have hsrc := hs.src
    rw [he] at hsrc
    cases hm : m.src with
    | mbox a b => exact h.boxed a b hm
    | _ => rw [hm] at hsrc; cases hsrc
  died := by
    intro he
    have hsrc := hs.src
    rw [he] at hsrc
    cases hm : m.src with
    | dead => exact h.died hm
    | _ => rw [hm] at hsrc; cases hsrc

theorem prov_hist {hist hist' : List Run} {mbs : List Mbox} {m : Msg} {mw : MsgWords} (h : Prov hist mbs m mw)
    (hs : hist.Sublist hist') : Prov hist' mbs m mw where
  place := fun e he => let ⟨r, hr, a⟩ := h.place e he; ⟨r, hs.subset hr, a⟩
  box := fun fi mi he => let ⟨r, hr, a⟩ := h.box fi mi he; ⟨r, hs.subset hr, a⟩
  listed := fun e he => let ⟨r, hr, a⟩ := h.listed e he; ⟨r, hs.subset hr, a⟩
  boxed := fun fi mi he => let ⟨r, hr, a⟩ := h.boxed fi mi he; ⟨r, hs.subset hr, a⟩
  died := fun he => lost_more (h.died he) hs

theorem entryOf_congr {w : World} {e : Listed} {m m' : Msg} (h : EntryOf w e m) (h0 : m'.src = m.src) (h1 : m'.date = m.date)
    (h2 : m'.seen = m.seen) (h3 : m'.replied = m.replied) (h4 : m'.flagged = m.flagged) : EntryOf w e m' where
  src := by have := h.src; split at this <;> rw [h0] <;> exact this
  read := by rw [h1, h2, h3, h4]; exact h.read
  notRead := by rw [h1, h2, h3, h4]; exact h.notRead

theorem prov_noTid {hist : List Run} {mbs : List Mbox} {m m' : Msg} {mw : MsgWords} (h : Prov hist mbs m mw)
    (he : noTid m = noTid m') : Prov hist mbs m' mw := by
  obtain ⟨src, date, tid, seen, replied, flagged⟩ := m
  obtain ⟨src', date', tid', seen', replied', flagged'⟩ := m'
  simp only [noTid, Msg.mk.injEq] at he
  obtain ⟨rfl, rfl, _, rfl, rfl, rfl⟩ := he
  constructor
  · intro e he
    obtain ⟨r, hr, a, b⟩ := h.place e (by cases src <;> exact he)
    exact ⟨r, hr, entryOf_congr a rfl rfl rfl rfl rfl, b⟩
  · intro fi mi he
    obtain ⟨r, hr, mb, p, va, c, s, l, a1, a2, a3, a4, a5, a6, a7, a8, a9⟩ := h.box fi mi he
    exact ⟨r, hr, mb, p, va, c, s, l, a1, a2, a3, a4, a5, a6, a7, a8, a9⟩
  · intro e he
    exact h.listed e (by cases src <;> exact he)
  · exact h.boxed
  · exact h.died

theorem prov_dead {hist : List Run} {mbs : List Mbox} {m : Msg} {mw : MsgWords} (h : m.src = .dead) (hl : Lost hist) : Prov hist mbs m mw := by
  obtain ⟨src, date, tid, seen, replied, flagged⟩ := m
  simp only at h
  subst h
  constructor
  · intro e he; cases he
  · intro fi mi he; cases he
  · intro e he; cases he
  · intro fi mi he; cases he
  · intro _; exact hl

theorem pairs_append {α β : Type} {R : α → β → Prop} {a c : List α} {b d : List β} (h : Pairs R a b) (h' : Pairs R c d) :
    Pairs R (a ++ c) (b ++ d) := by
  induction h with
  | nil => exact h'
  | cons h1 _ ih => exact .cons h1 ih

theorem pairs_imp_mem {α β : Type} {R S : α → β → Prop} {a : List α} {b : List β} (h : Pairs R a b)
    (hi : ∀ x ∈ a, ∀ y ∈ b, R x y → S x y) : Pairs S a b := by
  induction h with
  | nil => exact .nil
  | cons h1 _ ih =>
    exact .cons (hi _ (by simp) _ (by simp) h1) (ih fun x hx y hy => hi x (by simp [hx]) y (by simp [hy]))

/-- Two relations with the same right side. -/
theorem pairs_join {α β γ : Type} {R : α → β → Prop} {S : α → γ → Prop} {T : β → γ → Prop} {a : List α} {b : List β} {c : List γ}
    (h : Pairs R a b) (h' : Pairs S a c) (hT : ∀ x y z, x ∈ a → R x y → S x z → T y z) : Pairs T b c := by
  induction h generalizing c with
  | nil => cases h'; exact .nil
  | cons h1 _ ih =>
    cases h' with
    | cons h2 h3 => exact .cons (hT _ _ _ (by simp) h1 h2) (ih h3 fun x y z hx => hT x y z (by simp [hx]))

theorem pairs_map_left {α α' β : Type} {R : α → β → Prop} {S : α' → β → Prop} {a : List α} {b : List β} {f : α → α'}
    (h : Pairs R a b) (hi : ∀ x ∈ a, ∀ y, R x y → S (f x) y) : Pairs S (a.map f) b := by
  induction h with
  | nil => exact .nil
  | cons h1 _ ih => exact .cons (hi _ (by simp) _ h1) (ih fun x hx => hi x (by simp [hx]))

theorem pairs_noTid {hist : List Run} {mbs : List Mbox} : ∀ {a b : List Msg} {ix : List MsgWords}, a.map noTid = b.map noTid →
    Pairs (Prov hist mbs) b ix → Pairs (Prov hist mbs) a ix := by
  intro a
  induction a with
  | nil => intro b ix h h'; cases b with
    | nil => exact h'
    | cons => cases h
  | cons m a ih =>
    intro b ix h h'
    cases b with
    | nil => cases h
    | cons m' b =>
      simp only [List.map_cons, List.cons.injEq] at h
      cases h' with
      | cons h1 h2 => exact .cons (prov_noTid h1 h.1.symm) (ih h.2 h2)

end Mairix
