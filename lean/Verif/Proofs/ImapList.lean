import Verif.Proofs.Imap

/-!
# Answers to FETCH
-/

namespace Mairix
open Spec

/-- One pair of attributes in `scan_folder`. -/
def listPair (acc : Option Text × Bool) (p : Text × ImapTok) : Option Text × Bool :=
  if p.1 = bs "UID" then
    match p.2 with
    | .atom u => (some u, acc.2)
    | _ => acc
  else if p.1 = bs "FLAGS" then
    match p.2 with
    | .list fl => (acc.1, acc.2 || hasDeleted fl)
    | _ => acc
  else acc

/-- One pair of attributes in `imap_fetch_message_raw`. -/
def rawPair (acc : Option Text × Option Text) (p : Text × ImapTok) : Option Text × Option Text :=
  if p.1 = bs "UID" then
    match p.2 with
    | .atom u => (some u, acc.2)
    | _ => acc
  else if p.1 = bs "BODY[]" then
    match p.2 with
    | .string b => (acc.1, some b)
    | _ => acc
  else acc

theorem isWord_key {k w : Text} (h : (0 : UInt8) ∉ k) : ((ImapTok.atom k).isWord w = true) = (k = w) := by
  rw [isWord_atom h]; simp

theorem value_not_own {v : ImapTok} (hn : NoNul v) (h : ∀ a, v = .atom a → a ∉ ownNames) {w : Text} (hw : w ∈ ownNames) :
    v.isWord w = false := isWord_ne hn fun e => h w e hw

theorem listAttrs_skip {v : ImapTok} {rest : List ImapTok} {acc : Option Text × Bool} (h1 : v.isWord (bs "UID") = false)
    (h2 : v.isWord (bs "FLAGS") = false) : listAttrs (v :: rest) acc = listAttrs rest acc := by
  cases rest with
  | nil => simp only [listAttrs]
  | cons t rest => simp only [listAttrs, h1, h2, Bool.false_eq_true, if_false]

theorem rawAttrs_skip {v : ImapTok} {rest : List ImapTok} {acc : Option Text × Option Text} (h1 : v.isWord (bs "UID") = false)
    (h2 : v.isWord (bs "BODY[]") = false) : rawAttrs (v :: rest) acc = rawAttrs rest acc := by
  cases rest with
  | nil => simp only [rawAttrs]
  | cons t rest => simp only [rawAttrs, h1, h2, Bool.false_eq_true, if_false]

theorem listAttrs_flat : ∀ (pairs : List (Text × ImapTok)) (acc : Option Text × Bool), NoNuls (flatAttrs pairs) →
    (∀ p ∈ pairs, ∀ a, p.2 = .atom a → a ∉ ownNames) → listAttrs (flatAttrs pairs) acc = pairs.foldl listPair acc := by
  intro pairs
  induction pairs with
  | nil => intro acc _ _; simp only [flatAttrs, listAttrs, List.foldl_nil]
  | cons p pairs ih =>
    intro acc hn ho
    obtain ⟨k, v⟩ := p
    simp only [flatAttrs, NoNuls, NoNul] at hn
    obtain ⟨hk, hv, hn⟩ := hn
    have hov := ho (k, v) List.mem_cons_self
    have ih := fun a => ih a hn fun p hp => ho p (List.mem_cons_of_mem _ hp)
    rw [List.foldl_cons, ← ih]
    have hskip := listAttrs_skip (rest := flatAttrs pairs) (acc := acc) (value_not_own hv hov (by decide)) (value_not_own hv hov (by decide))
    simp only [flatAttrs, listAttrs, isWord_key hk, listPair]
    by_cases h1 : k = bs "UID"
    · simp only [h1, if_true]
      cases v <;> rfl
    · simp only [h1, if_false]
      by_cases h2 : k = bs "FLAGS"
      · simp only [h2, if_true]
        cases v <;> rfl
      · simp only [h2, if_false]
        exact hskip

theorem rawAttrs_flat : ∀ (pairs : List (Text × ImapTok)) (acc : Option Text × Option Text), NoNuls (flatAttrs pairs) →
    (∀ p ∈ pairs, ∀ a, p.2 = .atom a → a ∉ ownNames) → rawAttrs (flatAttrs pairs) acc = pairs.foldl rawPair acc := by
  intro pairs
  induction pairs with
  | nil => intro acc _ _; simp only [flatAttrs, rawAttrs, List.foldl_nil]
  | cons p pairs ih =>
    intro acc hn ho
    obtain ⟨k, v⟩ := p
    simp only [flatAttrs, NoNuls, NoNul] at hn
    obtain ⟨hk, hv, hn⟩ := hn
    have hov := ho (k, v) List.mem_cons_self
    have ih := fun a => ih a hn fun p hp => ho p (List.mem_cons_of_mem _ hp)
    rw [List.foldl_cons, ← ih]
    have hskip := rawAttrs_skip (rest := flatAttrs pairs) (acc := acc) (value_not_own hv hov (by decide)) (value_not_own hv hov (by decide))
    simp only [flatAttrs, rawAttrs, isWord_key hk, rawPair]
    by_cases h1 : k = bs "UID"
    · simp only [h1, if_true]
      cases v <;> rfl
    · simp only [h1, if_false]
      by_cases h2 : k = bs "BODY[]"
      · simp only [h2, if_true]
        cases v <;> rfl
      · simp only [h2, if_false]
        exact hskip

theorem hasDeleted_flags : ∀ {fl : List Text}, NoNuls (fl.map .atom) → hasDeleted (fl.map .atom) = fl.contains deletedFlag
  | [], _ => rfl
  | a :: fl, h => by
    have h1 : (0 : UInt8) ∉ a := h.1
    have h2 := hasDeleted_flags (fl := fl) h.2
    unfold hasDeleted at h2 ⊢
    rw [List.map_cons, List.any_cons, h2, isWord_atom h1, List.contains_cons]
    congr 1
    rw [show bs "\\Deleted" = deletedFlag from rfl]
    exact Bool.beq_comm

theorem noNuls_value : ∀ {pairs : List (Text × ImapTok)}, NoNuls (flatAttrs pairs) → ∀ p ∈ pairs, NoNul p.2
  | [], _, p, hp => nomatch hp
  | (k, v) :: l, h, p, hp => by
    simp only [flatAttrs, NoNuls] at h
    rcases List.mem_cons.mp hp with rfl | hp
    · exact h.2.1
    · exact noNuls_value h.2.2 p hp

/-- The loop over the attributes when they say the truth about a message. -/
theorem foldl_list {m : MailMsg} : ∀ (pairs : List (Text × ImapTok)) (acc : Option Text × Bool), NoNuls (flatAttrs pairs) → TrueOf m pairs →
    (acc.1 = some (digits m.uid) ∨ ∃ p ∈ pairs, p.1 = bs "UID") →
    (acc.2 = m.flags.contains deletedFlag ∨ acc.2 = false ∧ ∃ p ∈ pairs, p.1 = bs "FLAGS") →
    pairs.foldl listPair acc = (some (digits m.uid), m.flags.contains deletedFlag) := by
  intro pairs
  induction pairs with
  | nil =>
    intro acc _ _ h1 h2
    simp only [List.not_mem_nil, false_and, exists_false, or_false, and_false] at h1 h2
    rw [List.foldl_nil, ← h1, ← h2]
  | cons p pairs ih =>
    intro acc hn ht h1 h2
    obtain ⟨k, v⟩ := p
    have hnv : NoNul v := hn.2.1
    obtain ⟨tu, tf, -⟩ := ht (k, v) List.mem_cons_self
    rw [List.foldl_cons]
    apply ih _ hn.2.2 fun p hp => ht p (List.mem_cons_of_mem _ hp)
    · by_cases hu : k = bs "UID"
      · left
        have tu := tu hu
        simp only at tu
        simp only [listPair, hu, if_true, tu]
      · have hp : (listPair acc (k, v)).1 = acc.1 := by
          simp only [listPair, hu, if_false]
          split
          · cases v <;> rfl
          · rfl
        rw [hp]
        rcases h1 with h1 | ⟨q, hq, hqk⟩
        · exact Or.inl h1
        · rcases List.mem_cons.mp hq with rfl | hq
          · exact absurd hqk hu
          · exact Or.inr ⟨q, hq, hqk⟩
    · by_cases hf : k = bs "FLAGS"
      · left
        have hu : k ≠ bs "UID" := by rw [hf]; decide
        have tf := tf hf
        simp only at tf
        subst tf
        simp only [listPair, hu, if_false, hf, if_true]
        rw [if_neg (by decide), hasDeleted_flags hnv]
        rcases h2 with h2 | ⟨h2, -⟩
        · simp only [h2, Bool.or_self]
        · simp only [h2, Bool.false_or]
      · have hp : (listPair acc (k, v)).2 = acc.2 := by
          simp only [listPair, hf, if_false]
          split
          · cases v <;> rfl
          · rfl
        rw [hp]
        rcases h2 with h2 | ⟨h2, q, hq, hqk⟩
        · exact Or.inl h2
        · rcases List.mem_cons.mp hq with rfl | hq
          · exact absurd hqk hf
          · exact Or.inr ⟨h2, q, hq, hqk⟩

theorem foldl_list_other : ∀ (pairs : List (Text × ImapTok)) (acc : Option Text × Bool), acc.1 = none → (∀ p ∈ pairs, p.1 ≠ bs "UID") →
    (pairs.foldl listPair acc).1 = none := by
  intro pairs
  induction pairs with
  | nil => intro acc h _; exact h
  | cons p pairs ih =>
    intro acc h ho
    rw [List.foldl_cons]
    refine ih _ ?_ fun q hq => ho q (List.mem_cons_of_mem _ hq)
    simp only [listPair, ho p List.mem_cons_self, if_false]
    split
    · cases p.2 <;> exact h
    · exact h

theorem foldl_raw_other : ∀ (pairs : List (Text × ImapTok)) (acc : Option Text × Option Text), acc.1 = none → (∀ p ∈ pairs, p.1 ≠ bs "UID") →
    (pairs.foldl rawPair acc).1 = none := by
  intro pairs
  induction pairs with
  | nil => intro acc h _; exact h
  | cons p pairs ih =>
    intro acc h ho
    rw [List.foldl_cons]
    refine ih _ ?_ fun q hq => ho q (List.mem_cons_of_mem _ hq)
    simp only [rawPair, ho p List.mem_cons_self, if_false]
    split
    · cases p.2 <;> exact h
    · exact h

/-- What the loop finds is true. -/
theorem foldl_raw_true {m : MailMsg} : ∀ (pairs : List (Text × ImapTok)) (acc : Option Text × Option Text), TrueOf m pairs →
    (acc.1 = none ∨ acc.1 = some (digits m.uid)) → (acc.2 = none ∨ acc.2 = some m.body) →
    ((pairs.foldl rawPair acc).1 = none ∨ (pairs.foldl rawPair acc).1 = some (digits m.uid)) ∧
    ((pairs.foldl rawPair acc).2 = none ∨ (pairs.foldl rawPair acc).2 = some m.body) ∧
    ((acc.1 ≠ none ∨ ∃ p ∈ pairs, p.1 = bs "UID") → (pairs.foldl rawPair acc).1 ≠ none) ∧
    ((acc.2 ≠ none ∨ ∃ p ∈ pairs, p.1 = bs "BODY[]") → (pairs.foldl rawPair acc).2 ≠ none) := by
  intro pairs
  induction pairs with
  | nil =>
    intro acc _ h1 h2
    exact ⟨h1, h2, by simp, by simp⟩
  | cons p pairs ih =>
    intro acc ht h1 h2
    obtain ⟨k, v⟩ := p
    obtain ⟨tu, -, tb⟩ := ht (k, v) List.mem_cons_self
    simp only at tu tb
    rw [List.foldl_cons]
    by_cases hu : k = bs "UID"
    · have e : rawPair acc (k, v) = (some (digits m.uid), acc.2) := by simp only [rawPair, hu, if_true, tu hu]
      rw [e]
      obtain ⟨i1, i2, i3, i4⟩ := ih (some (digits m.uid), acc.2) (fun p hp => ht p (List.mem_cons_of_mem _ hp)) (Or.inr rfl) h2
      refine ⟨i1, i2, fun _ => i3 (Or.inl (by simp)), ?_⟩
      rintro (h | ⟨q, hq, hqk⟩)
      · exact i4 (Or.inl h)
      · rcases List.mem_cons.mp hq with rfl | hq
        · exact absurd (hu.symm.trans hqk) (by decide)
        · exact i4 (Or.inr ⟨q, hq, hqk⟩)
    · by_cases hb : k = bs "BODY[]"
      · have e : rawPair acc (k, v) = (acc.1, some m.body) := by
          simp only [rawPair, hu, if_false, hb, if_true, tb hb]
          rw [if_neg (by decide)]
        rw [e]
        obtain ⟨i1, i2, i3, i4⟩ := ih (acc.1, some m.body) (fun p hp => ht p (List.mem_cons_of_mem _ hp)) h1 (Or.inr rfl)
        refine ⟨i1, i2, ?_, fun _ => i4 (Or.inl (by simp))⟩
        rintro (h | ⟨q, hq, hqk⟩)
        · exact i3 (Or.inl h)
        · rcases List.mem_cons.mp hq with rfl | hq
          · exact absurd hqk hu
          · exact i3 (Or.inr ⟨q, hq, hqk⟩)
      · have e : rawPair acc (k, v) = acc := by simp only [rawPair, hu, if_false, hb]
        rw [e]
        obtain ⟨i1, i2, i3, i4⟩ := ih acc (fun p hp => ht p (List.mem_cons_of_mem _ hp)) h1 h2
        refine ⟨i1, i2, ?_, ?_⟩
        · rintro (h | ⟨q, hq, hqk⟩)
          · exact i3 (Or.inl h)
          · rcases List.mem_cons.mp hq with rfl | hq
            · exact absurd hqk hu
            · exact i3 (Or.inr ⟨q, hq, hqk⟩)
        · rintro (h | ⟨q, hq, hqk⟩)
          · exact i4 (Or.inl h)
          · rcases List.mem_cons.mp hq with rfl | hq
            · exact absurd hqk hb
            · exact i4 (Or.inr ⟨q, hq, hqk⟩)

/-! ## Lines -/

theorem fetchAttrs_line {l : ImapLine} {pairs : List (Text × ImapTok)} (h : FetchLine pairs l) : fetchAttrs l = .ok (some (flatAttrs pairs)) := by
  obtain ⟨⟨n, more, h⟩, -⟩ := h
  simp only [fetchAttrs, h]
  rw [if_pos (by decide)]

theorem fetchLine_noNul {l : ImapLine} {pairs : List (Text × ImapTok)} (h : FetchLine pairs l) (hn : NoNuls l.items) : NoNuls (flatAttrs pairs) := by
  obtain ⟨⟨n, more, h⟩, -⟩ := h
  rw [h] at hn
  exact hn.2.2.1

theorem listLine_other {v f : Text} {l : ImapLine} (h : OtherLine l) (hn : NoNuls l.items) : listLine v f l = .ok none := by
  rcases h with ⟨a, t, more, he, ht⟩ | ⟨pairs, hf, hp⟩
  · rw [he] at hn
    have : fetchAttrs l = .ok none := by
      simp only [fetchAttrs, he, isWord_ne hn.2.1 ht]
      rfl
    simp only [listLine, this, bind, Except.bind]
  · have h1 := listAttrs_flat pairs (none, false) (fetchLine_noNul hf hn) hf.2
    have h2 := foldl_list_other pairs (none, false) rfl hp
    simp only [listLine, fetchAttrs_line hf, bind, Except.bind, h1]
    generalize pairs.foldl listPair (none, false) = x at h2 ⊢
    obtain ⟨x1, x2⟩ := x
    simp only at h2
    subst h2
    rfl

theorem listLine_flags {v f : Text} {l : ImapLine} {m : MailMsg} (h : FlagsLine m l) (hn : NoNuls l.items) :
    listLine v f l = .ok (if m.flags.contains deletedFlag then none else some (pseudopath v (digits m.uid) f)) := by
  obtain ⟨pairs, hf, ht, hu, hfl⟩ := h
  have h1 := listAttrs_flat pairs (none, false) (fetchLine_noNul hf hn) hf.2
  rw [foldl_list pairs _ (fetchLine_noNul hf hn) ht (Or.inr hu) (Or.inr ⟨rfl, hfl⟩)] at h1
  simp only [listLine, fetchAttrs_line hf, bind, Except.bind, h1]
  cases m.flags.contains deletedFlag <;> rfl

theorem listLines {v f : Text} {ms : List MailMsg} {ls : List ImapLine} (h : Reports FlagsLine ms ls) (hn : ∀ l ∈ ls, NoNuls l.items) :
    ∃ ps, ls.mapM (listLine v f) = .ok ps ∧
      ps.filterMap id = (ms.filter fun m => !m.flags.contains deletedFlag).map fun m => pseudopath v (digits m.uid) f := by
  induction h with
  | nil => exact ⟨[], rfl, rfl⟩
  | other ho _ ih =>
    obtain ⟨ps, h1, h2⟩ := ih fun l hl => hn l (List.mem_cons_of_mem _ hl)
    refine ⟨none :: ps, ?_, h2⟩
    rw [List.mapM_cons, listLine_other ho (hn _ List.mem_cons_self), h1]
    rfl
  | @msg m ms ls l ha _ ih =>
    obtain ⟨ps, h1, h2⟩ := ih fun l hl => hn l (List.mem_cons_of_mem _ hl)
    refine ⟨(if m.flags.contains deletedFlag then none else some (pseudopath v (digits m.uid) f)) :: ps, ?_, ?_⟩
    · rw [List.mapM_cons, listLine_flags ha (hn _ List.mem_cons_self), h1]
      rfl
    · rw [List.filter_cons]
      cases m.flags.contains deletedFlag
      · simp only [List.filterMap_cons, Bool.false_eq_true, if_false, id, Bool.not_false, if_true, List.map_cons, h2]
      · simp only [List.filterMap_cons, if_true, id, Bool.not_true, Bool.false_eq_true, if_false, h2]

theorem find_uid : ∀ {ms : List MailMsg}, (ms.map (·.uid)).Nodup → ∀ m ∈ ms, ms.find? (·.uid == m.uid) = some m
  | [], _, m, hm => nomatch hm
  | x :: ms, hd, m, hm => by
    rw [List.map_cons, List.nodup_cons] at hd
    rcases List.mem_cons.mp hm with rfl | hm
    · rw [List.find?_cons_of_pos (by simp)]
    · rw [List.find?_cons_of_neg, find_uid hd.2 m hm]
      intro h
      apply hd.1
      rw [beq_iff_eq.mp h]
      exact List.mem_map_of_mem hm

/-- The lines of the answer with the body of a message. -/
theorem findRaw_lines {b : Box} {u : Nat} (hd : (b.msgs.map (·.uid)).Nodup) : ∀ (ls : List ImapLine), (∀ l ∈ ls, NoNuls l.items) →
    (∀ l ∈ ls, OtherLine l ∨ ∃ m ∈ b.msgs, ∃ pairs, FetchLine pairs l ∧ TrueOf m pairs) →
    (∀ m ∈ b.msgs, m.uid = u → ∃ l ∈ ls, ∃ pairs, FetchLine pairs l ∧ TrueOf m pairs ∧ (∃ p ∈ pairs, p.1 = bs "UID") ∧
      ∃ p ∈ pairs, p.1 = bs "BODY[]") →
    findRaw (digits u) ls = .ok ((b.msgs.find? (·.uid == u)).map (·.body)) := by
  intro ls
  induction ls with
  | nil =>
    intro _ _ h3
    have : b.msgs.find? (·.uid == u) = none := by
      rw [List.find?_eq_none]
      intro m hm he
      obtain ⟨l, hl, -⟩ := h3 m hm (beq_iff_eq.mp he)
      cases hl
    simp only [findRaw, this, Option.map]
  | cons l ls ih =>
    intro h1 h2 h3
    have hn := h1 l List.mem_cons_self
    by_cases hw : ∃ m ∈ b.msgs, m.uid = u ∧ ∃ pairs, FetchLine pairs l ∧ TrueOf m pairs ∧ (∃ p ∈ pairs, p.1 = bs "UID") ∧
        ∃ p ∈ pairs, p.1 = bs "BODY[]"
    · obtain ⟨m, hm, rfl, pairs, hf, ht, hu, hb⟩ := hw
      obtain ⟨i1, i2, i3, i4⟩ := foldl_raw_true pairs (none, none) ht (Or.inl rfl) (Or.inl rfl)
      have e1 := i1.resolve_left (i3 (Or.inr hu))
      have e2 := i2.resolve_left (i4 (Or.inr hb))
      have h5 := rawAttrs_flat pairs (none, none) (fetchLine_noNul hf hn) hf.2
      have e3 : pairs.foldl rawPair (none, none) = (some (digits m.uid), some m.body) := Prod.ext e1 e2
      rw [e3] at h5
      simp only [findRaw, fetchAttrs_line hf, bind, Except.bind, h5, if_true, find_uid hd m hm, Option.map]
    · have ih := ih (fun l hl => h1 l (List.mem_cons_of_mem _ hl)) (fun l hl => h2 l (List.mem_cons_of_mem _ hl)) fun m hm hmu => by
        obtain ⟨x, hx, hr⟩ := h3 m hm hmu
        rcases List.mem_cons.mp hx with rfl | hx
        · exact absurd ⟨m, hm, hmu, hr⟩ hw
        · exact ⟨x, hx, hr⟩
      rcases h2 l List.mem_cons_self with (⟨a, t, more, he, ht⟩ | ⟨pairs, hf, hp⟩) | ⟨m, hm, pairs, hf, ht⟩
      · rw [he] at hn
        have : fetchAttrs l = .ok none := by
          simp only [fetchAttrs, he, isWord_ne hn.2.1 ht]
          rfl
        simp only [findRaw, this, bind, Except.bind, ih]
      · have h5 := rawAttrs_flat pairs (none, none) (fetchLine_noNul hf hn) hf.2
        have h6 := foldl_raw_other pairs (none, none) rfl hp
        simp only [findRaw, fetchAttrs_line hf, bind, Except.bind, h5]
        generalize pairs.foldl rawPair (none, none) = x at h6 ⊢
        obtain ⟨x1, x2⟩ := x
        simp only at h6
        subst h6
        exact ih
      · obtain ⟨i1, i2, -, -⟩ := foldl_raw_true pairs (none, none) ht (Or.inl rfl) (Or.inl rfl)
        have h5 := rawAttrs_flat pairs (none, none) (fetchLine_noNul hf hn) hf.2
        simp only [findRaw, fetchAttrs_line hf, bind, Except.bind, h5]
        generalize pairs.foldl rawPair (none, none) = x at i1 i2 ⊢
        obtain ⟨x1, x2⟩ := x
        simp only at i1 i2
        rcases i1 with rfl | rfl
        · exact ih
        · rcases i2 with rfl | rfl
          · exact ih
          · simp only
            split
            · next he =>
              have := digits_inj he
              subst this
              rw [find_uid hd m hm]
              rfl
            · exact ih

end Mairix
